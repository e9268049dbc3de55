import Verif.Proofs.Options
import Verif.Props.CommandLine
import Mathlib.Data.List.Perm.Basic
/-!
# C124: the options of the command line
-/

namespace Jieba.Props
open Jieba Jieba.Spec Jieba.Main Jieba.Pos

variable {F : Type _} [LinearOrder F]

theorem line_start {items : List Item} {argv : List Str} (h : Line items argv) :
    close (argv.foldl scanStep (.going Opts.default false false none)) = toScan (items.foldl eff (Opts.default, false, false)) :=
  line_scan h _ (Opts.default, false, false) rfl (Or.inl rfl)

/-- C124: a command line with at most one file name is understood as it is meant, however the options are written (short, together in one
argument, long, abbreviated, the value after `=`, directly or in the next argument) and wherever the file name stands. -/
theorem C124_parsed {items : List Item} {argv : List Str} (h : Line items argv) (hf : (files items).length ≤ 1) :
    parseArgs argv = .run (settings items) := by
  rw [parseArgs_scan (line_kinds h), scanEnd_close, line_start h, settings_fold]
  have : ¬ 2 ≤ (files items).length := by omega
  simp [toScan, scanEnd, this]

/-- C124: two file names are a usage error. -/
theorem C124_two_files {items : List Item} {argv : List Str} (h : Line items argv) (hf : 2 ≤ (files items).length) :
    parseArgs argv = .error := by
  rw [parseArgs_scan (line_kinds h), scanEnd_close, line_start h, settings_fold]
  simp [toScan, scanEnd, hf]

theorem lastValue_perm {is js : List Item} (hp : is.Perm js) (o : Valued)
    (h1 : (is.filter (fun i => match i with | .valued o' _ => o' = o | _ => false)).length ≤ 1) : lastValue o is = lastValue o js := by
  unfold lastValue
  have hq := hp.filterMap (fun i => match i with
    | .valued o' v => if o' = o then some v else none
    | _ => none)
  have hlen : ∀ l : List Item, (l.filterMap (fun i => match i with
      | .valued o' v => if o' = o then some v else none
      | _ => none)).length = (l.filter (fun i => match i with | .valued o' _ => o' = o | _ => false)).length := by
    intro l
    induction l with
    | nil => rfl
    | cons i l ih =>
      cases i with
      | switch x => simpa using ih
      | file v => simpa using ih
      | valued o' v => by_cases h : o' = o <;> simp [h, ih]
  have h2 := hlen is
  generalize is.filterMap _ = a at *
  generalize js.filterMap _ = b at *
  match a, hq, h2 with
  | [], hq, _ => rw [hq.nil_eq]
  | [x], hq, _ => rw [List.perm_singleton.mp hq.symm]
  | _ :: _ :: _, _, h2 => simp at h2; omega

/-- C124: the order of the options and the file name does not matter if no option with a value is repeated. -/
theorem C124_order {is js : List Item} {as bs : List Str} (h : Line is as) (h' : Line js bs) (hp : is.Perm js)
    (h1 : ∀ o, (is.filter (fun i => match i with | .valued o' _ => o' = o | _ => false)).length ≤ 1) (hf : (files is).length ≤ 1) :
    parseArgs as = parseArgs bs := by
  have hpf : (files is).Perm (files js) := hp.filterMap _
  rw [C124_parsed h hf, C124_parsed h' (hpf.length_eq ▸ hf)]
  have hfs : (files is).head? = (files js).head? := by
    generalize files is = a at *
    generalize files js = b at *
    match a, hpf, hf with
    | [], hpf, _ => rw [hpf.nil_eq]
    | [x], hpf, _ => rw [List.perm_singleton.mp hpf.symm]
    | _ :: _ :: _, _, hf => simp at hf
  have e := fun o => lastValue_perm hp o (h1 o)
  have m : ∀ x, (Item.switch x ∈ is) = (Item.switch x ∈ js) := fun x => propext hp.mem_iff
  unfold settings
  simp only [e, m, hfs]

theorem line_snoc {is js : List Item} {as bs : List Str} (h : Line is as) (hc : Chunk js bs) (hn : ∀ v, js.head? ≠ some (.file v)) :
    Line (is ++ js) (as ++ bs) := by
  induction h with
  | nil => simpa using Line.cons hc Line.nil (by simp)
  | @cons is1 is2 as1 as2 h1 h2 hb ih =>
    rw [List.append_assoc, List.append_assoc]
    refine Line.cons h1 ih ?_
    intro o ho v
    cases is2 with
    | nil => exact hn v
    | cons i is2 => simpa using hb o ho v

theorem shortNext_one (o : Valued) (v : Str) (hv : Plain v) : Chunk [.valued o (some v)] [[dash, o.letter], v] :=
  Chunk.shortNext [] o v hv

/-- C124: a file name directly after `-d` or `-p` is taken for the value of that option. -/
theorem C124_swallowed {items : List Item} {argv : List Str} (h : Line items argv) (hf : files items = []) (o : Valued) (f : Str)
    (hv : Plain f) : ∃ s : Opts, parseArgs (argv ++ [[dash, o.letter], f]) = .run s ∧ s.filename = none ∧
      (o = .delimiter → s.args.delimiter = f) ∧ (o = .pos → s.args.pos = some f) := by
  have hl := line_snoc h (shortNext_one o f hv) (by simp)
  have hfi : files (items ++ [.valued o (some f)]) = [] := by rw [files_append, hf]; rfl
  refine ⟨_, C124_parsed hl (by simp [hfi]), by simp [settings, hfi], ?_, ?_⟩
  · rintro rfl; simp [settings, lastValue_append]
  · rintro rfl; simp [settings, lastValue_append]

/-- C124: so `python -m jieba … -d FILE` and `… -p FILE` segment the standard input, whatever the files contain. -/
theorem C124_swallowed_output (P : PSys F) (p : PWorld) {items : List Item} {argv : List Str} (h : Line items argv) (hf : files items = [])
    (o : Valued) (f : Str) (hv : Plain f) (stdin : Str) (io : Bool) : ∃ a : Args,
      (o = .delimiter → a.delimiter = f) ∧ (o = .pos → a.pos = some f) ∧
      ∀ file, program P p (argv ++ [[dash, o.letter], f]) stdin file io = some (run P p a stdin io) := by
  obtain ⟨s, h1, h2, h3, h4⟩ := C124_swallowed h hf o f hv
  refine ⟨s.args, h3, h4, fun file => ?_⟩
  simp [program, h1, input, h2, truthyStr]

/-- C124: with `--` before it the file name is understood in any case, after an option without value too and if it starts with a dash. -/
theorem C124_dashes {items : List Item} {argv : List Str} (h : Line items argv) (hf : files items = []) (f : Str) :
    parseArgs (argv ++ [lit ['-', '-'], f]) = .run { settings items with filename := some f } := by
  have e : close (argv.foldl scanStep scanStart) = _ := line_start h
  rw [settings_fold] at e
  rw [parseArgs_dashes (line_kinds h), scanDashes_close e (by simp [hf])]
  simp [toScan, scanDashes, hf]

/-- C124: more than one argument after `--`, or one if there was a file name before, is a usage error. -/
theorem C124_dashes_two_files {items : List Item} {argv : List Str} (h : Line items argv) (post : List Str)
    (hf : 2 ≤ (files items).length + post.length) : parseArgs (argv ++ lit ['-', '-'] :: post) = .error := by
  have e : close (argv.foldl scanStep scanStart) = _ := line_start h
  rw [settings_fold] at e
  rw [parseArgs_dashes (line_kinds h)]
  by_cases h0 : files items = []
  · rw [scanDashes_close e (by simp [h0])]
    match post with
    | [] => simp [h0] at hf
    | [_] => simp [h0] at hf
    | _ :: _ :: _ => simp [toScan, scanDashes, h0]
  · generalize ((argv.foldl scanStep scanStart).seen && !(argv.dropLast.foldl scanStep scanStart).seen) = just
    generalize argv.foldl scanStep scanStart = S at e
    have key : ∀ (o : Opts) (x : Bool), 2 ≤ (files items).length ∨ post ≠ [] →
        (if decide (2 ≤ (files items).length) = true then Parsed.error else if (x && post.isEmpty) = true then .run o else .error) = .error := by
      rintro o x (hk | hk) <;> simp [hk]
    have hk : 2 ≤ (files items).length ∨ post ≠ [] := by
      cases post with
      | nil => left; simpa using hf
      | cons => right; simp
    match S with
    | .halted r => cases e
    | .going o seen extra none =>
      have e : Scan.going o seen extra none = _ := e
      simp only [toScan, Scan.going.injEq, and_true] at e
      obtain ⟨e1, e2, e3⟩ := e
      rw [e1, e2, e3]
      simp only [scanDashes, ne_eq, h0, not_false_eq_true, decide_true, if_true]
      exact key _ _ hk
    | .going o seen extra (some (acts, l)) =>
      simp only [close] at e
      by_cases hl : l.arity = .one
      · rw [if_pos hl] at e; cases e
      · rw [if_neg hl] at e
        simp [scanDashes, if_neg hl, e, toScan, h0]

/-- C124: what is segmented: the file if there is a non-empty file name, the standard input otherwise; nothing is printed if the file cannot
be opened. -/
theorem C124_input (P : PSys F) (p : PWorld) {items : List Item} {argv : List Str} (h : Line items argv) (hf : (files items).length ≤ 1)
    (stdin : Str) (file : Path → Option Str) (io : Bool) :
    (∀ f, files items = [f] → f ≠ [] → ∀ t, file f = some t →
      program P p argv stdin file io = some (run P p (settings items).args t io)) ∧
    (∀ f, files items = [f] → f ≠ [] → file f = none →
      program P p argv stdin file io = some (p, ⟨[], some .fileNotFound⟩)) ∧
    ((files items = [] ∨ files items = [[]]) →
      program P p argv stdin file io = some (run P p (settings items).args stdin io)) := by
  have e := C124_parsed h hf
  have hn : (settings items).filename = (files items).head? := rfl
  refine ⟨fun f h1 h2 t h3 => ?_, fun f h1 h2 h3 => ?_, ?_⟩
  · obtain ⟨c, f, rfl⟩ := List.exists_cons_of_ne_nil h2
    simp [program, e, input, hn, h1, truthyStr, h3]
  · obtain ⟨c, f, rfl⟩ := List.exists_cons_of_ne_nil h2
    simp [program, e, input, hn, h1, truthyStr, h3, Gen.raise]
  · rintro (h1 | h1) <;> simp [program, e, input, hn, h1, truthyStr]

theorem eff_extra (items : List Item) (o : Opts) (seen : Bool) : (items.foldl eff (o, seen, true)).2.2 = true := by
  induction items generalizing o seen with
  | nil => rfl
  | cons i items ih =>
    rw [List.foldl_cons]
    cases i with
    | switch x => exact ih _ _
    | valued p v => exact ih _ _
    | file v => cases seen <;> exact ih _ _

/-- C124: `-D` and `-u` without a value are a usage error, at the end as well as before another option. -/
theorem C124_missing_value {is js : List Item} {as bs : List Str} (h : Line is as) (h' : Line js bs) (hj : ∀ v, js.head? ≠ some (.file v))
    (o : Valued) (ho : o = .dict ∨ o = .userDict) (s : Str) (hs : s = [dash, o.letter] ∨ Abbrev s o.long) :
    parseArgs (as ++ s :: bs) = .error := by
  have hk : ∃ n, kind s = .option n (vopt o) none := by
    rcases hs with rfl | hs
    · exact ⟨_, kind_short (letter_valued o) []⟩
    · exact ⟨_, (abbrev_valued o s hs).1⟩
  obtain ⟨n, hk⟩ := hk
  have hone : (vopt o).arity = .one := by rcases ho with rfl | rfl <;> rfl
  have hz : (vopt o).arity ≠ .zero := by rw [hone]; simp
  have hall : ∀ a ∈ as ++ s :: bs, kind a ≠ .ambiguous ∧ kind a ≠ .dashes := by
    intro a ha
    rcases List.mem_append.mp ha with ha | ha
    · exact line_kinds h a ha
    · rcases List.mem_cons.mp ha with rfl | ha
      · rw [hk]; simp
      · exact line_kinds h' a ha
  have hstay : ∀ (l : List Str) (r : Parsed), l.foldl scanStep (.halted r) = .halted r := by
    intro l r; induction l with
    | nil => rfl
    | cons a l ih => exact ih
  rw [parseArgs_scan hall, List.foldl_append, List.foldl_cons, scanStep_close (by rw [hk]; simp),
    line_start h]
  generalize is.foldl eff (Opts.default, false, false) = t
  have e : scanStep (toScan t) s = .going t.1 t.2.1 t.2.2 (some ([], vopt o)) := by
    simp only [toScan, scanStep]
    rw [scanArg_option hk]
    simp [ofAtt, after, hz]
  rw [e]
  cases h' with
  | nil => simp [scanEnd, hone]
  | cons hc ht hb =>
    rcases chunk_head hc with ⟨v, rfl⟩ | ⟨a, t', rfl, ha⟩
    · exact absurd rfl (hj v)
    · rw [List.cons_append, List.foldl_cons]
      have : scanStep (.going t.1 t.2.1 t.2.2 (some ([], vopt o))) a = .halted .error := by simp [scanStep, ha, hone]
      rw [this, hstay]; rfl

/-- C124: `-V` and `-h` end the program, whatever comes before (two file names, too) and after. -/
theorem C124_version {is js : List Item} {as bs : List Str} (h : Line is as) (h' : Line js bs) :
    parseArgs (as ++ lit ['-', 'V'] :: bs) = .exit .version ∧ parseArgs (as ++ lit ['-', 'h'] :: bs) = .exit .help := by
  have hstay : ∀ (l : List Str) (r : Parsed), l.foldl scanStep (.halted r) = .halted r := by
    intro l r; induction l with
    | nil => rfl
    | cons a l ih => exact ih
  have key : ∀ (s n : Str) (opt : Opt), kind s = .option n opt none → opt = .version ∨ opt = .help →
      parseArgs (as ++ s :: bs) = .exit opt := by
    intro s n opt hk hopt
    have hall : ∀ a ∈ as ++ s :: bs, kind a ≠ .ambiguous ∧ kind a ≠ .dashes := by
      intro a ha
      rcases List.mem_append.mp ha with ha | ha
      · exact line_kinds h a ha
      · rcases List.mem_cons.mp ha with rfl | ha
        · rw [hk]; simp
        · exact line_kinds h' a ha
    rw [parseArgs_scan hall, List.foldl_append, List.foldl_cons, scanStep_close (by rw [hk]; simp),
      line_start h]
    generalize is.foldl eff (Opts.default, false, false) = t
    have hz : opt.arity = .zero := by rcases hopt with rfl | rfl <;> rfl
    have e : scanStep (toScan t) s = .halted (.exit opt) := by
      simp only [toScan, scanStep]
      rw [scanArg_option hk]
      simp [ofAtt, after, hz, take, hopt]
    rw [e, hstay]; rfl
  exact ⟨key _ _ _ (kind_short (by decide +kernel : Letter 'V'.toNat .version) []) (Or.inl rfl),
    key _ _ _ (kind_short (by decide +kernel : Letter 'h'.toNat .help) []) (Or.inr rfl)⟩

/-- C124: an unknown letter, whatever follows it in the same argument, is a usage error (if there is no space in the argument and it is not
like a number). -/
theorem C124_unknown {is js : List Item} {as bs : List Str} (h : Line is as) (h' : Line js bs) (c : Nat) (r : Str)
    (hc : c ∉ letters) (hm : c ≠ '-'.toNat) (hd : isDecimal c = false) (hp : c ≠ '.'.toNat ∨ r = []) (hs : ' '.toNat ∉ c :: r) :
    parseArgs (as ++ (dash :: c :: r) :: bs) = .error := by
  have hneg : isNegative (0x2D :: c :: r) = false := by
    have key : ∀ s : Str, (s = [] ∨ ∃ t : Str, s = c :: t ∧ (c ≠ 0x2E ∨ t = [])) →
        ((s != [] && s.dropWhile isDecimal == []) || ((s.dropWhile isDecimal).head? == some 0x2E &&
          (s.dropWhile isDecimal).tail != [] && (s.dropWhile isDecimal).tail.all isDecimal)) = false := by
      rintro s (rfl | ⟨t, rfl, ht⟩)
      · rfl
      · rw [List.dropWhile_cons_of_neg (by simp [hd])]
        rcases ht with ht | rfl
        · simp [ht]
        · simp
    unfold isNegative
    split
    · rcases r with _ | ⟨e, r⟩
      · exact key [] (Or.inl rfl)
      · refine key ((c :: e :: r).dropLast) (Or.inr ⟨(e :: r).dropLast, rfl, ?_⟩)
        exact hp.imp id (fun h => by simp at h)
    · exact key (c :: r) (Or.inr ⟨r, rfl, hp⟩)
  have hk : kind (dash :: c :: r) = .unknown := by
    refine (kind_other hc hm r).trans ?_
    have hs' : (0x20 : Nat) ∉ (0x2D :: c :: r : Str) := by
      intro h
      rcases List.mem_cons.1 h with h | h
      · cases h
      · exact hs h
    rw [hneg, if_neg hs']; rfl
  have hall : ∀ a ∈ as ++ (dash :: c :: r) :: bs, kind a ≠ .ambiguous ∧ kind a ≠ .dashes := by
    intro a ha
    rcases List.mem_append.mp ha with ha | ha
    · exact line_kinds h a ha
    · rcases List.mem_cons.mp ha with rfl | ha
      · rw [hk]; simp
      · exact line_kinds h' a ha
  rw [parseArgs_scan hall, List.foldl_append, List.foldl_cons, scanStep_close (by rw [hk]; simp),
    line_start h]
  generalize is.foldl eff (Opts.default, false, false) = t
  have e : scanStep (toScan t) (dash :: c :: r) = toScan (t.1, t.2.1, true) := by
    simp only [toScan, scanStep, scanArg, hk]
  rw [e, scanEnd_close, line_scan h' _ (t.1, t.2.1, true) rfl (Or.inl rfl)]
  have hx := eff_extra js t.1 t.2.1
  generalize js.foldl eff (t.1, t.2.1, true) = u at hx
  simp [toScan, scanEnd, hx]

/-- C124: `-p` with the empty string as value does not switch POS tagging on. -/
theorem C124_empty_pos (P : PSys F) (p : PWorld) (a : Args) (text : Str) (io : Bool) :
    run P p { a with pos := some [] } text io = run P p { a with pos := none } text io := by
  have hset : setup P p { a with pos := some [] } io = setup P p { a with pos := none } io := by
    simp [setup, truthyStr]
  have hloop : ∀ (lns : List Str) (p : PWorld), printLoop P { a with pos := some [] } io p lns = printLoop P { a with pos := none } io p lns := by
    intro lns
    induction lns with
    | nil => intro p; rfl
    | cons l lns ih =>
      intro p
      have hc : ∀ l, cutfunc P p { a with pos := some [] } l io = cutfunc P p { a with pos := none } l io := by
        intro l; simp [cutfunc, truthyStr]
      simp only [printLoop, hc, ih]
  unfold run
  rw [hset]
  split
  · rfl
  · exact hloop _ _

/-- `-an --del=X -u w f` says: full mode, no HMM, delimiter X, user dictionary w, file f. -/
theorem sample_line : Line [.switch .cutAll, .switch .noHmm, .valued .delimiter (some (lit ['X'])), .valued .userDict (some (lit ['w'])),
      .file (lit ['f'])]
    [lit ['-', 'a', 'n'], lit ['-', '-', 'd', 'e', 'l', '=', 'X'], lit ['-', 'u'], lit ['w'], lit ['f']] :=
  Line.cons (Chunk.switches [.cutAll] .noHmm)
    (Line.cons (Chunk.longEq .delimiter (lit ['-', '-', 'd', 'e', 'l']) (lit ['X']) (by decide +kernel))
      (Line.cons (Chunk.shortNext [] .userDict (lit ['w']) (.word _ (by decide)))
        (Line.cons (Chunk.file (lit ['f']) (.word _ (by decide))) Line.nil (by simp)) (by simp)) (by simp)) (by simp)

example : parseArgs [lit ['-', 'a', 'n'], lit ['-', '-', 'd', 'e', 'l', '=', 'X'], lit ['-', 'u'], lit ['w'], lit ['f']] =
    .run ⟨⟨lit ['X'], none, none, some (lit ['w']), true, false⟩, false, some (lit ['f'])⟩ :=
  (C124_parsed sample_line (by decide)).trans (congrArg Parsed.run rfl)

/-- `-q -p f` with the sample dictionary: the standard input 北京 is tagged, with the letter f between word and tag; a file f is
not read. -/
example (file : Path → Option Str) : (program samplePSys sampleStart [lit ['-', 'q'], lit ['-', 'p'], lit ['f']] (lit ['北', '京']) file true).map
      (fun r => r.2) = some (Gen.ok [lit ['北', '京', 'f', 'n', 's']]) := by
  have h : Line [.switch .quiet] [lit ['-', 'q']] := Line.cons (Chunk.switches [] .quiet) Line.nil (by simp)
  have e := (C124_input samplePSys sampleStart (line_snoc h (shortNext_one .pos (lit ['f']) (.word _ (by decide))) (by simp))
    (by decide) (lit ['北', '京']) file true).2.2 (Or.inl (by decide))
  have e : program samplePSys sampleStart [lit ['-', 'q'], lit ['-', 'p'], lit ['f']] (lit ['北', '京']) file true =
    some (run samplePSys sampleStart (settings ([.switch .quiet] ++ [.valued .pos (some (lit ['f']))])).args (lit ['北', '京']) true) := e
  rw [e]
  decide +kernel

/-- `-p -- -x`: POS tagging of the file `-x`. -/
example : parseArgs [lit ['-', 'p'], lit ['-', '-'], lit ['-', 'x']] =
    .run ⟨⟨lit [' ', '/', ' '], some (lit ['_']), none, none, false, true⟩, false, some (lit ['-', 'x'])⟩ :=
  (C124_dashes (Line.cons (Chunk.shortBare [] .pos (Or.inr rfl)) Line.nil (by simp)) rfl (lit ['-', 'x'])).trans (congrArg Parsed.run rfl)

/-- `-d -5 -`: the delimiter is -5, and the file named `-` is read, not standard input. -/
example : parseArgs [lit ['-', 'd'], lit ['-', '5'], lit ['-']] =
    .run ⟨⟨lit ['-', '5'], none, none, none, false, true⟩, false, some (lit ['-'])⟩ :=
  (C124_parsed (Line.cons (Chunk.shortNext [] .delimiter (lit ['-', '5']) (.int [0x35] (by constructor <;> decide)))
    (Line.cons (Chunk.file (lit ['-']) .dash) Line.nil (by simp)) (by simp)) (by decide)).trans (congrArg Parsed.run rfl)

/-- `-p -2.5 -q "-x y"` -/
example : parseArgs [lit ['-', 'p'], lit ['-', '2', '.', '5'], lit ['-', 'q'], lit ['-', 'x', ' ', 'y']] =
    .run ⟨⟨lit [' ', '/', ' '], some (lit ['-', '2', '.', '5']), none, none, false, true⟩, true, some (lit ['-', 'x', ' ', 'y'])⟩ :=
  (C124_parsed (Line.cons (Chunk.shortNext [] .pos (lit ['-', '2', '.', '5'])
      (.decimal [0x32] [0x35] (Or.inr (by constructor <;> decide)) (by constructor <;> decide)))
    (Line.cons (Chunk.switches [] .quiet) (Line.cons (Chunk.file (lit ['-', 'x', ' ', 'y']) (.space 0x78 _ (by decide) (by decide) (by decide)))
      Line.nil (by simp)) (by simp)) (by simp)) (by decide)).trans (congrArg Parsed.run rfl)

/-- `-a -xyz f` -/
example : parseArgs [lit ['-', 'a'], lit ['-', 'x', 'y', 'z'], lit ['f']] = .error :=
  C124_unknown (Line.cons (Chunk.switches [] .cutAll) Line.nil (by simp))
    (Line.cons (Chunk.file (lit ['f']) (.word _ (by decide))) Line.nil (by simp)) 0x78 (lit ['y', 'z']) (by decide) (by decide) (by decide)
    (Or.inl (by decide)) (by decide)

/-- `-D` before `-a` and at the end. -/
example : parseArgs [lit ['-', 'D'], lit ['-', 'a']] = .error ∧ parseArgs [lit ['-', 'q'], lit ['-', '-', 'd', 'i']] = .error :=
  ⟨C124_missing_value Line.nil (Line.cons (Chunk.switches [] .cutAll) Line.nil (by simp)) (by simp) .dict (Or.inl rfl) _ (Or.inl rfl),
   C124_missing_value (Line.cons (Chunk.switches [] .quiet) Line.nil (by simp)) Line.nil (by simp) .dict (Or.inl rfl)
    (lit ['-', '-', 'd', 'i']) (Or.inr (by decide +kernel))⟩

end Jieba.Props
