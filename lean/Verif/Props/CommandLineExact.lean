import Verif.Props.Cache
import Verif.Props.CommandLine
import Verif.Props.UserFiles
/-!
# C58, C66: what the command line prints, from the contents of the files it is given
-/

set_option linter.unusedSectionVars false

namespace Jieba.Props
open Jieba Jieba.Spec Jieba.Pos Jieba.Main

variable {F : Type _} [LinearOrder F]

/-- The contents of the dictionary that the options ask for: the file after `-D`, or the default dictionary. -/
inductive OptionData (P : PSys F) (w : World) (a : Args) : Bytes → Prop
  | given (q : Path) (f : File) : a.dict = some q → q ≠ [] → w.files (P.sys.abspath q) = some f → OptionData P w a f.data
  | default : truthyStr a.dict = false → OptionData P w a w.defaultDict

theorem initTok_ok (P : PSys F) (D : Path → Prop) (hD : CacheNames P.sys D) (w : World) (hw : CacheInv P.sys D w) (a : Args)
    (hd : ∀ q, a.dict = some q → D (P.sys.abspath q)) (hn : (w.tok 0).initialized = false) (hdef : (w.tok 0).dictionary = none)
    (data : Bytes) (x : Freq × Int) (hdata : OptionData P w a data) (hx : genPfdict data = .ok x) (io : Bool) :
    ∃ w1, initTok P.sys w 0 a.dict io = (w1, .ok ()) ∧ (w1.tok 0).freq = x.1 ∧ (w1.tok 0).total = x.2 ∧
      (w1.tok 0).initialized = true ∧ w1.force = w.force ∧ (w1.tok 0).tags = (w.tok 0).tags := by
  have ho : Outdated P.sys w 0 a.dict := by rintro ⟨h, -⟩; rw [hn] at h; simp at h
  have hdf : dictFile w (wanted P.sys w 0 a.dict) = .ok data := by
    cases hdata with
    | given q f h1 h2 h3 =>
      rw [h1]
      cases q with
      | nil => exact absurd rfl h2
      | cons c q => simp only [wanted, dictFile, h3]
    | default h1 =>
      have : wanted P.sys w 0 a.dict = none := by
        cases hh : a.dict with
        | none => exact hdef
        | some q => cases q with
          | nil => exact hdef
          | cons c q => rw [hh] at h1; simp [truthyStr] at h1
      rw [this]; rfl
  have hok : ∃ w1, initTok P.sys w 0 a.dict io = (w1, .ok ()) := by
    rw [initTok_outdated P.sys w 0 a.dict io ho]
    unfold initLocked
    rw [setTok_tok_self]
    simp only [Bool.false_eq_true, if_false]
    have hcu : ∀ cache, ∃ cf, cacheUsable (w.setTok 0 { w.tok 0 with dictionary := wanted P.sys w 0 a.dict, initialized := false })
        (wanted P.sys w 0 a.dict) cache = .ok cf := by
      intro cache
      unfold cacheUsable
      split
      · exact ⟨_, rfl⟩
      · cases hwn : wanted P.sys w 0 a.dict with
        | none => exact ⟨_, rfl⟩
        | some q =>
          rw [hwn] at hdf
          simp only [dictFile] at hdf
          cases hf : w.files q with
          | none => rw [hf] at hdf; simp at hdf
          | some f =>
            have : (w.setTok 0 { w.tok 0 with dictionary := some q, initialized := false }).files q = some f := hf
            simp only [this]
            exact ⟨_, rfl⟩
    obtain ⟨cf, hcf⟩ := hcu (cachePath P.sys { w.tok 0 with dictionary := wanted P.sys w 0 a.dict, initialized := false }
      (wanted P.sys w 0 a.dict))
    rw [hcf]
    simp only
    split
    · exact ⟨_, rfl⟩
    · unfold buildDict
      rw [setTok_tok_self]
      simp only
      have : dictFile (w.setTok 0 { w.tok 0 with dictionary := wanted P.sys w 0 a.dict, initialized := false })
          (wanted P.sys w 0 a.dict) = .ok data := hdf
      rw [this]
      simp only [hx]
      exact ⟨_, rfl⟩
  obtain ⟨w1, hw1⟩ := hok
  refine ⟨w1, hw1, ?_⟩
  obtain ⟨data', x', h1, h2, h3, h4, h5⟩ := C34_initialize_current P.sys D hD w hw [] (by simp) 0 a.dict hd ho io w1 hw1
  have e : dictFile (runOps P.sys w []) (wanted P.sys (runOps P.sys w []) 0 a.dict) = .ok data := hdf
  rw [e] at h1
  have e1 : data' = data := by simpa using h1.symm
  rw [e1, hx] at h2
  have e2 : x' = x := by simpa using h2.symm
  subst e2
  refine ⟨h3, h4, h5, ?_⟩
  rw [initTok_outdated P.sys w 0 a.dict io ho] at hw1
  unfold initLocked at hw1
  rw [setTok_tok_self] at hw1
  simp only [Bool.false_eq_true, if_false] at hw1
  split at hw1
  · simp at hw1
  · split at hw1
    · simp at hw1; rw [← hw1]; exact ⟨rfl, by simp [markInit]⟩
    · unfold buildDict at hw1
      rw [setTok_tok_self] at hw1
      simp only at hw1
      have : dictFile (w.setTok 0 { w.tok 0 with dictionary := wanted P.sys w 0 a.dict, initialized := false })
          (wanted P.sys w 0 a.dict) = .ok data := hdf
      rw [this] at hw1
      simp only [hx] at hw1
      simp at hw1
      rw [← hw1]
      cases io <;> exact ⟨rfl, by simp [markInit, World.setFile]⟩

theorem printLoop_plain (P : PSys F) (a : Args) (io : Bool) (hpos : truthyStr a.pos = false) (p : PWorld)
    (hi : (p.w.tok 0).initialized = true) (lns : List Str) (h : (printLoop P a io p lns).2.err = none) :
    (printLoop P a io p lns).2.out = (lns.map (rstripBy (fun c => c == 0x0D || c == 0x0A))).map
      (fun l => a.delimiter.intercalate (Jieba.cut (p.w.env P.sys 0) a.cutAll a.hmm l).out) := by
  induction lns with
  | nil => rfl
  | cons ln lns ih =>
    have hc : ∀ l, cutfunc P p a l io = (p, Jieba.cut (p.w.env P.sys 0) a.cutAll a.hmm l) := by
      intro l
      unfold cutfunc
      rw [hpos]
      simp only [Bool.false_eq_true, if_false, cutW_of_init P.sys p.w 0 _ _ _ _ hi]
      rfl
    unfold printLoop at h ⊢
    simp only [hc] at h ⊢
    cases he : (Jieba.cut (p.w.env P.sys 0) a.cutAll a.hmm (rstripBy (fun c => c == 0x0D || c == 0x0A) ln)).err with
    | some e => rw [he] at h; simp [Gen.raise] at h
    | none =>
      rw [he] at h
      simp only at h ⊢
      rw [Gen.andThen_err_none] at h
      rw [Gen.andThen_out_of_ok _ _ rfl, ih h.2]
      rfl

theorem printLoop_plain_ok (P : PSys F) (a : Args) (io : Bool) (hpos : truthyStr a.pos = false) (p : PWorld)
    (hi : (p.w.tok 0).initialized = true) (lns : List Str)
    (h : ∀ l, (Jieba.cut (p.w.env P.sys 0) a.cutAll a.hmm l).err = none) : (printLoop P a io p lns).2.err = none := by
  induction lns with
  | nil => rfl
  | cons ln lns ih =>
    have hc : ∀ l, cutfunc P p a l io = (p, Jieba.cut (p.w.env P.sys 0) a.cutAll a.hmm l) := by
      intro l
      unfold cutfunc
      rw [hpos]
      simp only [Bool.false_eq_true, if_false, cutW_of_init P.sys p.w 0 _ _ _ _ hi]
      rfl
    unfold printLoop
    simp only [hc, h]
    rw [Gen.andThen_err_none]
    exact ⟨rfl, ih⟩

/-- C58: without `-p` and `-u`, in a fresh process with trustworthy caches, `python -m jieba` prints for each line the tokens of the line
by the dictionary that the options ask for (`-D`, or the default one), full mode or not (`-a`), with HMM or not (`-n`), joined by the
delimiter (`-d`). -/
theorem C58_given_dictionary (P : PSys F) (D : Path → Prop) (hD : CacheNames P.sys D) (p : PWorld) (hw : CacheInv P.sys D p.w) (a : Args)
    (hd : ∀ q, a.dict = some q → D (P.sys.abspath q)) (hn : (p.w.tok 0).initialized = false) (hdef : (p.w.tok 0).dictionary = none)
    (data : Bytes) (freq : Freq) (total : Int) (hdata : OptionData P p.w a data) (hx : genPfdict data = .ok (freq, total))
    (hnn : NonNeg freq) (ht : 0 < total) (hpos : truthyStr a.pos = false) (hu : truthyStr a.userDict = false) (text : Str) (io : Bool) :
    (run P p a text io).2 = Gen.ok ((textLines text).map (fun l => a.delimiter.intercalate
      (Jieba.cut ⟨P.sys.A, freq, total, P.sys.tables, p.w.force⟩ a.cutAll a.hmm l).out)) := by
  obtain ⟨w1, h1, h2, h3, h4, h5, h6⟩ := initTok_ok P D hD p.w hw a hd hn hdef data _ hdata hx io
  have hs : setup P p a io = ({ p with w := w1 }, .ok ()) := by
    unfold setup
    simp [hpos, h1, hu]
  have he : w1.env P.sys 0 = ⟨P.sys.A, freq, total, P.sys.tables, p.w.force⟩ := by
    unfold World.env; rw [h2, h3, h5]
  unfold run
  rw [hs]
  simp only
  have herr := printLoop_plain_ok P a io hpos { p with w := w1 } h4 (readLines text) (by
    intro l; simp only [he]; exact C06_cut_never_raises _ hnn ht _ _ _)
  have hout := printLoop_plain P a io hpos { p with w := w1 } h4 (readLines text) herr
  rw [readLines_strip] at hout
  simp only [he] at hout
  generalize (printLoop P a io { p with w := w1 } (readLines text)).2 = g at *
  obtain ⟨o, e⟩ := g
  simp only at herr hout
  rw [herr, hout]; rfl

theorem userCalls_initialized (S : Sys F) (lns : List PyText) (ops : List Op) (h : UserCalls 0 lns ops) (w : World)
    (hi : (w.tok 0).initialized = true) : ((runOps S w ops).tok 0).initialized = true := by
  induction h generalizing w with
  | nil => exact hi
  | blank ln lns ops _ _ ih => exact ih w hi
  | entry ln line word freq tag lns ops _ _ _ _ ih =>
    apply ih
    simp only [Op.run, addWord, checkInit_of_init S w 0 true hi]
    split
    · exact hi
    · simp only [addFreq]
      split <;> simp [hi]

/-- C58 with `-u`: if the program does not end with an exception, it prints the tokens by the dictionary after the `add_word` calls of the
lines of the user dictionary. -/
theorem C58_user_dictionary (P : PSys F) (D : Path → Prop) (hD : CacheNames P.sys D) (p : PWorld) (hw : CacheInv P.sys D p.w) (a : Args)
    (hd : ∀ q, a.dict = some q → D (P.sys.abspath q)) (hn : (p.w.tok 0).initialized = false) (hdef : (p.w.tok 0).dictionary = none)
    (data : Bytes) (freq : Freq) (total : Int) (hdata : OptionData P p.w a data) (hx : genPfdict data = .ok (freq, total))
    (hpos : truthyStr a.pos = false) (u : Path) (hu : a.userDict = some u) (hne : u ≠ []) (text : Str) (io : Bool) :
    ∃ w1, (w1.tok 0).freq = freq ∧ (w1.tok 0).total = total ∧ (w1.tok 0).initialized = true ∧ w1.force = p.w.force ∧
      ∀ lns, LinesOf w1 (.path u) lns → (run P p a text io).2.err = none →
        ∃ ops, UserCalls 0 lns ops ∧ (run P p a text io).2.out = (textLines text).map (fun l => a.delimiter.intercalate
          (Jieba.cut ((runOps P.sys w1 ops).env P.sys 0) a.cutAll a.hmm l).out) := by
  obtain ⟨w1, h1, h2, h3, h4, h5, h6⟩ := initTok_ok P D hD p.w hw a hd hn hdef data _ hdata hx io
  refine ⟨w1, h2, h3, h4, h5, fun lns hl herr => ?_⟩
  have hut : truthyStr a.userDict = true := by
    rw [hu]; cases u with
    | nil => exact absurd rfl hne
    | cons c u => rfl
  have hs : setup P p a io = ({ p with w := (loadUserdict P.sys w1 0 (.path u) io).1 }, (loadUserdict P.sys w1 0 (.path u) io).2) := by
    unfold setup
    rw [hu] at hut
    simp [hpos, h1, hu, hut]
  unfold run at herr ⊢
  rw [hs] at herr ⊢
  rcases C31_load_userdict P.sys w1 0 (.path u) io h4 lns hl with ⟨ops, k1, k2⟩ | ⟨_, _, _, ops, e, -, -, k2, -⟩
  · refine ⟨ops, k1, ?_⟩
    rw [k2] at herr ⊢
    simp only at herr ⊢
    have hout := printLoop_plain P a io hpos { p with w := runOps P.sys w1 ops } (userCalls_initialized P.sys lns ops k1 w1 h4)
      (readLines text) herr
    rw [readLines_strip] at hout
    exact hout
  · rw [k2] at herr
    simp [Gen.raise] at herr

/-- The hypotheses are met: a process with a file `/d` and no caches. -/
example : CacheNames samplePSys.sys (fun p => p = lit ['/', 'd']) ∧
    CacheInv samplePSys.sys (fun p => p = lit ['/', 'd']) (sampleStart.w.setFile (lit ['/', 'd']) (some ⟨[229, 164, 167, 229, 142, 166, 32, 51, 10], 0⟩)) ∧
    (sampleStart.w.tok 0).initialized = false ∧ (sampleStart.w.tok 0).dictionary = none ∧ (sampleStart.w.tok 0).tags = [] ∧
    (loadTags sampleStart.w.defaultDict).2 = .ok () ∧
    genPfdict [229, 164, 167, 229, 142, 166, 32, 51, 10] = .ok ([(lit ['大', '厦'], 3), (lit ['大'], 0)], 3) := by
  refine ⟨⟨fun p q h h' _ => h.trans h'.symm, ?_⟩, ⟨?_, ?_, ?_, ?_, ?_⟩, rfl, rfl, rfl, by decide +kernel, by decide +kernel⟩
  · rintro p rfl d hd h
    have hlen : ∀ d, 2 < (defaultCache samplePSys.sys d).length := by
      intro d
      cases d <;> simp [defaultCache, cachePath, Tok.new, truthyStr, pathJoin, samplePSys, sampleSys, lit]
    have := hlen d
    rw [← h] at this
    simp [lit] at this
  · intro t p h; simp [sampleStart, sampleWorld, Tok.new, World.setFile] at h
  · intro t; simp [sampleStart, sampleWorld, Tok.new, truthyStr, World.setFile]
  · intro p df cf x hp _ h
    exfalso
    have hlen : 2 < (defaultCache samplePSys.sys (some p)).length := by
      simp [defaultCache, cachePath, Tok.new, truthyStr, pathJoin, samplePSys, sampleSys, lit]
    simp only [World.setFile, sampleStart, sampleWorld] at h
    split at h
    · rename_i he; rw [he] at hlen; simp [lit] at hlen
    · simp at h
  · intro cf x h
    exfalso
    have hlen : 2 < (defaultCache samplePSys.sys none).length := by
      simp [defaultCache, cachePath, Tok.new, truthyStr, pathJoin, samplePSys, sampleSys, lit]
    simp only [World.setFile, sampleStart, sampleWorld] at h
    split at h
    · rename_i he; rw [he] at hlen; simp [lit] at hlen
    · simp at h
  · intro p f h
    simp only [World.setFile, sampleStart, sampleWorld] at h
    split at h
    · simp at h; rw [← h]; simp
    · simp at h

/-- What it prints. -/
example : (run samplePSys { sampleStart with w := sampleStart.w.setFile (lit ['/', 'd']) (some ⟨[229, 164, 167, 229, 142, 166, 32, 51, 10], 0⟩) }
      ⟨lit ['|'], none, some (lit ['/', 'd']), none, false, false⟩ (lit ['大', '厦', '北', '\n', 'a', 'b', '大', '厦']) true).2 =
    Gen.ok [lit ['大', '厦', '|', '北'], lit ['a', 'b', '|', '大', '厦']] := by decide +kernel

theorem printLoop_tagged (P : PSys F) (a : Args) (io : Bool) (sep : Str) (hpos : a.pos = some sep) (hsep : sep ≠ []) (lns : List Str)
    (p : PWorld) (ht : (p.pos 0).tok = 0) (hi : (p.w.tok 0).initialized = true) (hg : (p.w.tok 0).tags = [])
    (h : (printLoop P a io p lns).2.err = none) :
    (printLoop P a io p lns).2.out = (lns.map (rstripBy (fun c => c == 0x0D || c == 0x0A))).map
      (fun l => a.delimiter.intercalate ((Pos.cut (p.env P 0) a.hmm l).out.map (fun q => q.1 ++ sep ++ q.2))) := by
  have hpt : truthyStr a.pos = true := by
    rw [hpos]; cases sep with
    | nil => exact absurd rfl hsep
    | cons c s => rfl
  have hmv : moveTags p 0 = p := by
    unfold moveTags
    simp [ht, hg]
  have hc : ∀ l, cutfunc P p a l io = (p, (Pos.cut (p.env P 0) a.hmm l).mapOut (fun q => [q.1 ++ sep ++ q.2])) := by
    intro l
    unfold cutfunc
    rw [hpt]
    simp only [if_true, cutPW_of_init P p 0 a.hmm io (.str l) (by rw [ht]; exact hi), hmv, hpos]
    rfl
  induction lns with
  | nil => rfl
  | cons ln lns ih =>
    unfold printLoop at h ⊢
    simp only [hc] at h ⊢
    cases he : ((Pos.cut (p.env P 0) a.hmm (rstripBy (fun c => c == 0x0D || c == 0x0A) ln)).mapOut (fun q => [q.1 ++ sep ++ q.2])).err with
    | some e => rw [he] at h; simp [Gen.raise] at h
    | none =>
      rw [he] at h
      simp only at h ⊢
      rw [Gen.andThen_err_none] at h
      rw [Gen.andThen_out_of_ok _ _ rfl, ih h.2]
      simp only [Gen.ok_out, List.map_cons, List.singleton_append]
      congr 2
      rw [List.map_eq_flatMap]; rfl

/-- C66: with `-p` (and without `-u`) the words are those by the dictionary that the options ask for, the flags those of the default
dictionary: `import jieba.posseg` reads them before `-D` is looked at. -/
theorem C66_given_dictionary (P : PSys F) (D : Path → Prop) (hD : CacheNames P.sys D) (p : PWorld) (hw : CacheInv P.sys D p.w) (a : Args)
    (hd : ∀ q, a.dict = some q → D (P.sys.abspath q)) (hn : (p.w.tok 0).initialized = false) (hdef : (p.w.tok 0).dictionary = none)
    (hg : (p.w.tok 0).tags = []) (data : Bytes) (freq : Freq) (total : Int) (hdata : OptionData P p.w a data)
    (hx : genPfdict data = .ok (freq, total)) (tab : PyDict Str Str) (htab : loadTags p.w.defaultDict = (tab, .ok ()))
    (sep : Str) (hpos : a.pos = some sep) (hsep : sep ≠ []) (hu : truthyStr a.userDict = false) (text : Str) (io : Bool)
    (herr : (run P p a text io).2.err = none) :
    (run P p a text io).2.out = (textLines text).map (fun l => a.delimiter.intercalate
      ((Pos.cut ⟨P.sys.A, freq, total, P.tables, tab, P.σ⟩ a.hmm l).out.map (fun q => q.1 ++ sep ++ q.2))) := by
  obtain ⟨w1, h1, h2, h3, h4, h5, h6⟩ := initTok_ok P D hD p.w hw a hd hn hdef data _ hdata hx io
  have hpt : truthyStr a.pos = true := by
    rw [hpos]; cases sep with
    | nil => exact absurd rfl hsep
    | cons c s => rfl
  have hnew : newPos p 0 0 = (p.setPos 0 ⟨0, tab⟩, .ok ()) := by
    unfold newPos
    rw [hdef]
    simp only [dictFile, htab]
  have hs : setup P p a io = ({ p.setPos 0 ⟨0, tab⟩ with w := w1 }, .ok ()) := by
    unfold setup
    rw [hpt]
    simp only [if_true, hnew]
    have : (p.setPos 0 ⟨0, tab⟩).w = p.w := rfl
    rw [this, h1]
    simp [hu]
  have hg1 : (w1.tok 0).tags = [] := by
    rw [h6]; exact hg
  unfold run at herr ⊢
  rw [hs] at herr ⊢
  simp only at herr ⊢
  have hout := printLoop_tagged P a io sep hpos hsep (readLines text) { p.setPos 0 ⟨0, tab⟩ with w := w1 }
    (by show ((p.setPos 0 ⟨0, tab⟩).pos 0).tok = 0; rw [setPos_self]) h4 hg1 herr
  rw [readLines_strip] at hout
  have he : PWorld.env P { p.setPos 0 ⟨0, tab⟩ with w := w1 } 0 = ⟨P.sys.A, freq, total, P.tables, tab, P.σ⟩ := by
    have h0 : ((p.setPos 0 ⟨0, tab⟩).pos 0) = ⟨0, tab⟩ := setPos_self _ _ _
    unfold PWorld.env
    simp only [h0, h2, h3]
  rw [he] at hout
  exact hout

end Jieba.Props
