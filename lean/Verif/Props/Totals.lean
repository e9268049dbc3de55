import Verif.Proofs.Userdict
import Verif.Proofs.Render
import Verif.Proofs.World
import Verif.Props.SampleWorld
/-!
# C22, inequality: with non-negative frequencies the total never falls below the sum of the current frequencies
-/

set_option linter.unusedSectionVars false

namespace Jieba.Props
open Jieba Jieba.Spec Relation

variable {F : Type _} [LinearOrder F]

/-- Laws about signs; they hold for exact arithmetic and for IEEE doubles (without NaN and overflow). -/
structure SignLaws (A : Arith F) : Prop where
  ofInt : ∀ n : Int, 0 ≤ n → A.ofInt 0 ≤ A.ofInt n
  mul : ∀ x y, A.ofInt 0 ≤ x → A.ofInt 0 ≤ y → A.ofInt 0 ≤ A.mul x y
  div : ∀ x y, A.ofInt 0 ≤ x → A.ofInt 0 ≤ y → A.ofInt 0 ≤ A.div x y
  trunc : ∀ x, A.ofInt 0 ≤ x → 0 ≤ A.trunc x

/-- A table with its total: keys are distinct, no frequency is negative, and the total is at least their sum. -/
structure Good (x : Freq × Int) : Prop where
  nodup : x.1.keys.Nodup
  nonneg : NonNeg x.1
  total : sumFreq x.1 ≤ x.2

/-- Whatever the file is used for (dictionary or cache), only good tables come out of it. -/
def GoodFile (S : Sys F) (data : Bytes) : Prop :=
  (∀ x, S.load data = some x → Good x) ∧ (∀ x, genPfdict data = .ok x → Good x)

theorem good_register (x : Freq × Int) (word : Str) (f : Int) (h : Good x) (hf : 0 ≤ f) :
    Good (register x.1 word f, x.2 + f) where
  nodup := nodup_register _ _ _ h.nodup
  nonneg := nonNeg_register _ _ _ h.nonneg hf
  total := by
    simp only [sumFreq_register]
    have : 0 ≤ (PyDict.get? x.1 word).getD 0 := by
      cases hg : PyDict.get? x.1 word with
      | none => simp
      | some v => simpa using h.nonneg word v hg
    have := h.total
    omega

/-- A dictionary file without negative frequencies gives a good table. -/
theorem good_dictionary (data : Bytes) (hd : ∀ l ∈ fileLines data, ∀ e, dictLine l = some e → 0 ≤ e.2) (x : Freq × Int)
    (h : genPfdict data = .ok x) : Good x := by
  rcases genPfdict_cases data with ⟨es, h1, h2⟩ | ⟨-, h2⟩
  · rw [h] at h2; simp at h2; subst h2
    have hes : ∀ e ∈ es, 0 ≤ e.2 := by
      intro e he
      have : some e ∈ es.map some := List.mem_map.mpr ⟨e, he, rfl⟩
      rw [← h1] at this
      obtain ⟨l, hl, hle⟩ := List.mem_map.mp this
      exact hd l hl e hle
    clear h1 hd h
    have key : ∀ (es : List (Str × Int)) (x : Freq × Int), Good x → (∀ e ∈ es, 0 ≤ e.2) →
        Good (registerAll x.1 es, x.2 + (es.map Prod.snd).sum) := by
      intro es
      induction es with
      | nil => intro x hx _; simpa [registerAll] using hx
      | cons e es ih =>
        intro x hx he
        have := ih _ (good_register x e.1 e.2 hx (he e (by simp))) (fun e' h' => he e' (List.mem_cons_of_mem _ h'))
        simp only [registerAll, List.foldl_cons, List.map_cons, List.sum_cons] at this ⊢
        rw [← Int.add_assoc]; exact this
    have := key es ([], 0) ⟨List.nodup_nil, by intro w v h; simp [PyDict.get?] at h, by simp [sumFreq]⟩ hes
    simpa using this
  · rw [h] at h2; simp at h2

/-- The frequencies written in the operation are not negative. -/
def OpNonNeg : Op → Prop
  | .addWord _ _ (.int n) _ _ => 0 ≤ n
  | .addWord _ _ (.str s) _ _ => ∀ n, pyInt s = some n → 0 ≤ n
  | _ => True

theorem userFields_freq_digits (line word : Str) (f : Str) (tag : Option Str)
    (h : userFields line = some (word, some f, tag)) : 0x2D ∉ f := by
  unfold userFields at h
  cases hm : reUserdict.pmatch line with
  | none => rw [hm] at h; simp at h
  | some x =>
    obtain ⟨n, caps⟩ := x
    rw [hm] at h
    simp only at h
    have hx : (n, caps) ∈ reUserdict.run true line := List.mem_of_mem_head? (by unfold RE.pmatch at hm; exact hm)
    unfold reUserdict at hx
    simp only [RE.mem_run_seq] at hx
    obtain ⟨h0, hh0, x1, ⟨h1, hh1, x2, ⟨h2, hh2, x3, ⟨h3, hh3, x4, hh4, rfl⟩, rfl⟩, rfl⟩, hx⟩ := hx
    have e0 : h0.2 = [] := by
      simp only [RE.run] at hh0; simp at hh0; rw [hh0]
    have e1 : ∃ u, h1.2 = [(1, u)] := by
      simp only [RE.run, List.map_map, List.mem_map, Function.comp_apply] at hh1
      obtain ⟨i, -, rfl⟩ := hh1; exact ⟨_, rfl⟩
    have e2 : h2.2 = [] ∨ ∃ u, h2.2 = [(2, 0x20 :: u)] ∧ ∀ c ∈ u, isDigit c = true := by
      rw [RE.run, List.mem_append, RE.mem_run_field] at hh2
      rcases hh2 with ⟨u, v, -, -, hu, rfl⟩ | hh2
      · right; exact ⟨u, rfl, hu⟩
      · left; simp at hh2; rw [hh2]
    have e3 : h3.2 = [] ∨ ∃ u, h3.2 = [(3, u)] := by
      rw [RE.run, List.mem_append, RE.mem_run_field] at hh3
      rcases hh3 with ⟨u, v, -, -, hu, rfl⟩ | hh3
      · right; exact ⟨_, rfl⟩
      · left; simp at hh3; rw [hh3]
    have e4 : x4.2 = [] := by
      simp only [RE.run] at hh4
      split at hh4
      · simp at hh4; rw [hh4]
      · simp at hh4
    obtain ⟨u1, e1⟩ := e1
    have hc : caps = h0.2 ++ (h1.2 ++ (h2.2 ++ (h3.2 ++ x4.2))) := congrArg Prod.snd hx
    rw [e0, e1, e4] at hc
    rcases e2 with e2 | ⟨u, e2, hu⟩
    · exfalso
      have hg : RE.group caps 2 = none := by
        rw [hc, e2]
        rcases e3 with e3 | ⟨u3, e3⟩ <;> rw [e3] <;> rfl
      rw [hg] at h
      revert h
      cases RE.group caps 1 <;> simp
    · have hg : RE.group caps 2 = some (0x20 :: u) := by rw [hc, e2]; rfl
      rw [hg] at h
      have hf : f = stripBy isSpace (0x20 :: u) := by
        revert h
        cases RE.group caps 1 with
        | none => simp
        | some w =>
          simp
          intro _ h _; exact h.symm
      intro hm2
      rw [hf] at hm2
      have := mem_of_mem_stripBy _ _ _ hm2
      rcases List.mem_cons.mp this with h' | h'
      · exact absurd h' (by decide)
      · have := hu _ h'; simp [isDigit] at this

theorem mulFreqs_nonneg (A : Arith F) (hA : SignLaws A) (freq : Freq) (hf : NonNeg freq) (total : Int) (ht : 0 ≤ total)
    (segs : List Str) (acc : F) (ha : A.ofInt 0 ≤ acc) : A.ofInt 0 ≤ mulFreqs A freq (A.ofInt total) acc segs := by
  induction segs generalizing acc with
  | nil => exact ha
  | cons s segs ih =>
    unfold mulFreqs
    refine ih _ (hA.mul _ _ ha (hA.div _ _ (hA.ofInt _ ?_) (hA.ofInt _ ht)))
    cases hg : PyDict.get? freq s with
    | none => simp
    | some v => simpa using hf s v hg

theorem suggestCore_nonneg (S : Sys F) (hA : SignLaws S.A) (w : World) (t : Nat) (hg : Good ((w.tok t).freq, (w.tok t).total))
    (seg : Segment) (word : Str) (f : Int) (h : suggestCore S w t seg = .ok (word, f)) : 0 ≤ f := by
  have hget : ∀ v d, 0 ≤ d → 0 ≤ ((w.tok t).freq.get? v).getD d := by
    intro v d hd
    cases hv : PyDict.get? (w.tok t).freq v with
    | none => simpa using hd
    | some x => simpa using hg.nonneg v x hv
  have htot : 0 ≤ (w.tok t).total := by
    have h1 : 0 ≤ sumFreq (w.tok t).freq := by
      have hall : ∀ p ∈ (w.tok t).freq, 0 ≤ p.2 := fun p hp =>
        hg.nonneg p.1 p.2 ((PyDict.get?_eq_some_iff_mem _ hg.nodup p.1 p.2).mpr hp)
      unfold sumFreq
      generalize (w.tok t).freq = d at hall
      induction d with
      | nil => simp
      | cons p d ih =>
        have h1 := hall p (by simp)
        have h2 := ih (fun q hq => hall q (List.mem_cons_of_mem _ hq))
        simp only [List.map_cons, List.sum_cons]; omega
    have := hg.total; simp only at this; omega
  have hsplit : ∀ segs n, suggestSplit S w t segs = .ok n → 0 ≤ n := by
    intro segs n hn
    unfold suggestSplit expectFreq at hn
    split at hn
    · simp [Except.map] at hn; rw [← hn]
      exact le_min htot (hget _ 0 (le_refl _))
    · split at hn
      · simp [Except.map] at hn
      · simp only [Except.map, Except.ok.injEq] at hn; rw [← hn]
        refine le_min (hA.trunc _ (hA.mul _ _ ?_ (hA.ofInt _ htot))) (hget _ 0 (le_refl _))
        exact mulFreqs_nonneg S.A hA _ hg.nonneg _ htot _ _ (hA.ofInt 1 (by decide))
  have hword : ∀ v n, suggestWord S w t v = .ok n → 0 ≤ n := by
    intro v n hn
    unfold suggestWord at hn
    simp only at hn
    cases he : expectFreq S.A (w.tok t).freq (w.tok t).total (cut (w.env S t) false false v).out with
    | error e => rw [he] at hn; simp at hn
    | ok m =>
      rw [he] at hn
      simp only at hn
      cases hc : (cut (w.env S t) false false v).err with
      | some e => rw [hc] at hn; simp at hn
      | none =>
        rw [hc] at hn
        simp only [Except.ok.injEq] at hn
        rw [← hn]
        exact le_trans (hget v 1 (by decide)) (le_max_right _ _)
  cases seg with
  | text x =>
    cases x with
    | str v =>
      simp only [suggestCore] at h
      cases hs : suggestWord S w t v with
      | error e => rw [hs] at h; simp [Except.map] at h
      | ok n => rw [hs] at h; simp [Except.map] at h; rw [← h.2]; exact hword v n hs
    | bytes b =>
      simp only [suggestCore] at h
      split at h
      · cases hs : suggestSplit S w t [] with
        | error e => rw [hs] at h; simp [Except.map] at h
        | ok n => rw [hs] at h; simp [Except.map] at h; rw [← h.2]; exact hsplit _ n hs
      · simp at h
  | tuple l =>
    simp only [suggestCore] at h
    cases hs : suggestSplit S w t (l.map (strdecode S.gbk)) with
    | error e => rw [hs] at h; simp [Except.map] at h
    | ok n => rw [hs] at h; simp [Except.map] at h; rw [← h.2]; exact hsplit _ n hs

theorem gives_nonneg (S : Sys F) (hA : SignLaws S.A) (w : World) (t : Nat) (hg : Good ((w.tok t).freq, (w.tok t).total))
    (word : Str) (a : FreqArg) (f : Int) (h : a.gives S w t word f) (hi : ∀ n, a = .int n → 0 ≤ n)
    (hs : ∀ s, a = .str s → ∀ n, pyInt s = some n → 0 ≤ n) : 0 ≤ f := by
  cases a with
  | none =>
    refine suggestCore_nonneg S hA w t hg (.text (.str word)) word f ?_
    simp only [FreqArg.gives] at h
    simp [suggestCore, h, Except.map]
  | int n => simp only [FreqArg.gives] at h; rw [h]; exact hi n rfl
  | str s => exact hs s rfl f h

/-- C22, inequality: if the initial tables, all files involved, and all frequencies given explicitly are non-negative, then
after any history, in every tokenizer, no frequency is negative and the total is at least the sum of all frequencies. -/
theorem C22_total_at_least_sum (S : Sys F) (hA : SignLaws S.A) (w : World) (ops : List Op)
    (h0 : ∀ t, Good ((w.tok t).freq, (w.tok t).total))
    (hf : ∀ p f, w.files p = some f → GoodFile S f.data) (hd : GoodFile S w.defaultDict)
    (hdump : ∀ x, Good x → ∀ y, genPfdict (S.dump x) = .ok y → Good y)
    (hw : ∀ p data, Op.write p data ∈ ops → GoodFile S data) (hops : ∀ op ∈ ops, OpNonNeg op) :
    ∀ t, NonNeg ((runOps S w ops).tok t).freq ∧ sumFreq ((runOps S w ops).tok t).freq ≤ ((runOps S w ops).tok t).total := by
  suffices h : (∀ t, Good (((runOps S w ops).tok t).freq, ((runOps S w ops).tok t).total)) ∧
      (∀ p f, (runOps S w ops).files p = some f → GoodFile S f.data) ∧ GoodFile S (runOps S w ops).defaultDict from
    fun t => ⟨(h.1 t).nonneg, (h.1 t).total⟩
  refine runOps_inv_prim S (fun w => (∀ t, Good ((w.tok t).freq, (w.tok t).total)) ∧
    (∀ p f, w.files p = some f → GoodFile S f.data) ∧ GoodFile S w.defaultDict) ops w ⟨h0, hf, hd⟩ ?_
  intro op hop w0 a b hab ⟨i1, i2, i3⟩
  have hdict : ∀ t data, dictFile a (a.tok t).dictionary = .ok data → GoodFile S data := by
    intro t data h
    unfold dictFile at h
    split at h
    · simp at h; rw [← h]; exact i3
    · split at h
      · simp at h
      · next f hf => simp at h; rw [← h]; exact i2 _ _ hf
  cases hab with
  | add t word f tag hi hp =>
    have hnn : 0 ≤ f := by
      have ho := hops op hop
      cases op with
      | addWord u word' freq tag' io =>
        simp only [Op.allowed] at hp
        obtain ⟨rfl, -, -, hp⟩ := hp
        exact gives_nonneg S hA a _ (i1 _) word freq f hp (by rintro n rfl; exact ho) (by rintro s rfl; exact ho)
      | delWord u word' io => simp only [Op.allowed] at hp; omega
      | suggestFreq u seg tune io =>
        simp only [Op.allowed] at hp
        obtain ⟨rfl, -, hp, -⟩ := hp
        exact suggestCore_nonneg S hA a _ (i1 _) seg word f hp
      | loadUserdict u d io =>
        simp only [Op.allowed] at hp
        obtain ⟨rfl, ln, -, line, freq, -, hf, hp⟩ := hp
        refine gives_nonneg S hA a _ (i1 _) word _ f hp ?_ ?_
        · intro n hn; cases freq <;> simp [fieldArg] at hn
        · intro s hs
          cases freq with
          | none => simp [fieldArg] at hs
          | some g =>
            simp [fieldArg] at hs; subst hs
            exact pyInt_nonneg g (userFields_freq_digits line word g tag hf)
      | cut => exact absurd hp (by simp [Op.allowed])
      | init => exact absurd hp (by simp [Op.allowed])
      | setDictionary => exact absurd hp (by simp [Op.allowed])
      | new => exact absurd hp (by simp [Op.allowed])
      | write => exact absurd hp (by simp [Op.allowed])
      | remove => exact absurd hp (by simp [Op.allowed])
      | tick => exact absurd hp (by simp [Op.allowed])
    refine ⟨fun u => ?_, by simpa using i2, by simpa using i3⟩
    by_cases hu : u = t
    · subst hu; rw [addFreq_tok_self]; exact good_register _ word f (i1 u) hnn
    · rw [addFreq_tok_ne _ _ _ _ _ _ hu]; exact i1 u
  | load t cf x hi h1 h2 h3 =>
    refine ⟨fun u => ?_, by simpa using i2, by simpa using i3⟩
    rw [markInit_tok]
    split
    · simp; exact (i2 _ _ h1).1 x h3
    · next hu => rw [setTok_tok_ne _ _ _ _ hu]; exact i1 u
  | build t data x hi h1 h2 =>
    refine ⟨fun u => ?_, by simpa using i2, by simpa using i3⟩
    rw [markInit_tok]
    split
    · simp; exact (hdict t data h1).2 x h2
    · next hu => rw [setTok_tok_ne _ _ _ _ hu]; exact i1 u
  | buildDump t data x hi h1 h2 =>
    have hx := (hdict t data h1).2 x h2
    refine ⟨fun u => ?_, ?_, by simpa using i3⟩
    · rw [markInit_tok]
      split
      · simp; exact hx
      · next hu => simp only [setFile_tok]; rw [setTok_tok_ne _ _ _ _ hu]; exact i1 u
    · intro p f hf
      simp only [markInit_files, setFile_files] at hf
      split at hf
      · simp at hf; subst hf
        refine ⟨?_, hdump x hx⟩
        intro y hy
        simp only [S.load_dump] at hy; simp at hy; subst hy; exact hx
      · exact i2 p f hf
  | retarget t p hr =>
    refine ⟨fun u => ?_, by simpa using i2, by simpa using i3⟩
    rw [setTok_tok]; split
    · next hu => subst hu; exact i1 u
    · exact i1 u
  | new t d hr =>
    refine ⟨fun u => ?_, by simpa using i2, by simpa using i3⟩
    rw [setTok_tok]; split
    · exact ⟨List.nodup_nil, by intro w v h; simp [Tok.new] at h, by simp [sumFreq, Tok.new]⟩
    · exact i1 u
  | write p data hp =>
    refine ⟨by simpa using i1, ?_, by simpa using i3⟩
    intro q f hf
    rw [setFile_files] at hf
    split at hf
    · simp at hf; subst hf
      have : op = Op.write p data := by
        cases op <;> simp [Op.allowed] at hp
        obtain ⟨rfl, rfl⟩ := hp; rfl
      subst this
      exact hw p data hop
    · exact i2 q f hf
  | remove p hp =>
    refine ⟨by simpa using i1, ?_, by simpa using i3⟩
    intro q f hf
    rw [setFile_files] at hf
    split at hf
    · simp at hf
    · exact i2 q f hf
  | tick => exact ⟨i1, i2, i3⟩

/-- The hypotheses on the world hold for a fresh process whose default dictionary has no negative frequencies. -/
example : (∀ t, Good ((sampleWorld.tok t).freq, (sampleWorld.tok t).total)) ∧
    (∀ p f, sampleWorld.files p = some f → GoodFile sampleSys f.data) ∧ GoodFile sampleSys sampleWorld.defaultDict := by
  refine ⟨fun t => ⟨List.nodup_nil, by intro w v h; simp [sampleWorld, Tok.new] at h, by simp [sumFreq, sampleWorld, Tok.new]⟩,
    fun _ _ h => by simp [sampleWorld] at h, ?_, ?_⟩
  · intro x hx
    have : sampleLoad sampleData = none := by decide +kernel
    rw [show sampleSys.load sampleWorld.defaultDict = sampleLoad sampleData from rfl, this] at hx
    simp at hx
  · refine fun x hx => good_dictionary sampleData ?_ x hx
    decide +kernel

/-- Exact integer arithmetic obeys the sign laws. -/
example : SignLaws intArith where
  ofInt := fun _ h => h
  mul := fun _ _ hx hy => Int.mul_nonneg hx hy
  div := fun _ _ hx hy => Int.ediv_nonneg hx hy
  trunc := fun _ h => h

/-- The toy serialisation is never read as a dictionary (its first byte is not UTF-8). -/
example : ∀ x, Good x → ∀ y, genPfdict (sampleSys.dump x) = .ok y → Good y := by
  intro x _ y hy
  exfalso
  rcases genPfdict_cases (sampleSys.dump x) with ⟨es, h, -⟩ | ⟨-, h⟩
  · have hhead : ∀ (b acc : Bytes), ∃ l ls, fileLines.go b (0xFF :: acc) = (0xFF :: l) :: ls := by
      intro b
      induction b with
      | nil => intro acc; exact ⟨acc, [], by simp [fileLines.go]⟩
      | cons c b ih =>
        intro acc
        unfold fileLines.go
        split
        · exact ⟨_, _, by rw [List.cons_append]⟩
        · exact ih (acc ++ [c])
    obtain ⟨l, ls, hl⟩ := hhead (x.1.length :: (dumpFreq x.1 ++ dumpInt x.2)) []
    have hfl : fileLines (sampleSys.dump x) = (0xFF :: l) :: ls := by
      rw [← hl]; rfl
    rw [hfl] at h
    have hnone : dictLine (0xFF :: l) = none := by
      unfold dictLine stripBy
      rw [List.dropWhile_cons, if_neg (by decide), List.reverse_cons]
      have : ∃ m, ((l.reverse ++ [0xFF]).dropWhile isByteSpace).reverse = 0xFF :: m := by
        generalize l.reverse = r
        induction r with
        | nil => exact ⟨[], by decide⟩
        | cons c r ih =>
          rw [List.cons_append, List.dropWhile_cons]
          split
          · exact ih
          · exact ⟨r.reverse ++ [c], by simp⟩
      obtain ⟨m, hm⟩ := this
      rw [hm]
      have : utf8Decode (0xFF :: m) = none := by
        rcases m with _ | ⟨a, _ | ⟨b, _ | ⟨c, m⟩⟩⟩ <;> simp [utf8Decode]
      rw [this]
    cases es with
    | nil => simp at h
    | cons e es => simp [hnone] at h
  · rw [h] at hy; simp at hy

end Jieba.Props
