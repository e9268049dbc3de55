import Verif.Proofs.Lookup
import Verif.Props.Cache
import Verif.Props.Userdict
import Verif.Props.Suggest
import Verif.Props.Segmentation
/-!
# C128 — `get_FREQ`, `get_DAG` and `calc` called from outside
-/

set_option linter.unusedSectionVars false

namespace Jieba.Props
open Jieba Jieba.Spec

variable {F : Type _} [LinearOrder F]

/-- C128: `calc` with any graph: if the total is positive and no frequency negative, it succeeds if and only if every position of the text
has ends, not before the position and inside the text. -/
theorem C128_calc_succeeds (S : Sys F) (w : World) (t : Nat) (hn : NonNeg (w.tok t).freq) (ht : 0 < (w.tok t).total) (s : Str)
    (dag : List (List Nat)) : (∃ route, calcW S w t s dag = .ok route) ↔ SoundGraph s.length dag := by
  constructor
  · rintro ⟨route, h⟩
    exact soundGraph_of_calc _ _ _ _ _ _ h
  · exact calcRoute_sound _ _ hn _ ht s dag

/-- C128: what `calc` finds, whatever the graph: from every position on, following the route is a walk through the graph to the end of the
text; the number stored at the position is the score of that walk; no other walk has a greater score, and among the walks with the greatest
score none has a longer first word. -/
theorem C128_calc_best (S : Sys F) (hA : MonoAdd S.A) (w : World) (t : Nat) (s : Str) (dag : List (List Nat)) (route : List (F × Nat))
    (h : calcW S w t s dag = .ok route) :
    route.length = s.length + 1 ∧ route[s.length]? = some (S.A.zero, 0) ∧
    ∀ x, x ≤ s.length → ∃ es r, Chosen s.length route x es ∧ Walk dag s.length x es ∧ route[x]? = some r ∧
      r.1 = segScore S.A (w.tok t).freq (w.tok t).total (walkWords s x es) ∧
      ∀ es', Walk dag s.length x es' → segScore S.A (w.tok t).freq (w.tok t).total (walkWords s x es') < r.1 ∨
        (segScore S.A (w.tok t).freq (w.tok t).total (walkWords s x es') = r.1 ∧ es'.headD 0 ≤ es.headD 0) := by
  obtain ⟨-, h1, h2, -⟩ := calcRoute_ok _ _ _ _ _ _ h
  exact ⟨h1, h2, fun x hx => calc_best S.A hA _ _ s dag route h _ x hx rfl⟩

/-- A graph that is not that of the dictionary: only single characters and the whole text. -/
def ownGraph : List (List Nat) := [[0, 3], [1], [2], [3]]

example : NonNeg sampleFreq ∧ SoundGraph 4 ownGraph ∧ ¬ SoundGraph 4 [[0], [1], [], [3]] ∧ ¬ SoundGraph 4 [[0], [1], [2]] ∧
    ¬ SoundGraph 4 [[0], [1], [2], [4]] ∧ ¬ SoundGraph 4 [[0], [0], [2], [3]] := by
  refine ⟨sample_nonNeg, ?_, ?_, ?_, ?_, ?_⟩
  · intro x hx
    have : x = 0 ∨ x = 1 ∨ x = 2 ∨ x = 3 := by omega
    rcases this with rfl | rfl | rfl | rfl <;> exact ⟨_, rfl, by decide, by decide⟩
  · intro h; obtain ⟨L, h1, h2, -⟩ := h 2 (by omega); simp at h1; exact h2 h1
  · intro h; obtain ⟨L, h1, -⟩ := h 3 (by omega); simp at h1
  · intro h; obtain ⟨L, h1, -, h2⟩ := h 3 (by omega); simp at h1; subst h1; have := h2 4 (by simp); omega
  · intro h; obtain ⟨L, h1, -, h2⟩ := h 1 (by omega); simp at h1; subst h1; have := h2 0 (by simp); omega

/-- C128: without the initialisation that `get_DAG` and `cut` do, `get_FREQ` knows no word and `calc` raises ValueError, whatever the text
and the graph. -/
theorem C128_before_first_use (S : Sys F) (w : World) (t : Nat) (d : Option Path) (hw : w.tok t = Tok.new d) :
    (∀ k x, getFREQ w t k x = x) ∧ ∀ s dag, calcW S w t s dag = .error .valueError := by
  constructor
  · intro k x
    unfold getFREQ
    rw [hw]
    rfl
  · intro s dag
    unfold calcW
    exact calcRoute_raises _ _ _ (by rw [hw]; simp [Tok.new]) _ _

theorem entries_unique {ls : List Bytes} : ∀ {es fs : List (Str × Int)}, List.Forall₂ (fun l e => DictEntry l e.1 e.2) ls es →
    List.Forall₂ (fun l e => DictEntry l e.1 e.2) ls fs → es = fs := by
  induction ls with
  | nil => intro es fs h h'; cases h; cases h'; rfl
  | cons l ls ih =>
    intro es fs h h'
    cases h with
    | cons h1 h2 =>
      cases h' with
      | cons h3 h4 =>
        rw [ih h2 h4]
        have e := ((dictEntry_iff _ _ _).mp h1).symm.trans ((dictEntry_iff _ _ _).mp h3)
        simp at e
        rw [e]

theorem entries_left {ls : List Bytes} {es : List (Str × Int)} (h : List.Forall₂ (fun l e => DictEntry l e.1 e.2) ls es) :
    ∀ l ∈ ls, ∃ e : Str × Int, DictEntry l e.1 e.2 := by
  induction h with
  | nil => simp
  | cons h _ ih =>
    intro l hl
    rcases List.mem_cons.mp hl with rfl | hl
    · exact ⟨_, h⟩
    · exact ih l hl

/-- C128: after `set_dictionary(p)` on a well-formed file, after any history, `get_FREQ` and `calc` still work with the old table.  After the next
`get_DAG` of any text, `get_FREQ(v)` is the frequency on the last line of the file with `v`; 0, not the default, if `v` is only the beginning of a word;
and the default otherwise. -/
theorem C128_after_set_dictionary (S : Sys F) (D : Path → Prop) (hD : CacheNames S D) (w : World) (hw : CacheInv S D w)
    (ops : List Op) (hops : ∀ op ∈ ops, KeepsCaches S D op) (t : Nat) (p : Path) (hp : D (S.abspath p)) (f : File)
    (hf : (runOps S w ops).files (S.abspath p) = some f) (ls : List Bytes) (hls : FileLines f.data ls) (es : List (Str × Int))
    (he : List.Forall₂ (fun l e => DictEntry l e.1 e.2) ls es) :
    ∃ w1, setDictionary S (runOps S w ops) t p = (w1, .ok ()) ∧
      (∀ k d, getFREQ w1 t k d = getFREQ (runOps S w ops) t k d) ∧ (∀ s dag, calcW S w1 t s dag = calcW S (runOps S w ops) t s dag) ∧
      ∀ s io, ∃ w2 dag, getDAGW S w1 t s io = (w2, .ok dag) ∧
        ∀ v d, getFREQ w2 t v d = match lastFreq es v with
          | some f => some f
          | none => if StartsEntry es v then some 0 else d := by
  obtain ⟨ls', hls', hload⟩ := C23_load f.data
  have hll : ls' = ls := ((fileLines_iff _ _).mp hls').symm.trans ((fileLines_iff _ _).mp hls)
  subst hll
  have hi := cacheInv_runOps S D hD w hw ops hops
  have hset : setDictionary S (runOps S w ops) t p =
      ((runOps S w ops).setTok t { (runOps S w ops).tok t with dictionary := some (S.abspath p), initialized := false }, .ok ()) := by
    unfold setDictionary; rw [hf]
  refine ⟨_, hset, ?_, ?_, ?_⟩
  · intro k d
    unfold getFREQ
    rw [setTok_tok_self]
  · intro s dag
    unfold calcW
    rw [setTok_tok_self]
  · intro s io
    obtain ⟨d, hd, hval⟩ : ∃ d, genPfdict f.data = .ok (d, (es.map Prod.snd).sum) ∧
        ∀ v, d.get? v = match lastFreq es v with
          | some f => some f
          | none => if StartsEntry es v then some 0 else none := by
      rcases hload with ⟨es', he', h⟩ | ⟨⟨l, hl, hbad⟩, -⟩
      · have : es' = es := entries_unique he' he
        subst this
        exact h
      · obtain ⟨e, h⟩ := entries_left he l hl
        exact absurd h (hbad e.1 e.2)
    obtain ⟨w2, h1, h2, -⟩ := checkInit_after_set S D _ hi t p hp f hf _ hd io
    rw [hset] at h1
    refine ⟨w2, getDAG (w2.tok t).freq s, ?_, ?_⟩
    · unfold getDAGW
      rw [h1]
    · intro v x
      unfold getFREQ
      rw [h2, hval]
      cases lastFreq es v with
      | some f => rfl
      | none =>
        by_cases h : StartsEntry es v
        · simp only [if_pos h]
        · simp only [if_neg h]

/-- C128: `get_DAG` and then `calc`, as `cut` does it: for a text of word characters other than ASCII letters and digits the words along the route are
what `cut(text, HMM=False)` yields. -/
theorem C128_as_cut (S : Sys F) (w w1 : World) (t : Nat) (io : Bool) (hc : checkInit S w t io = (w1, .ok ())) (hn : NonNeg (w1.tok t).freq)
    (ht : 0 < (w1.tok t).total) (s : Str) (hne : s ≠ []) (hs : ∀ c ∈ s, isWordCh c = true ∧ isAlnum c = false) :
    ∃ dag route es, getDAGW S w t s io = (w1, .ok dag) ∧ calcW S w1 t s dag = .ok route ∧ Chosen s.length route 0 es ∧
      (∀ fs, Chosen s.length route 0 fs → fs = es) ∧ (cutW S w t false false (.str s) io).2 = Gen.ok (walkWords s 0 es) := by
  obtain ⟨route, hr, hwf, path, hpath, hflat, hnp, ⟨ts, h1, h2⟩, -⟩ := blocks_from_path (w1.env S t) hn ht s
  have hex : ∀ n x, x ≤ s.length → s.length - x = n → ∃ es, Chosen s.length route x es := by
    intro n
    induction n using Nat.strong_induction_on with
    | _ n ih =>
      intro x hx hxn
      by_cases h : x = s.length
      · exact ⟨[], h⟩
      · obtain ⟨r, r1, r2, r3⟩ := hwf x (by omega)
        obtain ⟨es, he⟩ := ih (s.length - (r.2 + 1)) (by omega) (r.2 + 1) (by omega) rfl
        exact ⟨r.2 :: es, by omega, ⟨r.1, r1⟩, he⟩
  obtain ⟨es, he⟩ := hex _ 0 (by omega) rfl
  refine ⟨getDAG (w1.tok t).freq s, route, es, ?_, hr, he, fun fs hfs => chosen_unique _ _ _ _ _ hfs he, ?_⟩
  · unfold getDAGW; rw [hc]
  · rw [cutW_checkInit S w w1 t false false io (.str s) hc]
    show cut (w1.env S t) false false s = _
    rw [cut_of_word_block _ false s hne (fun c hc => (hs c hc).1), h1]
    have hts : ts = path := by
      refine regrouped_no_single h2 ?_
      rintro v hv ⟨c, rfl, hc⟩
      have : c ∈ s := by rw [← hflat]; exact List.mem_flatten.mpr ⟨_, hv, by simp⟩
      rw [(hs c this).2] at hc
      simp at hc
    rw [hts, hpath, chosen_path s route hwf s.length 0 es (by omega) (by omega) he]

example : (checkInit sampleSys sampleWorld 0 true).2 = .ok () ∧
    (getDAGW sampleSys sampleWorld 0 (lit ['北', '京', '大', '学']) true).2 = .ok [[1], [1], [3], [3]] ∧
    getFREQ sampleWorld 0 (lit ['北', '京']) none = none ∧
    getFREQ (checkInit sampleSys sampleWorld 0 true).1 0 (lit ['北', '京']) none = some 40 ∧
    getFREQ (checkInit sampleSys sampleWorld 0 true).1 0 (lit ['北']) none = some 0 ∧
    calcW sampleSys sampleWorld 0 (lit ['北', '京']) [[1], [1]] = .error .valueError := by
  decide +kernel

end Jieba.Props
