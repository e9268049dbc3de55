import Verif.Proofs.DictOrder
import Verif.Props.UserFiles
import Verif.Props.DictOrder
import Verif.Props.Lookup
import Verif.Props.PosWorld
import Verif.Props.SampleKeywords
/-!
# C129: a user dictionary is an appendix of the dictionary
-/

set_option linter.unusedSectionVars false

namespace Jieba.Props
open Jieba Jieba.Spec

variable {F : Type _} [LinearOrder F]

/-- A line `word freq` or `word freq tag`, with one blank between the fields: the word has no blank in it and does not begin with a
byte order mark, the frequency is in ASCII digits, the tag in ASCII lower-case letters. -/
def PlainLine (l : Bytes) (e : Str × Int × Option Str) : Prop :=
  e.1 ≠ [] ∧ e.1.head? ≠ some 0xFEFF ∧ ∃ f, IsFreqField f ∧ IntText f e.2.1 ∧
    match e.2.2 with
    | none => LineFields l [e.1, f]
    | some g => IsTagField g ∧ LineFields l [e.1, f, g]

theorem fileLines_append (data u : Bytes) (ls ls' : List Bytes) (hd : data = [] ∨ data.getLast? = some 0x0A)
    (h : FileLines data ls) (h' : FileLines u ls') : FileLines (data ++ u) (ls ++ ls') := by
  induction h with
  | nil => simpa using h'
  | last l h1 h2 =>
    rcases hd with rfl | hd
    · exact absurd rfl h1
    · exact absurd (List.mem_of_getLast? hd) h2
  | line l b ls h _ ih =>
    rw [List.append_assoc, List.cons_append, List.cons_append]
    refine .line l _ _ h (ih ?_)
    by_cases hb : b = []
    · exact Or.inl hb
    · right
      rcases hd with hd | hd
      · simp at hd
      · obtain ⟨c, b', rfl⟩ := List.exists_cons_of_ne_nil hb
        simpa [List.getLast?_append, List.getLast?_cons_cons] using hd

theorem genPfdictLoop_append (ls ls' : List Bytes) (d : Freq) (n : Int) :
    genPfdictLoop (ls ++ ls') d n = match genPfdictLoop ls d n with
      | .ok (d', n') => genPfdictLoop ls' d' n'
      | .error e => .error e := by
  induction ls generalizing d n with
  | nil => rfl
  | cons l ls ih =>
    simp only [List.cons_append, genPfdictLoop]
    cases dictLine l with
    | none => rfl
    | some x => exact ih _ _

theorem plain_dict {l : Bytes} {e : Str × Int × Option Str} (h : PlainLine l e) : DictEntry l e.1 e.2.1 := by
  obtain ⟨-, -, f, -, hi, h⟩ := h
  obtain ⟨word, n, tag⟩ := e
  cases tag with
  | none => exact ⟨f, [], h, hi⟩
  | some g => exact ⟨f, [g], h.2, hi⟩

theorem plain_user (u : Bytes) (ls : List Bytes) (hu : FileLines u ls) {l : Bytes} (hl : l ∈ ls) {e : Str × Int × Option Str}
    (h : PlainLine l e) : LineAdds (.bytes l) (some e) := by
  obtain ⟨h1, h2, f, h3, h4, h5⟩ := h
  obtain ⟨word, n, tag⟩ := e
  simp only at h1 h2 h4 h5
  obtain ⟨b, s, ht, he, hsp, hs, hg⟩ : ∃ b s, TrimmedBy isByteSpace l b ∧ utf8Encode s = some b ∧ 0x20 ∉ word ∧
      s = word ++ fieldText (some f) ++ fieldText tag ∧ (∀ g, tag = some g → IsTagField g) := by
    cases tag with
    | none =>
      obtain ⟨b, s, a1, a2, -, a3, a4⟩ := h5
      exact ⟨b, s, a1, a2, a3 word (by simp), by rw [a4]; simp [List.intercalate, fieldText], by simp⟩
    | some g =>
      obtain ⟨hg, b, s, a1, a2, -, a3, a4⟩ := h5
      exact ⟨b, s, a1, a2, a3 word (by simp), by rw [a4]; simp [List.intercalate, fieldText], by rintro _ ⟨⟩; exact hg⟩
  have hne : s ≠ [] := by rw [hs]; simp [h1]
  have hhead : s.head? = word.head? := by
    rw [hs]
    obtain ⟨c, r, rfl⟩ := List.exists_cons_of_ne_nil h1
    rfl
  have hul : UserLine (.bytes l) s := .bytes l b s 0 s ht he rfl (by rw [hhead]; exact h2)
  refine .entry _ s word f n tag hul hne ⟨C31_file_line_matches u ls hu l hl s hul, ⟨h1, by rintro _ ⟨⟩; exact h3, hg, hs⟩, ?_⟩ h4
  rintro w a g ⟨hw, -, -, hr⟩
  by_contra hlt
  push Not at hlt
  rw [hs] at hr
  -- the reading with a shorter word has a blank in the word
  have hx : ∃ r, fieldText a ++ fieldText g = 0x20 :: r := by
    cases a with
    | some a => exact ⟨_, rfl⟩
    | none =>
      cases g with
      | some g => exact ⟨_, rfl⟩
      | none =>
        exfalso
        have := congrArg List.length hr
        simp [fieldText] at this
        omega
  obtain ⟨r, hx⟩ := hx
  rw [List.append_assoc, List.append_assoc, hx] at hr
  obtain ⟨v, hv | hv⟩ : ∃ v, (word = w ++ v ∧ 0x20 :: r = v ++ (fieldText (some f) ++ fieldText tag)) ∨
      (w = word ++ v ∧ fieldText (some f) ++ fieldText tag = v ++ 0x20 :: r) := by
    rcases List.append_eq_append_iff.mp hr with ⟨v, a, b⟩ | ⟨v, a, b⟩
    · exact ⟨v, Or.inr ⟨a, b⟩⟩
    · exact ⟨v, Or.inl ⟨a, b⟩⟩
  · obtain ⟨ha, hb⟩ := hv
    cases v with
    | nil => rw [ha] at hlt; simp at hlt
    | cons c v =>
      simp only [List.cons_append, List.cons.injEq] at hb
      exact hsp (by rw [ha, ← hb.1]; simp)
  · rw [hv.1] at hlt
    simp at hlt

theorem addMany_table (t : Nat) (es : List Added) (w : World) :
    (((addMany t w es).tok t).freq, ((addMany t w es).tok t).total) =
      es.foldl (fun x e => (register x.1 e.1 e.2.1, x.2 + e.2.1)) ((w.tok t).freq, (w.tok t).total) := by
  induction es generalizing w with
  | nil => rfl
  | cons e es ih =>
    have h := ih (addOne t w e)
    rw [show addMany t w (e :: es) = addMany t (addOne t w e) es from rfl, h, List.foldl_cons]
    congr 1
    unfold addOne
    rw [addFreq_tok_self]

theorem addMany_force (t : Nat) (es : List Added) (w : World) (v : Str) :
    v ∈ (addMany t w es).force ↔ v ∈ w.force ∨ ∃ e ∈ es, e.1 = v ∧ e.2.1 = 0 := by
  induction es generalizing w with
  | nil => simp [addMany]
  | cons e es ih =>
    rw [show addMany t w (e :: es) = addMany t (addOne t w e) es from rfl, ih]
    unfold addOne
    rw [mem_addFreq_force]
    simp only [List.exists_mem_cons_iff]
    constructor
    · rintro ((h | ⟨h1, h2⟩) | h)
      · exact Or.inl h
      · exact Or.inr (Or.inl ⟨h2.symm, h1⟩)
      · exact Or.inr (Or.inr h)
    · rintro (h | ⟨h1, h2⟩ | h)
      · exact Or.inl (Or.inl h)
      · exact Or.inl (Or.inr ⟨h2, h1.symm⟩)
      · exact Or.inr h

theorem genPfdictLoop_plain (ls : List Bytes) (es : List Added) (h : List.Forall₂ (fun l e => DictEntry l e.1 e.2.1) ls es)
    (d : Freq) (n : Int) :
    genPfdictLoop ls d n = .ok (es.foldl (fun x e => (register x.1 e.1 e.2.1, x.2 + e.2.1)) (d, n)) := by
  induction h generalizing d n with
  | nil => rfl
  | cons h _ ih =>
    simp only [genPfdictLoop, (dictEntry_iff _ _ _).mp h, List.foldl_cons]
    exact ih _ _

theorem appendix_run (S : Sys F) (w : World) (t : Nat) (src : UserDict) (io : Bool) (data u : Bytes) (ls : List Bytes)
    (es : List (Str × Int × Option Str)) (d : Freq) (n : Int) (hd : data = [] ∨ data.getLast? = some 0x0A)
    (hg : genPfdict data = .ok (d, n)) (hi : (w.tok t).initialized = true) (hf : (w.tok t).freq = d) (hn : (w.tok t).total = n)
    (hs : src = .file u ∨ ∃ p f, src = .path p ∧ w.files p = some f ∧ f.data = u)
    (hu : FileLines u ls) (he : List.Forall₂ PlainLine ls es) :
    ∃ w1, loadUserdict S w t src io = (w1, .ok ()) ∧ (w1.tok t).initialized = true ∧
      genPfdict (data ++ u) = .ok ((w1.tok t).freq, (w1.tok t).total) ∧
      (∀ v, v ∈ w1.force ↔ v ∈ w.force ∨ ∃ e ∈ es, e.1 = v ∧ e.2.1 = 0) ∧ w1 = addMany t w es := by
  have hload : loadUserdict S w t src io = userdictLoop S t w (ls.map .bytes) := by
    unfold loadUserdict
    rw [checkInit_of_init S w t io hi]
    rcases hs with rfl | ⟨p, f, rfl, h1, rfl⟩
    · simp only [(fileLines_iff _ _).mp hu]
    · simp only [h1, (fileLines_iff _ _).mp hu]
  have hadds : List.Forall₂ LineAdds (ls.map .bytes) (es.map some) := by
    have : ∀ (l1 : List Bytes) (e1 : List Added), l1 ⊆ ls → List.Forall₂ PlainLine l1 e1 →
        List.Forall₂ LineAdds (l1.map .bytes) (e1.map some) := by
      intro l1 e1 hsub h
      induction h with
      | nil => exact .nil
      | @cons a b l e h _ ih =>
        exact .cons (plain_user u ls hu (hsub (by simp)) h) (ih (fun x hx => hsub (by simp [hx])))
    exact this ls es (fun _ h => h) he
  have hids : (es.map some).filterMap id = es := by simp [List.filterMap_map]
  have hrun : loadUserdict S w t src io = (addMany t w es, .ok ()) := by
    rw [hload, userdictLoop_adds S t _ _ hadds w hi, hids]
  have hgen : genPfdict (data ++ u) = .ok (((addMany t w es).tok t).freq, ((addMany t w es).tok t).total) := by
    have hlines := fileLines_append data u (fileLines data) ls hd (fileLines_spec data) hu
    unfold genPfdict at hg ⊢
    rw [(fileLines_iff _ _).mp hlines, genPfdictLoop_append, hg]
    simp only
    rw [genPfdictLoop_plain ls es (he.imp (fun _ _ h => plain_dict h)), addMany_table, hf, hn]
  have hinit : ((addMany t w es).tok t).initialized = true := by rw [addMany_init]; exact hi
  exact ⟨_, hrun, hinit, hgen, addMany_force t es w, rfl⟩

/-- C129: let the lines of a user dictionary be plain lines `word freq` or `word freq tag`, and let a tokenizer have the table and the
total of the dictionary file `data` (which ends with a line end).  Loading the user dictionary succeeds and leaves the tokenizer with
exactly the table and the total of the dictionary file with the lines of the user dictionary at its end.  Nothing else changes that
segmentation reads, except that the words with frequency 0 are marked to be kept apart. -/
theorem C129_appendix (S : Sys F) (w : World) (t : Nat) (src : UserDict) (io : Bool) (data u : Bytes) (ls : List Bytes)
    (es : List (Str × Int × Option Str)) (d : Freq) (n : Int) (hd : data = [] ∨ data.getLast? = some 0x0A)
    (hg : genPfdict data = .ok (d, n)) (hi : (w.tok t).initialized = true) (hf : (w.tok t).freq = d) (hn : (w.tok t).total = n)
    (hs : src = .file u ∨ ∃ p f, src = .path p ∧ w.files p = some f ∧ f.data = u)
    (hu : FileLines u ls) (he : List.Forall₂ PlainLine ls es) :
    ∃ w1, loadUserdict S w t src io = (w1, .ok ()) ∧ (w1.tok t).initialized = true ∧
      genPfdict (data ++ u) = .ok ((w1.tok t).freq, (w1.tok t).total) ∧
      (∀ v, v ∈ w1.force ↔ v ∈ w.force ∨ ∃ e ∈ es, e.1 = v ∧ e.2.1 = 0) := by
  obtain ⟨w1, h1, h2, h3, h4, -⟩ := appendix_run S w t src io data u ls es d n hd hg hi hf hn hs hu he
  exact ⟨w1, h1, h2, h3, h4⟩

/-- C129, from the files to the tokens: after any history, one tokenizer is pointed at the dictionary file `data` and then loads the
user dictionary; another one is pointed at a file with the contents of both.  If no frequency in the user dictionary is 0, they
segment every text alike, in every mode. -/
theorem C129_segmentation (S : Sys F) (D : Path → Prop) (hD : CacheNames S D) (w : World) (hw : CacheInv S D w)
    (ops : List Op) (hops : ∀ op ∈ ops, KeepsCaches S D op) (t t' : Nat) (p p' : Path) (hp : D (S.abspath p)) (hp' : D (S.abspath p'))
    (data u : Bytes) (f f' : File) (hf : (runOps S w ops).files (S.abspath p) = some f)
    (hf' : (runOps S w ops).files (S.abspath p') = some f') (hdata : f.data = data) (hdata' : f'.data = data ++ u)
    (hd : data = [] ∨ data.getLast? = some 0x0A) (ls0 ls : List Bytes) (es0 : List (Str × Int)) (es : List (Str × Int × Option Str))
    (h0 : FileLines data ls0) (he0 : List.Forall₂ (fun l e => DictEntry l e.1 e.2) ls0 es0)
    (hu : FileLines u ls) (he : List.Forall₂ PlainLine ls es) (hz : ∀ e ∈ es, e.2.1 ≠ 0) (io : Bool) :
    ∃ w1 w2 w3, setDictionary S (runOps S w ops) t p = (w1, .ok ()) ∧ loadUserdict S w1 t (.file u) io = (w2, .ok ()) ∧
      setDictionary S (runOps S w ops) t' p' = (w3, .ok ()) ∧
      ∀ cutAll hmm s io io', (cutW S w2 t cutAll hmm s io).2 = (cutW S w3 t' cutAll hmm s io').2 := by
  have hi := cacheInv_runOps S D hD w hw ops hops
  have hg : ∃ x, genPfdict f.data = .ok x := by
    rw [hdata]
    have h1 : (fileLines data).map dictLine = es0.map some := by
      rw [(fileLines_iff _ _).mp h0]
      exact (map_some_iff _ _ _).mpr (he0.imp (fun l e h => (dictEntry_iff l e.1 e.2).mp h))
    rcases gen_load data with ⟨es1, -, d, h2, -⟩ | ⟨⟨l, h2, h3⟩, -⟩
    · exact ⟨_, h2⟩
    · exfalso
      have : none ∈ (fileLines data).map dictLine := List.mem_map.mpr ⟨l, h2, h3⟩
      rw [h1] at this
      simp at this
  obtain ⟨x, hg⟩ := hg
  have hset : ∀ t p f, (runOps S w ops).files (S.abspath p) = some f →
      ∃ w1, setDictionary S (runOps S w ops) t p = (w1, .ok ()) := by
    intro t p f hf
    unfold setDictionary; rw [hf]; exact ⟨_, rfl⟩
  obtain ⟨w1, hw1⟩ := hset t p f hf
  obtain ⟨w3, hw3⟩ := hset t' p' f' hf'
  obtain ⟨v, hv, hvf, hvn, hvi, hvs⟩ := checkInit_after_set S D _ hi t p hp f hf x hg io
  rw [hw1] at hv
  have hg' : genPfdict data = .ok (x.1, x.2) := by rw [← hdata]; exact hg
  obtain ⟨w2, hw2, h2i, h2g, h2s⟩ := C129_appendix S v t (.file u) io data u ls es x.1 x.2 hd hg' hvi hvf hvn (Or.inl rfl) hu he
  refine ⟨w1, w2, w3, hw1, ?_, hw3, fun ca hm s i i' => ?_⟩
  · have : loadUserdict S w1 t (.file u) io = loadUserdict S v t (.file u) io := by
      unfold loadUserdict
      rw [hv, checkInit_of_init S v t io hvi]
    rw [this, hw2]
  · rw [← hdata'] at h2g
    obtain ⟨v', hv', hvf', hvn', hvi', hvs'⟩ := checkInit_after_set S D _ hi t' p' hp' f' hf' _ h2g i'
    rw [hw3] at hv'
    rw [cutW_of_init _ _ _ _ _ _ _ h2i, cutW_checkInit S w3 v' t' ca hm i' s hv']
    have hE : SameEnv (w2.env S t) (v'.env S t') := by
      refine ⟨rfl, hvn'.symm, rfl, fun _ => ?_, fun y => ?_⟩
      · show (w2.tok t).freq.get? _ = (v'.tok t').freq.get? _
        rw [hvf']
      · show y ∈ w2.force ↔ y ∈ v'.force
        rw [h2s, hvs, hvs']
        constructor
        · rintro (h | ⟨e, he, -, h⟩)
          · exact h
          · exact absurd h (hz e he)
        · exact Or.inl
    exact hE.cut ca hm _

theorem set_set_same (d : PyDict Str Str) (k a b : Str) : (d.set k a).set k b = d.set k b := by
  induction d with
  | nil => simp [PyDict.set]
  | cons x d ih =>
    obtain ⟨k', v'⟩ := x
    by_cases h : k' = k
    · simp [PyDict.set, h]
    · simp [PyDict.set, h, ih]

theorem set_set_comm (d : PyDict Str Str) (k j a b : Str) (hk : k ∈ d.keys) (hj : j ≠ k) : (d.set j b).set k a = (d.set k a).set j b := by
  induction d with
  | nil => simp [PyDict.keys] at hk
  | cons x d ih =>
    obtain ⟨k', v'⟩ := x
    by_cases h : k' = k
    · subst h
      simp [PyDict.set, Ne.symm hj]
    · have hk' : k ∈ PyDict.keys d := by
        simp only [PyDict.keys, List.map_cons, List.mem_cons] at hk
        rcases hk with hk | hk
        · exact absurd hk.symm h
        · exact hk
      by_cases hj' : k' = j
      · subst hj'
        simp [PyDict.set, h]
      · simp [PyDict.set, h, hj', ih hk']

theorem mem_keys_set_self (d : PyDict Str Str) (k v : Str) : k ∈ (d.set k v).keys := by
  induction d with
  | nil => simp [PyDict.set, PyDict.keys]
  | cons x d ih =>
    obtain ⟨k', v'⟩ := x
    by_cases h : k' = k
    · simp [PyDict.set, PyDict.keys, h]
    · simp only [PyDict.set, if_neg h, PyDict.keys, List.map_cons, List.mem_cons]
      exact Or.inr ih

theorem mem_keys_set_of (d : PyDict Str Str) (k j v : Str) (h : k ∈ d.keys) : k ∈ (d.set j v).keys := by
  induction d with
  | nil => simp [PyDict.keys] at h
  | cons x d ih =>
    obtain ⟨k', v'⟩ := x
    simp only [PyDict.keys, List.map_cons, List.mem_cons] at h
    by_cases hj : k' = j
    · simpa [PyDict.set, PyDict.keys, hj] using h
    · simp only [PyDict.set, if_neg hj, PyDict.keys, List.map_cons, List.mem_cons]
      exact h.imp id ih

theorem set_update_comm (e : PyDict Str Str) (d : PyDict Str Str) (k v : Str) (hk : k ∈ d.keys) (he : k ∉ e.keys) :
    (d.update e).set k v = (d.set k v).update e := by
  induction e generalizing d with
  | nil => rfl
  | cons x e ih =>
    obtain ⟨j, b⟩ := x
    simp only [PyDict.keys, List.map_cons, List.mem_cons, not_or] at he
    show ((d.set j b).update e).set k v = ((d.set k v).set j b).update e
    rw [ih _ (mem_keys_set_of _ _ _ _ hk) he.2, set_set_comm d k j v b hk (Ne.symm he.1)]

theorem update_set (e : PyDict Str Str) (d : PyDict Str Str) (k v : Str) (he : e.keys.Nodup) :
    d.update (e.set k v) = (d.update e).set k v := by
  induction e generalizing d with
  | nil => rfl
  | cons x e ih =>
    obtain ⟨j, b⟩ := x
    simp only [PyDict.keys, List.map_cons, List.nodup_cons] at he
    by_cases h : j = k
    · subst h
      have : PyDict.set ((j, b) :: e) j v = (j, v) :: e := by simp [PyDict.set]
      rw [this]
      show (d.set j v).update e = ((d.set j b).update e).set j v
      rw [set_update_comm e _ j v (mem_keys_set_self _ _ _) he.1, set_set_same]
    · have : PyDict.set ((j, b) :: e) k v = (j, b) :: PyDict.set e k v := by simp [PyDict.set, h]
      rw [this]
      show (d.set j b).update (PyDict.set e k v) = ((d.set j b).update e).set k v
      exact ih _ he.2

theorem addMany_tags (t : Nat) (es : List Added) (w : World) (tab : PyDict Str Str) (hn : ((w.tok t).tags).keys.Nodup)
    (he : ∀ e ∈ es, truthyStr e.2.2 = true) :
    tab.update ((addMany t w es).tok t).tags =
      es.foldl (fun d e => d.set e.1 (e.2.2.getD [])) (tab.update (w.tok t).tags) := by
  induction es generalizing w with
  | nil => rfl
  | cons e es ih =>
    have h1 : ((addOne t w e).tok t).tags = (w.tok t).tags.set e.1 (e.2.2.getD []) := by
      unfold addOne
      rw [addFreq_tok_self]
      simp only [he e (by simp), if_true]
    rw [show addMany t w (e :: es) = addMany t (addOne t w e) es from rfl, ih _ _ (fun e h => he e (by simp [h])),
      List.foldl_cons, h1, update_set _ _ _ _ hn]
    rw [h1]
    exact PyDict.nodup_keys_set _ _ _ hn

theorem loadTagsLoop_append (ls ls' : List Bytes) (d d' : PyDict Str Str) (h : Pos.loadTagsLoop ls d = (d', .ok ())) :
    Pos.loadTagsLoop (ls ++ ls') d = Pos.loadTagsLoop ls' d' := by
  induction ls generalizing d with
  | nil => simp [Pos.loadTagsLoop] at h; rw [h]; rfl
  | cons l ls ih =>
    simp only [List.cons_append, Pos.loadTagsLoop] at h ⊢
    cases hl : Pos.tagLine l with
    | none => rw [hl] at h; simp at h
    | some x =>
      rw [hl] at h
      cases x with
      | none => exact ih _ h
      | some y => exact ih _ h

theorem loadTagsLoop_plain (ls : List Bytes) (es : List Added) (h : List.Forall₂ PlainLine ls es) (ht : ∀ e ∈ es, e.2.2 ≠ none)
    (d : PyDict Str Str) : Pos.loadTagsLoop ls d = (es.foldl (fun d e => d.set e.1 (e.2.2.getD [])) d, .ok ()) := by
  induction h generalizing d with
  | nil => rfl
  | @cons l e ls es h _ ih =>
    obtain ⟨word, n, tag⟩ := e
    cases tag with
    | none => exact absurd rfl (ht (word, n, none) (by simp))
    | some g =>
      obtain ⟨-, -, f, -, -, -, h5⟩ := h
      have : Pos.tagLine l = some (some (word, g)) := (tagEntry_iff l word g).mp ⟨f, h5⟩
      simp only [Pos.loadTagsLoop, this, List.foldl_cons]
      exact ih (fun e he => ht e (by simp [he])) _

/-- C129 for tags: let moreover every line of the user dictionary have a tag and the table of tags of a POS tokenizer be that of
`data`, with no tags of earlier user dictionaries waiting.  After loading the user dictionary the POS tokenizer works with exactly the
table of tags of the dictionary file with the lines of the user dictionary at its end, and so gives every text the same words and
tags as any POS tokenizer that has been initialised from that file. -/
theorem C129_tags (P : Pos.PSys F) (p : Pos.PWorld) (k : Nat) (src : UserDict) (io : Bool) (data u : Bytes) (ls : List Bytes)
    (es : List (Str × Int × Option Str)) (d : Freq) (n : Int) (hd : data = [] ∨ data.getLast? = some 0x0A)
    (hg : genPfdict data = .ok (d, n)) (hi : (p.w.tok (p.pos k).tok).initialized = true) (hf : (p.w.tok (p.pos k).tok).freq = d)
    (hn : (p.w.tok (p.pos k).tok).total = n)
    (hs : src = .file u ∨ ∃ q f, src = .path q ∧ p.w.files q = some f ∧ f.data = u)
    (hu : FileLines u ls) (he : List.Forall₂ PlainLine ls es)
    (ht : ∀ e ∈ es, e.2.2 ≠ none) (htab : Pos.loadTags data = ((p.pos k).tab, .ok ())) (hno : (p.w.tok (p.pos k).tok).tags = []) :
    ∃ w1, loadUserdict P.sys p.w (p.pos k).tok src io = (w1, .ok ()) ∧
      Pos.loadTags (data ++ u) = (((Pos.moveTags { p with w := w1 } k).pos k).tab, .ok ()) ∧
      ∀ (p' : Pos.PWorld) (k' : Nat), (p'.w.tok (p'.pos k').tok).initialized = true →
        genPfdict (data ++ u) = .ok ((p'.w.tok (p'.pos k').tok).freq, (p'.w.tok (p'.pos k').tok).total) →
        Pos.loadTags (data ++ u) = ((p'.pos k').tab, .ok ()) → (p'.w.tok (p'.pos k').tok).tags = [] →
        ∀ hmm s io io', (Pos.cutPW P { p with w := w1 } k hmm s io).2 = (Pos.cutPW P p' k' hmm s io').2 := by
  obtain ⟨w1, h1, h2, h3, h4, h5⟩ := appendix_run P.sys p.w _ src io data u ls es d n hd hg hi hf hn hs hu he
  have htr : ∀ e ∈ es, truthyStr e.2.2 = true := by
    intro e hm
    obtain ⟨l, -, hl⟩ : ∃ l ∈ ls, PlainLine l e := by
      clear hu h4 h5
      induction he with
      | nil => simp at hm
      | cons h _ ih =>
        rcases List.mem_cons.mp hm with rfl | hm
        · exact ⟨_, by simp, h⟩
        · obtain ⟨l, h1, h2⟩ := ih (fun e he => ht e (by simp [he])) hm
          exact ⟨l, by simp [h1], h2⟩
    obtain ⟨word, n, tag⟩ := e
    cases tag with
    | none => exact absurd rfl (ht _ hm)
    | some g =>
      obtain ⟨-, -, f, -, -, hgf, -⟩ := hl
      cases g with
      | nil => exact absurd rfl hgf.1
      | cons c g => rfl
  have hmv : ((Pos.moveTags { p with w := w1 } k).pos k).tab = (p.pos k).tab.update (w1.tok (p.pos k).tok).tags := by
    unfold Pos.moveTags
    by_cases h : (w1.tok (p.pos k).tok).tags = []
    · simp [h, PyDict.update]
    · simp [h, Pos.PWorld.setPos]
  have htags : Pos.loadTags (data ++ u) = (((Pos.moveTags { p with w := w1 } k).pos k).tab, .ok ()) := by
    have hlines := fileLines_append data u (fileLines data) ls hd (fileLines_spec data) hu
    unfold Pos.loadTags at htab ⊢
    rw [(fileLines_iff _ _).mp hlines, loadTagsLoop_append _ _ _ _ htab, loadTagsLoop_plain ls es he ht, hmv, h5,
      addMany_tags _ _ _ _ (by rw [hno]; simp [PyDict.keys]) htr, hno]
    rfl
  refine ⟨w1, h1, htags, fun p' k' hi' hg' ht' hno' hm s io io' => ?_⟩
  rw [Pos.cutPW_of_init _ _ _ _ _ _ (by exact h2), Pos.cutPW_of_init _ _ _ _ _ _ hi']
  have hm1 := Pos.moveTags_spec { p with w := w1 } k
  have e1 : (Pos.moveTags p' k') = p' := by unfold Pos.moveTags; simp [hno']
  have e2 : ((p'.pos k').tab) = ((Pos.moveTags { p with w := w1 } k).pos k).tab := by
    have := ht'.symm.trans htags
    exact (Prod.mk.inj this).1
  have e3 : ((p'.w.tok (p'.pos k').tok).freq, (p'.w.tok (p'.pos k').tok).total) =
      ((w1.tok (p.pos k).tok).freq, (w1.tok (p.pos k).tok).total) := by
    have := hg'.symm.trans h3
    injection this
  have e4 := Prod.mk.inj e3
  have hE : (Pos.moveTags { p with w := w1 } k).env P k = p'.env P k' := by
    unfold Pos.PWorld.env
    rw [e2, e4.1, e4.2, hm1.1, hm1.2.2.2, setTok_tok_self]
  rw [e1, hE]

theorem appended_error (data l : Bytes) (hd : data = [] ∨ data.getLast? = some 0x0A) (hl : fileLines l = [l]) (h : dictLine l = none) :
    ∃ e, genPfdict (data ++ l) = .error e := by
  have hlines := fileLines_append data l (fileLines data) [l] hd (fileLines_spec data) ((fileLines_iff _ _).mpr hl)
  unfold genPfdict
  rw [(fileLines_iff _ _).mp hlines, genPfdictLoop_append]
  cases genPfdictLoop (fileLines data) [] 0 with
  | error e => exact ⟨e, rfl⟩
  | ok x => exact ⟨.valueError, by simp [genPfdictLoop, h]⟩

theorem lineAdds_of (l : Bytes) (line word f : Str) (n : Int) (tag : Option Str) (h1 : userLine (.bytes l) = some line) (h2 : line ≠ [])
    (h3 : 0x0A ∉ line) (h4 : userFields line = some (word, some f, tag)) (h5 : pyInt f = some n) : LineAdds (.bytes l) (some (word, n, tag)) :=
  .entry _ line word f n tag ((userLine_iff _ _).mp h1) h2 ((userFields_iff line word (some f) tag h2 h3).mp h4) ((intText_iff f n).mpr h5)

/-- C129, negative part: other lines are not read alike.  A blank line, the word with a blank `a b` of frequency 3, and a word without a
frequency are fine in a user dictionary, but no dictionary file loads with such a line at its end; and after a byte order mark the user
dictionary has the word `a`, the dictionary file a word with the mark in it. -/
theorem C129_other_lines :
    (∃ l, LineAdds (.bytes l) none ∧ ∀ data, (data = [] ∨ data.getLast? = some 0x0A) → ∃ e, genPfdict (data ++ l) = .error e) ∧
    (∃ l, LineAdds (.bytes l) (some (lit ['a', ' ', 'b'], 3, none)) ∧
      ∀ data, (data = [] ∨ data.getLast? = some 0x0A) → ∃ e, genPfdict (data ++ l) = .error e) ∧
    (∃ l line, UserLine (.bytes l) line ∧ UserEntry line (lit ['a']) none none ∧
      ∀ data, (data = [] ∨ data.getLast? = some 0x0A) → ∃ e, genPfdict (data ++ l) = .error e) ∧
    ∃ l, LineAdds (.bytes l) (some (lit ['a'], 3, none)) ∧ DictEntry l (0xFEFF :: lit ['a']) 3 := by
  refine ⟨⟨[0x20, 0x0A], ?_, fun data hd => ?_⟩, ⟨[0x61, 0x20, 0x62, 0x20, 0x33, 0x0A], ?_, fun data hd => ?_⟩,
    ⟨[0x61, 0x0A], lit ['a'], ?_, ?_, fun data hd => ?_⟩, ⟨[0xEF, 0xBB, 0xBF, 0x61, 0x20, 0x33, 0x0A], ?_, ?_⟩⟩
  · exact .blank _ ((userLine_iff _ _).mp (by decide +kernel))
  · exact appended_error data _ hd (by decide +kernel) (by decide +kernel)
  · exact lineAdds_of _ (lit ['a', ' ', 'b', ' ', '3']) _ (lit ['3']) _ _ (by decide +kernel) (by decide) (by decide) (by decide +kernel) (by decide +kernel)
  · exact appended_error data _ hd (by decide +kernel) (by decide +kernel)
  · exact (userLine_iff _ _).mp (by decide +kernel)
  · exact (userFields_iff _ _ none none (by decide) (by decide)).mp (by decide +kernel)
  · exact appended_error data _ hd (by decide +kernel) (by decide +kernel)
  · exact lineAdds_of _ (lit ['a', ' ', '3']) _ (lit ['3']) _ _ (by decide +kernel) (by decide) (by decide) (by decide +kernel) (by decide +kernel)
  · exact (dictEntry_iff _ _ _).mpr (by decide +kernel)

/-- `云 5 n` and `云雨 12` are plain lines. -/
example : PlainLine [0xE4, 0xBA, 0x91, 0x20, 0x35, 0x20, 0x6E, 0x0A] (lit ['云'], 5, some (lit ['n'])) ∧
    PlainLine [0xE4, 0xBA, 0x91, 0xE9, 0x9B, 0xA8, 0x20, 0x31, 0x32, 0x0D, 0x0A] (lit ['云', '雨'], 12, none) := by
  refine ⟨⟨by decide, by decide, lit ['5'], ⟨by decide, by decide⟩, (intText_iff _ _).mpr (by decide +kernel), ⟨by decide, by decide⟩,
    [0xE4, 0xBA, 0x91, 0x20, 0x35, 0x20, 0x6E], lit ['云', ' ', '5', ' ', 'n'], ?_, by decide +kernel, by decide, by decide, by decide⟩,
    ⟨by decide, by decide, lit ['1', '2'], ⟨by decide, by decide⟩, (intText_iff _ _).mpr (by decide +kernel),
    [0xE4, 0xBA, 0x91, 0xE9, 0x9B, 0xA8, 0x20, 0x31, 0x32], lit ['云', '雨', ' ', '1', '2'], ?_, by decide +kernel, by decide, by decide, by decide⟩⟩
  · exact (trimmedBy_iff _ _ _).mpr (by decide +kernel)
  · exact (trimmedBy_iff _ _ _).mpr (by decide +kernel)

/-- A dictionary file `云 7` and a tokenizer that has been initialised from it, as in `C129_appendix`; the table of tags is that of `C129_tags` for
`云 7 n`. -/
example : ([0xE4, 0xBA, 0x91, 0x20, 0x37, 0x0A] : Bytes).getLast? = some 0x0A ∧
    genPfdict [0xE4, 0xBA, 0x91, 0x20, 0x37, 0x0A] = .ok ([(lit ['云'], 7)], 7) ∧
    ((readyWorld [(lit ['云'], 7)] 7).tok 0).initialized = true ∧ ((readyWorld [(lit ['云'], 7)] 7).tok 0).freq = [(lit ['云'], 7)] ∧
    ((readyWorld [(lit ['云'], 7)] 7).tok 0).total = 7 ∧ ((readyWorld [(lit ['云'], 7)] 7).tok 0).tags = [] ∧
    Pos.loadTags [0xE4, 0xBA, 0x91, 0x20, 0x37, 0x20, 0x6E, 0x0A] = ([(lit ['云'], lit ['n'])], .ok ()) := by
  decide +kernel

end Jieba.Props
