import Verif.Model.Attr
import Verif.Proofs.Basic
/-!
# C130: attributes of POS tokenizers
-/

namespace Jieba.Props
open Jieba Jieba.Attr

/-- `ps` are `POSTokenizer` objects, each made with the next one (the last one with `t`); `t` is not a `POSTokenizer`. -/
inductive Chain (H : Heap) (t : Nat) : List Nat → Prop
  | nil : H.isPos t = false → Chain H t []
  | cons (o ps) : H.isPos o = true → (H.own o).get? "tokenizer" = some (ps.headD t) → Chain H t ps → Chain H t (o :: ps)

/-- The object that has the attribute first, itself or by its class. -/
def firstWith (H : Heap) (name : String) (os : List Nat) : Option Nat :=
  os.findSome? (fun o => ((H.own o).get? name).or (H.cls o name))

theorem find_eq (H : Heap) (o : Nat) (name : String) : H.find o name = ((H.own o).get? name).or (H.cls o name) := by
  unfold Heap.find
  cases (H.own o).get? name <;> rfl

theorem getattr_tokenizer (H : Heap) (o t d : Nat) (h : (H.own o).get? "tokenizer" = some t) : getattr H (d + 1) o "tokenizer" = .ok t := by
  unfold getattr
  rw [find_eq, h]
  rfl

/-- C130: an attribute of a `POSTokenizer`, other than the three refused ones, is that of the first object that has it: the
`POSTokenizer` itself, then what it was made with, and so on (a `POSTokenizer` can be made with another one), down to a tokenizer; if none
has it, AttributeError. -/
theorem C130_passed_on (H : Heap) (t : Nat) (ps : List Nat) (hc : Chain H t ps) (name : String)
    (hn : name ≠ "cut_for_search" ∧ name ≠ "lcut_for_search" ∧ name ≠ "tokenize") (d : Nat) (hd : ps.length + 2 ≤ d) :
    getattr H d (ps.headD t) name = match firstWith H name (ps ++ [t]) with
      | some v => .ok v
      | none => .error .attributeError := by
  have hr : name ∉ refused := by simp [refused, hn]
  induction hc generalizing d with
  | nil ht =>
    obtain ⟨d, rfl⟩ : ∃ e, d = e + 1 := ⟨d - 1, by simp at hd; omega⟩
    unfold getattr
    rw [show ([] : List Nat).headD t = t from rfl, find_eq, ht]
    simp only [firstWith, List.nil_append, List.findSome?_cons, List.findSome?_nil]
    cases ((H.own t).get? name).or (H.cls t name) <;> simp
  | cons o ps ho hown _ ih =>
    obtain ⟨d, rfl⟩ : ∃ e, d = e + 2 := ⟨d - 2, by simp at hd; omega⟩
    have ih := ih (d + 1) (by simp at hd ⊢; omega)
    rw [show (o :: ps).headD t = o from rfl]
    unfold getattr
    rw [find_eq, ho, getattr_tokenizer H o _ d hown]
    simp only [if_true, if_neg hr, ih]
    unfold firstWith
    rw [List.cons_append, List.findSome?_cons]
    cases ((H.own o).get? name).or (H.cls o name) <;> simp

/-- C130: the three names are refused at once, whatever the `POSTokenizer` was made with, unless they have been set on it. -/
theorem C130_refused (H : Heap) (o : Nat) (ho : H.isPos o = true) (name : String)
    (hn : name = "cut_for_search" ∨ name = "lcut_for_search" ∨ name = "tokenize")
    (h1 : (H.own o).get? name = none) (h2 : H.cls o name = none) (d : Nat) (hd : 1 ≤ d) :
    getattr H d o name = .error .notImplemented := by
  obtain ⟨d, rfl⟩ : ∃ e, d = e + 1 := ⟨d - 1, by omega⟩
  unfold getattr
  rw [find_eq, h1, h2, ho]
  simp only [Option.or, if_true]
  rw [if_pos (by simp [refused]; tauto)]

/-- The objects `o` and `t` are as the constructors leave them: a `POSTokenizer` and a `Tokenizer`; no attribute of `object` has the name of one of
the attributes below. -/
structure Fresh (H : Heap) (o t : Nat) : Prop where
  pos : H.isPos o = true
  tok : H.isPos t = false
  made : (H.own o).get? "tokenizer" = some t
  ownPos : ∀ n, (H.own o).get? n ≠ none ↔ n ∈ posOwn
  clsPos : ∀ n ∈ tokClass ++ tokOwn, H.cls o n ≠ none ↔ n ∈ posClass

/-- C130: which attributes of a tokenizer are reached through a `POSTokenizer`: all but `cut_for_search`, `lcut_for_search` and `tokenize`, which
raise NotImplementedError, and `__init__`, `__repr__`, `initialize`, `cut` and `lcut`, which it has itself.  So `_lcut_for_search`, a second name
of one of the refused methods, is reached. -/
theorem C130_which (H : Heap) (o t : Nat) (hf : Fresh H o t) (name : String) (hm : name ∈ tokClass ++ tokOwn) (d : Nat) (hd : 3 ≤ d) :
    (name ∈ ["cut_for_search", "lcut_for_search", "tokenize"] → getattr H d o name = .error .notImplemented) ∧
    (name ∈ ["__init__", "__repr__", "initialize", "cut", "lcut"] → ∃ v, H.cls o name = some v ∧ getattr H d o name = .ok v) ∧
    (name ∉ ["cut_for_search", "lcut_for_search", "tokenize", "__init__", "__repr__", "initialize", "cut", "lcut"] →
      getattr H d o name = getattr H d t name) := by
  have hown : (H.own o).get? name = none := by
    by_contra h
    have := (hf.ownPos name).mp h
    revert hm
    simp only [posOwn, List.mem_cons, List.not_mem_nil, or_false] at this
    rcases this with rfl | rfl <;> decide
  have hcls : name ∉ posClass → H.cls o name = none := by
    intro h
    by_contra hc
    exact h ((hf.clsPos name hm).mp hc)
  refine ⟨fun h => ?_, fun h => ?_, fun h => ?_⟩
  · refine C130_refused H o hf.pos name (by simpa using h) hown (hcls ?_) d (by omega)
    simp only [List.mem_cons, List.not_mem_nil, or_false] at h
    rcases h with rfl | rfl | rfl <;> decide
  · have hp : name ∈ posClass := by
      simp only [List.mem_cons, List.not_mem_nil, or_false] at h
      rcases h with rfl | rfl | rfl | rfl | rfl <;> decide
    obtain ⟨v, hv⟩ := Option.ne_none_iff_exists'.mp ((hf.clsPos name hm).mpr hp)
    refine ⟨v, hv, ?_⟩
    obtain ⟨d, rfl⟩ : ∃ e, d = e + 1 := ⟨d - 1, by omega⟩
    unfold getattr
    rw [find_eq, hown, hv]
    rfl
  · have hp : name ∉ posClass := by
      intro hp
      have : ∀ n ∈ tokClass ++ tokOwn, n ∈ posClass → n ∈ ["cut_for_search", "lcut_for_search", "tokenize", "__init__", "__repr__",
        "initialize", "cut", "lcut"] := by decide
      exact h (this name hm hp)
    simp only [List.mem_cons, List.not_mem_nil, or_false, not_or] at h
    have hn : name ≠ "cut_for_search" ∧ name ≠ "lcut_for_search" ∧ name ≠ "tokenize" := ⟨h.1, h.2.1, h.2.2.1⟩
    have h1 := C130_passed_on H t [o] (.cons o [] hf.pos hf.made (.nil hf.tok)) name hn d hd
    have h2 := C130_passed_on H t [] (.nil hf.tok) name hn d (by simp; omega)
    rw [show ([o] : List Nat).headD t = o from rfl] at h1
    rw [show ([] : List Nat).headD t = t from rfl] at h2
    rw [h1, h2]
    unfold firstWith
    rw [List.cons_append, List.findSome?_cons, hown, hcls hp]
    rfl

/-- C130: assigning to an attribute sets it on the object that was named, so reading it there gives the value; nothing is passed on: whatever does
not reach this object, its tokenizer above all, has the attributes it had. -/
theorem C130_assignment (H : Heap) (o : Nat) (name : String) (v : Nat) :
    (∀ d, 1 ≤ d → getattr (setattr H o name v) d o name = .ok v) ∧
    ∀ t ps, Chain H t ps → o ∉ ps ++ [t] → ∀ d n, getattr (setattr H o name v) d (ps.headD t) n = getattr H d (ps.headD t) n := by
  constructor
  · intro d hd
    obtain ⟨d, rfl⟩ : ∃ e, d = e + 1 := ⟨d - 1, by omega⟩
    unfold getattr
    rw [find_eq]
    simp only [setattr, if_true, PyDict.get?_set_self]
    rfl
  · intro t ps hc
    have hsame : ∀ p n, p ≠ o → (setattr H o name v).find p n = H.find p n := by
      intro p n hp
      unfold Heap.find setattr
      simp only [if_neg hp]
    induction hc with
    | nil ht =>
      intro ho d n
      cases d with
      | zero => rfl
      | succ d =>
        unfold getattr
        rw [hsame _ _ (by rintro rfl; exact ho (by simp))]
        simp only [show (setattr H o name v).isPos = H.isPos from rfl, show ([] : List Nat).headD t = t from rfl, ht]
        cases H.find t n <;> simp
    | cons q ps hq hown _ ih =>
      intro ho d n
      simp only [List.cons_append, List.mem_cons, not_or] at ho
      have hne : q ≠ o := fun h => ho.1 h.symm
      have htok : ∀ d, getattr (setattr H o name v) d q "tokenizer" = getattr H d q "tokenizer" := by
        intro d
        cases d with
        | zero => rfl
        | succ d => unfold getattr; rw [hsame _ _ hne, find_eq, hown]; rfl
      cases d with
      | zero => rfl
      | succ d =>
        rw [show (q :: ps).headD t = q from rfl]
        unfold getattr
        rw [hsame _ _ hne, htok]
        simp only [show (setattr H o name v).isPos = H.isPos from rfl]
        cases d with
        | zero => rfl
        | succ d =>
          rw [getattr_tokenizer H q _ d hown]
          simp only [ih ho.2]

/-- C130, negative part: before `tokenizer` is set (as in an object that `copy` or `pickle` is about to fill, jieba/posseg/__init__.py has no
`__reduce__`), asking for any attribute that is missing never ends with AttributeError: it recurses until the interpreter stops it,
whatever its limit.  Python itself asks such an object for `__setstate__`. -/
theorem C130_without_tokenizer (H : Heap) (o : Nat) (ho : H.isPos o = true) (h1 : H.find o "tokenizer" = none) (name : String)
    (h2 : (H.own o).get? name = none ∧ H.cls o name = none) (hn : name ≠ "cut_for_search" ∧ name ≠ "lcut_for_search" ∧ name ≠ "tokenize")
    (d : Nat) : getattr H d o name = .error .recursionError := by
  have key : ∀ d, getattr H d o "tokenizer" = .error .recursionError := by
    intro d
    induction d with
    | zero => rfl
    | succ d ih =>
      unfold getattr
      rw [h1, ho, ih]
      simp [refused]
  cases d with
  | zero => rfl
  | succ d =>
    unfold getattr
    rw [find_eq, h2.1, h2.2, ho, key]
    simp [Option.or, refused, hn]

/-- C130, negative part: a `POSTokenizer` made with another `POSTokenizer` loses the tags of user words: once it has taken over tags, the table it
looks at is the empty one it has put on the inner `POSTokenizer`, whatever table the tokenizer has now. -/
theorem C130_nested_tags (H : Heap) (t o q new : Nat) (ps : List Nat) (hc : Chain H t (o :: q :: ps)) (hoq : o ≠ q) (d : Nat) (hd : 1 ≤ d) :
    ∃ H', clearUserTags H d o new = .ok H' ∧
      ∀ tab d', 2 ≤ d' → t ≠ q → t ≠ o → getattr (setattr H' t "user_word_tag_tab" tab) d' o "tokenizer" = .ok q ∧
        getattr (setattr H' t "user_word_tag_tab" tab) d' q "user_word_tag_tab" = .ok new := by
  obtain ⟨d, rfl⟩ : ∃ e, d = e + 1 := ⟨d - 1, by omega⟩
  cases hc with
  | cons _ _ ho hown hrest =>
    have hown : (H.own o).get? "tokenizer" = some q := hown
    refine ⟨setattr H q "user_word_tag_tab" new, by unfold clearUserTags; rw [getattr_tokenizer H o q d hown], fun tab d' hd' htq hto => ?_⟩
    obtain ⟨d', rfl⟩ : ∃ e, d' = e + 1 := ⟨d' - 1, by omega⟩
    constructor
    · refine getattr_tokenizer _ o q d' ?_
      simp only [setattr, if_neg (Ne.symm hto), if_neg hoq]
      exact hown
    · unfold getattr
      rw [find_eq]
      simp only [setattr, if_neg (Ne.symm htq), if_true, PyDict.get?_set_self]
      rfl

/-- Objects 0 (`POSTokenizer`) and 1 (`Tokenizer`); methods and values are objects from 10 on. -/
def sampleHeap : Heap where
  isPos o := o == 0 || o == 2
  own o := if o = 0 then [("tokenizer", 1), ("word_tag_tab", 10)] else if o = 2 then [("tokenizer", 0)]
    else if o = 1 then tokOwn.map (fun n => (n, 11)) else []
  cls o n := if o = 0 ∨ o = 2 then (if n ∈ posClass then some 12 else none) else if o = 1 then (if n ∈ tokClass then some 13 else none) else none

example : Fresh sampleHeap 0 1 ∧ Chain sampleHeap 1 [2, 0] := by
  refine ⟨⟨rfl, rfl, by decide, fun n => ?_, by decide⟩, .cons _ _ rfl (by decide) (.cons _ _ rfl (by decide) (.nil rfl))⟩
  show PyDict.get? [("tokenizer", 1), ("word_tag_tab", 10)] n ≠ none ↔ n ∈ posOwn
  simp only [PyDict.get?, posOwn, List.mem_cons, List.not_mem_nil, or_false]
  by_cases h1 : n = "tokenizer"
  · simp [h1]
  · by_cases h2 : n = "word_tag_tab"
    · simp [h2]
    · simp [h1, h2, Ne.symm h1, Ne.symm h2]

example : getattr sampleHeap 3 0 "add_word" = .ok 13 ∧ getattr sampleHeap 3 0 "cut" = .ok 12 ∧ getattr sampleHeap 3 0 "FREQ" = .ok 11 ∧
    getattr sampleHeap 3 0 "tokenize" = .error .notImplemented ∧ getattr sampleHeap 3 0 "_lcut_for_search" = .ok 13 ∧
    getattr sampleHeap 9 2 "add_word" = .ok 13 ∧ getattr sampleHeap 9 2 "x" = .error .attributeError := by
  decide

end Jieba.Props
