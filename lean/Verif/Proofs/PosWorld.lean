import Verif.Model.PosWorld
import Verif.Proofs.World
import Verif.Proofs.PosTagged
/-!
# Helper lemmas: POS tokenizers and their tag tables
-/

set_option linter.unusedSectionVars false

namespace Jieba.Pos
open Jieba Jieba.Spec

variable {F : Type _} [LinearOrder F]

theorem get?_update {K V : Type _} [DecidableEq K] (d e : PyDict K V) (he : (PyDict.keys e).Nodup) (k : K) :
    (PyDict.update d e).get? k = match e.get? k with
      | some v => some v
      | none => d.get? k := by
  unfold PyDict.update
  induction e generalizing d with
  | nil => rfl
  | cons kv e ih =>
    obtain ⟨k', v⟩ := kv
    simp only [PyDict.keys, List.map_cons, List.nodup_cons] at he
    rw [List.foldl_cons, ih _ he.2]
    have hc : PyDict.get? ((k', v) :: e) k = if k' = k then some v else PyDict.get? e k := rfl
    rw [hc]
    by_cases h : k' = k
    · subst h
      rw [if_pos rfl]
      have : PyDict.get? e k' = none := by
        cases hg : PyDict.get? e k' with
        | none => rfl
        | some x =>
          exfalso
          exact he.1 ((PyDict.mem_keys_iff e k').mpr ((PyDict.has_iff e k').mpr ⟨x, hg⟩))
      rw [this]
      exact PyDict.get?_set_self _ _ _
    · rw [if_neg h]
      rw [PyDict.get?_set_of_ne _ _ _ _ h]

theorem setPos_self (p : PWorld) (k : Nat) (x : PosTok) : (p.setPos k x).pos k = x := by simp [PWorld.setPos]
theorem setPos_ne (p : PWorld) (k j : Nat) (x : PosTok) (h : j ≠ k) : (p.setPos k x).pos j = p.pos j := by
  simp [PWorld.setPos, h]

/-- `moveTags` keeps everything but the pending tags of that tokenizer and the table. -/
theorem moveTags_spec (p : PWorld) (k : Nat) :
    ((moveTags p k).pos k).tok = (p.pos k).tok ∧
    (∀ j, j ≠ k → (moveTags p k).pos j = p.pos j) ∧
    ((moveTags p k).pos k).tab = PyDict.update (p.pos k).tab (p.w.tok (p.pos k).tok).tags ∧
    (moveTags p k).w = p.w.setTok (p.pos k).tok { p.w.tok (p.pos k).tok with tags := [] } := by
  unfold moveTags
  simp only []
  split
  · next h =>
    refine ⟨rfl, fun _ _ => rfl, by rw [h]; rfl, ?_⟩
    have : (fun u => if u = (p.pos k).tok then { p.w.tok (p.pos k).tok with tags := [] } else p.w.tok u) = p.w.tok := by
      funext u
      split
      · next hu => subst hu; rw [← h]
      · rfl
    unfold World.setTok
    rw [this]
  · exact ⟨by rw [setPos_self], fun j hj => setPos_ne _ _ _ _ hj, by rw [setPos_self], rfl⟩

theorem moveTags_initialized (p : PWorld) (k t : Nat) : ((moveTags p k).w.tok t).initialized = (p.w.tok t).initialized := by
  rw [(moveTags_spec p k).2.2.2, setTok_tok]
  split
  · next h => rw [h]
  · rfl

theorem cutBlocksPW_of_init (P : PSys F) (p : PWorld) (k : Nat) (hm io : Bool) (blks : List Str)
    (h : (p.w.tok (p.pos k).tok).initialized = true) :
    cutBlocksPW P k hm io p blks = (p, Gen.forEach blks (fun blk =>
      if reHanInternal.isMatch blk then cutBlock (p.env P k) hm blk else Gen.ok (cutSkip blk))) := by
  induction blks with
  | nil => rfl
  | cons b blks ih =>
    unfold cutBlocksPW
    rw [Gen.forEach_cons]
    by_cases hb : reHanInternal.isMatch b = true
    · rw [if_pos hb, if_pos hb, checkInit_of_init _ _ _ _ h]
      simp only []
      cases he : (cutBlock (p.env P k) hm b).err with
      | some e => simp [Gen.andThen, he]
      | none => simp only []; rw [ih]
    · rw [if_neg hb, if_neg hb, ih]

theorem cutPW_of_init (P : PSys F) (p : PWorld) (k : Nat) (hm io : Bool) (s : PyText)
    (h : (p.w.tok (p.pos k).tok).initialized = true) :
    cutPW P p k hm s io = (moveTags p k, cut ((moveTags p k).env P k) hm (strdecode P.sys.gbk s)) := by
  unfold cutPW
  rw [cutBlocksPW_of_init _ _ _ _ _ _ (by rw [(moveTags_spec p k).1, moveTags_initialized]; exact h)]
  rfl

/-- Cutting changes the world only by initialising. -/
theorem cutBlocksPW_inv (P : PSys F) (J : World → Prop) (t : Nat) (io : Bool)
    (hJ : ∀ w, J w → J (checkInit P.sys w t io).1) (k : Nat) (hm : Bool) (blks : List Str) (p : PWorld)
    (hk : (p.pos k).tok = t) (h : J p.w) :
    J (cutBlocksPW P k hm io p blks).1.w ∧ (cutBlocksPW P k hm io p blks).1.pos = p.pos := by
  induction blks generalizing p with
  | nil => exact ⟨h, rfl⟩
  | cons b blks ih =>
    unfold cutBlocksPW
    split
    · have hj := hJ p.w h
      rw [hk]
      generalize checkInit P.sys p.w t io = r at hj ⊢
      obtain ⟨w, r⟩ := r
      cases r with
      | error e => exact ⟨hj, rfl⟩
      | ok u =>
        simp only []
        split
        · exact ⟨hj, rfl⟩
        · exact ih { p with w := w } hk hj
    · exact ih p hk h

end Jieba.Pos
