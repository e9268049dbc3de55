import Verif.Model.Paddle
import Verif.Spec.Labels
import Verif.Proofs.Basic
/-!
# The neural network mode: helper lemmas
-/

namespace Jieba.Paddle
open Jieba Jieba.Spec

theorem begins_iff (a b : Str) : begins a b = decide (FirstOfWord a b) := by
  rw [Bool.eq_iff_iff, decide_eq_true_iff]
  unfold begins FirstOfWord
  simp

/-- What happens after the loop. -/
def finish (r : List Str × List Str × Str) : Except PyErr (List Str × List Str) :=
  .ok (if r.1.length < r.2.1.length then r.1 ++ [r.2.2] else r.1, r.2.1)

theorem parseSentence_eq (sent tags : List Str) : parseSentence sent tags = parseLoop sent tags [] [] [] [] >>= finish := rfl

theorem labelOf_append {g h : List (Str × Str)} (hg : g ≠ []) : labelOf (g ++ h) = labelOf g := by
  cases g with
  | nil => exact absurd rfl hg
  | cons p g => rfl

theorem textOf_append (g h : List (Str × Str)) : textOf (g ++ h) = textOf g ++ textOf h := by simp [textOf]

theorem parseLoop_spec (sent tags : List Str) (hs : ∀ w ∈ sent, w ≠ []) (hl : tags.length ≤ sent.length)
    (ag : Str × Str) (hag : ag.1 ≠ []) (g : List (Str × Str)) (gs : List (List (Str × Str))) :
    (parseLoop sent tags ag.2 (textOf (ag :: g).reverse) (gs.reverse.map textOf)
        (gs.reverse.map labelOf ++ [labelOf (ag :: g).reverse]) >>= finish) =
      .ok ((List.splitBy.loop (fun p q => !decide (FirstOfWord p.2 q.2)) (sent.zip tags) ag g gs).map textOf,
        (List.splitBy.loop (fun p q => !decide (FirstOfWord p.2 q.2)) (sent.zip tags) ag g gs).map labelOf) := by
  induction tags generalizing sent ag g gs with
  | nil =>
    have : parseLoop sent [] ag.2 (textOf (ag :: g).reverse) (gs.reverse.map textOf)
        (gs.reverse.map labelOf ++ [labelOf (ag :: g).reverse]) =
      .ok (gs.reverse.map textOf, gs.reverse.map labelOf ++ [labelOf (ag :: g).reverse], textOf (ag :: g).reverse) := by
      cases sent <;> rfl
    rw [this]
    simp [bind, Except.bind, finish, List.splitBy.loop]
  | cons tag tags ih =>
    cases sent with
    | nil => simp at hl
    | cons w sent =>
      have hw : w ≠ [] := hs w (by simp)
      have hne : textOf (ag :: g).reverse ≠ [] := by
        simp [textOf, hag]
      have ih' := fun g gs => ih sent (fun x hx => hs x (by simp [hx])) (by simpa using hl) (w, tag) hw g gs
      rw [parseLoop, if_neg hne, begins_iff]
      simp only [List.zip_cons_cons, List.splitBy.loop]
      by_cases hf : FirstOfWord ag.2 tag
      · simp only [hf, decide_true, if_true, Bool.not_true]
        have := ih' [] ((ag :: g).reverse :: gs)
        simp only [List.reverse_cons, List.map_append, List.map_cons, List.map_nil, List.reverse_nil, List.nil_append] at this
        simp only [List.reverse_cons]
        rw [← this]
        simp [textOf, labelOf, tagHead]
      · simp only [hf, decide_false, Bool.not_false, Bool.false_eq_true, if_false]
        have := ih' (ag :: g) gs
        rw [← this]
        rw [List.reverse_cons (a := (w, tag)), textOf_append, labelOf_append (by simp)]
        simp [textOf]

theorem parseSentence_spec (sent tags : List Str) (hs : ∀ w ∈ sent, w ≠ []) (hl : tags.length ≤ sent.length) :
    parseSentence sent tags = .ok ((labelledWords (sent.zip tags)).map textOf, (labelledWords (sent.zip tags)).map labelOf) := by
  rw [parseSentence_eq]
  cases tags with
  | nil => cases sent <;> rfl
  | cons tag tags =>
    cases sent with
    | nil => simp at hl
    | cons w sent =>
      have := parseLoop_spec sent tags (fun x hx => hs x (by simp [hx])) (by simpa using hl) (w, tag) (hs w (by simp)) [] []
      rw [parseLoop, if_pos rfl]
      simpa [textOf, labelOf, tagHead, labelledWords, List.splitBy] using this

theorem textOf_labelledWords (sent tags : List Str) :
    ((labelledWords (sent.zip tags)).map textOf).flatten = (sent.take tags.length).flatten := by
  have h : ((labelledWords (sent.zip tags)).map textOf).flatten = textOf (labelledWords (sent.zip tags)).flatten := by
    generalize labelledWords (sent.zip tags) = L
    induction L with
    | nil => rfl
    | cons g L ih => simp only [List.map_cons, List.flatten_cons, ih, textOf_append]
  rw [h, labelledWords, List.flatten_splitBy, textOf]
  congr 1
  clear h
  induction sent generalizing tags with
  | nil => simp
  | cons w sent ih => cases tags with
    | nil => simp
    | cons t tags => simp [ih]

theorem textOf_ne_nil (sent tags : List Str) (hs : ∀ w ∈ sent, w ≠ []) :
    ∀ u ∈ (labelledWords (sent.zip tags)).map textOf, u ≠ [] := by
  intro u hu
  obtain ⟨g, hg, rfl⟩ := List.mem_map.mp hu
  have hne := List.ne_nil_of_mem_splitBy hg
  cases g with
  | nil => exact absurd rfl hne
  | cons p g =>
    have hp : p ∈ sent.zip tags := by
      have : p ∈ (labelledWords (sent.zip tags)).flatten := List.mem_flatten.mpr ⟨_, hg, by simp⟩
      rwa [labelledWords, List.flatten_splitBy] at this
    have := hs p.1 (List.of_mem_zip hp).1
    simp [textOf, this]

/-- The tables of words are inverse to each other. -/
def Inverse (d : PyDict Str Int) (e : PyDict Str Str) : Prop := ∀ w n, d.get? w = some n → e.get? (strInt n) = some w

theorem loadKV_inverse (lines : List Str)
    (hc : ∀ line ∈ lines, ∀ a b, splitOn1 0x09 (stripBy (· == 0x0A) line) = [a, b] → ∀ n, pyInt a = some n → strInt n = a)
    (d d' : PyDict Str Int) (e e' : PyDict Str Str) (h : Inverse d e) (hd : loadKV true pyInt lines d = .ok d')
    (he : loadKV false some lines e = .ok e') : Inverse d' e' := by
  induction lines generalizing d e with
  | nil => simp only [loadKV, Except.ok.injEq] at hd he; subst hd; subst he; exact h
  | cons line lines ih =>
    have ih' := fun d e => ih (fun l hl => hc l (by simp [hl])) d e
    have hc' := hc line (by simp)
    unfold loadKV at hd he
    generalize splitOn1 0x09 (stripBy (· == 0x0A) line) = terms at hd he hc'
    match terms, hd, he, hc' with
    | [a, b], hd, he, hc' =>
      simp only [if_true, Bool.false_eq_true, if_false] at hd he
      split at hd
      · simp at hd
      · split at he
        · simp at he
        · rename_i hea
          cases hp : pyInt a with
          | none => rw [hp] at hd; simp at hd
          | some n =>
            rw [hp] at hd
            refine ih' _ _ ?_ hd he
            have ha := hc' a b rfl n hp
            intro w m hm
            rw [PyDict.get?_set] at hm ⊢
            by_cases hw : b = w
            · rw [if_pos hw] at hm
              simp only [Option.some.injEq] at hm
              subst hm; rw [if_pos ha.symm, hw]
            · rw [if_neg hw] at hm
              have := h w m hm
              rw [if_neg, this]
              intro e1
              rw [← e1] at this
              exact hea ((PyDict.has_iff _ _).mpr ⟨w, this⟩)
    | [], hd, he, _ => exact ih' _ _ h hd he
    | [_], hd, he, _ => exact ih' _ _ h hd he
    | _ :: _ :: _ :: _, hd, he, _ => exact ih' _ _ h hd he

/-- A character as it comes out of the tables. -/
def shown (D : Dataset) (c : Ch) : Ch := if D.word2id.has [c] then c else 0x20

theorem decode_encode (D : Dataset) (h : Inverse D.word2id D.id2word) (s : Str) (ids : List Int)
    (hi : wordToIds D s = .ok ids) : ids.length = s.length ∧ decodeWords D ids = .ok (s.map (fun c => [shown D c])) := by
  induction s generalizing ids with
  | nil => simp only [wordToIds, Except.ok.injEq] at hi; subst hi; exact ⟨rfl, rfl⟩
  | cons c s ih =>
    unfold wordToIds at hi
    cases hx : index D.word2id (if D.word2id.has [c] then [c] else oov) with
    | error e => rw [hx] at hi; simp [bind, Except.bind] at hi
    | ok i =>
      cases hy : wordToIds D s with
      | error e => rw [hx, hy] at hi; simp [bind, Except.bind] at hi
      | ok is =>
        rw [hx, hy] at hi
        simp only [bind, Except.bind, Except.ok.injEq] at hi
        subst hi
        obtain ⟨h1, h2⟩ := ih is hy
        refine ⟨by simp [h1], ?_⟩
        have hg : D.word2id.get? (if D.word2id.has [c] then [c] else oov) = some i := by
          unfold index at hx
          split at hx
          · rename_i v hv; simp only [Except.ok.injEq] at hx; rw [hv, hx]
          · simp at hx
        have hg' := h _ _ hg
        unfold decodeWords
        rw [h2]
        unfold index
        rw [hg']
        simp only [bind, Except.bind, List.map_cons]
        by_cases hk : D.word2id.has [c] = true
        · simp [hk, shown, oov]
        · simp [hk, shown]

theorem decodeLabels_length (D : Dataset) (l : List Int) (ts : List Str) (h : decodeLabels D l = .ok ts) : ts.length = l.length := by
  induction l generalizing ts with
  | nil => simp only [decodeLabels, Except.ok.injEq] at h; subst h; rfl
  | cons i l ih =>
    unfold decodeLabels at h
    cases hx : index D.id2label (strInt i) with
    | error e => rw [hx] at h; simp [bind, Except.bind] at h
    | ok t =>
      cases hy : decodeLabels D l with
      | error e => rw [hx, hy] at h; simp [bind, Except.bind] at h
      | ok ts' =>
        rw [hx, hy] at h
        simp only [bind, Except.bind, Except.ok.injEq] at h
        subst h
        simp [ih ts' hy]

/-- `get_result`, when it returns. -/
theorem getResult_ok (D : Dataset) (h : Inverse D.word2id D.id2word) (net : List Int → Except PyErr (List Int)) (s : Str)
    (ws ts : List Str) (hr : getResult D net s = .ok (ws, ts)) :
    ∃ ids labels tags, getVars D s = .ok ids ∧ net ids = .ok labels ∧ decodeLabels D (labels.take ids.length) = .ok tags ∧
      tags.length = min ids.length labels.length ∧ ids.length = (stripBy isSpace s).length ∧
      ws = (labelledWords (((stripBy isSpace s).map (fun c => [shown D c])).zip tags)).map textOf ∧
      ts = (labelledWords (((stripBy isSpace s).map (fun c => [shown D c])).zip tags)).map labelOf := by
  unfold getResult at hr
  cases hv : getVars D s with
  | error e => rw [hv] at hr; simp [bind, Except.bind] at hr
  | ok ids =>
    cases hn : net ids with
    | error e => rw [hv] at hr; simp [bind, Except.bind, hn] at hr
    | ok labels =>
      rw [hv] at hr
      simp only [bind, Except.bind, hn, parseResult, parseBatch, slice, List.drop_zero, List.take_length] at hr
      obtain ⟨h1, h2⟩ := decode_encode D h _ ids hv
      rw [h2] at hr
      cases hl : decodeLabels D (labels.take ids.length) with
      | error e => rw [hl] at hr; simp at hr
      | ok tags =>
        rw [hl] at hr
        have h3 := decodeLabels_length D _ _ hl
        rw [List.length_take] at h3
        simp only [] at hr
        rw [parseSentence_spec _ _ (by simp) (by simp; omega)] at hr
        simp only [Except.ok.injEq, Prod.mk.injEq] at hr
        exact ⟨ids, labels, tags, rfl, hn, hl, h3, h1, hr.1.symm, hr.2.symm⟩

end Jieba.Paddle
