import Verif.Props.Stability
import Verif.Props.Posseg
import Verif.Proofs.Parallel
/-!
# C115 — places that no dictionary word crosses
-/

namespace Jieba.Props
open Jieba Jieba.Spec

/-- No dictionary word stands across the place between `a` and `b`: those that begin in `a` end in `a`. -/
def Uncrossed (freq : Freq) (a b : Str) : Prop :=
  ∀ q, q <:+ a → q ≠ [] → ∀ w, DictWord freq w → w <+: q ++ b → w.length ≤ q.length

/-- Addition without rounding. -/
structure ExactAdd {F : Type _} [LinearOrder F] (A : Arith F) : Prop where
  assoc : ∀ x y z, A.add (A.add x y) z = A.add x (A.add y z)
  zero : ∀ x, A.add A.zero x = x
  left : ∀ x y z, x < y → A.add x z < A.add y z
  right : ∀ x y z, x < y → A.add z x < A.add z y

theorem realArith_exactAdd : ExactAdd realArith :=
  ⟨fun x y z => add_assoc x y z, fun x => zero_add x, fun _ _ z h => (add_lt_add_iff_right z).mpr h, fun _ _ z h => (add_lt_add_iff_left z).mpr h⟩

section
variable {F : Type _} [LinearOrder F] {A : Arith F}

theorem ExactAdd.mono (h : ExactAdd A) : MonoAdd A := by
  constructor
  · intro x y z hxy
    rcases hxy.eq_or_lt with rfl | hlt
    · exact le_rfl
    · exact (h.left _ _ z hlt).le
  · intro x y z hxy
    rcases hxy.eq_or_lt with rfl | hlt
    · exact le_rfl
    · exact (h.right _ _ z hlt).le

theorem segScore_append (hA : ExactAdd A) (freq : Freq) (total : Int) (p q : List Str) :
    segScore A freq total (p ++ q) = A.add (segScore A freq total p) (segScore A freq total q) := by
  induction p with
  | nil => exact (hA.zero _).symm
  | cons w p ih =>
    show A.add _ (segScore A freq total (p ++ q)) = _
    rw [ih, ← hA.assoc]
    rfl

theorem Uncrossed.suffix {freq : Freq} {a b q : Str} (h : Uncrossed freq a b) (hq : q <:+ a) : Uncrossed freq q b :=
  fun r hr => h r (hr.trans hq)

/-- Where no word crosses, the words that may come next are those of the first part. -/
theorem nextWord_append {freq : Freq} {a b : Str} (h : Uncrossed freq a b) (ha : a ≠ []) (w : Str) : NextWord freq (a ++ b) w ↔ NextWord freq a w := by
  have pre : ∀ v, DictWord freq v → (v <+: a ++ b ↔ v <+: a) := by
    intro v hv
    constructor
    · intro hp
      exact List.prefix_of_prefix_length_le hp (List.prefix_append a b) (h a (List.suffix_refl a) ha v hv hp)
    · exact fun hp => hp.trans (List.prefix_append a b)
  unfold NextWord
  refine and_congr_right fun hne => ?_
  constructor
  · rintro ⟨h1, h2 | ⟨h2, h3⟩⟩
    · exact ⟨(pre w h2).mp h1, Or.inl h2⟩
    · refine ⟨?_, Or.inr ⟨h2, fun v hv hp => h3 v hv (hp.trans (List.prefix_append a b))⟩⟩
      refine List.prefix_of_prefix_length_le h1 (List.prefix_append a b) ?_
      have := List.length_pos_of_ne_nil ha
      omega
  · rintro ⟨h1, h2 | ⟨h2, h3⟩⟩
    · exact ⟨(pre w h2).mpr h1, Or.inl h2⟩
    · exact ⟨h1.trans (List.prefix_append a b), Or.inr ⟨h2, fun v hv hp hd => h3 v hv ((pre v hd).mp hp) hd⟩⟩

theorem admissible_split {freq : Freq} (l : List Str) : ∀ {a b : Str}, Uncrossed freq a b → Admissible freq (a ++ b) l →
    ∃ l1 l2, l = l1 ++ l2 ∧ Admissible freq a l1 ∧ Admissible freq b l2 := by
  induction l with
  | nil =>
    intro a b _ hl
    obtain ⟨rfl, rfl⟩ := List.append_eq_nil_iff.mp (show a ++ b = [] from hl)
    exact ⟨[], [], rfl, rfl, rfl⟩
  | cons w l ih =>
    intro a b h hl
    by_cases ha : a = []
    · subst ha
      exact ⟨[], w :: l, rfl, rfl, hl⟩
    · obtain ⟨h1, h2⟩ := hl
      have h1' := (nextWord_append h ha w).mp h1
      rw [List.drop_append_of_le_length h1'.2.1.length_le] at h2
      obtain ⟨l1, l2, rfl, g1, g2⟩ := ih (h.suffix (List.drop_suffix _ _)) h2
      exact ⟨w :: l1, l2, rfl, ⟨h1', g1⟩, g2⟩

theorem isBest_le {freq : Freq} {total : Int} {s : Str} {p : List Str} (h : IsBest A freq total s p) (l : List Str) (hl : Admissible freq s l) :
    segScore A freq total l ≤ segScore A freq total p := by
  cases p with
  | nil =>
    obtain rfl : s = [] := h
    cases l with
    | nil => exact le_rfl
    | cons w l => exact absurd (List.prefix_nil.mp hl.1.2.1) hl.1.1
  | cons v p =>
    cases l with
    | nil =>
      obtain rfl : s = [] := hl
      exact absurd (List.prefix_nil.mp h.1.2.1) h.1.1
    | cons w l =>
      rcases h.2.2 w l hl with h | ⟨h, -⟩
      · exact h.le
      · exact h.le

/-- The best segmentations of the parts make the best segmentation of the whole. -/
theorem isBest_append (hA : ExactAdd A) {freq : Freq} {total : Int} {b : Str} {p2 : List Str} (h2 : IsBest A freq total b p2) (p1 : List Str) :
    ∀ {a : Str}, Uncrossed freq a b → IsBest A freq total a p1 → IsBest A freq total (a ++ b) (p1 ++ p2) := by
  induction p1 with
  | nil =>
    intro a _ h1
    obtain rfl : a = [] := h1
    exact h2
  | cons w p ih =>
    intro a h h1
    obtain ⟨n1, n2, n3⟩ := h1
    have ha : a ≠ [] := by
      rintro rfl
      exact n1.1 (List.prefix_nil.mp n1.2.1)
    refine ⟨(nextWord_append h ha w).mpr n1, ?_, ?_⟩
    · rw [List.drop_append_of_le_length n1.2.1.length_le]
      exact ih (h.suffix (List.drop_suffix _ _)) n2
    · intro w' ws' hadm
      obtain ⟨l1, l2, e, g1, g2⟩ := admissible_split _ h hadm
      cases l1 with
      | nil => exact absurd (show a = [] from g1) ha
      | cons x l1 =>
        simp only [List.cons_append, List.cons.injEq] at e
        obtain ⟨rfl, rfl⟩ := e
        have hle := isBest_le h2 l2 g2
        have e1 := segScore_append hA freq total (w' :: l1) l2
        have e2 := segScore_append hA freq total (w :: p) p2
        show segScore A freq total ((w' :: l1) ++ l2) < segScore A freq total ((w :: p) ++ p2) ∨
          segScore A freq total ((w' :: l1) ++ l2) = segScore A freq total ((w :: p) ++ p2) ∧ w'.length ≤ w.length
        rw [e1, e2]
        rcases n3 w' l1 g1 with hlt | ⟨heq, hlen⟩
        · left
          exact lt_of_lt_of_le (hA.left _ _ _ hlt) (hA.mono.right _ _ _ hle)
        · rw [heq]
          rcases hle.eq_or_lt with he | hlt
          · right; rw [he]; exact ⟨rfl, hlen⟩
          · left; exact hA.right _ _ _ hlt

end

theorem regrouped_append {single : Str → Prop} {f : List Str → List Str} {p1 t1 p2 t2 : List Str} (h1 : Regrouped single f p1 t1) (h2 : Regrouped single f p2 t2) :
    (∀ x y, p1.getLast? = some x → p2.head? = some y → ¬ (single x ∧ single y)) → Regrouped single f (p1 ++ p2) (t1 ++ t2) := by
  induction h1 with
  | nil => exact fun _ => h2
  | word w ps ts hw h ih =>
    intro hc
    refine .word w _ _ hw (ih fun x y hx hy => hc x y ?_ hy)
    rw [List.getLast?_cons, hx]; rfl
  | run r ps ts hr hs hh h ih =>
    intro hc
    rw [List.append_assoc, List.append_assoc]
    refine .run r _ _ hr hs ?_ (ih fun x y hx hy => hc x y ?_ hy)
    · intro w hw
      cases ps with
      | cons v ps => exact hh w hw
      | nil =>
        intro hsw
        exact hc (r.getLast hr) w (by simp [List.getLast?_eq_some_getLast hr]) hw ⟨hs _ (List.getLast_mem hr), hsw⟩
    · rw [List.getLast?_append, hx]; rfl

theorem regrouped_last {p t : List Str} (h : Regrouped IsLetter (fun r => [r.flatten]) p t) :
    ∀ x, t.getLast? = some x → (∃ c ∈ x, isAlnum c = false) → p.getLast? = some x := by
  induction h with
  | nil => intro x hx; cases hx
  | word w ps ts hw h ih =>
    intro x hx hc
    rw [List.getLast?_cons] at hx ⊢
    cases ht : ts.getLast? with
    | none =>
      rw [ht] at hx
      have : ts = [] := List.getLast?_eq_none_iff.mp ht
      subst this
      have hps : ps = [] := by
        cases h with
        | nil => rfl
      subst hps
      exact hx
    | some y =>
      rw [ht] at hx
      obtain rfl : y = x := by simpa using hx
      rw [ih y ht hc]; rfl
  | run r ps ts hr hs hh h ih =>
    intro x hx hc
    rw [List.getLast?_append] at hx
    cases ht : ts.getLast? with
    | none =>
      rw [ht] at hx
      obtain rfl : r.flatten = x := by simpa using hx
      obtain ⟨c, hcm, hca⟩ := hc
      obtain ⟨u, hu, hcu⟩ := List.mem_flatten.mp hcm
      obtain ⟨d, rfl, hd⟩ := hs u hu
      obtain rfl : c = d := by simpa using hcu
      rw [hca] at hd; cases hd
    | some y =>
      rw [ht] at hx
      obtain rfl : y = x := by simpa using hx
      rw [List.getLast?_append, ih y ht hc]; rfl

theorem regrouped_head {p t : List Str} (h : Regrouped IsLetter (fun r => [r.flatten]) p t) :
    ∀ x, t.head? = some x → (∃ c ∈ x, isAlnum c = false) → p.head? = some x := by
  cases h with
  | nil => intro x hx; cases hx
  | word w ps ts hw h => intro x hx _; exact hx
  | run r ps ts hr hs hh h =>
    intro x hx hc
    obtain rfl : r.flatten = x := by simpa using hx
    obtain ⟨c, hcm, hca⟩ := hc
    obtain ⟨u, hu, hcu⟩ := List.mem_flatten.mp hcm
    obtain ⟨d, rfl, hd⟩ := hs u hu
    obtain rfl : c = d := by simpa using hcu
    rw [hca] at hd; cases hd

/-- The text is cut into a part without word characters at its end, and a run of word characters. -/
theorem split_last_run (p : Nat → Bool) (a : Str) : ∃ a1 a2, a = a1 ++ a2 ∧ (∀ c ∈ a2, p c = true) ∧ ∀ x, a1.getLast? = some x → p x = false := by
  induction a using List.reverseRecOn with
  | nil => exact ⟨[], [], rfl, by simp, by simp⟩
  | append_singleton a c ih =>
    by_cases hc : p c = true
    · obtain ⟨a1, a2, rfl, h1, h2⟩ := ih
      refine ⟨a1, a2 ++ [c], by simp, ?_, h2⟩
      intro d hd
      rcases List.mem_append.mp hd with hd | hd
      · exact h1 d hd
      · simp at hd; subst hd; exact hc
    · exact ⟨a ++ [c], [], by simp, by simp, fun x hx => by simp at hx; subst hx; simpa using hc⟩

section
variable {F : Type _} [LinearOrder F]

/-- From runs of word characters to texts. -/
theorem local_of_runs (E : Env F) (hmm : Bool) (a b : Str) (hcr : ¬ (a.getLast? = some 0x0D ∧ b.head? = some 0x0A))
    (h : ∀ a1 a2 b1 b2, a = a1 ++ a2 → b = b1 ++ b2 → a2 ≠ [] → b1 ≠ [] → (∀ c ∈ a2, isWordCh c = true) → (∀ c ∈ b1, isWordCh c = true) →
      (∀ hm, cut E false hm a = Gen.andThen (cut E false hm a1) (cut E false hm a2)) → (∀ hm, cut E false hm b = Gen.andThen (cut E false hm b1) (cut E false hm b2)) →
      cut E false hmm (a2 ++ b1) = Gen.andThen (cut E false hmm a2) (cut E false hmm b1)) :
    cut E false hmm (a ++ b) = Gen.andThen (cut E false hmm a) (cut E false hmm b) := by
  obtain ⟨a1, a2, rfl, h1, h2⟩ := split_last_run isWordCh a
  have hb : b = b.takeWhile isWordCh ++ b.dropWhile isWordCh := (List.takeWhile_append_dropWhile).symm
  have h3 : ∀ c ∈ b.takeWhile isWordCh, isWordCh c = true := List.all_eq_true.mp List.all_takeWhile
  have h4 : ∀ y, (b.dropWhile isWordCh).head? = some y → isWordCh y = false := by
    intro y hy
    have := List.head?_dropWhile_not isWordCh b
    rw [hy] at this
    simpa using this
  generalize b.takeWhile isWordCh = b1 at hb h3
  generalize b.dropWhile isWordCh = b2 at hb h4
  subst hb
  have lf : isWordCh 0x0A = false := by decide
  have cr : isWordCh 0x0D = false := by decide
  -- the inner boundaries are clean
  have cleanL : ∀ r, a2 ≠ [] → CleanBoundary isWordCh a1 (a2 ++ r) := by
    intro r hne x y hx hy
    have hx' := h2 x hx
    obtain ⟨c, l, rfl⟩ := List.exists_cons_of_ne_nil hne
    obtain rfl : c = y := by simpa using hy
    have := h1 c (by simp)
    refine ⟨fun hh => by rw [hx'] at hh; simp at hh, fun hh => ?_⟩
    rw [hh.2, lf] at this; cases this
  have cleanR : ∀ r, b1 ≠ [] → CleanBoundary isWordCh (r ++ b1) b2 := by
    intro r hne x y hx hy
    have hy' := h4 y hy
    rw [List.getLast?_append, List.getLast?_eq_some_getLast hne] at hx
    obtain rfl : b1.getLast hne = x := by simpa using hx
    have := h3 _ (List.getLast_mem hne)
    refine ⟨fun hh => by rw [hy'] at hh; simp at hh, fun hh => ?_⟩
    rw [hh.1, cr] at this; cases this
  by_cases ha : a2 = []
  · subst ha
    refine C15_cut_local E hmm _ _ (fun x y hx hy => ⟨fun hh => ?_, fun hh => hcr ⟨by rw [hx, hh.1], by rw [hy, hh.2]⟩⟩)
    rw [List.append_nil] at hx
    rw [h2 x hx] at hh; simp at hh
  by_cases hb : b1 = []
  · subst hb
    refine C15_cut_local E hmm _ _ (fun x y hx hy => ⟨fun hh => ?_, fun hh => hcr ⟨by rw [hx, hh.1], by rw [hy, hh.2]⟩⟩)
    rw [List.nil_append] at hy
    rw [h4 y hy] at hh; simp at hh
  have ea : ∀ hm, cut E false hm (a1 ++ a2) = Gen.andThen (cut E false hm a1) (cut E false hm a2) := fun hm =>
    C15_cut_local E hm a1 a2 (by simpa using cleanL [] ha)
  have eb : ∀ hm, cut E false hm (b1 ++ b2) = Gen.andThen (cut E false hm b1) (cut E false hm b2) := fun hm =>
    C15_cut_local E hm b1 b2 (by simpa using cleanR [] hb)
  have e := h a1 a2 b1 b2 rfl rfl ha hb h1 h3 ea eb
  rw [ea, eb, List.append_assoc, C15_cut_local E hmm a1 (a2 ++ (b1 ++ b2)) (cleanL _ ha), ← List.append_assoc a2,
    C15_cut_local E hmm (a2 ++ b1) b2 (cleanR _ hb), e, Gen.andThen_assoc, Gen.andThen_assoc]

theorem uncrossed_mid {freq : Freq} {a1 a2 b1 b2 : Str} (h : Uncrossed freq (a1 ++ a2) (b1 ++ b2)) : Uncrossed freq a2 b1 := by
  intro q hq hne w hd hp
  refine h q (hq.trans (List.suffix_append a1 a2)) hne w hd (hp.trans ?_)
  rw [← List.append_assoc]
  exact List.prefix_append _ _

theorem last_letter {A : Arith F} {freq : Freq} {total : Int} {a : Str} {p : List Str} (h : IsBest A freq total a p) {x : Str} (hx : p.getLast? = some x) (hl : IsLetter x) :
    ∃ c, a.getLast? = some c ∧ isAlnum c = true := by
  obtain ⟨c, rfl, hc⟩ := hl
  refine ⟨c, ?_, hc⟩
  rw [← admissible_flatten _ _ _ (isBest_admissible _ _ _ _ _ h)]
  obtain ⟨l, rfl⟩ : ∃ l, p = l ++ [[c]] := ⟨p.dropLast, by
    have hne : p ≠ [] := by rintro rfl; cases hx
    rw [List.getLast?_eq_some_getLast hne] at hx
    have := List.dropLast_append_getLast hne
    rw [Option.some.inj hx] at this
    exact this.symm⟩
  simp

theorem head_letter {A : Arith F} {freq : Freq} {total : Int} {a : Str} {p : List Str} (h : IsBest A freq total a p) {x : Str} (hx : p.head? = some x) (hl : IsLetter x) :
    ∃ c, a.head? = some c ∧ isAlnum c = true := by
  obtain ⟨c, rfl, hc⟩ := hl
  refine ⟨c, ?_, hc⟩
  rw [← admissible_flatten _ _ _ (isBest_admissible _ _ _ _ _ h)]
  cases p with
  | nil => cases hx
  | cons y p => obtain rfl : y = [c] := by simpa using hx
                rfl

/-- C115: a place that no dictionary word crosses cuts the text in two: without HMM, what comes before and after it are segmented as if they were alone
(unless it separates two letters or digits, or CR and LF). -/
theorem C115_cut (E : Env F) (hA : ExactAdd E.A) (hp : PrefixClosed E.freq) (hn : NonNeg E.freq) (ht : 0 < E.total) (a b : Str) (h : Uncrossed E.freq a b)
    (hl : ¬ ∃ x y, a.getLast? = some x ∧ b.head? = some y ∧ isAlnum x = true ∧ isAlnum y = true) (hcr : ¬ (a.getLast? = some 0x0D ∧ b.head? = some 0x0A)) :
    cut E false false (a ++ b) = Gen.andThen (cut E false false a) (cut E false false b) := by
  refine local_of_runs E false a b hcr ?_
  rintro a1 a2 b1 b2 rfl rfl ha hb h1 h2 - -
  obtain ⟨p1, t1, i1, c1, r1⟩ := C05_cut_follows_best_path E hA.mono hp hn ht a2 ha h1
  obtain ⟨p2, t2, i2, c2, r2⟩ := C05_cut_follows_best_path E hA.mono hp hn ht b1 hb h2
  obtain ⟨p, t, i, c, r⟩ := C05_cut_follows_best_path E hA.mono hp hn ht (a2 ++ b1) (by simp [ha]) (by
    intro x hx; rcases List.mem_append.mp hx with hx | hx; exacts [h1 x hx, h2 x hx])
  have e := C05_best_path_unique _ _ _ _ _ _ i (isBest_append hA i2 p1 (uncrossed_mid h) i1)
  subst e
  rw [c, c1, c2, Gen.ok_andThen_ok]
  congr 1
  refine regrouped_unique (regrouped_append r1 r2 ?_) _ r
  rintro x y hx hy ⟨lx, ly⟩
  obtain ⟨u, hu, hu'⟩ := last_letter i1 hx lx
  obtain ⟨v, hv, hv'⟩ := head_letter i2 hy ly
  refine hl ⟨u, v, ?_, ?_, hu', hv'⟩
  · rw [List.getLast?_append, hu]; rfl
  · rw [List.head?_append, hv]; rfl

/-- A token that is a word of two or more characters, not only letters and digits. -/
def LongWord (x : Str) : Prop := 2 ≤ x.length ∧ ∃ c ∈ x, isAlnum c = false

/-- C115: with HMM that holds if a long word of the segmentation without HMM is next to the place. -/
theorem C115_cut_hmm (E : Env F) (hA : ExactAdd E.A) (hp : PrefixClosed E.freq) (hn : NonNeg E.freq) (ht : 0 < E.total) (a b : Str) (h : Uncrossed E.freq a b)
    (hl : (∃ x, (cut E false false a).out.getLast? = some x ∧ LongWord x) ∨ ∃ y, (cut E false false b).out.head? = some y ∧ LongWord y)
    (hcr : ¬ (a.getLast? = some 0x0D ∧ b.head? = some 0x0A)) :
    cut E false true (a ++ b) = Gen.andThen (cut E false true a) (cut E false true b) := by
  refine local_of_runs E true a b hcr ?_
  rintro a1 a2 b1 b2 rfl rfl ha hb h1 h2 ea eb
  obtain ⟨p1, t1, i1, c1, r1⟩ := hmm_regrouped E hA.mono hp hn ht a2 ha h1
  obtain ⟨p2, t2, i2, c2, r2⟩ := hmm_regrouped E hA.mono hp hn ht b1 hb h2
  obtain ⟨p, t, i, c, r⟩ := hmm_regrouped E hA.mono hp hn ht (a2 ++ b1) (by simp [ha]) (by
    intro x hx; rcases List.mem_append.mp hx with hx | hx; exacts [h1 x hx, h2 x hx])
  have e := C05_best_path_unique _ _ _ _ _ _ i (isBest_append hA i2 p1 (uncrossed_mid h) i1)
  subst e
  rw [c, c1, c2, Gen.ok_andThen_ok]
  congr 1
  refine regrouped_unique (regrouped_append r1 r2 ?_) _ r
  rintro x y hx hy ⟨lx, ly⟩
  -- the tokens without HMM
  obtain ⟨q1, u1, j1, d1, s1⟩ := C05_cut_follows_best_path E hA.mono hp hn ht a2 ha h1
  obtain ⟨q2, u2, j2, d2, s2⟩ := C05_cut_follows_best_path E hA.mono hp hn ht b1 hb h2
  obtain rfl := C05_best_path_unique _ _ _ _ _ _ i1 j1
  obtain rfl := C05_best_path_unique _ _ _ _ _ _ i2 j2
  have ne : ∀ {s : Str} {q u : List Str}, s ≠ [] → cut E false false s = Gen.ok u → u ≠ [] := by
    intro s q u hs hc hu
    have herr : (cut E false false s).err = none := by rw [hc]; rfl
    have := (cut_lossless E false s).complete herr
    rw [hc, hu] at this
    exact hs (by simpa using this.symm)
  rcases hl with ⟨z, hz, hz1, hz2⟩ | ⟨z, hz, hz1, hz2⟩
  · rw [ea false, Gen.andThen_out_of_ok _ _ (C06_cut_never_raises E hn ht false false a1), d1, List.getLast?_append] at hz
    have hu := ne (q := p1) ha d1
    simp only [Gen.ok, List.getLast?_eq_some_getLast hu, Option.some_or] at hz
    have := regrouped_last s1 z (by rw [List.getLast?_eq_some_getLast hu]; exact hz) hz2
    rw [hx] at this
    obtain rfl := Option.some.inj this
    omega
  · rw [eb false, Gen.andThen_out_of_ok _ _ (C06_cut_never_raises E hn ht false false b1), d2, List.head?_append] at hz
    have hu := ne (q := p2) hb d2
    obtain ⟨u, us, rfl⟩ := List.exists_cons_of_ne_nil hu
    simp only [Gen.ok, List.head?_cons, Option.some_or] at hz
    have := regrouped_head s2 z hz hz2
    rw [hy] at this
    obtain rfl := Option.some.inj this
    omega

/-- C115: the same for `cut_for_search`. -/
theorem C115_search (E : Env F) (hA : ExactAdd E.A) (hp : PrefixClosed E.freq) (hn : NonNeg E.freq) (ht : 0 < E.total) (a b : Str) (h : Uncrossed E.freq a b)
    (hl : ¬ ∃ x y, a.getLast? = some x ∧ b.head? = some y ∧ isAlnum x = true ∧ isAlnum y = true) (hcr : ¬ (a.getLast? = some 0x0D ∧ b.head? = some 0x0A)) :
    cutForSearch E false (a ++ b) = Gen.andThen (cutForSearch E false a) (cutForSearch E false b) := by
  unfold cutForSearch
  rw [C115_cut E hA hp hn ht a b h hl hcr, mapOut_andThen]

/-- C115: `cut_for_search` with HMM. -/
theorem C115_search_hmm (E : Env F) (hA : ExactAdd E.A) (hp : PrefixClosed E.freq) (hn : NonNeg E.freq) (ht : 0 < E.total) (a b : Str) (h : Uncrossed E.freq a b)
    (hl : (∃ x, (cut E false false a).out.getLast? = some x ∧ LongWord x) ∨ ∃ y, (cut E false false b).out.head? = some y ∧ LongWord y)
    (hcr : ¬ (a.getLast? = some 0x0D ∧ b.head? = some 0x0A)) :
    cutForSearch E true (a ++ b) = Gen.andThen (cutForSearch E true a) (cutForSearch E true b) := by
  unfold cutForSearch
  rw [C115_cut_hmm E hA hp hn ht a b h hl hcr, mapOut_andThen]

/-- C115: the words of `posseg.cut` without HMM, of texts without '%' and '-'. -/
theorem C115_posseg (E : Pos.PEnv F) (hA : ExactAdd E.A) (hp : PrefixClosed E.freq) (hn : NonNeg E.freq) (ht : 0 < E.total) (a b : Str) (h : Uncrossed E.freq a b)
    (hl : ¬ ∃ x y, a.getLast? = some x ∧ b.head? = some y ∧ isAlnum x = true ∧ isAlnum y = true) (hcr : ¬ (a.getLast? = some 0x0D ∧ b.head? = some 0x0A))
    (h1 : (0x25 : Ch) ∉ a ++ b) (h2 : (0x2D : Ch) ∉ a ++ b) :
    (Pos.cut E false (a ++ b)).out.map Prod.fst = (Pos.cut E false a).out.map Prod.fst ++ (Pos.cut E false b).out.map Prod.fst := by
  let T : FinalSeg.Tables F := ⟨fun _ => E.A.zero, fun _ _ => none, fun _ _ => none, E.A.zero⟩
  simp only [List.mem_append, not_or] at h1 h2
  rw [(C46_posseg_words_are_cut E T [] (a ++ b) (by simp [h1]) (by simp [h2])).1, (C46_posseg_words_are_cut E T [] a h1.1 h2.1).1,
    (C46_posseg_words_are_cut E T [] b h1.2 h2.2).1, C115_cut ⟨E.A, E.freq, E.total, T, []⟩ hA hp hn ht a b h hl hcr, Gen.andThen,
    C06_cut_never_raises ⟨E.A, E.freq, E.total, T, []⟩ hn ht false false a]

end

/-! ## Examples -/

/-- 北京, 大学 and their characters; no word 京大. -/
def crossFreq : Freq := [(lit ['北'], 3), (lit ['北', '京'], 5), (lit ['京'], 2), (lit ['大'], 4), (lit ['大', '学'], 6)]

/-- No word of the dictionary that is a part of the text is longer than the rest of the first part. -/
theorem uncrossed_of_mem {freq : Freq} (hd : freq.keys.Nodup) {a b : Str}
    (h : ∀ kv ∈ freq, kv.2 ≠ 0 → ∀ i ∈ List.range a.length, kv.1 <+: a.drop i ++ b → kv.1.length ≤ (a.drop i).length) : Uncrossed freq a b := by
  rintro q ⟨r, rfl⟩ hne w ⟨x, hx, hx0⟩ hp
  have := h (w, x) ((PyDict.get?_eq_some_iff_mem _ hd _ _).mp hx) hx0 r.length (List.mem_range.mpr (by
    have := List.length_pos_of_ne_nil hne
    rw [List.length_append]; omega))
  rw [List.drop_left] at this
  exact this hp

example : Uncrossed crossFreq (lit ['北', '京']) (lit ['大', '学']) := uncrossed_of_mem (by decide) (by decide)

theorem intArith_exactAdd : ExactAdd intArith :=
  ⟨fun x y z => Int.add_assoc x y z, fun x => Int.zero_add x, fun _ _ _ h => by show _ + _ < _ + _; omega, fun _ _ _ h => by show _ + _ < _ + _; omega⟩

/-- The hypotheses of `C115_cut_hmm`. -/
example : (∃ x, (cut ⟨intArith, crossFreq, 20, sampleTables, []⟩ false false (lit ['北', '京'])).out.getLast? = some x ∧ LongWord x) ∧ NonNeg crossFreq :=
  ⟨⟨lit ['北', '京'], by decide +kernel, by decide, 0x5317, by decide, by decide⟩, fun v x hv =>
    (show ∀ kv ∈ crossFreq, 0 ≤ kv.2 by decide) (v, x) ((PyDict.get?_eq_some_iff_mem _ (by decide) _ _).mp hv)⟩

/-- C115: between letters it is not so: there the letters are put together. -/
theorem C115_letters : Uncrossed crossFreq (lit ['a']) (lit ['b']) ∧
    cut ⟨intArith, crossFreq, 20, sampleTables, []⟩ false false (lit ['a', 'b']) = Gen.ok [lit ['a', 'b']] ∧
    cut ⟨intArith, crossFreq, 20, sampleTables, []⟩ false false (lit ['a']) = Gen.ok [lit ['a']] ∧
    cut ⟨intArith, crossFreq, 20, sampleTables, []⟩ false false (lit ['b']) = Gen.ok [lit ['b']] :=
  ⟨uncrossed_of_mem (by decide) (by decide), by decide +kernel, by decide +kernel, by decide +kernel⟩

/-- C115: with HMM it is not so between single characters: the HMM makes a word of them. -/
theorem C115_hmm_joins : Uncrossed [(lit ['人'], 1)] (lit ['中']) (lit ['文']) ∧
    cut ⟨intArith, [(lit ['人'], 1)], 20, sampleTables, []⟩ false true (lit ['中', '文']) = Gen.ok [lit ['中', '文']] ∧
    cut ⟨intArith, [(lit ['人'], 1)], 20, sampleTables, []⟩ false true (lit ['中']) = Gen.ok [lit ['中']] ∧
    cut ⟨intArith, [(lit ['人'], 1)], 20, sampleTables, []⟩ false true (lit ['文']) = Gen.ok [lit ['文']] :=
  ⟨uncrossed_of_mem (by decide) (by decide), by decide +kernel, by decide +kernel, by decide +kernel⟩

end Jieba.Props
