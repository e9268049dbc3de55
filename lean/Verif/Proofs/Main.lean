import Verif.Model.Main
import Verif.Spec.Lines
import Verif.Proofs.WorldLossless
/-!
# Lemmas about the command line
-/

namespace Jieba.Main
open Jieba Jieba.Spec Jieba.Pos

/-! ## Lines -/

theorem rstrip_snoc (acc : Str) (h : ∀ c ∈ acc, c ≠ 0x0D ∧ c ≠ 0x0A) :
    rstripBy (fun c => c == 0x0D || c == 0x0A) acc = acc := by
  unfold rstripBy
  have : acc.reverse.dropWhile (fun c => c == 0x0D || c == 0x0A) = acc.reverse := by
    cases hr : acc.reverse with
    | nil => rfl
    | cons c r =>
      have := h c (List.mem_reverse.mp (hr ▸ List.mem_cons_self))
      rw [List.dropWhile_cons_of_neg (by simp [this.1, this.2])]
  rw [this, List.reverse_reverse]

theorem universal_cr (s : Str) (h : ∀ t, s ≠ 0x0A :: t) : universalNewlines (0x0D :: s) = 0x0A :: universalNewlines s := by
  rw [universalNewlines]; exact h

theorem universal_other (c : Ch) (s : Str) (h : c ≠ 0x0D) : universalNewlines (c :: s) = c :: universalNewlines s := by
  rw [universalNewlines]
  · exact fun t h' => absurd h' h
  · exact fun h' => absurd h' h

theorem rstrip_newline (acc : Str) (h : ∀ c ∈ acc, c ≠ 0x0D ∧ c ≠ 0x0A) :
    rstripBy (fun c => c == 0x0D || c == 0x0A) (acc ++ [0x0A]) = acc := by
  unfold rstripBy
  rw [List.reverse_append, List.reverse_singleton, List.singleton_append, List.dropWhile_cons_of_pos (by simp)]
  exact rstrip_snoc acc h

theorem lines_go (s acc : Str) (h : ∀ c ∈ acc, c ≠ 0x0D ∧ c ≠ 0x0A) :
    (fileLines.go (universalNewlines s) acc).map (rstripBy (fun c => c == 0x0D || c == 0x0A)) = textLines.go s acc := by
  fun_induction textLines.go s acc with
  | case1 => simp [universalNewlines, fileLines.go]
  | case2 acc hacc => simp [universalNewlines, fileLines.go, hacc, rstrip_snoc acc h]
  | case3 s acc ih => simp only [universalNewlines, fileLines.go, if_true, List.map_cons, rstrip_newline acc h]; rw [ih (by simp)]
  | case4 c s acc hne hc ih =>
    have : universalNewlines (c :: s) = 0x0A :: universalNewlines s := by
      rcases hc with rfl | rfl
      · simp [universalNewlines]
      · exact universal_cr s (fun t ht => hne t rfl ht)
    rw [this]
    simp only [fileLines.go, if_true, List.map_cons, rstrip_newline acc h]; rw [ih (by simp)]
  | case5 c s acc hne hc ih =>
    have h1 : c ≠ 0x0A := fun e => hc (Or.inl e)
    have h2 : c ≠ 0x0D := fun e => hc (Or.inr e)
    have : universalNewlines (c :: s) = c :: universalNewlines s := universal_other c s h2
    rw [this]
    simp only [fileLines.go, if_neg h1]
    exact ih (by intro d hd; rcases List.mem_append.mp hd with hd | hd; exact h d hd; simp at hd; subst hd; exact ⟨h2, h1⟩)

theorem readLines_strip (text : Str) :
    (readLines text).map (rstripBy (fun c => c == 0x0D || c == 0x0A)) = textLines text := lines_go text [] (by simp)

theorem textLines_go_line (l : Str) (hl : ∀ c ∈ l, c ≠ 0x0D ∧ c ≠ 0x0A) (s acc : Str) :
    textLines.go (l ++ 0x0A :: s) acc = (acc ++ l) :: textLines.go s [] := by
  induction l generalizing acc with
  | nil => simp [textLines.go]
  | cons c l ih =>
    have hc := hl c (by simp)
    rw [List.cons_append, textLines.go]
    · rw [if_neg (by simp [hc.1, hc.2]), ih (fun d hd => hl d (by simp [hd]))]
      simp
    · intro x h1 h2; exact hc.1 h1

theorem textLines_stdout (g : Gen Str) (h : ∀ l ∈ g.out, ∀ c ∈ l, c ≠ 0x0D ∧ c ≠ 0x0A) : textLines (stdout g) = g.out := by
  unfold stdout textLines
  obtain ⟨out, err⟩ := g
  simp only [] at h ⊢
  induction out with
  | nil => rfl
  | cons l ls ih =>
    rw [List.map_cons, List.flatten_cons, List.append_assoc, List.singleton_append, textLines_go_line l (h l (by simp)),
      ih (fun l hl => h l (by simp [hl]))]
    rfl

/-! ## Delimiters -/

theorem splitAround_token (d t rest acc : Str) (hd : d ≠ []) (ht : ¬ d <:+: t ++ d.dropLast) :
    splitAround d (t ++ d ++ rest) acc = (acc ++ t) :: splitAround d rest [] := by
  induction t generalizing acc with
  | nil =>
    cases d with
    | nil => exact absurd rfl hd
    | cons c d =>
      rw [List.nil_append, List.cons_append, splitAround]
      rw [if_pos (by rw [List.isPrefixOf_iff_prefix]; exact ⟨rest, by simp⟩)]
      simp
  | cons c t ih =>
    rw [List.cons_append, List.cons_append, splitAround]
    have hnp : ¬ d.isPrefixOf (c :: (t ++ d ++ rest)) = true := by
      rw [List.isPrefixOf_iff_prefix]
      intro hp
      apply ht
      have : d <+: c :: t ++ d.dropLast := by
        have h2 : (c :: t ++ d.dropLast) <+: c :: (t ++ d ++ rest) := by
          rw [List.append_assoc, ← List.cons_append]
          refine (List.prefix_append_right_inj _).mpr ((List.dropLast_prefix d).trans (List.prefix_append d rest))
        refine List.prefix_of_prefix_length_le hp h2 ?_
        simp only [List.cons_append, List.length_cons, List.length_append, List.length_dropLast]; omega
      exact this.isInfix
    rw [if_neg hnp, ih _ (fun h => ht (h.trans ⟨[c], [], by simp⟩))]
    simp

theorem splitAround_last (d t acc : Str) (ht : ¬ d <:+: t) : splitAround d t acc = [acc ++ t] := by
  induction t generalizing acc with
  | nil => simp [splitAround]
  | cons c t ih =>
    rw [splitAround]
    rw [if_neg (by rw [List.isPrefixOf_iff_prefix]; exact fun h => ht h.isInfix), ih _ (fun h => ht (h.trans ⟨[c], [], by simp⟩))]
    simp

/-- Splitting at the delimiter undoes joining with it, if the delimiter cannot be found too early. -/
theorem splitAround_intercalate (d : Str) (hd : d ≠ []) (ts : List Str) (h : ∀ t ∈ ts, ¬ d <:+: t ++ d.dropLast) (hne : ts ≠ []) :
    splitAround d (d.intercalate ts) [] = ts := by
  induction ts with
  | nil => exact absurd rfl hne
  | cons t ts ih =>
    have ht := h t (by simp)
    cases ts with
    | nil =>
      rw [List.intercalate_singleton, splitAround_last d t [] (fun h' => ht (h'.trans ⟨[], d.dropLast, by simp⟩))]
      rfl
    | cons u us =>
      rw [List.intercalate_cons_cons, splitAround_token d t _ [] hd ht, ih (fun t ht => h t (by simp [ht])) (by simp)]
      rfl

/-- ' / ' -/
def slash : Str := [0x20, 0x2F, 0x20]

theorem slash_ok_space : ¬ slash <:+: [0x20] ++ slash.dropLast := by decide

theorem infix_count {d t : Str} (c : Ch) (h : d <:+: t) : d.count c ≤ t.count c := by
  obtain ⟨a, b, rfl⟩ := h
  simp only [List.count_append]; omega

theorem slash_ok (t : Str) (h : 0x20 ∉ t) : ¬ slash <:+: t ++ slash.dropLast := by
  intro hi
  have := infix_count 0x20 hi
  rw [List.count_append, List.count_eq_zero.mpr h] at this
  revert this; decide

theorem disjoint_ok (d t : Str) (hd : d ≠ []) (h : ∀ c ∈ d, c ∉ t) : ¬ d <:+: t ++ d.dropLast := by
  rintro ⟨a, b, hab⟩
  have hlen : (a ++ d ++ b).length = (t ++ d.dropLast).length := by rw [hab]
  have hdl : 0 < d.length := List.length_pos_iff.mpr hd
  simp only [List.length_append, List.length_dropLast] at hlen
  have ha : a.length < t.length := by omega
  have h1 : (t ++ d.dropLast)[a.length]? = some (t[a.length]) := by
    rw [List.getElem?_append_left ha]; exact List.getElem?_eq_getElem ha
  obtain ⟨c, d', rfl⟩ := List.exists_cons_of_ne_nil hd
  rw [← hab, List.append_assoc, List.getElem?_append_right (le_refl _)] at h1
  simp at h1
  exact h c (by simp) (h1 ▸ List.getElem_mem _)

/-! ## Tokens -/

variable {F : Type _} [LinearOrder F]

/-- A token of accurate mode: word characters only, one other character, or CR LF. -/
def Shape (p : Ch → Bool) (t : Str) : Prop :=
  (∀ c ∈ t, p c = true) ∨ (∃ c, t = [c] ∧ p c = false) ∨ t = [0x0D, 0x0A]

theorem charTokens_shape (p : Ch → Bool) (s : Str) (h : ∀ c ∈ s, p c = false) : ∀ t ∈ charTokens s, Shape p t := by
  fun_induction charTokens s with
  | case1 s ih =>
    intro t ht
    rcases List.mem_cons.mp ht with rfl | ht
    · exact Or.inr (Or.inr rfl)
    · exact ih (fun c hc => h c (by simp [hc])) t ht
  | case2 c s _ ih =>
    intro t ht
    rcases List.mem_cons.mp ht with rfl | ht
    · exact Or.inr (Or.inl ⟨c, rfl, h c (by simp)⟩)
    · exact ih (fun c hc => h c (by simp [hc])) t ht
  | case3 => simp

theorem lossless_mem {g : Gen Str} {s : Str} (h : Lossless g s) {t : Str} (ht : t ∈ g.out) {c : Ch} (hc : c ∈ t) : c ∈ s := by
  obtain ⟨r, hr⟩ := h.isPrefix
  rw [← hr]
  exact List.mem_append_left _ (List.mem_flatten.mpr ⟨t, ht, hc⟩)

theorem cutBlocksW_shape (S : Sys F) (t : Nat) (hm io : Bool) (blks : List Str)
    (hu : ∀ b ∈ blks, b ≠ [] → (∀ c ∈ b, isWordCh c = true) ∨ (∀ c ∈ b, isWordCh c = false)) (w : World) :
    ∀ x ∈ (cutBlocksW S t false hm io w blks).2.out, Shape isWordCh x := by
  induction blks generalizing w with
  | nil => simp [cutBlocksW, Gen.ok]
  | cons b blks ih =>
    have ih := ih (fun b hb => hu b (List.mem_cons_of_mem _ hb))
    unfold cutBlocksW
    by_cases hb : b = []
    · rw [if_pos hb]; exact ih w
    · rw [if_neg hb]
      have hub := hu b List.mem_cons_self hb
      by_cases hm' : reHanDefault.isMatch b = true
      · rw [if_pos hm']
        have hw : ∀ c ∈ b, isWordCh c = true := by
          rcases hub with h | h
          · exact h
          · cases b with
            | nil => exact absurd rfl hb
            | cons c b => simp only [reHanDefault, isMatch_plus, h c (by simp)] at hm'; exact Bool.noConfusion hm'
        obtain ⟨⟨w', r⟩, hc⟩ : ∃ x, checkInit S w t io = x := ⟨_, rfl⟩
        rw [hc]
        cases r with
        | error e => simp [Gen.raise]
        | ok u =>
          simp only []
          have hg : Lossless (cutBlock (w'.env S t) false hm b) b := by
            cases hm
            · exact cutDAGNoHMM_lossless _ _ _ _
            · exact cutDAG_lossless _ _ _ _ (fun s _ => hmm_lossless _ s) _
          have hs : ∀ x ∈ (cutBlock (w'.env S t) false hm b).out, Shape isWordCh x :=
            fun x hx => Or.inl (fun c hc => hw c (lossless_mem hg hx hc))
          cases he : (cutBlock (w'.env S t) false hm b).err with
          | some e => simp only []; exact hs
          | none =>
            simp only []
            unfold Gen.andThen
            rw [he]
            intro x hx
            rcases List.mem_append.mp hx with hx | hx
            · exact hs x hx
            · exact ih w' x hx
      · rw [if_neg hm', cutSkip_false]
        have hw : ∀ c ∈ b, isWordCh c = false := by
          rcases hub with h | h
          · cases b with
            | nil => exact absurd rfl hb
            | cons c b => simp only [reHanDefault, isMatch_plus, h c (by simp)] at hm'; exact absurd trivial hm'
          · exact h
        intro x hx
        simp only [Gen.andThen, Gen.ok] at hx
        rcases List.mem_append.mp hx with hx | hx
        · exact charTokens_shape _ b hw x hx
        · exact ih w x hx

theorem cutW_shape (S : Sys F) (w : World) (t : Nat) (hm : Bool) (s : PyText) (io : Bool) :
    ∀ x ∈ (cutW S w t false hm s io).2.out, Shape isWordCh x :=
  cutBlocksW_shape S t hm io _ (fun b hb hne => split_uniform isWordCh _ b hb hne) w

/-! ## The loop -/

theorem printLoop_rel (P : PSys F) (a : Args) (io : Bool) (R : Str → Str → Prop)
    (hR : ∀ p l, (cutfunc P p a l io).2.err = none → R l (a.delimiter.intercalate (cutfunc P p a l io).2.out))
    (lns : List Str) (p : PWorld) :
    List.Forall₂ R ((lns.map (rstripBy (fun c => c == 0x0D || c == 0x0A))).take (printLoop P a io p lns).2.out.length)
        (printLoop P a io p lns).2.out ∧
      ((printLoop P a io p lns).2.err = none → (printLoop P a io p lns).2.out.length = lns.length) := by
  induction lns generalizing p with
  | nil => simp [printLoop, Gen.ok]
  | cons ln lns ih =>
    unfold printLoop
    simp only []
    have h := hR p (rstripBy (fun c => c == 0x0D || c == 0x0A) ln)
    generalize cutfunc P p a (rstripBy (fun c => c == 0x0D || c == 0x0A) ln) io = r at h ⊢
    obtain ⟨p', g⟩ := r
    cases he : g.err with
    | some e => simp [Gen.raise]
    | none =>
      simp only [Gen.andThen, Gen.ok]
      obtain ⟨h1, h2⟩ := ih p'
      refine ⟨?_, ?_⟩
      · simp only [List.cons_append, List.nil_append, List.length_cons, List.map_cons, List.take_succ_cons]
        exact .cons (h he) h1
      · intro h3; simp [h2 h3]

end Jieba.Main
