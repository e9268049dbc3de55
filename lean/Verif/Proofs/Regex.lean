import Verif.Model.Regex
import Verif.Proofs.Basic
/-!
# Lemmas about the regex engine and `re.split`
-/

namespace Jieba

theorem drop_takeWhile_length (p : Ch → Bool) (s : Str) : s.drop (s.takeWhile p).length = s.dropWhile p := by
  induction s with
  | nil => rfl
  | cons c s ih => by_cases h : p c = true <;> simp [h, ih]

theorem take_takeWhile_length (p : Ch → Bool) (s : Str) : s.take (s.takeWhile p).length = s.takeWhile p := by
  induction s with
  | nil => rfl
  | cons c s ih => by_cases h : p c = true <;> simp [h, ih]

theorem of_mem_takeWhile (p : Ch → Bool) (s : Str) (c : Ch) (h : c ∈ s.takeWhile p) : p c = true := by
  induction s with
  | nil => simp at h
  | cons d s ih =>
    by_cases hd : p d = true
    · simp [hd] at h
      rcases h with rfl | h
      · exact hd
      · exact ih h
    · simp [hd] at h

theorem dropWhile_length_le (p : Ch → Bool) (s : Str) : (s.dropWhile p).length ≤ s.length :=
  (List.dropWhile_suffix p).length_le

theorem head_dropWhile (p : Ch → Bool) (s : Str) (d : Ch) (h : (s.dropWhile p).head? = some d) : p d = false := by
  induction s with
  | nil => simp at h
  | cons c s ih =>
    by_cases hc : p c = true
    · simp [hc] at h; exact ih h
    · simp [hc] at h; subst h; simpa using hc

namespace RE

/-- Patterns without capturing groups. -/
def noGroups : RE → Bool
  | cls _ | plus _ | plusLazy _ | bos | eos => true
  | seq a b | alt a b => noGroups a && noGroups b
  | opt a => noGroups a
  | grp _ _ => false

theorem caps_nil_of_noGroups (r : RE) (h : r.noGroups = true) (st : Bool) (s : Str) :
    ∀ x ∈ r.run st s, x.2 = [] := by
  induction r generalizing st s with
  | cls p => intro x; unfold run; cases s with
      | nil => simp
      | cons c s => simp only; split <;> simp +contextual
  | plus p => intro x; simp [run]; rintro i - rfl; rfl
  | plusLazy p => intro x; simp [run]; rintro i - rfl; rfl
  | seq a b iha ihb =>
    simp [noGroups] at h
    intro x hx
    simp only [run, List.mem_flatMap, List.mem_map] at hx
    obtain ⟨y, hy, z, hz, rfl⟩ := hx
    simp [iha h.1 _ _ y hy, ihb h.2 _ _ z hz]
  | alt a b iha ihb =>
    simp [noGroups] at h
    intro x hx
    simp only [run, List.mem_append] at hx
    rcases hx with hx | hx
    · exact iha h.1 _ _ x hx
    · exact ihb h.2 _ _ x hx
  | opt a iha =>
    intro x hx
    simp only [run, List.mem_append, List.mem_singleton] at hx
    rcases hx with hx | rfl
    · exact iha h _ _ x hx
    · rfl
  | grp n a => simp [noGroups] at h
  | bos => intro x; unfold run; split <;> simp +contextual
  | eos => intro x; unfold run; split <;> simp +contextual

theorem run_len_le (r : RE) (st : Bool) (s : Str) : ∀ x ∈ r.run st s, x.1 ≤ s.length := by
  have tw : ∀ (p : Ch → Bool) (s : Str), (s.takeWhile p).length ≤ s.length := fun p s =>
    (List.takeWhile_prefix p).length_le
  induction r generalizing st s with
  | cls p => intro x; unfold run; cases s with
      | nil => simp
      | cons c s => simp only; split <;> simp +contextual
  | plus p => intro x; simp [run]; rintro i hi rfl; have := tw p s; simp; omega
  | plusLazy p => intro x; simp [run]; rintro i hi rfl; have := tw p s; simp; omega
  | seq a b iha ihb =>
    intro x hx
    simp only [run, List.mem_flatMap, List.mem_map] at hx
    obtain ⟨y, hy, z, hz, rfl⟩ := hx
    have h1 := iha _ _ y hy
    have h2 := ihb _ _ z hz
    simp at h2; simp; omega
  | alt a b iha ihb =>
    intro x hx
    simp only [run, List.mem_append] at hx
    rcases hx with hx | hx
    · exact iha _ _ x hx
    · exact ihb _ _ x hx
  | opt a iha =>
    intro x hx
    simp only [run, List.mem_append, List.mem_singleton] at hx
    rcases hx with hx | rfl
    · exact iha _ _ x hx
    · simp
  | grp n a iha =>
    intro x hx
    simp only [run, List.mem_map] at hx
    obtain ⟨y, hy, rfl⟩ := hx
    exact iha _ _ y hy
  | bos => intro x; unfold run; split <;> simp +contextual
  | eos => intro x; unfold run; split <;> simp +contextual

/-- The matches of a group are those of its body, with the matched text captured. -/
theorem run_grp (n : Nat) (a : RE) (h : a.noGroups = true) (st : Bool) (s : Str) :
    (grp n a).run st s = (a.run st s).map (fun x => (x.1, [(n, s.take x.1)])) := by
  simp only [run]
  apply List.map_congr_left
  intro x hx
  simp [caps_nil_of_noGroups a h st s x hx]

/-- `re.split` with the whole pattern captured loses nothing: scanner version. -/
theorem splitGo_flatten (a : RE) (h : a.noGroups = true) (fuel : Nat) (st : Bool) (acc s : Str)
    (hf : s.length < fuel) : ((grp 1 a).splitGo fuel st acc s).flatten = acc ++ s := by
  induction fuel generalizing st acc s with
  | zero => omega
  | succ fuel ih =>
    cases s with
    | nil => simp [splitGo]
    | cons c s =>
      unfold splitGo
      rw [run_grp 1 a h]
      split
      · rename_i n caps heq
        rw [List.head?_map] at heq
        cases hh : (a.run st (c :: s)).head? with
        | none => rw [hh] at heq; simp at heq
        | some x =>
          rw [hh] at heq
          simp at heq
          obtain ⟨h1, h2⟩ := heq
          subst h2
          simp only [group, List.find?_cons, beq_self_eq_true, Option.map_some, Option.getD_some,
            List.flatten_cons]
          simp only [List.length_cons] at hf
          rw [ih _ _ _ (by simp; omega), h1, List.nil_append, List.take_append_drop]
      · simp only [List.length_cons] at hf
        rw [ih _ _ _ (by omega)]; simp

/-- `''.join(re.split("(..)", s)) == s`. -/
theorem split_flatten (a : RE) (h : a.noGroups = true) (s : Str) : ((grp 1 a).split s).flatten = s := by
  unfold split; rw [splitGo_flatten a h _ _ _ _ (by omega)]; rfl

end RE

/-! ## Maximal runs -/

/-- Maximal runs of characters that agree on `p`. -/
def chunks (p : Ch → Bool) : Str → List Str
  | [] => []
  | c :: s =>
    match chunks p s with
    | [] => [[c]]
    | [] :: bs => [c] :: bs
    | (d :: b) :: bs => if p c = p d then (c :: d :: b) :: bs else [c] :: (d :: b) :: bs

theorem chunks_ne_nil (p : Ch → Bool) (s : Str) : ∀ b ∈ chunks p s, b ≠ [] := by
  induction s with
  | nil => simp [chunks]
  | cons c s ih =>
    unfold chunks
    split
    · simp
    · rename_i bs heq
      rw [heq] at ih
      exact absurd rfl (ih [] (by simp))
    · rename_i d b bs heq
      rw [heq] at ih
      split
      · intro b' hb'
        rcases List.mem_cons.mp hb' with h | h
        · rw [h]; simp
        · exact ih b' (by simp [h])
      · intro b' hb'
        rcases List.mem_cons.mp hb' with h | h
        · rw [h]; simp
        · exact ih b' h

theorem chunks_cons (p : Ch → Bool) (c : Ch) (s : Str) :
    (s = [] ∧ chunks p (c :: s) = [[c]]) ∨
    ∃ d b bs, chunks p s = (d :: b) :: bs ∧
      chunks p (c :: s) = if p c = p d then (c :: d :: b) :: bs else [c] :: (d :: b) :: bs := by
  cases hs : chunks p s with
  | nil =>
    left
    cases s with
    | nil => simp [chunks]
    | cons d s =>
      exfalso
      revert hs; unfold chunks; split <;> simp; split <;> simp
  | cons b bs =>
    right
    cases b with
    | nil => exact absurd rfl (chunks_ne_nil p s [] (by simp [hs]))
    | cons d b => exact ⟨d, b, bs, rfl, by rw [chunks, hs]⟩

theorem chunks_flatten (p : Ch → Bool) (s : Str) : (chunks p s).flatten = s := by
  induction s with
  | nil => rfl
  | cons c s ih =>
    rcases chunks_cons p c s with ⟨rfl, h⟩ | ⟨d, b, bs, h1, h2⟩
    · rw [h]; rfl
    · rw [h2]; rw [h1] at ih; split <;> simp at ih ⊢ <;> exact ih

/-- The first run starts with the first character. -/
theorem chunks_head (p : Ch → Bool) (s : Str) (d : Ch) (b : Str) (bs : List Str)
    (h : chunks p s = (d :: b) :: bs) : s.head? = some d := by
  have := chunks_flatten p s
  rw [h] at this; rw [← this]; rfl

/-- All characters of a run agree on `p`. -/
theorem chunks_uniform (p : Ch → Bool) (s : Str) :
    ∀ b ∈ chunks p s, (∀ c ∈ b, p c = true) ∨ (∀ c ∈ b, p c = false) := by
  induction s with
  | nil => simp [chunks]
  | cons c s ih =>
    rcases chunks_cons p c s with ⟨rfl, h⟩ | ⟨d, b, bs, h1, h2⟩
    · rw [h]; intro b hb; simp at hb; subst hb
      cases hc : p c
      · right; simp [hc]
      · left; simp [hc]
    · rw [h1] at ih
      rw [h2]
      split
      · rename_i hpc
        intro b' hb'
        rcases List.mem_cons.mp hb' with rfl | hb'
        · rcases ih (d :: b) (by simp) with h | h
          · left; intro x hx
            rcases List.mem_cons.mp hx with rfl | hx
            · rw [hpc]; exact h d (by simp)
            · exact h x hx
          · right; intro x hx
            rcases List.mem_cons.mp hx with rfl | hx
            · rw [hpc]; exact h d (by simp)
            · exact h x hx
        · exact ih b' (by simp [hb'])
      · intro b' hb'
        rcases List.mem_cons.mp hb' with rfl | hb'
        · cases hc : p c
          · right; simp [hc]
          · left; simp [hc]
        · exact ih b' hb'

/-- A uniform non-empty prefix followed by something that starts differently is the first run. -/
theorem chunks_uniform_append (p : Ch → Bool) (v : Bool) (u rest : Str) (hu : u ≠ []) (hv : ∀ c ∈ u, p c = v)
    (hr : ∀ d, rest.head? = some d → p d = !v) : chunks p (u ++ rest) = u :: chunks p rest := by
  induction u with
  | nil => exact absurd rfl hu
  | cons c u ih =>
    cases u with
    | nil =>
      rcases chunks_cons p c rest with ⟨rfl, h⟩ | ⟨d, b, bs, h1, h2⟩
      · simp [chunks] at h ⊢
      · have hd := hr d (chunks_head p rest d b bs h1)
        have hc := hv c (by simp)
        show chunks p (c :: rest) = _
        rw [h2, h1, if_neg (by rw [hc, hd]; cases v <;> simp)]
    | cons c' u =>
      have ih' := ih (by simp) (fun x hx => hv x (by simp [hx]))
      have h1 := hv c (by simp)
      have h2 := hv c' (by simp)
      show chunks p (c :: ((c' :: u) ++ rest)) = _
      rw [chunks, ih']
      simp only
      rw [if_pos (by rw [h1, h2])]

/-- Runs of a concatenation, when the boundary separates characters of different kind. -/
theorem chunks_append (p : Ch → Bool) (a b : Str)
    (h : ∀ x y, a.getLast? = some x → b.head? = some y → p x ≠ p y) :
    chunks p (a ++ b) = chunks p a ++ chunks p b := by
  induction a with
  | nil => rfl
  | cons c a ih =>
    cases a with
    | nil =>
      cases b with
      | nil => simp [chunks]
      | cons y b =>
        have := h c y (by simp) (by simp)
        have := chunks_uniform_append p (p c) [c] (y :: b) (by simp) (by simp)
          (by intro d hd; simp at hd; subst hd; revert this; cases p c <;> cases p y <;> simp)
        rw [this]; simp [chunks]
    | cons c' a =>
      have ih' := ih (by intro x y hx hy; exact h x y (by simpa using hx) hy)
      rcases chunks_cons p c (c' :: a) with ⟨h', _⟩ | ⟨d, bb, bs, h1, h2⟩
      · simp at h'
      · rw [h2]
        show chunks p (c :: ((c' :: a) ++ b)) = _
        rw [chunks, ih', h1]
        simp only [List.cons_append]
        split <;> rfl

theorem chunks_of_uniform (p : Ch → Bool) (u : Str) (hu : u ≠ []) (v : Bool) (hv : ∀ c ∈ u, p c = v) :
    chunks p u = [u] := by
  have := chunks_uniform_append p v u [] hu hv (by simp)
  simpa [chunks] using this

/-! ## `re.split` for `([class]+)` -/

theorem run_plus_head (p : Ch → Bool) (st : Bool) (c : Ch) (s : Str) :
    ((RE.grp 1 (.plus p)).run st (c :: s)).head? =
      if p c then some (((c :: s).takeWhile p).length, [(1, (c :: s).takeWhile p)]) else none := by
  rw [RE.run_grp 1 (.plus p) rfl]
  by_cases h : p c = true
  · simp only [RE.run, h, if_true, List.takeWhile_cons, List.length_cons, List.range_succ, List.reverse_append,
      List.reverse_cons, List.reverse_nil, List.nil_append, List.map_cons,
      List.cons_append, List.head?_cons, List.take_succ_cons]
    rw [take_takeWhile_length]
  · simp [RE.run, h]

theorem splitGo_plus_chunks (p : Ch → Bool) (fuel : Nat) (st : Bool) (acc s : Str) (hf : s.length < fuel)
    (hacc : ∀ c ∈ acc, p c = false) :
    ((RE.grp 1 (.plus p)).splitGo fuel st acc s).filter (fun x => x ≠ []) = chunks p (acc ++ s) := by
  induction fuel generalizing st acc s with
  | zero => omega
  | succ fuel ih =>
    cases s with
    | nil =>
      simp only [RE.splitGo, List.append_nil]
      by_cases ha : acc = []
      · subst ha; simp [chunks]
      · rw [chunks_of_uniform p acc ha false hacc]; simp [ha]
    | cons c s =>
      simp only [List.length_cons] at hf
      unfold RE.splitGo
      rw [run_plus_head]
      by_cases h : p c = true
      · simp only [h, if_true, List.takeWhile_cons, List.length_cons]
        have hd : (c :: s).drop ((s.takeWhile p).length + 1) = s.dropWhile p := by
          rw [List.drop_succ_cons, drop_takeWhile_length]
        rw [hd]
        have hlen : (s.dropWhile p).length ≤ s.length := dropWhile_length_le p s
        have ih' := ih false [] (s.dropWhile p) (by omega) (by simp)
        simp only [RE.group, List.find?_cons, beq_self_eq_true, Option.map_some, Option.getD_some]
        have e1 : chunks p (c :: s) = (c :: s.takeWhile p) :: chunks p (s.dropWhile p) := by
          have := chunks_uniform_append p true (c :: s.takeWhile p) (s.dropWhile p) (by simp)
            (by intro x hx; rcases List.mem_cons.mp hx with rfl | hx
                · exact h
                · exact of_mem_takeWhile p s x hx)
            (by intro d hd'
                have := head_dropWhile p s d hd'
                simpa using this)
          rw [← this]; simp
        simp only [List.nil_append] at ih'
        by_cases ha : acc = []
        · subst ha
          rw [List.filter_cons_of_neg (by simp), List.filter_cons_of_pos (by simp), ih', List.nil_append, e1]
        · have e2 := chunks_uniform_append p false acc (c :: s) ha hacc (by simp [h])
          rw [e2, e1]
          rw [List.filter_cons_of_pos (by simpa using ha), List.filter_cons_of_pos (by simp), ih']
      · simp only [h, Bool.false_eq_true, if_false]
        rw [ih false (acc ++ [c]) s (by omega) (by
          intro x hx; rcases List.mem_append.mp hx with hx | hx
          · exact hacc x hx
          · simp at hx; subst hx; simpa using h)]
        simp

/-- The non-empty pieces of `re.split("([class]+)", s)` are the maximal runs. -/
theorem split_plus_chunks (p : Ch → Bool) (s : Str) :
    ((RE.grp 1 (.plus p)).split s).filter (fun x => x ≠ []) = chunks p s := by
  unfold RE.split
  rw [splitGo_plus_chunks p _ _ _ _ (by omega) (by simp)]; rfl

/-- A loop over `re.split` pieces that does nothing for empty pieces is a loop over the maximal runs. -/
theorem forEach_split_plus {β} (p : Ch → Bool) (s : Str) (f : Str → Gen β) (hf : f [] = Gen.ok []) :
    Gen.forEach ((RE.grp 1 (.plus p)).split s) f = Gen.forEach (chunks p s) f := by
  rw [← split_plus_chunks]
  generalize (RE.grp 1 (.plus p)).split s = l
  induction l with
  | nil => rfl
  | cons a l ih =>
    by_cases ha : a = []
    · subst ha; simp [hf, ih]
    · simp [ha, ih]

/-- `re.match("([class]+)", blk)` looks at the first character only. -/
theorem isMatch_plus (p : Ch → Bool) (n : Nat) (s : Str) :
    (RE.grp n (.plus p)).isMatch s = (match s with | [] => false | c :: _ => p c) := by
  unfold RE.isMatch RE.pmatch
  rw [RE.run_grp n (.plus p) rfl]
  cases s with
  | nil => rfl
  | cons c s =>
    by_cases h : p c = true
    · simp [RE.run, h, List.range_succ]
    · simp [RE.run, h]

theorem isMatch_cls (p : Ch → Bool) (s : Str) :
    (RE.cls p).isMatch s = (match s with | [] => false | c :: _ => p c) := by
  cases s with
  | nil => rfl
  | cons c s => by_cases h : p c = true <;> simp [RE.isMatch, RE.pmatch, RE.run, h]

theorem isMatch_plus' (p : Ch → Bool) (s : Str) :
    (RE.plus p).isMatch s = (match s with | [] => false | c :: _ => p c) := by
  cases s with
  | nil => rfl
  | cons c s => by_cases h : p c = true <;> simp [RE.isMatch, RE.pmatch, RE.run, h, List.range_succ]

end Jieba
