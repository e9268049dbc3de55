import Verif.Props.Uncrossed
import Verif.Props.FullMode
import Verif.Proofs.CutAllLetters
/-!
# C115 for full mode
-/

namespace Jieba.Props
open Jieba Jieba.Spec

variable {F : Type _} [LinearOrder F]

theorem longWordAt_left {freq : Freq} {a b : Str} (h : Uncrossed freq a b) {k : Nat} (hk : k < a.length) (j : Nat) :
    LongWordAt freq (a ++ b) k j ↔ LongWordAt freq a k j := by
  constructor
  · rintro ⟨h1, h2, h3⟩
    have hd : (a ++ b).drop k = a.drop k ++ b := by rw [List.drop_append_of_le_length hk.le]
    have hp : slice (a ++ b) k j <+: a.drop k ++ b := by rw [slice_eq, hd]; exact List.take_prefix _ _
    have hl := h (a.drop k) (List.drop_suffix k a) (by simpa [List.drop_eq_nil_iff] using hk) _ h3 hp
    rw [slice_length _ _ _ h2, List.length_drop] at hl
    have hj : j ≤ a.length := by omega
    exact ⟨h1, hj, by rwa [slice_left a b k j hj] at h3⟩
  · rintro ⟨h1, h2, h3⟩
    exact ⟨h1, by rw [List.length_append]; omega, by rwa [slice_left a b k j h2]⟩

theorem longWordAt_right (freq : Freq) (a b : Str) (k j : Nat) : LongWordAt freq (a ++ b) (a.length + k) (a.length + j) ↔ LongWordAt freq b k j := by
  unfold LongWordAt
  rw [slice_shift, List.length_append]
  exact and_congr (by omega) (and_congr_left fun _ => by omega)

theorem longWordAt_right_end {freq : Freq} {a b : Str} {k e : Nat} (h : LongWordAt freq (a ++ b) (a.length + k) e) : ∃ j, e = a.length + j :=
  ⟨e - a.length, by have := h.1; omega⟩

theorem freeAt_left {freq : Freq} {a b : Str} (h : Uncrossed freq a b) {k : Nat} (hk : k < a.length) : FreeAt freq (a ++ b) k ↔ FreeAt freq a k := by
  unfold FreeAt
  constructor <;> intro hf i j hi hw hm
  · exact hf i j hi ((longWordAt_left h (by omega) j).mpr hw) fun m h1 h2 e he => hm m h1 h2 e ((longWordAt_left h (by omega) e).mp he)
  · exact hf i j hi ((longWordAt_left h (by omega) j).mp hw) fun m h1 h2 e he => hm m h1 h2 e ((longWordAt_left h (by omega) e).mpr he)

theorem freeAt_right {freq : Freq} {a b : Str} (h : Uncrossed freq a b) (k : Nat) : FreeAt freq (a ++ b) (a.length + k) ↔ FreeAt freq b k := by
  unfold FreeAt
  constructor <;> intro hf i j hi hw hm
  · have := hf (a.length + i) (a.length + j) (by omega) ((longWordAt_right freq a b i j).mpr hw) fun m h1 h2 e he => by
      obtain ⟨m, rfl⟩ : ∃ m', m = a.length + m' := ⟨m - a.length, by omega⟩
      obtain ⟨e, rfl⟩ := longWordAt_right_end he
      exact hm m (by omega) (by omega) e ((longWordAt_right freq a b m e).mp he)
    omega
  · by_cases hia : i < a.length
    · have := ((longWordAt_left h hia j).mp hw).2.1
      omega
    · obtain ⟨i, rfl⟩ : ∃ i', i = a.length + i' := ⟨i - a.length, by omega⟩
      obtain ⟨j, rfl⟩ := longWordAt_right_end hw
      have := hf i j (by omega) ((longWordAt_right freq a b i j).mp hw) fun m h1 h2 e he =>
        hm (a.length + m) (by omega) (by omega) (a.length + e) ((longWordAt_right freq a b m e).mpr he)
      omega

theorem fullAt_left {freq : Freq} {a b : Str} (h : Uncrossed freq a b) {k : Nat} (hk : k < a.length) (w : Str) :
    FullAt freq (a ++ b) k w ↔ FullAt freq a k w := by
  unfold FullAt
  rw [freeAt_left h hk, slice_left a b k (k + 1) hk]
  refine or_congr ?_ (and_congr_left fun _ => ?_)
  · refine exists_congr fun j => ?_
    rw [longWordAt_left h hk]
    exact and_congr_right fun hw => by rw [slice_left a b k j hw.2.1]
  · exact forall_congr' fun j => by rw [longWordAt_left h hk]

theorem fullAt_right {freq : Freq} {a b : Str} (h : Uncrossed freq a b) (k : Nat) (w : Str) :
    FullAt freq (a ++ b) (a.length + k) w ↔ FullAt freq b k w := by
  unfold FullAt
  rw [freeAt_right h, Nat.add_assoc, slice_shift a b k (k + 1)]
  refine or_congr ?_ (and_congr_left fun _ => ?_)
  · constructor
    · rintro ⟨j, hw, rfl⟩
      obtain ⟨j, rfl⟩ := longWordAt_right_end hw
      exact ⟨j, (longWordAt_right freq a b k j).mp hw, slice_shift a b k j⟩
    · rintro ⟨j, hw, rfl⟩
      exact ⟨a.length + j, (longWordAt_right freq a b k j).mpr hw, (slice_shift a b k j).symm⟩
  · constructor
    · exact fun hn j hw => hn (a.length + j) ((longWordAt_right freq a b k j).mpr hw)
    · intro hn j hw
      obtain ⟨j, rfl⟩ := longWordAt_right_end hw
      exact hn j ((longWordAt_right freq a b k j).mp hw)

/-- The order of the tokens of full mode. -/
def Before (p q : Nat × Str) : Prop := p.1 < q.1 ∨ p.1 = q.1 ∧ p.2.length < q.2.length

theorem eq_of_before {l l' : List (Nat × Str)} (h : l.Pairwise Before) (h' : l'.Pairwise Before) (hm : ∀ p, p ∈ l ↔ p ∈ l') : l = l' := by
  have irr : ∀ p, ¬ Before p p := fun p hp => by rcases hp with h | ⟨_, h⟩ <;> exact absurd h (lt_irrefl _)
  have hp : l.Perm l' := (List.perm_ext_iff_of_nodup (h.imp fun {p q} hpq => by rintro rfl; exact irr _ hpq)
    (h'.imp fun {p q} hpq => by rintro rfl; exact irr _ hpq)).mpr hm
  refine hp.eq_of_pairwise (fun p q _ _ h1 h2 => ?_) h h'
  rcases h1 with h1 | ⟨h1, h1'⟩ <;> rcases h2 with h2 | ⟨h2, h2'⟩ <;> omega

theorem cut_full_block (E : Env F) (hmm : Bool) (hp : PrefixClosed E.freq) (a b : Str) (h : Uncrossed E.freq a b)
    (hw : ∀ c ∈ a ++ b, isWordCh c = true) (hs : ∀ c ∈ a ++ b, isAlnum c = false) :
    cut E true hmm (a ++ b) = Gen.andThen (cut E true hmm a) (cut E true hmm b) := by
  obtain ⟨l, h1, h2, h3⟩ := C11_full_mode_exact E hmm hp (a ++ b) hw hs
  obtain ⟨la, a1, a2, a3⟩ := C11_full_mode_exact E hmm hp a (fun c hc => hw c (by simp [hc])) (fun c hc => hs c (by simp [hc]))
  obtain ⟨lb, b1, b2, b3⟩ := C11_full_mode_exact E hmm hp b (fun c hc => hw c (by simp [hc])) (fun c hc => hs c (by simp [hc]))
  have hl : l = la ++ lb.map (fun p => (a.length + p.1, p.2)) := by
    refine eq_of_before h2 ?_ ?_
    · rw [List.pairwise_append]
      refine ⟨a2, ?_, ?_⟩
      · rw [List.pairwise_map]
        refine b2.imp fun {p q} hpq => ?_
        rcases hpq with hpq | hpq
        · exact Or.inl (by simpa using hpq)
        · exact Or.inr (by simpa using hpq)
      · rintro ⟨k, w⟩ hk q hq
        obtain ⟨⟨k', w'⟩, _, rfl⟩ := List.mem_map.mp hq
        have := ((a3 k w).mp hk).1
        exact Or.inl (by simp only; omega)
    · rintro ⟨k, w⟩
      rw [h3, List.mem_append, a3, List.mem_map, List.length_append]
      by_cases hk : k < a.length
      · rw [fullAt_left h hk]
        constructor
        · exact fun hf => Or.inl ⟨hk, hf.2⟩
        · rintro (hf | ⟨⟨k', w'⟩, _, he⟩)
          · exact ⟨by omega, hf.2⟩
          · simp only [Prod.mk.injEq] at he
            omega
      · obtain ⟨k, rfl⟩ : ∃ k', k = a.length + k' := ⟨k - a.length, by omega⟩
        rw [fullAt_right h]
        constructor
        · exact fun hf => Or.inr ⟨(k, w), (b3 k w).mpr ⟨by omega, hf.2⟩, rfl⟩
        · rintro (hf | ⟨⟨k', w'⟩, hm, he⟩)
          · omega
          · simp only [Prod.mk.injEq] at he
            obtain ⟨he, rfl⟩ := he
            obtain rfl : k' = k := by omega
            exact ⟨by have := ((b3 k' w').mp hm).1; omega, ((b3 k' w').mp hm).2⟩
  rw [h1, a1, b1, Gen.ok_andThen_ok, hl, List.map_append, List.map_map]
  rfl

/-- C115: full mode, of texts without ASCII letters and digits, at a place that is next to a word character. -/
theorem C115_full (E : Env F) (hmm : Bool) (hp : PrefixClosed E.freq) (a b : Str) (h : Uncrossed E.freq a b) (hs : ∀ c ∈ a ++ b, isAlnum c = false)
    (hw : (∃ x, a.getLast? = some x ∧ isWordCh x = true) ∨ ∃ y, b.head? = some y ∧ isWordCh y = true) :
    cut E true hmm (a ++ b) = Gen.andThen (cut E true hmm a) (cut E true hmm b) := by
  by_cases hne : ∀ x y, a.getLast? = some x → b.head? = some y → isWordCh x ≠ isWordCh y
  · exact C11_full_mode_runs E hmm a b hne
  push Not at hne
  obtain ⟨x, y, hx, hy, hxy⟩ := hne
  have hxw : isWordCh x = true := by
    rcases hw with ⟨x', hx', h'⟩ | ⟨y', hy', h'⟩
    · rw [hx] at hx'; obtain rfl := Option.some.inj hx'; exact h'
    · rw [hy] at hy'; obtain rfl := Option.some.inj hy'; rw [hxy]; exact h'
  have hyw : isWordCh y = true := hxy ▸ hxw
  obtain ⟨r, a', ha, hr, ha'⟩ := split_at_class isWordCh true a.reverse
  obtain ⟨u, b', rfl, hu, hb'⟩ := split_at_class isWordCh true b
  obtain rfl : a = a'.reverse ++ r.reverse := by rw [← List.reverse_append, ← ha, List.reverse_reverse]
  have hr0 : r ≠ [] := by
    rintro rfl
    have := ha' x (by simpa [List.getLast?_reverse] using hx)
    rw [hxw] at this; exact absurd this (by simp)
  have hu0 : u ≠ [] := by
    rintro rfl
    have := hb' y (by simpa using hy)
    rw [hyw] at this; exact absurd this (by simp)
  obtain ⟨z, hz⟩ : ∃ z, r.getLast? = some z := ⟨_, List.getLast?_eq_some_getLast hr0⟩
  have hzw : isWordCh z = true := hr z (List.mem_of_getLast? hz)
  have left : ∀ v, v ≠ [] → (∀ c, v.head? = some c → isWordCh c = true) →
      cut E true hmm (a'.reverse ++ v) = Gen.andThen (cut E true hmm a'.reverse) (cut E true hmm v) := by
    intro v _ hv
    refine C11_full_mode_runs E hmm _ _ fun p q hp' hq => ?_
    rw [List.getLast?_reverse] at hp'
    rw [ha' p hp', hv q hq]; simp
  have right : ∀ v, v ≠ [] → (∀ c, v.getLast? = some c → isWordCh c = true) →
      cut E true hmm (v ++ b') = Gen.andThen (cut E true hmm v) (cut E true hmm b') := by
    intro v _ hv
    refine C11_full_mode_runs E hmm _ _ fun p q hp' hq => ?_
    rw [hb' q hq, hv p hp']; simp
  have hhead : ∀ v : Str, ∀ c, (r.reverse ++ v).head? = some c → isWordCh c = true := by
    intro v c hc
    rw [List.head?_append, List.head?_reverse, hz] at hc
    obtain rfl : z = c := by simpa using hc
    exact hzw
  have hlast : ∀ c, (r.reverse ++ u).getLast? = some c → isWordCh c = true := by
    intro c hc
    have := List.mem_of_getLast? hc
    simp only [List.mem_append, List.mem_reverse] at this
    exact this.elim (hr c) (hu c)
  have hun : Uncrossed E.freq r.reverse u := fun q hq hq0 w hwd hpre =>
    h q (hq.trans (List.suffix_append _ _)) hq0 w hwd (hpre.trans (by rw [← List.append_assoc]; exact List.prefix_append _ _))
  have mid := cut_full_block E hmm hp r.reverse u hun (by
      intro c hc
      simp only [List.mem_append, List.mem_reverse] at hc
      exact hc.elim (hr c) (hu c))
    (fun c hc => hs c (by simp only [List.mem_append, List.mem_reverse] at hc ⊢; tauto))
  rw [List.append_assoc, ← List.append_assoc r.reverse u b', left _ (by simp [hr0]) (by rw [List.append_assoc]; exact hhead _), right _ (by simp [hr0]) hlast, mid,
    left r.reverse (by simp [hr0]) (by simpa using hhead []), right u hu0 (fun c hc => hu c (List.mem_of_getLast? hc))]
  simp only [Gen.andThen_assoc]

/-- The hypotheses hold at 北京|大学, which no word crosses. -/
example : Uncrossed crossFreq (lit ['北', '京']) (lit ['大', '学']) ∧ (∀ c ∈ lit ['北', '京', '大', '学'], isAlnum c = false) ∧
    isWordCh 0x5927 = true := ⟨uncrossed_of_mem (by decide) (by decide), by decide +kernel, by decide +kernel⟩

/-- C115: between characters that are not word characters full mode does not cut. -/
theorem C115_full_separators : Uncrossed crossFreq (lit ['!']) (lit ['?']) ∧
    cut ⟨intArith, crossFreq, 20, sampleTables, []⟩ true false (lit ['!', '?']) = Gen.ok [lit ['!', '?']] ∧
    cut ⟨intArith, crossFreq, 20, sampleTables, []⟩ true false (lit ['!']) = Gen.ok [lit ['!']] ∧
    cut ⟨intArith, crossFreq, 20, sampleTables, []⟩ true false (lit ['?']) = Gen.ok [lit ['?']] :=
  ⟨uncrossed_of_mem (by decide) (by decide), by decide +kernel, by decide +kernel, by decide +kernel⟩

end Jieba.Props
