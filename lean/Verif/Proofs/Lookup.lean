import Verif.Model.Lookup
import Verif.Spec.Walks
import Verif.Proofs.Cache
import Verif.Proofs.Path
/-!
# `calc` on any graph; the first use after `set_dictionary`
-/

set_option linter.unusedSectionVars false

namespace Jieba
open Jieba.Spec

variable {F : Type _} [LinearOrder F]

theorem soundGraph_getDAG (freq : Freq) (s : Str) : SoundGraph s.length (getDAG freq s) := by
  intro x hx
  obtain ⟨h1, h2⟩ := dagRow_bounds freq s x hx
  exact ⟨_, getDAG_get freq s x hx, h1, fun e he => h2 e he⟩

theorem calcLoop_sound (A : Arith F) (freq : Freq) (hn : NonNeg freq) (lt : F) (s : Str) (dag : List (List Nat))
    (hg : SoundGraph s.length dag) (n : Nat) (tail : List (F × Nat)) (hn' : n ≤ s.length) (htl : n + tail.length = s.length + 1) :
    ∃ route, calcLoop A freq lt s dag n tail = .ok route := by
  induction n generalizing tail with
  | zero => exact ⟨tail, rfl⟩
  | succ idx ih =>
    unfold calcLoop
    obtain ⟨L, hd, hne, hb⟩ := hg idx (by omega)
    rw [hd]
    have : ∀ x ∈ L, ∃ b, edgeScore A freq lt s tail idx x = .ok b := by
      intro x hx
      obtain ⟨h1, h2⟩ := hb x hx
      obtain ⟨r, hr⟩ : ∃ r, tail[x - idx]? = some r := ⟨tail[x - idx]'(by omega), List.getElem?_eq_getElem _⟩
      unfold edgeScore
      simp only [freqOr1_eq, Arith.pylog, scoreFreq_pos freq hn, if_true, bind, Except.bind, if_neg (show ¬ x < idx by omega), hr]
      exact ⟨_, rfl⟩
    obtain ⟨cands, hc⟩ := mapM_except_total _ _ this
    have hcne : cands ≠ [] := by
      intro e
      have := (mapM_except_ok _ _ _ hc).1
      rw [e] at this
      exact hne (List.length_eq_zero_iff.mp this.symm)
    obtain ⟨best, hbest⟩ := maxTup_exists cands hcne
    simp only [bind, Except.bind, hc, hbest]
    exact ih (best :: tail) (by omega) (by simp; omega)

theorem calcRoute_sound (A : Arith F) (freq : Freq) (hn : NonNeg freq) (total : Int) (ht : 0 < total) (s : Str) (dag : List (List Nat))
    (hg : SoundGraph s.length dag) : ∃ route, calcRoute A freq total s dag = .ok route := by
  unfold calcRoute
  simp only [Arith.pylog, ht, if_true, bind, Except.bind]
  exact calcLoop_sound A freq hn _ s dag hg s.length _ (le_refl _) (by simp)

theorem soundGraph_of_calc (A : Arith F) (freq : Freq) (total : Int) (s : Str) (dag : List (List Nat)) (route : List (F × Nat))
    (h : calcRoute A freq total s dag = .ok route) : SoundGraph s.length dag := by
  obtain ⟨-, hlen, -, hrow⟩ := calcRoute_ok A freq total s dag route h
  intro x hx
  obtain ⟨L, best, nxt, h1, -, h3, -, -, -, -, h8⟩ := (hrow x hx).exists_best
  refine ⟨L, h1, List.ne_nil_of_mem h3, fun e he => ?_⟩
  obtain ⟨h9, nx, h10, -⟩ := h8 e he
  have : e + 1 < route.length := by
    by_contra hc
    rw [List.getElem?_eq_none (by omega)] at h10
    simp at h10
  exact ⟨h9, by omega⟩

theorem calc_best (A : Arith F) (hA : MonoAdd A) (freq : Freq) (total : Int) (s : Str) (dag : List (List Nat))
    (route : List (F × Nat)) (h : calcRoute A freq total s dag = .ok route) (n : Nat) :
    ∀ x, x ≤ s.length → s.length - x = n → ∃ es r, Chosen s.length route x es ∧ Walk dag s.length x es ∧ route[x]? = some r ∧
      r.1 = segScore A freq total (walkWords s x es) ∧
      ∀ es', Walk dag s.length x es' → segScore A freq total (walkWords s x es') < r.1 ∨
        (segScore A freq total (walkWords s x es') = r.1 ∧ es'.headD 0 ≤ es.headD 0) := by
  have hg := soundGraph_of_calc A freq total s dag route h
  obtain ⟨ht, hlen, hend, hrow⟩ := calcRoute_ok A freq total s dag route h
  induction n using Nat.strong_induction_on with
  | _ n ih =>
    intro x hx hn
    by_cases hx' : x = s.length
    · subst hx'
      refine ⟨[], _, rfl, rfl, hend, rfl, ?_⟩
      intro es' hes
      cases es' with
      | nil => exact Or.inr ⟨rfl, le_refl _⟩
      | cons e es' => exact absurd hes.1 (by omega)
    · have hxl : x < s.length := by omega
      obtain ⟨L, best, nxt, h1, h2, h3, h4, h5, h6, h7, h8⟩ := (hrow x hxl).exists_best
      have hL : ∀ e ∈ L, x ≤ e ∧ e < s.length := by
        obtain ⟨L', e1, -, e2⟩ := hg x hxl
        rw [h1] at e1
        simp at e1
        subst e1
        exact e2
      obtain ⟨es, r, i1, i2, i3, i4, i5⟩ := ih (s.length - (best.2 + 1)) (by have := hL _ h3; omega) (best.2 + 1) (by have := hL _ h3; omega) rfl
      rw [h5] at i3
      simp at i3
      subst i3
      refine ⟨best.2 :: es, best, ⟨hxl, ⟨best.1, h2⟩, i1⟩, ⟨hxl, ⟨L, h1, h3⟩, i2⟩, h2, ?_, ?_⟩
      · rw [h7, i4, slice_eq]
        rfl
      · intro es' hes
        cases es' with
        | nil => exact absurd hes (by intro e; exact hx' e)
        | cons y ys =>
          obtain ⟨-, ⟨L', e1, e2⟩, e3⟩ := hes
          rw [h1] at e1
          simp at e1
          subst e1
          obtain ⟨-, nx, hnx, hle⟩ := h8 y e2
          obtain ⟨zs, r', j1, j2, j3, j4, j5⟩ := ih (s.length - (y + 1)) (by have := hL _ e2; omega) (y + 1) (by have := hL _ e2; omega) rfl
          rw [hnx] at j3
          simp at j3
          subst j3
          have hb : segScore A freq total (walkWords s (y + 1) ys) ≤ nx.1 := by
            rcases j5 ys e3 with j | j
            · exact le_of_lt j
            · exact le_of_eq j.1
          have hsc := hA.right _ _ (A.sub (A.log (scoreFreq freq (slice s x (y + 1))).toNat) (A.log total.toNat)) hb
          have hseg : segScore A freq total (walkWords s x (y :: ys)) =
              A.add (A.sub (A.log (scoreFreq freq (slice s x (y + 1))).toNat) (A.log total.toNat))
                (segScore A freq total (walkWords s (y + 1) ys)) := by
            rw [slice_eq]; rfl
          rw [hseg]
          rcases hle with hle | ⟨hle, hlen'⟩
          · exact Or.inl (lt_of_le_of_lt hsc hle)
          · rcases lt_or_eq_of_le hsc with hlt | heq
            · left; exact lt_of_lt_of_eq hlt hle
            · right
              exact ⟨heq.trans hle, hlen'⟩

theorem chosen_path (s : Str) (route : List (F × Nat)) (hr : RouteWF s route) (fuel : Nat) :
    ∀ x es, x ≤ s.length → s.length - x ≤ fuel → Chosen s.length route x es → walkWords s x es = pathFrom s route fuel x := by
  induction fuel with
  | zero =>
    intro x es hx hf h
    cases es with
    | nil => rfl
    | cons e es => have := h.1; omega
  | succ fuel ih =>
    intro x es hx hf h
    cases es with
    | nil =>
      have h : x = s.length := h
      unfold pathFrom
      rw [if_neg (by omega)]
      rfl
    | cons e es =>
      obtain ⟨h1, ⟨v, h2⟩, h3⟩ := h
      unfold pathFrom
      rw [if_pos h1, h2]
      obtain ⟨r, r1, r2, r3⟩ := hr x h1
      rw [h2] at r1
      simp at r1
      subst r1
      show _ :: _ = _ :: _
      rw [ih (e + 1) es (by simp at r3; omega) (by simp at r2; omega) h3, slice_eq]

theorem chosen_unique (n : Nat) (route : List (F × Nat)) : ∀ (es : List Nat) (x : Nat) (fs : List Nat), Chosen n route x es → Chosen n route x fs →
    es = fs := by
  intro es
  induction es with
  | nil =>
    intro x fs h h'
    cases fs with
    | nil => rfl
    | cons f fs => have h : x = n := h; have := h'.1; omega
  | cons e es ih =>
    intro x fs h h'
    cases fs with
    | nil => have h' : x = n := h'; have := h.1; omega
    | cons f fs =>
      obtain ⟨-, ⟨v, h1⟩, h2⟩ := h
      obtain ⟨-, ⟨v', h3⟩, h4⟩ := h'
      rw [h1] at h3
      simp at h3
      obtain ⟨-, rfl⟩ := h3
      rw [ih _ _ h2 h4]

/-- After `set_dictionary` on a file that can be loaded the next `check_initialized()` loads it. -/
theorem checkInit_after_set (S : Sys F) (D : Path → Prop) (v : World) (hi : CacheInv S D v) (t : Nat) (p : Path) (hp : D (S.abspath p)) (f : File)
    (hf : v.files (S.abspath p) = some f) (x : Freq × Int) (hx : genPfdict f.data = .ok x) (io : Bool) :
    ∃ w2, checkInit S (setDictionary S v t p).1 t io = (w2, .ok ()) ∧ (w2.tok t).freq = x.1 ∧ (w2.tok t).total = x.2 ∧
      (w2.tok t).initialized = true ∧ w2.force = v.force := by
  have hset : (setDictionary S v t p).1 = v.setTok t { v.tok t with dictionary := some (S.abspath p), initialized := false } := by
    unfold setDictionary; rw [hf]
  rw [hset]
  generalize hv1 : v.setTok t { v.tok t with dictionary := some (S.abspath p), initialized := false } = v1
  have htok : v1.tok t = { v.tok t with dictionary := some (S.abspath p), initialized := false } := by rw [← hv1]; simp
  have hfiles : v1.files = v.files := by rw [← hv1]; rfl
  have hi' : CacheInv S D v1 := by
    rw [← hv1]
    refine ⟨?_, ?_, hi.custom, hi.default, hi.past⟩
    · intro u q
      by_cases hu : u = t
      · subst hu; simp only [setTok_tok_self, Option.some.injEq]; rintro rfl; exact hp
      · rw [setTok_tok_ne _ _ _ _ hu]; exact hi.dict u q
    · intro u
      by_cases hu : u = t
      · subst hu; simp only [setTok_tok_self]; exact hi.plain u
      · rw [setTok_tok_ne _ _ _ _ hu]; exact hi.plain u
  have hci : checkInit S v1 t io = initLocked S v1 t (v1.tok t).dictionary io := by
    unfold checkInit; rw [htok]; simp [initTok, htok]
  have hdata : dictFile v1 (v1.tok t).dictionary = .ok f.data := by
    rw [htok]; simp [dictFile, hfiles, hf]
  have hok : ∃ w2, checkInit S v1 t io = (w2, .ok ()) := by
    rw [hci]
    unfold initLocked
    rw [htok]
    simp only [Bool.false_eq_true, if_false]
    have hu : ∀ c, ∃ cf, cacheUsable v1 (some (S.abspath p)) c = .ok cf := by
      intro c
      unfold cacheUsable
      cases v1.files c with
      | none => exact ⟨_, rfl⟩
      | some cf => simp only [hfiles, hf]; exact ⟨_, rfl⟩
    obtain ⟨cf, hcf⟩ := hu (cachePath S { v.tok t with dictionary := some (S.abspath p), initialized := false } (some (S.abspath p)))
    rw [hcf]
    simp only []
    cases cf.bind (fun f => S.load f.data) with
    | some y => exact ⟨_, rfl⟩
    | none =>
      unfold buildDict
      simp only [hdata, hx]
      exact ⟨_, rfl⟩
  obtain ⟨w2, h2⟩ := hok
  refine ⟨w2, h2, ?_⟩
  rw [hci] at h2
  obtain ⟨data, y, h1, h3, h4, h5⟩ := initLocked_current S D v1 w2 t io hi' (by rw [htok]) h2
  rw [hdata] at h1
  injection h1 with h1
  subst h1
  rw [hx] at h3
  injection h3 with h3
  subst h3
  exact ⟨by rw [h4], by rw [h4], by rw [h4], by rw [h5, ← hv1]; rfl⟩

end Jieba
