import Verif.Props.RaiseIdf
/-!
# C144: a word that occurs more often
-/

namespace Jieba.Props
open Jieba Jieba.Spec Jieba.Pos Jieba.Analyse

section
variable {F : Type} [Field F] [LinearOrder F] [IsStrictOrderedRing F]

theorem length_more (ks ks' : List Key) (u : Key) (h : ∀ k, k ≠ u → ks'.count k = ks.count k) :
    ks.length + ks'.count u = ks'.length + ks.count u := by
  have hp : (ks.filter (fun k => decide (k ≠ u))).Perm (ks'.filter (fun k => decide (k ≠ u))) := by
    refine List.perm_iff_count.mpr fun k => ?_
    by_cases hk : k = u
    · subst hk
      rw [List.count_eq_zero_of_not_mem (by simp), List.count_eq_zero_of_not_mem (by simp)]
    · rw [List.count_filter (by simpa using hk), List.count_filter (by simpa using hk), h k hk]
  have hl : ∀ l : List Key, l.length = (l.filter (fun k => decide (k ≠ u))).length + l.count u := fun l => by
    induction l with
    | nil => rfl
    | cons a l ih =>
      simp only [ne_eq, decide_not] at ih
      by_cases ha : a = u
      · subst ha; simp; omega
      · simp [ha]; omega
  have := hp.length_eq
  have h1 := hl ks
  have h2 := hl ks'
  omega

/-- If one keyword occurs more often in a text than in another one, and all others as often: the weight of `u` does not fall, the weights of the others do not rise
and keep their proportions, and whatever weighed more than one of the others still does. -/
theorem C144_more_often (K : KSys F) (hA : Exact K.pos.sys.A) (p p' : PWorld) (x : Tfidf F) (hidf : ∀ w, 0 ≤ idfOf x w) (s s' : PyText) (allow allow' : List Str)
    (withFlag withFlag' io io' : Bool) (u : Key) (hothers : ∀ k, k ≠ u → (occ K p' x s' allow' withFlag' io').count k = (occ K p x s allow withFlag io).count k)
    (hmore : (occ K p x s allow withFlag io).count u ≤ (occ K p' x s' allow' withFlag' io').count u)
    (l l' : List (Key × Option F)) (hl : (extractTags K p x s none true allow withFlag io).2 = .ok l)
    (hl' : (extractTags K p' x s' none true allow' withFlag' io').2 = .ok l') :
    (∀ k, k ∈ l.map Prod.fst → k ∈ l'.map Prod.fst) ∧
    (∀ v v', (u, some v) ∈ l → (u, some v') ∈ l' → v ≤ v') ∧
    (∃ c : F, 0 ≤ c ∧ c ≤ 1 ∧ ∀ k v v', k ≠ u → (k, some v) ∈ l → (k, some v') ∈ l' → v' = c * v) ∧
    (∀ a b va vb va' vb', b ≠ u → (a, some va) ∈ l → (b, some vb) ∈ l → (a, some va') ∈ l' → (b, some vb') ∈ l' → vb < va → vb' < va') := by
  obtain ⟨h1, -, -⟩ := ranked K hA p x s allow withFlag io l hl
  obtain ⟨h1', -, -⟩ := ranked K hA p' x s' allow' withFlag' io' l' hl'
  generalize occ K p x s allow withFlag io = ks at *
  generalize occ K p' x s' allow' withFlag' io' = ks' at *
  have hlen := length_more ks ks' u hothers
  have hle : ks.length ≤ ks'.length := by omega
  have hmem : ∀ k, k ∈ ks → k ∈ ks' := fun k hk => by
    have := List.count_pos_iff.mpr hk
    refine List.count_pos_iff.mp ?_
    by_cases e : k = u
    · subst e; omega
    · rw [hothers k e]; exact this
  have hpos : ∀ k ∈ ks, 0 < (ks.length : F) ∧ 0 < (ks'.length : F) := fun k hk => by
    have := List.length_pos_of_mem hk
    exact ⟨by exact_mod_cast this, by exact_mod_cast this.trans_le hle⟩
  have hother : ∀ k v v', k ≠ u → (k, some v) ∈ l → (k, some v') ∈ l' → v' = (ks.length / ks'.length : F) * v := fun k v v' hk hv hv' => by
    obtain ⟨g1, g2⟩ := (h1 k _).mp hv
    obtain ⟨g1', g2'⟩ := (h1' k _).mp hv'
    cases g2; cases g2'
    obtain ⟨p1, p2⟩ := hpos k g1
    rw [hothers k hk]
    field_simp
  have hself : ∀ v v', (u, some v) ∈ l → (u, some v') ∈ l' → (ks.length / ks'.length : F) * v ≤ v' ∧ v ≤ v' := fun v v' hv hv' => by
    obtain ⟨g1, g2⟩ := (h1 u _).mp hv
    obtain ⟨g1', g2'⟩ := (h1' u _).mp hv'
    cases g2; cases g2'
    obtain ⟨p1, p2⟩ := hpos u g1
    have hi := hidf u.text
    have e1 : (ks.count u : F) ≤ ks'.count u := by exact_mod_cast hmore
    constructor
    · rw [show (ks.length / ks'.length : F) * ((ks.count u : F) * idfOf x u.text / ks.length) = (ks.count u : F) * idfOf x u.text / ks'.length by field_simp]
      exact div_le_div_of_nonneg_right (mul_le_mul_of_nonneg_right e1 hi) p2.le
    · rw [div_le_div_iff₀ p1 p2]
      have e2 : (ks.length : F) + ks'.count u = ks'.length + ks.count u := by exact_mod_cast hlen
      have e3 : (ks.count u : F) ≤ ks.length := by exact_mod_cast List.count_le_length
      have e4 : (ks.count u : F) * ks'.length ≤ ks'.count u * ks.length := by
        have : (ks'.length : F) = ks.length + (ks'.count u - ks.count u) := by linear_combination -e2
        rw [this]
        nlinarith [mul_nonneg (sub_nonneg.mpr e1) (sub_nonneg.mpr e3)]
      calc (ks.count u : F) * idfOf x u.text * ks'.length = (ks.count u : F) * ks'.length * idfOf x u.text := by ring
        _ ≤ ks'.count u * ks.length * idfOf x u.text := mul_le_mul_of_nonneg_right e4 hi
        _ = ks'.count u * idfOf x u.text * ks.length := by ring
  refine ⟨fun k hk => ?_, fun v v' hv hv' => (hself v v' hv hv').2, ⟨(ks.length / ks'.length : F), by positivity, ?_, hother⟩, ?_⟩
  · obtain ⟨e, he, rfl⟩ := List.mem_map.mp hk
    exact List.mem_map.mpr ⟨(e.1, _), (h1' e.1 _).mpr ⟨hmem _ ((h1 e.1 e.2).mp he).1, rfl⟩, rfl⟩
  · refine div_le_one_of_le₀ (by exact_mod_cast hle) (by positivity)
  · intro a b va vb va' vb' hb ha1 hb1 ha2 hb2 hlt
    have hc : (0 : F) < ks.length / ks'.length := by
      obtain ⟨p1, p2⟩ := hpos b ((h1 b _).mp hb1).1
      exact div_pos p1 p2
    rw [hother b vb vb' hb hb1 hb2]
    refine lt_of_lt_of_le (mul_lt_mul_of_pos_left hlt hc) ?_
    by_cases ea : a = u
    · subst ea; exact (hself va va' ha1 ha2).1
    · exact (hother a va va' ea ha1 ha2).ge

/-- It does rise if there is another keyword and the IDF is not zero; then all other weights that are not zero fall. -/
theorem C144_rises (K : KSys F) (hA : Exact K.pos.sys.A) (p p' : PWorld) (x : Tfidf F) (s s' : PyText) (allow allow' : List Str)
    (withFlag withFlag' io io' : Bool) (u : Key) (hothers : ∀ k, k ≠ u → (occ K p' x s' allow' withFlag' io').count k = (occ K p x s allow withFlag io).count k)
    (hmore : (occ K p x s allow withFlag io).count u < (occ K p' x s' allow' withFlag' io').count u)
    (k : Key) (hk : k ≠ u) (hocc : k ∈ occ K p x s allow withFlag io)
    (l l' : List (Key × Option F)) (hl : (extractTags K p x s none true allow withFlag io).2 = .ok l)
    (hl' : (extractTags K p' x s' none true allow' withFlag' io').2 = .ok l') :
    (0 < idfOf x u.text → ∀ v v', (u, some v) ∈ l → (u, some v') ∈ l' → v < v') ∧
    (0 < idfOf x k.text → ∀ v v', (k, some v) ∈ l → (k, some v') ∈ l' → v' < v) := by
  obtain ⟨h1, -, -⟩ := ranked K hA p x s allow withFlag io l hl
  obtain ⟨h1', -, -⟩ := ranked K hA p' x s' allow' withFlag' io' l' hl'
  generalize occ K p x s allow withFlag io = ks at *
  generalize occ K p' x s' allow' withFlag' io' = ks' at *
  have hlen := length_more ks ks' u hothers
  have hlt : ks.length < ks'.length := by omega
  have hn : 0 < ks.length := List.length_pos_of_mem hocc
  have p1 : (0 : F) < ks.length := by exact_mod_cast hn
  have p2 : (0 : F) < ks'.length := by exact_mod_cast hn.trans hlt
  have e1 : (ks.count u : F) < ks'.count u := by exact_mod_cast hmore
  have e2 : (ks.length : F) + ks'.count u = ks'.length + ks.count u := by exact_mod_cast hlen
  constructor
  · intro hi v v' hv hv'
    cases ((h1 u _).mp hv).2
    cases ((h1' u _).mp hv').2
    have e3 : (ks.count u : F) < ks.length := by
      have : ks.count u < ks.length := by
        refine lt_of_le_of_ne List.count_le_length fun e => hk ?_
        exact (List.count_eq_length.mp e k hocc).symm
      exact_mod_cast this
    have e4 : (ks.count u : F) * ks'.length < ks'.count u * ks.length := by
      have : (ks'.length : F) = ks.length + (ks'.count u - ks.count u) := by linear_combination -e2
      rw [this]
      nlinarith [mul_pos (sub_pos.mpr e1) (sub_pos.mpr e3)]
    rw [div_lt_div_iff₀ p1 p2]
    calc (ks.count u : F) * idfOf x u.text * ks'.length = (ks.count u : F) * ks'.length * idfOf x u.text := by ring
      _ < ks'.count u * ks.length * idfOf x u.text := mul_lt_mul_of_pos_right e4 hi
      _ = ks'.count u * idfOf x u.text * ks.length := by ring
  · intro hi v v' hv hv'
    cases ((h1 k _).mp hv).2
    cases ((h1' k _).mp hv').2
    rw [hothers k hk]
    have : (0 : F) < ks.count k := by exact_mod_cast List.count_pos_iff.mpr hocc
    exact div_lt_div_of_pos_left (mul_pos this hi) p1 (by exact_mod_cast hlt)

end

/-- The hypotheses are met: 北京 occurs three times more and becomes the first keyword. -/
example : (occ ratKSys readyRat ratTfidf (.str (lit ['北', '京', '大', '学', '，', '大', '学'])) [] false true) =
      [.word (lit ['北', '京']), .word (lit ['大', '学']), .word (lit ['大', '学'])] ∧
    (occ ratKSys readyRat ratTfidf (.str (lit ['北', '京', '大', '学', '，', '大', '学', '，', '北', '京', '，', '北', '京', '，', '北', '京'])) [] false true) =
      [.word (lit ['北', '京']), .word (lit ['大', '学']), .word (lit ['大', '学']), .word (lit ['北', '京']), .word (lit ['北', '京']), .word (lit ['北', '京'])] ∧
    (extractTags ratKSys readyRat ratTfidf (.str (lit ['北', '京', '大', '学', '，', '大', '学'])) none true [] false true).2 =
      .ok [(.word (lit ['大', '学']), some (10 / 3)), (.word (lit ['北', '京']), some 1)] ∧
    (extractTags ratKSys readyRat ratTfidf (.str (lit ['北', '京', '大', '学', '，', '大', '学', '，', '北', '京', '，', '北', '京', '，', '北', '京'])) none true [] false true).2 =
      .ok [(.word (lit ['北', '京']), some 2), (.word (lit ['大', '学']), some (5 / 3))] := by
  decide +kernel

end Jieba.Props
