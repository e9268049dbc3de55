import Verif.Proofs.PosCheck
/-!
# Helper lemmas: the shipped tables of the POS tagger are sane
-/

set_option linter.unusedSectionVars false

namespace Jieba.PosData
open Jieba Jieba.Pos Jieba.Spec

theorem states_nodup : states.Nodup := by
  have : IsTrans PState (fun a b => stateLt a b = true) := ⟨fun a b c => stateLt_total.trans a b c⟩
  have h := List.isChain_iff_pairwise.mp states_chain
  refine h.imp ?_
  rintro a b hab rfl
  rw [stateLt_total.irrefl] at hab
  cases hab

variable {F : Type _} [LinearOrder F]

theorem zip_get (i : Nat) (hi : i < 256) :
    (states.zip (PosData.trans.map (fun n => (unpack n).map stateAt)))[i]? = some (stateAt i, (row i).map stateAt) := by
  rw [List.getElem?_zip_eq_some]
  constructor
  · have : i < states.length := by rw [states_length]; exact hi
    rw [List.getElem?_eq_getElem this]
    simp [stateAt, List.getD_eq_getElem?_getD, this]
  · have : i < trans.length := by rw [trans_length]; exact hi
    simp [row, List.getD_eq_getElem?_getD, this]

theorem unpackGo_ne (k m : Nat) : unpackGo (k + 1) (m + 2) ≠ [] := by simp [unpackGo]

theorem shipped_keys (T : Tables F) (h : Shipped T) : PyDict.keys T.trans = states := by
  have := congrArg (List.map Prod.fst) h.trans
  rw [List.map_map, List.map_fst_zip (by rw [List.length_map, trans_length, states_length])] at this
  exact this

theorem shipped_row (T : Tables F) (h : Shipped T) (x : PState) (tx : PyDict PState F) (hx : T.trans.get? x = some tx) :
    ∃ i, i < 256 ∧ x = stateAt i ∧ PyDict.keys tx = (row i).map stateAt := by
  have hn : (PyDict.keys T.trans).Nodup := by rw [shipped_keys T h]; exact states_nodup
  rw [PyDict.get?_eq_some_iff_mem _ hn, List.mem_iff_getElem?] at hx
  obtain ⟨i, hi⟩ := hx
  have e := congrArg (fun l => l[i]?) h.trans
  simp only [List.getElem?_map, hi, Option.map_some] at e
  have hlt : i < 256 := by
    have hi2 := (List.getElem?_eq_some_iff.mp e.symm).1
    rw [List.length_zip, states_length] at hi2
    omega
  refine ⟨i, hlt, ?_⟩
  rw [zip_get i hlt] at e
  injection e with e
  injection e with e1 e2
  exact ⟨e1, e2⟩

theorem shipped_get (T : Tables F) (h : Shipped T) (i : Nat) (hi : i < 256) :
    ∃ tx, T.trans.get? (stateAt i) = some tx ∧ PyDict.keys tx = (row i).map stateAt := by
  have hn : (PyDict.keys T.trans).Nodup := by rw [shipped_keys T h]; exact states_nodup
  have hlen : T.trans.length = 256 := by
    have := congrArg List.length (shipped_keys T h)
    simp only [PyDict.keys, List.length_map] at this
    rw [this, states_length]
  have hi' : i < T.trans.length := by omega
  have e := congrArg (fun l => l[i]?) h.trans
  simp only [List.getElem?_map, List.getElem?_eq_getElem hi', Option.map_some] at e
  rw [zip_get i hi] at e
  injection e with e
  injection e with e1 e2
  refine ⟨(T.trans[i]).2, ?_, e2⟩
  rw [PyDict.get?_eq_some_iff_mem _ hn, ← e1]
  exact List.getElem_mem hi'

theorem shipped_live (T : Tables F) (h : Shipped T) (j : Nat) (hj : j < 256) (hl : liveMask.testBit j = true) :
    Live T (stateAt j) := by
  obtain ⟨tx, h1, h2⟩ := shipped_get T h j hj
  refine ⟨tx, h1, ?_⟩
  rintro rfl
  have hc := live_check
  rw [List.all_eq_true] at hc
  have := hc j (by simpa using hj)
  rw [hl] at this
  have hr : row j = [] := by simpa [PyDict.keys] using h2.symm
  rw [hr] at this
  simp at this

theorem shipped_edge (T : Tables F) (h : Shipped T) (x y : PState) (he : Edge T x y) :
    ∃ i j, i < 256 ∧ j ∈ row i ∧ x = stateAt i ∧ y = stateAt j := by
  obtain ⟨tx, h1, h2⟩ := he
  obtain ⟨i, hi, hx, hk⟩ := shipped_row T h x tx h1
  rw [← PyDict.mem_keys_iff, hk, List.mem_map] at h2
  obtain ⟨j, hj, rfl⟩ := h2
  exact ⟨i, j, hi, hj, hx, rfl⟩

theorem row_live (i : Nat) (hi : i < 256) (j : Nat) (hj : j ∈ row i) : j < 256 ∧ liveMask.testBit j = true := by
  have hc := row_check
  rw [List.all_eq_true] at hc
  have : i < trans.length := by rw [trans_length]; exact hi
  unfold row at hj
  rw [List.getD_eq_getElem?_getD, List.getElem?_eq_getElem this] at hj
  exact allLive_spec 300 _ (hc _ (List.getElem_mem this)) j hj

/-- The shipped tables are sane. -/
theorem shipped_ok (T : Tables F) (h : Shipped T) : TablesOK T := by
  refine ⟨?_, ?_, ?_, ?_, ?_⟩
  · rw [shipped_keys T h]; exact states_nodup
  · intro y hy
    rw [← PyDict.mem_keys_iff, shipped_keys T h] at hy
    rw [← PyDict.mem_keys_iff, ← PyDict.mem_keys_iff, h.start, h.emit]
    exact ⟨hy, hy⟩
  · intro c l hc
    have hmem : (c, l) ∈ T.charStates := by
      generalize T.charStates = d at hc
      induction d with
      | nil => simp [PyDict.get?] at hc
      | cons kv d ih =>
        unfold PyDict.get? at hc
        split at hc
        · next h => injection hc with hc; rw [← h, ← hc]; simp
        · simp [ih hc]
    rw [h.chars, List.mem_map] at hmem
    obtain ⟨n, hn, he⟩ := hmem
    have hck := chars_check
    rw [List.all_eq_true] at hck
    have hn' := hck n hn
    rw [Bool.and_eq_true] at hn'
    obtain ⟨h1, h2⟩ := hn'
    have hl : l = (unpack (n / 65536)).map stateAt := by
      have := congrArg Prod.snd he
      exact this.symm
    have hall := allLive_spec 300 _ h2
    have hlive : ∀ y ∈ l, Live T y := by
      intro y hy
      rw [hl, List.mem_map] at hy
      obtain ⟨j, hj, rfl⟩ := hy
      obtain ⟨a, b⟩ := hall j hj
      exact shipped_live T h j a b
    refine ⟨fun y hy => Live.has (hlive y hy), ?_⟩
    have hne : l ≠ [] := by
      rw [hl]
      unfold unpack
      have hbig : ∃ m, n / 65536 = m + 2 := by
        have : ¬ n / 65536 ≤ 1 := by
          intro hle
          rw [Nat.ble_eq_true_of_le hle] at h1
          cases h1
        exact ⟨n / 65536 - 2, by omega⟩
      obtain ⟨m, hm⟩ := hbig
      rw [hm]
      intro h0
      exact unpackGo_ne 299 m (List.map_eq_nil_iff.mp h0)
    obtain ⟨y, hy⟩ := List.exists_mem_of_ne_nil _ hne
    exact ⟨y, hy, hlive y hy⟩
  · intro x y he
    obtain ⟨i, j, hi, hj, -, rfl⟩ := shipped_edge T h x y he
    obtain ⟨a, b⟩ := row_live i hi j hj
    exact shipped_live T h j a b
  · exact ⟨stateAt 0, shipped_live T h 0 (by decide) (by decide +kernel)⟩

/-- The shipped transitions respect B, M, E, S. -/
theorem shipped_bmes (T : Tables F) (h : Shipped T) : TransBMES T := by
  have hc := follow_check
  rw [List.all_eq_true] at hc
  refine ⟨?_, ?_⟩
  · intro x y he
    obtain ⟨i, j, hi, hj, rfl, rfl⟩ := shipped_edge T h x y he
    have := hc i (by simpa using hi)
    rw [List.all_eq_true] at this
    have := this j hj
    rw [Bool.and_eq_true] at this
    exact this.1
  · intro x y he hx
    obtain ⟨i, j, hi, hj, rfl, rfl⟩ := shipped_edge T h x y he
    have := hc i (by simpa using hi)
    rw [List.all_eq_true] at this
    have := this j hj
    rw [Bool.and_eq_true, Bool.or_eq_true] at this
    rcases this.2 with h3 | h3
    · exfalso
      rcases hx with hx | hx <;> simp [hx] at h3
    · simpa using h3

end Jieba.PosData
