import Verif.Model.PaddleSetup
import Verif.Spec.Version
import Verif.Props.Paddle
import Verif.Props.PosWorld
/-!
# C87: `enable_paddle` and what `use_paddle` does
-/

set_option linter.unusedSectionVars false

namespace Jieba.Props
open Jieba Jieba.Spec Jieba.Paddle Jieba.Pos

variable {F : Type _} [LinearOrder F]

/-- C87: the flag is set afterwards iff it was set, or paddle can be imported (at once or after installing it), its version is not
below '1.6.1' in the order of strings, and the network can be loaded. -/
theorem C87_flag (first second : Imported (Option Str)) (predict : Imported Unit) (installed : Bool) :
    (enablePaddle first second predict installed).2.1 = true ↔ installed = true ∨
      ∃ v, (first = .ok (some v) ∨ (first = .importError ∧ second = .ok (some v))) ∧ ¬ v < minVersion ∧ predict = .ok () := by
  have hc : ∀ version, (checkVersion version predict installed).1 = true ↔
      installed = true ∨ ∃ v, version = some v ∧ ¬ v < minVersion ∧ predict = .ok () := by
    intro version
    unfold checkVersion
    cases version with
    | none => simp
    | some v =>
      have := strLt_iff v minVersion
      cases hlt : strLt v minVersion
      · simp only [hlt, Bool.false_eq_true, false_iff] at this
        cases predict with
        | ok u => simp [hlt, not_lt.mp this]
        | importError => simp
        | raises e => simp [hlt]
      · simp only [hlt, true_iff] at this
        simp [hlt, not_le.mpr this]
  unfold enablePaddle
  cases first with
  | ok version =>
    simp only [hc, Imported.ok.injEq, reduceCtorEq, false_and, or_false]
  | raises e => simp
  | importError =>
    cases second with
    | ok version => simp [hc]
    | raises e => simp
    | importError => simp

/-- C87: pip is called iff paddle is missing at first; if it is missing afterwards too, `enable_paddle` does not go back to the basic
segmentation, as its message says, but raises UnboundLocalError; this exception has no other cause, unless an import raises it. -/
theorem C87_raises (first second : Imported (Option Str)) (predict : Imported Unit) (installed : Bool) :
    ((enablePaddle first second predict installed).1 = true ↔ first = .importError) ∧
    (first = .importError → second = .importError →
      (enablePaddle first second predict installed).2 = (installed, .error .unboundLocal)) ∧
    (first ≠ .raises .unboundLocal → second ≠ .raises .unboundLocal → predict ≠ .raises .unboundLocal →
      (enablePaddle first second predict installed).2.2 = .error .unboundLocal → first = .importError ∧ second = .importError) := by
  have hc : ∀ version, predict ≠ .raises .unboundLocal → (checkVersion version predict installed).2 ≠ .error .unboundLocal := by
    intro version hp
    unfold checkVersion
    cases version with
    | none => simp
    | some v =>
      simp only
      split
      · simp
      · cases predict with
        | ok u => simp
        | importError => simp
        | raises e => simpa using hp
  unfold enablePaddle
  cases first with
  | ok version => simpa using fun _ hp => hc version hp
  | raises e => simp; tauto
  | importError =>
    cases second with
    | ok version => simpa using fun hp => hc version hp
    | raises e => simp; tauto
    | importError => simp

/-! ## versions -/

theorem foldl_digits (s : List Nat) : ∀ n : Nat, s.foldl (fun n c => n * 10 + (c - 0x30)) n ≥ n * 10 ^ s.length ∧
    ((∀ c ∈ s, 0x30 ≤ c ∧ c ≤ 0x39) → s.foldl (fun n c => n * 10 + (c - 0x30)) n < (n + 1) * 10 ^ s.length) := by
  induction s with
  | nil => intro n; simp
  | cons c s ih =>
    intro n
    obtain ⟨h1, h2⟩ := ih (n * 10 + (c - 0x30))
    simp only [List.foldl_cons, List.length_cons, pow_succ]
    constructor
    · refine le_trans ?_ h1
      calc n * (10 ^ s.length * 10) = n * 10 * 10 ^ s.length := by rw [Nat.mul_comm (10 ^ s.length), Nat.mul_assoc]
        _ ≤ _ := Nat.mul_le_mul_right _ (Nat.le_add_right _ _)
    · intro hd
      have hc := hd c (by simp)
      refine lt_of_lt_of_le (h2 (fun x hx => hd x (by simp [hx]))) ?_
      calc (n * 10 + (c - 0x30) + 1) * 10 ^ s.length ≤ ((n + 1) * 10) * 10 ^ s.length := Nat.mul_le_mul_right _ (by omega)
        _ = _ := by rw [Nat.mul_comm (10 ^ s.length), Nat.mul_assoc]

theorem firstDigit_pow (d k n : Nat) (hd : 0 < d) (hd' : d < 10) : d * 10 ^ k ≤ n → n < (d + 1) * 10 ^ k → firstDigit n = d := by
  induction k generalizing n with
  | zero =>
    intro h1 h2
    have : n = d := by simp at h1 h2; omega
    subst this
    unfold firstDigit
    rw [if_pos hd']
  | succ k ih =>
    intro h1 h2
    have hp : 0 < 10 ^ k := Nat.pow_pos (by decide)
    have h10 : ¬ n < 10 := by
      have : 1 * 10 ≤ d * 10 ^ (k + 1) := Nat.mul_le_mul hd (by rw [pow_succ]; omega)
      omega
    unfold firstDigit
    rw [if_neg h10]
    apply ih
    · rw [Nat.le_div_iff_mul_le (by decide), Nat.mul_assoc, ← pow_succ]; exact h1
    · rw [Nat.div_lt_iff_lt_mul (by decide), Nat.mul_assoc, ← pow_succ]; exact h2

theorem numeral_cons {s : List Nat} {n : Nat} (h : Numeral s n) : ∃ d t, s = (0x30 + d) :: t ∧ d < 10 ∧ firstDigit n = d ∧
    (∀ c ∈ t, 0x30 ≤ c ∧ c ≤ 0x39) ∧ (t = [] ↔ n < 10) := by
  obtain ⟨hne, hdig, hz, hv⟩ := h
  cases s with
  | nil => exact absurd rfl hne
  | cons c t =>
    have hc := hdig c (by simp)
    refine ⟨c - 0x30, t, by congr 1; omega, by omega, ?_, fun x hx => hdig x (by simp [hx]), ?_⟩
    · by_cases h0 : c = 0x30
      · have := hz (by simp [h0])
        rw [this] at hv
        subst hv
        subst h0
        unfold firstDigit
        decide
      · simp only [decimalValue, List.foldl_cons] at hv
        obtain ⟨h1, h2⟩ := foldl_digits t (0 * 10 + (c - 0x30))
        rw [hv] at h1 h2
        rw [Nat.zero_mul, Nat.zero_add] at h1 h2
        exact firstDigit_pow _ t.length n (by omega) (by omega) h1 (h2 (fun x hx => hdig x (by simp [hx])))
    · simp only [decimalValue, List.foldl_cons] at hv
      constructor
      · rintro rfl
        simp at hv; omega
      · intro hn
        by_contra ht
        have h0 : c ≠ 0x30 := by
          intro h0
          have := hz (by simp [h0])
          rw [h0] at this
          exact ht (by simpa using this)
        obtain ⟨h1, -⟩ := foldl_digits t (0 * 10 + (c - 0x30))
        rw [hv, Nat.zero_mul, Nat.zero_add] at h1
        have hl : 1 ≤ t.length := List.length_pos_iff.mpr ht
        have : 1 * 10 ^ 1 ≤ (c - 0x30) * 10 ^ t.length := Nat.mul_le_mul (by omega) (Nat.pow_le_pow_right (by decide) hl)
        omega

/-- C87: which versions are turned down, exactly: the texts of versions are compared, not the versions. -/
theorem C87_version (v : Str) (a b c : Nat) (h : VersionText v a b c) :
    v < minVersion ↔ a = 0 ∨ (a = 1 ∧ (firstDigit b < 6 ∨ (b = 6 ∧ c = 0))) := by
  obtain ⟨sa, sb, sc, rest, ha, hb, hc, hrest, rfl⟩ := h
  obtain ⟨da, ta, rfl, hda, hfa, hta, hla⟩ := numeral_cons ha
  obtain ⟨db, tb, rfl, hdb, hfb, htb, hlb⟩ := numeral_cons hb
  obtain ⟨dc, tc, rfl, hdc, hfc, htc, hlc⟩ := numeral_cons hc
  have key : ∀ n d, firstDigit n = d → n < 10 → n = d := by
    intro n d h hn
    unfold firstDigit at h
    rwa [if_pos hn] at h
  rw [← strLt_iff]
  simp only [minVersion, List.cons_append, strLt, Bool.or_eq_true, Bool.and_eq_true, decide_eq_true_eq]
  have ka := key a da hfa
  have kb := key b db hfb
  have kc := key c dc hfc
  cases ta with
  | cons x ta =>
    have hx := hta x (by simp)
    have h10 : ¬ a < 10 := fun h => by simpa using hla.mpr h
    have hd0 : da ≠ 0 := by
      intro h0
      have := ha.2.2.1 (by simp [h0])
      simp at this
    have hx1 : ¬ x < 0x2E := by omega
    have hx2 : x ≠ 0x2E := by omega
    simp only [List.cons_append, strLt, Bool.or_eq_true, Bool.and_eq_true, decide_eq_true_eq, hx1, hx2, false_and, or_false, and_false]
    constructor <;> intro h <;> unfold Ch at * <;> omega
  | nil =>
    have h10 : a < 10 := hla.mp rfl
    have ka := ka h10
    simp only [List.nil_append, strLt, Bool.or_eq_true, Bool.and_eq_true, decide_eq_true_eq]
    cases tb with
    | cons x tb =>
      have hx := htb x (by simp)
      have h10 : ¬ b < 10 := fun h => by simpa using hlb.mpr h
      have hx1 : ¬ x < 0x2E := by omega
      have hx2 : x ≠ 0x2E := by omega
      simp only [List.cons_append, strLt, Bool.or_eq_true, Bool.and_eq_true, decide_eq_true_eq, hx1, hx2, false_and, or_false, and_false,
        lt_irrefl, true_and, false_or]
      constructor <;> intro h <;> unfold Ch at * <;> omega
    | nil =>
      have h10 : b < 10 := hlb.mp rfl
      have kb := kb h10
      have hlast : strLt (tc ++ rest) [] = false := by cases tc ++ rest <;> rfl
      simp only [List.nil_append, strLt, Bool.or_eq_true, Bool.and_eq_true, decide_eq_true_eq, hlast, Bool.false_eq_true,
        and_false, or_false, lt_irrefl, true_and, false_or]
      cases tc with
      | cons x tc =>
        have h10 : ¬ c < 10 := fun h => by simpa using hlc.mpr h
        have hd0 : dc ≠ 0 := by
          intro h0
          have := hc.2.2.1 (by simp [h0])
          simp at this
        constructor <;> intro h <;> unfold Ch at * <;> omega
      | nil =>
        have h10 : c < 10 := hlc.mp rfl
        have kc := kc h10
        constructor <;> intro h <;> unfold Ch at * <;> omega

/-- C87: a version below 1.6.1 is always turned down; a version from 1.6.1 on is turned down iff it is `1.b.c` with `b` of two digits or
more, the first of them below 6 (1.10.0 to 1.59.9, …). -/
theorem C87_version_order (v : Str) (a b c : Nat) (h : VersionText v a b c) :
    (¬ VersionLe 1 6 1 a b c → v < minVersion) ∧
    (VersionLe 1 6 1 a b c → (v < minVersion ↔ a = 1 ∧ 10 ≤ b ∧ firstDigit b < 6)) := by
  rw [C87_version v a b c h]
  unfold VersionLe
  have hf : b < 10 → firstDigit b = b := by
    intro hb
    unfold firstDigit
    rw [if_pos hb]
  constructor
  · intro h
    by_cases hb : b < 10
    · rw [hf hb]; omega
    · omega
  · intro h
    by_cases hb : b < 10
    · rw [hf hb]; omega
    · omega

/-- 1.10.0 is turned down and 1.8.5.post97 is not. -/
example : VersionText (lit ['1', '.', '1', '0', '.', '0']) 1 10 0 ∧ VersionLe 1 6 1 1 10 0 ∧ lit ['1', '.', '1', '0', '.', '0'] < minVersion ∧
    VersionText (lit ['1', '.', '8', '.', '5', '.', 'p']) 1 8 5 ∧ ¬ lit ['1', '.', '8', '.', '5', '.', 'p'] < minVersion := by
  refine ⟨⟨lit ['1'], lit ['1', '0'], lit ['0'], [], ?_, ?_, ?_, ?_, ?_⟩, ?_, ?_, ⟨lit ['1'], lit ['8'], lit ['5'], lit ['.', 'p'], ?_, ?_, ?_, ?_, ?_⟩, ?_⟩ <;>
    first | decide | (simp only [Numeral, VersionLe]; decide)

/-! ## `use_paddle` -/

/-- The flag after some calls of `enable_paddle`, each with its outcomes of the imports. -/
def flagAfter (calls : List (Imported (Option Str) × Imported (Option Str) × Imported Unit)) : Bool :=
  calls.foldl (fun fl c => (enablePaddle c.1 c.2.1 c.2.2 fl).2.1) false

/-- In this call paddle was found, new enough as texts go, and the network could be loaded. -/
def Found (c : Imported (Option Str) × Imported (Option Str) × Imported Unit) : Prop :=
  ∃ v, (c.1 = .ok (some v) ∨ (c.1 = .importError ∧ c.2.1 = .ok (some v))) ∧ ¬ v < minVersion ∧ c.2.2 = .ok ()

theorem flagAfter_iff (calls : List (Imported (Option Str) × Imported (Option Str) × Imported Unit)) :
    flagAfter calls = true ↔ ∃ c ∈ calls, Found c := by
  have : ∀ fl, calls.foldl (fun fl c => (enablePaddle c.1 c.2.1 c.2.2 fl).2.1) fl = true ↔ fl = true ∨ ∃ c ∈ calls, Found c := by
    induction calls with
    | nil => simp
    | cons c calls ih =>
      intro fl
      rw [List.foldl_cons, ih, C87_flag]
      simp only [List.mem_cons, exists_eq_or_imp, Found, or_assoc]
  simpa [flagAfter] using this false

/-- C87: as long as no call of `enable_paddle` has found paddle, `use_paddle=True` changes nothing for `cut` of a tokenizer and
`posseg.cut`; `posseg.lcut` then ignores `HMM` and always uses the model. -/
theorem C87_not_enabled (calls : List (Imported (Option Str) × Imported (Option Str) × Imported Unit)) (hc : ∀ c ∈ calls, ¬ Found c)
    (S : Sys F) (P : PSys F) (D : Dataset) (net : List Int → Except PyErr (List Int)) (w : World) (p : PWorld) (t : Nat)
    (ca hm : Bool) (sentence : PyText) (io : Bool) :
    cutTop S D net (flagAfter calls) w t ca hm true sentence io = cutW S w t ca hm sentence io ∧
    posCutTop P D net (flagAfter calls) p hm true sentence io = cutPW P p 0 hm sentence io ∧
    posLcutTop P D net (flagAfter calls) p hm true sentence io =
      ((cutPW P p 0 true sentence io).1, (cutPW P p 0 true sentence io).2.toList) := by
  have : flagAfter calls = false := by
    rw [← Bool.not_eq_true, flagAfter_iff]
    rintro ⟨c, h1, h2⟩
    exact hc c h1 h2
  rw [this]
  exact ⟨rfl, rfl, rfl⟩

/-- C87: after some call has found it, `use_paddle=True` uses the network alone, whatever the dictionary and the other arguments, and
does not load the dictionary; it stays so. -/
theorem C87_enabled (calls : List (Imported (Option Str) × Imported (Option Str) × Imported Unit)) (hc : ∃ c ∈ calls, Found c)
    (S : Sys F) (P : PSys F) (D : Dataset) (net : List Int → Except PyErr (List Int)) (w : World) (p : PWorld) (t : Nat)
    (ca hm : Bool) (sentence : PyText) (io : Bool) :
    cutTop S D net (flagAfter calls) w t ca hm true sentence io = (w, Paddle.cut D net S.gbk sentence) ∧
    posCutTop P D net (flagAfter calls) p hm true sentence io = (p, posCut D net P.sys.gbk sentence) ∧
    posLcutTop P D net (flagAfter calls) p hm true sentence io = (p, (posCut D net P.sys.gbk sentence).toList) := by
  rw [(flagAfter_iff calls).mpr hc]
  exact ⟨rfl, rfl, rfl⟩

/-- Missing at first, then version 1.8.5 is there. -/
example : Found (.importError, .ok (some (lit ['1', '.', '8', '.', '5'])), .ok ()) ∧
    ¬ Found (.importError, .importError, .ok ()) :=
  ⟨⟨_, Or.inr ⟨rfl, rfl⟩, by decide, rfl⟩, by rintro ⟨v, h | h, -⟩ <;> simp at h⟩

/-- C87: in parallel mode, `jieba.cut` with `use_paddle` (even `False`) raises TypeError. -/
theorem C87_parallel (S : Sys F) (D : Dataset) (net : List Int → Except PyErr (List Int)) (installed : Bool) (m : Module) (io io' : Bool)
    (hok : (enableParallel S m io).2 = .ok ()) (ca hm b : Bool) (sentence : PyText) (g : Gen Str) :
    ModuleCutTop S D net installed (enableParallel S m io).1 ca hm (some b) io' sentence g ↔ g = Gen.raise .typeError := by
  unfold enableParallel at hok ⊢
  split
  · next h => simp [h] at hok
  · simp [ModuleCutTop]

/-- The HMM argument of `posseg.lcut` matters, and `use_paddle=True` loses it. -/
theorem C87_lcut_loses_hmm : ∃ (P : PSys Int) (D : Dataset) (net : List Int → Except PyErr (List Int)) (p : PWorld) (sentence : PyText),
    (posLcutTop P D net false p false true sentence true).2 ≠ (posLcutTop P D net false p false false sentence true).2 := by
  refine ⟨samplePSys, sampleDataset, sampleNet, samplePWorld, .str (lit ['他', '来', '到']), ?_⟩
  decide +kernel

end Jieba.Props
