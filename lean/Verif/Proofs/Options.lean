import Verif.Spec.Options
import Mathlib.Data.List.Infix
import Mathlib.Tactic.Set
/-!
# Helper lemmas for the options of the command line
-/

namespace Jieba.Main
open Jieba Jieba.Spec

def sopt : Switch → Opt
  | .cutAll => .cutAll
  | .noHmm => .noHmm
  | .quiet => .quiet

def vopt : Valued → Opt
  | .delimiter => .delimiter
  | .pos => .pos
  | .dict => .dict
  | .userDict => .userDict

theorem findOption_other {c : Nat} (hc : c ∉ letters) (hd : c ≠ '-'.toNat) (r : Str) : findOption (0x2D :: c :: r) = none := by
  have h : ∀ e ∈ optionStrings, ∃ x ∈ '-'.toNat :: letters, e.1[1]? = some x := by decide
  unfold findOption
  rw [Option.map_eq_none_iff, List.find?_eq_none]
  intro e he e1
  obtain ⟨x, hx, h1⟩ := h e he
  rw [beq_iff_eq.1 e1] at h1
  simp only [List.getElem?_cons_succ, List.getElem?_cons_zero, Option.some.injEq] at h1
  subst h1
  simp only [List.mem_cons] at hx
  exact hx.elim hd hc

/-- One dash and then no option letter. -/
theorem kind_other {c : Nat} (hc : c ∉ letters) (hd : c ≠ '-'.toNat) (r : Str) : kind (0x2D :: c :: r) =
    if isNegative (0x2D :: c :: r) then .value else if 0x20 ∈ (0x2D :: c :: r : Str) then .value else .unknown := by
  have hd' : ¬ c = 0x2D := hd
  have h1 : (0x2D :: c :: r : Str) ≠ lit ['-', '-'] := by
    intro h
    have := congrArg (fun l : Str => l[1]?) h
    exact hd (Option.some.inj this)
  have h2 : findOption ((0x2D :: c :: r : Str).takeWhile (· != 0x3D)) = none := by
    rw [List.takeWhile_cons_of_pos (by decide)]
    by_cases he : c = 0x3D
    · subst he
      rw [List.takeWhile_cons_of_neg (by decide)]
      decide
    · rw [List.takeWhile_cons_of_pos (by simpa using he)]
      exact findOption_other hc hd _
  have h3 : optionTuples (0x2D :: c :: r) = [] := by
    have hf := findOption_other hc hd []
    unfold findOption at hf
    rw [Option.map_eq_none_iff, List.find?_eq_none] at hf
    unfold optionTuples
    rw [if_neg (by
      intro h
      have := congrArg (fun l : Str => l[1]?) h
      exact hd (Option.some.inj this)), List.map_eq_nil_iff, List.filter_eq_nil_iff]
    exact hf
  unfold kind
  rw [if_neg h1, if_neg (by simp), findOption_other hc hd]
  simp only [h2, h3, ite_self]
  rw [if_neg (by simp)]

theorem digit_decimal {c : Nat} (h : '0'.toNat ≤ c ∧ c ≤ '9'.toNat) : isDecimal c = true ∧ c ∉ letters ∧ c ≠ '-'.toNat ∧ c ≠ 0x0A := by
  obtain ⟨h1, h2⟩ := h
  have h1 : 48 ≤ c := h1
  have h2 : c ≤ 57 := h2
  have : ∀ d : Nat, d < 10 → isDecimal (48 + d) = true ∧ 48 + d ∉ letters ∧ 48 + d ≠ '-'.toNat ∧ 48 + d ≠ 0x0A := by decide
  have := this (c - 48) (by omega)
  rwa [show 48 + (c - 48) = c by omega] at this

theorem isNegative_int {v : Str} (h : Digits v) : isNegative (0x2D :: v) = true := by
  obtain ⟨h0, h⟩ := h
  have hl : (0x2D :: v : Str).getLast? ≠ some 0x0A := by
    rw [List.getLast?_cons_of_ne_nil h0, List.getLast?_eq_some_getLast h0]
    intro e
    exact (digit_decimal (h _ (List.getLast_mem h0))).2.2.2 (Option.some.inj e)
  have hd : v.dropWhile isDecimal = [] := by
    have := List.dropWhile_append_of_pos (p := isDecimal) (l₁ := v) (l₂ := []) (fun c hc => (digit_decimal (h c hc)).1)
    simpa using this
  unfold isNegative
  rw [if_neg hl]
  simp [hd, h0]

theorem isNegative_decimal {v w : Str} (hv : v = [] ∨ Digits v) (hw : Digits w) : isNegative (0x2D :: (v ++ 0x2E :: w)) = true := by
  obtain ⟨h0, h⟩ := hw
  have hl : (0x2D :: (v ++ 0x2E :: w) : Str).getLast? ≠ some 0x0A := by
    rw [show (0x2D :: (v ++ 0x2E :: w) : Str) = (0x2D :: (v ++ [0x2E])) ++ w by simp, List.getLast?_append_of_ne_nil _ h0,
      List.getLast?_eq_some_getLast h0]
    intro e
    exact (digit_decimal (h _ (List.getLast_mem h0))).2.2.2 (Option.some.inj e)
  have hd : (v ++ 0x2E :: w : Str).dropWhile isDecimal = 0x2E :: w := by
    rw [List.dropWhile_append_of_pos]
    · rw [List.dropWhile_cons_of_neg (by decide)]
    · intro c hc
      rcases hv with rfl | hv
      · cases hc
      · exact (digit_decimal (hv.2 c hc)).1
  have hall : w.all isDecimal = true := by
    rw [List.all_eq_true]; intro c hc; exact (digit_decimal (h c hc)).1
  unfold isNegative
  rw [if_neg hl]
  simp only [hd]
  simp [h0]
  exact List.all_eq_true.1 hall

theorem kind_plain {v : Str} (hv : Plain v) : kind v = .value := by
  cases hv with
  | word v h =>
    unfold kind
    have h1 : v ≠ lit ['-', '-'] := by rintro rfl; exact h rfl
    have h2 : v.head? ≠ some 0x2D := h
    rw [if_neg h1, if_pos h2]
  | dash => decide
  | int v h =>
    obtain ⟨c, r, rfl⟩ := List.exists_cons_of_ne_nil h.1
    obtain ⟨-, h2, h3, -⟩ := digit_decimal (h.2 c (List.mem_cons_self ..))
    exact (kind_other h2 h3 r).trans (if_pos (isNegative_int h))
  | decimal v w hv hw =>
    have key := isNegative_decimal hv hw
    rcases v with _ | ⟨c, r⟩
    · exact (kind_other (by decide) (by decide) w).trans (if_pos key)
    · have hv : Digits (c :: r) := hv.resolve_left (by simp)
      obtain ⟨-, h2, h3, -⟩ := digit_decimal (hv.2 c (List.mem_cons_self ..))
      exact (kind_other h2 h3 _).trans (if_pos key)
  | space c v hc hd h =>
    refine (kind_other hc hd v).trans ?_
    have h' : (0x20 : Nat) ∈ (0x2D :: c :: v : Str) := List.mem_cons_of_mem _ h
    rw [if_pos h', ite_self]

/-- What is decided about the beginnings of a long name. -/
def AbbrevFacts (s long : Str) (opt : Opt) : Prop :=
  kind s = .option long opt none ∧ 0x3D ∉ s ∧ s.take 2 = lit ['-', '-'] ∧ 3 ≤ s.length ∧
    ((findOption s = some opt ∧ s = long) ∨
     (findOption s = none ∧ optionStrings.filter (fun e => s.isPrefixOf e.1) = [(long, opt)]))

instance (s long : Str) (opt : Opt) : Decidable (AbbrevFacts s long opt) := by unfold AbbrevFacts; infer_instance
instance (s long : Str) : Decidable (Abbrev s long) := by unfold Abbrev; infer_instance

theorem abbrev_switch (x : Switch) (s : Str) (hs : Abbrev s x.long) : AbbrevFacts s x.long (sopt x) := by
  have h : ∀ s ∈ x.long.inits, Abbrev s x.long → AbbrevFacts s x.long (sopt x) := by cases x <;> decide +kernel
  exact h s ((List.mem_inits _ _).mpr hs.2.1) hs

theorem abbrev_valued (o : Valued) (s : Str) (hs : Abbrev s o.long) : AbbrevFacts s o.long (vopt o) := by
  have h : ∀ s ∈ o.long.inits, Abbrev s o.long → AbbrevFacts s o.long (vopt o) := by cases o <;> decide +kernel
  exact h s ((List.mem_inits _ _).mpr hs.2.1) hs

theorem takeWhile_eq_sep {s v : Str} (h : 0x3D ∉ s) : (s ++ 0x3D :: v).takeWhile (· != 0x3D) = s := by
  induction s with
  | nil => simp
  | cons c s ih =>
    have hc : c ≠ 0x3D := fun e => h (by simp [e])
    have := ih (fun hm => h (by simp [hm]))
    simp [List.takeWhile_cons, hc, this]

theorem findOption_no_eq {s : Str} (h : 0x3D ∈ s) : findOption s = none := by
  unfold findOption
  have : optionStrings.find? (fun e => e.1 == s) = none := by
    rw [List.find?_eq_none]
    intro e he hs
    have hs : e.1 = s := by simpa using hs
    have hall : ∀ e ∈ optionStrings, 0x3D ∉ e.1 := by decide +kernel
    exact hall e he (hs ▸ h)
  rw [this]; rfl

theorem kind_eq {s v long : Str} {opt : Opt} (f : AbbrevFacts s long opt) :
    kind (s ++ 0x3D :: v) = .option long opt (some (true, v)) := by
  obtain ⟨-, h1, h2, h3, h4⟩ := f
  obtain ⟨a, b, c, s, rfl⟩ : ∃ a b c t, s = a :: b :: c :: t := by
    match s, h3 with
    | a :: b :: c :: t, _ => exact ⟨a, b, c, t, rfl⟩
  have hab : a = 0x2D ∧ b = 0x2D := by simpa [lit] using h2
  obtain ⟨rfl, rfl⟩ := hab
  set s' : Str := 0x2D :: 0x2D :: c :: s with hs'
  have hm : 0x3D ∈ s' ++ 0x3D :: v := by simp
  have e1 : s' ++ 0x3D :: v ≠ lit ['-', '-'] := by simp [hs', lit]
  have e2 : ¬ (s' ++ 0x3D :: v).head? ≠ some 0x2D := by simp [hs']
  have e3 : ¬ (s' ++ 0x3D :: v).length = 1 := by simp [hs']
  have e4 := takeWhile_eq_sep (v := v) h1
  have e5 : (s' ++ 0x3D :: v).drop (s'.length + 1) = v := by
    rw [← List.drop_drop]; simp
  have e6 : (s' ++ 0x3D :: v).take 2 = lit ['-', '-'] := by simp [hs', lit]
  unfold kind
  rw [if_neg e1, if_neg e2, findOption_no_eq hm]
  simp only [if_neg e3, e4, if_pos hm]
  rcases h4 with ⟨h4, h5⟩ | ⟨h4, h5⟩
  · rw [h4]; simp only [e5]; rw [h5]
  · rw [h4]
    simp only [optionTuples, if_pos e6, e4, if_pos hm, h5, e5, List.map_cons, List.map_nil]

/-- What is attached to a short option. -/
def attOf : Str → Option (Bool × Str)
  | [] => none
  | c :: r => if c = 0x3D then some (true, r) else some (false, c :: r)

theorem findOption_long_tail {c d : Nat} {r : Str} (hc : c ≠ 0x2D) : findOption (0x2D :: c :: d :: r) = none := by
  unfold findOption
  have : optionStrings.find? (fun e => e.1 == 0x2D :: c :: d :: r) = none := by
    rw [List.find?_eq_none]
    intro e he hs
    have hs : e.1 = 0x2D :: c :: d :: r := by simpa using hs
    have hall : ∀ e ∈ optionStrings, e.1.length = 2 ∨ e.1[1]? = some 0x2D := by decide +kernel
    rcases hall e he with h | h
    · rw [hs] at h; simp at h
    · rw [hs] at h; simp at h; exact hc h
  rw [this]; rfl

/-- The letter of an option. -/
def Letter (c : Nat) (opt : Opt) : Prop :=
  c ≠ 0x2D ∧ c ≠ 0x3D ∧ findOption [0x2D, c] = some opt ∧ optionStrings.filter (fun e => e.1 == [0x2D, c]) = [([0x2D, c], opt)]

instance (c : Nat) (opt : Opt) : Decidable (Letter c opt) := by unfold Letter; infer_instance

theorem letter_switch (x : Switch) : Letter x.letter (sopt x) := by cases x <;> decide +kernel
theorem letter_valued (o : Valued) : Letter o.letter (vopt o) := by cases o <;> decide +kernel

theorem kind_short {c : Nat} {opt : Opt} (h : Letter c opt) (r : Str) :
    kind (0x2D :: c :: r) = .option [0x2D, c] opt (attOf r) := by
  obtain ⟨h1, h2, h3, h4⟩ := h
  have e1 : (0x2D :: c :: r : Str) ≠ lit ['-', '-'] := by simp [lit, h1]
  have e2 : ¬ ((0x2D :: c :: r : Str)).head? ≠ some 0x2D := by simp
  have e3 : ¬ ((0x2D :: c :: r : Str)).length = 1 := by simp
  unfold kind
  rw [if_neg e1, if_neg e2]
  cases r with
  | nil => rw [h3]; rfl
  | cons d r =>
    rw [findOption_long_tail h1]
    by_cases hd : d = 0x3D
    · subst hd
      have e4 : ((0x2D :: c :: 0x3D :: r : Str)).takeWhile (· != 0x3D) = [0x2D, c] := by simp [List.takeWhile_cons, h2]
      simp only [if_neg e3, e4, attOf, if_true]
      rw [if_pos (by simp), h3]
      rfl
    · have e4 : ∃ t, ((0x2D :: c :: d :: r : Str)).takeWhile (· != 0x3D) = 0x2D :: c :: d :: t := by
        refine ⟨r.takeWhile (· != 0x3D), ?_⟩
        simp [List.takeWhile_cons, h2, hd]
      obtain ⟨t, e4⟩ := e4
      have e5 : (if 0x3D ∈ (0x2D :: c :: d :: r : Str) then findOption (0x2D :: c :: d :: t) else none) = none := by
        rw [findOption_long_tail h1]; simp
      have e6 : ¬ ((0x2D :: c :: d :: r : Str)).take 2 = lit ['-', '-'] := by simp [lit, h1]
      have e7 : ((0x2D :: c :: d :: r : Str)).take 2 = [0x2D, c] := rfl
      simp only [if_neg e3, e4]
      rw [e5]
      have e8 : optionTuples (0x2D :: c :: d :: r) = [([0x2D, c], opt, some (false, d :: r))] := by
        unfold optionTuples
        rw [if_neg e6, e7, h4]
        rfl
      rw [e8]
      simp [attOf, hd]

/-- The loop over one argument, with or without something attached. -/
def ofAtt (name : Str) (opt : Opt) : Option (Bool × Str) → Option Cluster
  | none => some ⟨[], some opt, false⟩
  | some (sep, att) => cluster att name opt sep

def clusterOf (r name : Str) (opt : Opt) : Option Cluster := ofAtt name opt (attOf r)

/-- What follows the loop over one argument. -/
def after (o : Opts) (seen extra : Bool) : Option Cluster → Scan
  | none => .halted .error
  | some ⟨acts, none, ex⟩ => take seen (extra || ex) o acts
  | some ⟨acts, some l, ex⟩ =>
    if l.arity = .zero then take seen (extra || ex) o (acts ++ [(l, none)])
    else .going o seen (extra || ex) (some (acts, l))

theorem scanArg_option {arg name : Str} {opt : Opt} {att : Option (Bool × Str)} (h : kind arg = .option name opt att) (o : Opts)
    (seen extra : Bool) : scanArg o seen extra arg = after o seen extra (ofAtt name opt att) := by
  unfold scanArg
  split <;> rename_i e <;> rw [h] at e <;> cases e
  cases att with
  | none => rfl
  | some a => rfl

theorem scanArg_short {c : Nat} {opt : Opt} (h : Letter c opt) (r : Str) (o : Opts) (seen extra : Bool) :
    scanArg o seen extra (0x2D :: c :: r) = after o seen extra (clusterOf r [0x2D, c] opt) := by
  rw [scanArg_option (kind_short h r)]
  rfl

theorem clusterOf_switch {c c' : Nat} {opt opt' : Opt} (hz : opt.arity = .zero) (h : Letter c opt) (h' : Letter c' opt') (r : Str) :
    clusterOf (c' :: r) [0x2D, c] opt =
      (clusterOf r [0x2D, c'] opt').map (fun (k : Cluster) => ⟨(opt, none) :: k.acts, k.open_, k.extra⟩) := by
  have e1 : attOf (c' :: r) = some (false, c' :: r) := by simp [attOf, h'.2.1]
  have e2 : ¬ (([0x2D, c] : Str)[1]? = some 0x2D) := by simpa using h.1
  unfold clusterOf
  rw [e1]
  simp only [ofAtt]
  rw [cluster]
  simp only [hz, ne_eq, not_true_eq_false, if_false, h'.2.2.1]
  have e3 : ((decide (([0x2D, c] : Str)[1]? = some 0x2D) || false || c' == 0x2D) = true) = False := by
    simp [h.1, h'.1]
  simp only [e3, if_false]
  cases r with
  | nil => rfl
  | cons e r =>
    by_cases he : e = 0x3D
    · simp [attOf, he]
    · simp [attOf, he]

theorem clusterOf_chain (xs : List Switch) {c : Nat} {opt : Opt} (h : Letter c opt) (r : Str) (o : Opts) (seen extra : Bool) :
    scanArg o seen extra (0x2D :: (xs.map Switch.letter ++ c :: r)) = after o seen extra
      ((clusterOf r [0x2D, c] opt).map (fun (k : Cluster) => ⟨xs.map (fun x => (sopt x, none)) ++ k.acts, k.open_, k.extra⟩)) := by
  have key : ∀ (xs : List Switch) (x : Switch), clusterOf (xs.map Switch.letter ++ c :: r) [0x2D, x.letter] (sopt x) =
      (clusterOf r [0x2D, c] opt).map
        (fun (k : Cluster) => ⟨(x :: xs).map (fun x => (sopt x, none)) ++ k.acts, k.open_, k.extra⟩) := by
    intro xs
    induction xs with
    | nil => intro x; rw [List.map_nil, List.nil_append, clusterOf_switch (by cases x <;> rfl) (letter_switch x) h]; rfl
    | cons y ys ih =>
      intro x
      rw [List.map_cons, List.cons_append, clusterOf_switch (by cases x <;> rfl) (letter_switch x) (letter_switch y), ih y]
      cases clusterOf r [0x2D, c] opt <;> rfl
  cases xs with
  | nil =>
    rw [List.map_nil, List.nil_append, scanArg_short h]
    cases clusterOf r [0x2D, c] opt <;> rfl
  | cons x xs =>
    rw [List.map_cons, List.cons_append, scanArg_short (letter_switch x), key]

/-! ## The scan -/

/-- Nothing more is looked for. -/
def close : Scan → Scan
  | .halted r => .halted r
  | .going o seen extra none => .going o seen extra none
  | .going o seen extra (some (acts, l)) =>
    if l.arity = .one then .halted .error else take seen extra o (acts ++ [(l, none)])

theorem take_cases (seen extra : Bool) (o : Opts) (acts : List (Opt × Option Str)) :
    (∃ o', take seen extra o acts = .going o' seen extra none) ∨ ∃ r, take seen extra o acts = .halted r := by
  induction acts generalizing o with
  | nil => exact Or.inl ⟨o, rfl⟩
  | cons a acts ih =>
    obtain ⟨opt, v⟩ := a
    unfold take
    split
    · exact Or.inr ⟨_, rfl⟩
    · exact ih _

theorem scanStep_close {arg : Str} (h : kind arg ≠ .value) (S : Scan) : scanStep S arg = scanStep (close S) arg := by
  match S with
  | .halted r => rfl
  | .going o seen extra none => rfl
  | .going o seen extra (some (acts, l)) =>
    simp only [scanStep, close, if_neg h]
    by_cases hl : l.arity = .one
    · simp [hl]
    · simp only [hl, if_false]
      rcases take_cases seen extra o (acts ++ [(l, none)]) with ⟨o', e⟩ | ⟨r, e⟩ <;> rw [e]

theorem scanEnd_close (S : Scan) : scanEnd S = scanEnd (close S) := by
  match S with
  | .halted r => rfl
  | .going o seen extra none => rfl
  | .going o seen extra (some (acts, l)) =>
    simp only [scanEnd, close]
    by_cases hl : l.arity = .one
    · simp [hl]
    · simp only [hl, if_false]
      rcases take_cases seen extra o (acts ++ [(l, none)]) with ⟨o', e⟩ | ⟨r, e⟩ <;> rw [e]

/-- What an item does. -/
def eff : Opts × Bool × Bool → Item → Opts × Bool × Bool
  | (o, seen, extra), .switch x => (o.store (sopt x) none, seen, extra)
  | (o, seen, extra), .valued p v => (o.store (vopt p) v, seen, extra)
  | (o, seen, extra), .file v => if seen then (o, seen, true) else ({ o with filename := some v }, true, extra)

def toScan (t : Opts × Bool × Bool) : Scan := .going t.1 t.2.1 t.2.2 none

theorem take_switches (xs : List Switch) (l : List (Opt × Option Str)) (o : Opts) (seen extra : Bool) :
    take seen extra o (xs.map (fun x => (sopt x, none)) ++ l) =
      take seen extra ((xs.map Item.switch).foldl eff (o, seen, extra)).1 l ∧
    ((xs.map Item.switch).foldl eff (o, seen, extra)).2 = (seen, extra) := by
  induction xs generalizing o with
  | nil => exact ⟨rfl, rfl⟩
  | cons x xs ih =>
    have hx : ¬ (sopt x = .version ∨ sopt x = .help) := by cases x <;> decide
    refine ⟨?_, (ih _).2⟩
    rw [List.map_cons, List.cons_append, take, if_neg hx, (ih _).1]
    rfl

theorem take_one_switch (x : Switch) (o : Opts) (seen extra : Bool) :
    take seen extra o [(sopt x, none)] = .going (o.store (sopt x) none) seen extra none := by
  cases x <;> rfl

theorem take_one_valued (p : Valued) (v : Option Str) (o : Opts) (seen extra : Bool) :
    take seen extra o [(vopt p, v)] = .going (o.store (vopt p) v) seen extra none := by
  cases p <;> rfl

theorem clusterOf_valued_some (p : Valued) (v name : Str) (sep : Bool) :
    cluster v name (vopt p) sep = some ⟨[(vopt p, some v)], none, false⟩ := by
  cases v <;> cases p <;> simp [cluster, vopt, Opt.arity]

theorem foldl_switches_valued (xs : List Switch) (i : Item) (hi : ∀ v, i ≠ .file v) (o : Opts) (seen extra : Bool) :
    ∃ o', (xs.map Item.switch ++ [i]).foldl eff (o, seen, extra) = (o', seen, extra) ∧
      o' = (eff (((xs.map Item.switch).foldl eff (o, seen, extra)).1, seen, extra) i).1 := by
  rw [List.foldl_append]
  have h := (take_switches xs [] o seen extra).2
  set t := (xs.map Item.switch).foldl eff (o, seen, extra) with ht
  obtain ⟨t1, t2⟩ := t
  simp only at h
  subst h
  cases i with
  | file v => exact absurd rfl (hi v)
  | switch x => exact ⟨_, rfl, rfl⟩
  | valued p v => exact ⟨_, rfl, rfl⟩

/-- The arguments of a chunk, from a state in which nothing is pending. -/
theorem chunk_scan {is : List Item} {as : List Str} (h : Chunk is as) (o : Opts) (seen extra : Bool) :
    close (as.foldl scanStep (.going o seen extra none)) = toScan (is.foldl eff (o, seen, extra)) ∧
    ((∀ p, is.getLast? ≠ some (.valued p none)) →
      as.foldl scanStep (.going o seen extra none) = toScan (is.foldl eff (o, seen, extra))) := by
  have strong : as.foldl scanStep (.going o seen extra none) = toScan (is.foldl eff (o, seen, extra)) →
      close (as.foldl scanStep (.going o seen extra none)) = toScan (is.foldl eff (o, seen, extra)) ∧
      ((∀ p, is.getLast? ≠ some (.valued p none)) →
        as.foldl scanStep (.going o seen extra none) = toScan (is.foldl eff (o, seen, extra))) := by
    intro e; rw [e]; exact ⟨rfl, fun _ => rfl⟩
  have ha : ∀ p : Valued, (vopt p).arity ≠ .zero := by intro p; cases p <;> decide
  have hone : ∀ p : Valued, p.Bare → (vopt p).arity ≠ .one := by rintro p (rfl | rfl) <;> decide
  cases h with
  | file v hv =>
    apply strong
    simp only [List.foldl_cons, List.foldl_nil, scanStep, scanArg, kind_plain hv, eff]
    cases seen <;> rfl
  | longSwitch x s hs =>
    apply strong
    simp only [List.foldl_cons, List.foldl_nil, scanStep]
    rw [scanArg_option (abbrev_switch x s hs).1]
    cases x <;> simp [ofAtt, after, take, toScan, eff, sopt, Opt.arity]
  | longBare p s ho hs =>
    refine ⟨?_, fun hl => absurd rfl (hl p)⟩
    simp only [List.foldl_cons, List.foldl_nil, scanStep]
    rw [scanArg_option (abbrev_valued p s hs).1]
    simp only [ofAtt, after, if_neg (ha p), close, if_neg (hone p ho), List.nil_append, Bool.or_false]
    rw [take_one_valued]; rfl
  | longNext p s v hs hv =>
    apply strong
    simp only [List.foldl_cons, List.foldl_nil, scanStep]
    rw [scanArg_option (abbrev_valued p s hs).1]
    simp only [ofAtt, after, if_neg (ha p), scanStep, kind_plain hv, if_true, List.nil_append, Bool.or_false]
    rw [take_one_valued]; rfl
  | longEq p s v hs =>
    apply strong
    simp only [List.foldl_cons, List.foldl_nil, scanStep]
    refine Eq.trans (scanArg_option (kind_eq (v := v) (abbrev_valued p s hs)) o seen extra) ?_
    simp only [ofAtt, clusterOf_valued_some, after, Bool.or_false]
    rw [take_one_valued]; rfl
  | switches xs x =>
    apply strong
    simp only [List.foldl_cons, List.foldl_nil, scanStep]
    obtain ⟨o', e1, e2⟩ := foldl_switches_valued xs (.switch x) (by simp) o seen extra
    have hz : (sopt x).arity = .zero := by cases x <;> rfl
    have hc := clusterOf_chain xs (letter_switch x) [] o seen extra
    refine Eq.trans hc ?_
    simp only [clusterOf, ofAtt, attOf, Option.map_some, after, hz, if_true, List.append_nil, Bool.or_false]
    rw [(take_switches xs _ o seen extra).1, take_one_switch, e1, e2]
    rfl
  | shortBare xs p ho =>
    refine ⟨?_, fun hl => absurd (by simp) (hl p)⟩
    simp only [List.foldl_cons, List.foldl_nil, scanStep]
    obtain ⟨o', e1, e2⟩ := foldl_switches_valued xs (.valued p none) (by simp) o seen extra
    have hc := clusterOf_chain xs (letter_valued p) [] o seen extra
    refine Eq.trans (congrArg close hc) ?_
    simp only [clusterOf, ofAtt, attOf, Option.map_some, after, if_neg (ha p), List.append_nil, Bool.or_false, close, if_neg (hone p ho)]
    rw [(take_switches xs _ o seen extra).1, take_one_valued, e1, e2]
    rfl
  | shortNext xs p v hv =>
    apply strong
    simp only [List.foldl_cons, List.foldl_nil, scanStep]
    obtain ⟨o', e1, e2⟩ := foldl_switches_valued xs (.valued p (some v)) (by simp) o seen extra
    have hc := clusterOf_chain xs (letter_valued p) [] o seen extra
    refine Eq.trans (congrArg (fun S => scanStep S v) hc) ?_
    simp only [clusterOf, ofAtt, attOf, Option.map_some, after, if_neg (ha p), List.append_nil, Bool.or_false, scanStep, kind_plain hv, if_true]
    rw [(take_switches xs _ o seen extra).1, take_one_valued, e1, e2]
    rfl
  | shortEq xs p v =>
    apply strong
    simp only [List.foldl_cons, List.foldl_nil, scanStep]
    obtain ⟨o', e1, e2⟩ := foldl_switches_valued xs (.valued p (some v)) (by simp) o seen extra
    have hc := clusterOf_chain xs (letter_valued p) (0x3D :: v) o seen extra
    refine Eq.trans hc ?_
    simp only [clusterOf, ofAtt, attOf, if_true, clusterOf_valued_some, Option.map_some, after, Bool.or_false]
    rw [(take_switches xs _ o seen extra).1, take_one_valued, e1, e2]
    rfl
  | shortGlued xs p v hv he =>
    apply strong
    simp only [List.foldl_cons, List.foldl_nil, scanStep]
    obtain ⟨o', e1, e2⟩ := foldl_switches_valued xs (.valued p (some v)) (by simp) o seen extra
    have hc := clusterOf_chain xs (letter_valued p) v o seen extra
    refine Eq.trans hc ?_
    have hatt : attOf v = some (false, v) := by
      cases v with
      | nil => exact absurd rfl hv
      | cons c r =>
        have : c ≠ 0x3D := fun e => he (by simp [e])
        simp [attOf, this]
    simp only [clusterOf, ofAtt, hatt, clusterOf_valued_some, Option.map_some, after, Bool.or_false]
    rw [(take_switches xs _ o seen extra).1, take_one_valued, e1, e2]
    rfl

/-- The first argument of a chunk is a value only if it is a file name. -/
theorem chunk_head {is : List Item} {as : List Str} (h : Chunk is as) :
    (∃ v, is = [.file v]) ∨ ∃ a t, as = a :: t ∧ kind a ≠ .value := by
  have hk : ∀ (xs : List Switch) {c : Nat} {opt : Opt} (_ : Letter c opt) (r : Str),
      kind (dash :: (xs.map Switch.letter ++ c :: r)) ≠ .value := by
    intro xs c opt hl r
    cases xs with
    | nil => exact fun e => by have := (kind_short hl r).symm.trans e; cases this
    | cons x xs => exact fun e => by have := (kind_short (letter_switch x) (xs.map Switch.letter ++ c :: r)).symm.trans e; cases this
  cases h with
  | file v hv => exact Or.inl ⟨v, rfl⟩
  | longSwitch x s hs => exact Or.inr ⟨_, _, rfl, by rw [(abbrev_switch x s hs).1]; simp⟩
  | longBare p s ho hs => exact Or.inr ⟨_, _, rfl, by rw [(abbrev_valued p s hs).1]; simp⟩
  | longNext p s v hs hv => exact Or.inr ⟨_, _, rfl, by rw [(abbrev_valued p s hs).1]; simp⟩
  | longEq p s v hs =>
    refine Or.inr ⟨_, _, rfl, ?_⟩
    intro e
    have := (kind_eq (v := v) (abbrev_valued p s hs)).symm.trans e
    cases this
  | switches xs x => exact Or.inr ⟨_, _, rfl, hk xs (letter_switch x) []⟩
  | shortBare xs p ho => exact Or.inr ⟨_, _, rfl, hk xs (letter_valued p) []⟩
  | shortNext xs p v hv => exact Or.inr ⟨_, _, rfl, hk xs (letter_valued p) []⟩
  | shortEq xs p v => exact Or.inr ⟨_, _, rfl, hk xs (letter_valued p) _⟩
  | shortGlued xs p v hv he => exact Or.inr ⟨_, _, rfl, hk xs (letter_valued p) v⟩

/-- The arguments of a line. -/
theorem line_scan {is : List Item} {as : List Str} (h : Line is as) : ∀ (S : Scan) (t : Opts × Bool × Bool), close S = toScan t →
    (S = toScan t ∨ ∀ v, is.head? ≠ some (.file v)) → close (as.foldl scanStep S) = toScan (is.foldl eff t) := by
  induction h with
  | nil => intro S t hS _; exact hS
  | @cons is js as bs hc hl hb ih =>
    intro S t hS hf
    obtain ⟨o, seen, extra⟩ := t
    have e0 : as.foldl scanStep S = as.foldl scanStep (toScan (o, seen, extra)) := by
      rcases hf with rfl | hf
      · rfl
      · rcases chunk_head hc with ⟨v, rfl⟩ | ⟨a, t, rfl, ha⟩
        · exact absurd rfl (hf v)
        · rw [List.foldl_cons, List.foldl_cons, scanStep_close ha, hS]
    obtain ⟨c1, c2⟩ := chunk_scan hc o seen extra
    rw [List.foldl_append, List.foldl_append, e0]
    apply ih _ _ c1
    by_cases hbare : ∃ p, is.getLast? = some (.valued p none)
    · obtain ⟨p, hp⟩ := hbare
      exact Or.inr (hb p hp)
    · exact Or.inl (c2 (fun p hp => hbare ⟨p, hp⟩))

/-- Every argument of a line is classified as one option or a value. -/
theorem line_kinds {is : List Item} {as : List Str} (h : Line is as) : ∀ a ∈ as, kind a ≠ .ambiguous ∧ kind a ≠ .dashes := by
  induction h with
  | nil => simp
  | cons hc hl hb ih =>
    intro a ha
    rcases List.mem_append.mp ha with ha | ha
    · have hk : ∀ (xs : List Switch) {c : Nat} {opt : Opt} (_ : Letter c opt) (r : Str),
          ∃ n p q, kind (dash :: (xs.map Switch.letter ++ c :: r)) = .option n p q := by
        intro xs c opt hl r
        cases xs with
        | nil => exact ⟨_, _, _, kind_short hl r⟩
        | cons x xs => exact ⟨_, _, _, kind_short (letter_switch x) (xs.map Switch.letter ++ c :: r)⟩
      have done : (kind a = .value ∨ ∃ n p q, kind a = .option n p q) → kind a ≠ .ambiguous ∧ kind a ≠ .dashes := by
        rintro (e | ⟨n, p, q, e⟩) <;> rw [e] <;> simp
      apply done
      cases hc with
      | file v hv => obtain rfl : a = v := by simpa using ha
                     exact Or.inl (kind_plain hv)
      | longSwitch x s hs => obtain rfl : a = s := by simpa using ha
                             exact Or.inr ⟨_, _, _, (abbrev_switch x _ hs).1⟩
      | longBare p s ho hs => obtain rfl : a = s := by simpa using ha
                              exact Or.inr ⟨_, _, _, (abbrev_valued p _ hs).1⟩
      | longNext p s v hs hv =>
        rcases (by simpa using ha : a = s ∨ a = v) with rfl | rfl
        · exact Or.inr ⟨_, _, _, (abbrev_valued p _ hs).1⟩
        · exact Or.inl (kind_plain hv)
      | longEq p s v hs =>
        have e : a = s ++ '='.toNat :: v := by simpa using ha
        rw [e]
        exact Or.inr ⟨_, _, _, kind_eq (abbrev_valued p _ hs)⟩
      | switches xs x => rw [List.mem_singleton.mp ha]; exact Or.inr (hk xs (letter_switch x) [])
      | shortBare xs p ho => rw [List.mem_singleton.mp ha]; exact Or.inr (hk xs (letter_valued p) [])
      | shortNext xs p v hv =>
        rcases List.mem_cons.mp ha with e | ha
        · rw [e]; exact Or.inr (hk xs (letter_valued p) [])
        · rw [List.mem_singleton.mp ha]; exact Or.inl (kind_plain hv)
      | shortEq xs p v => rw [List.mem_singleton.mp ha]; exact Or.inr (hk xs (letter_valued p) _)
      | shortGlued xs p v hv he => rw [List.mem_singleton.mp ha]; exact Or.inr (hk xs (letter_valued p) v)
    · exact ih a ha

theorem kind_dashes : kind (lit ['-', '-']) = .dashes := rfl

theorem takeWhile_no_dashes {as : List Str} (h : ∀ a ∈ as, kind a ≠ .ambiguous ∧ kind a ≠ .dashes) (t : List Str) :
    (as ++ lit ['-', '-'] :: t).takeWhile (· != lit ['-', '-']) = as ∧ as.takeWhile (· != lit ['-', '-']) = as := by
  have hp : ∀ a ∈ as, (a != lit ['-', '-']) = true := by
    intro a ha
    have : a ≠ lit ['-', '-'] := by rintro rfl; exact (h _ ha).2 kind_dashes
    simpa using this
  refine ⟨?_, by simpa using List.takeWhile_append_of_pos (l₂ := []) hp⟩
  rw [List.takeWhile_append_of_pos hp]
  simp

theorem any_ambiguous {as : List Str} (h : ∀ a ∈ as, kind a ≠ .ambiguous ∧ kind a ≠ .dashes) :
    ¬ as.any (fun a => kind a = .ambiguous) = true := by
  simp only [List.any_eq_true, decide_eq_true_eq, not_exists, not_and]
  exact fun a ha => (h a ha).1

theorem parseArgs_scan {argv : List Str} (h : ∀ a ∈ argv, kind a ≠ .ambiguous ∧ kind a ≠ .dashes) :
    parseArgs argv = scanEnd (argv.foldl scanStep (.going Opts.default false false none)) := by
  unfold parseArgs
  simp only [(takeWhile_no_dashes h []).2, if_neg (any_ambiguous h), List.drop_length]
  rfl

theorem parseArgs_dashes {as : List Str} (h : ∀ a ∈ as, kind a ≠ .ambiguous ∧ kind a ≠ .dashes) (post : List Str) :
    parseArgs (as ++ lit ['-', '-'] :: post) =
      scanDashes ((as.foldl scanStep scanStart).seen && !(as.dropLast.foldl scanStep scanStart).seen) post (as.foldl scanStep scanStart) := by
  unfold parseArgs
  simp only [(takeWhile_no_dashes h post).1, if_neg (any_ambiguous h), List.drop_left]

theorem scanDashes_close {S : Scan} {t : Opts × Bool × Bool} (h : close S = toScan t) (hs : t.2.1 = false) (just : Bool) (post : List Str) :
    scanDashes just post S = scanDashes just post (toScan t) := by
  match S with
  | .halted r => cases h
  | .going o seen extra none => exact congrArg _ h
  | .going o seen extra (some (acts, l)) =>
    simp only [close] at h
    by_cases hl : l.arity = .one
    · rw [if_pos hl] at h; cases h
    · rw [if_neg hl] at h
      simp only [scanDashes, if_neg hl, h, toScan, hs, Bool.or_false]
      rfl

/-! ## What the items mean -/

theorem lastValue_append (o : Valued) (is : List Item) (i : Item) :
    lastValue o (is ++ [i]) = match i with
      | .valued o' v => if o' = o then some v else lastValue o is
      | _ => lastValue o is := by
  unfold lastValue
  rw [List.filterMap_append]
  cases i with
  | switch x => simp
  | file v => simp
  | valued o' v =>
    by_cases h : o' = o
    · simp [h]
    · simp [h]

theorem files_append (is : List Item) (i : Item) :
    files (is ++ [i]) = files is ++ (match i with
      | .file v => [v]
      | _ => []) := by
  unfold files
  rw [List.filterMap_append]
  cases i <;> rfl

theorem settings_fold (is : List Item) :
    is.foldl eff (Opts.default, false, false) = (settings is, decide (files is ≠ []), decide (2 ≤ (files is).length)) := by
  induction is using List.reverseRecOn with
  | nil => rfl
  | append_singleton is i ih =>
    rw [List.foldl_append, ih, List.foldl_cons, List.foldl_nil]
    have hf := files_append is i
    cases i with
    | switch x =>
      simp only [List.append_nil] at hf
      simp only [eff, hf]
      refine Prod.ext ?_ rfl
      cases x <;> simp [settings, Opts.store, sopt, lastValue_append, hf]
    | valued p v =>
      simp only [List.append_nil] at hf
      simp only [eff, hf]
      refine Prod.ext ?_ rfl
      cases p <;> cases v <;> simp [settings, Opts.store, vopt, lastValue_append, hf]
    | file v =>
      simp only at hf
      by_cases h : files is = []
      · simp [eff, h, hf, settings, lastValue_append]
      · obtain ⟨f, fs, hfs⟩ := List.exists_cons_of_ne_nil h
        simp [eff, hf, hfs, settings, lastValue_append]

end Jieba.Main
