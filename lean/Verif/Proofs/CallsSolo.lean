import Verif.Proofs.Calls
import Verif.Props.Suggest
/-!
# Calls without interference are the functions of the sequential model
-/

set_option linter.unusedSectionVars false

namespace Jieba.Lazy
open Co Jieba.Spec Jieba.Threads Jieba.Props

variable {F : Type} [LinearOrder F] {α β γ : Type}

/-- Without interference `c`, started in state `w`, yields nothing, ends in state `w'` and with `r`. -/
def Solo (c : Co World α β) (w w' : World) (r : Except PyErr β) : Prop := ∀ n, drive (fun _ w => w) c n w = (w', [], r)

theorem Solo.bind {c : Co World α β} {g : β → Co World α γ} {w w1 w2 : World} {b : β} {r : Except PyErr γ} (h : Solo c w w1 (.ok b))
    (hg : Solo (g b) w1 w2 r) : Solo (c >>= g) w w2 r := by
  intro n
  rw [bind_def, drive_bind, h n]
  simp only [hg _, List.append_nil]

theorem Solo.error {c : Co World α β} {g : β → Co World α γ} {w w1 : World} {e : PyErr} (h : Solo c w w1 (.error e)) :
    Solo (c >>= g) w w1 (.error e) := by
  intro n
  rw [bind_def, drive_bind, h n]

theorem Solo.ret (b : β) (w : World) : Solo (.ret b : Co World α β) w w (.ok b) := fun _ => rfl
theorem Solo.get (f : World → β) (w : World) : Solo (Co.get f : Co World α β) w w (.ok (f w)) := fun _ => rfl
theorem Solo.upd (f : World → World) (w : World) : Solo (Lazy.upd f : Co World α Unit) w (f w) (.ok ()) := fun _ => rfl

theorem Solo.val {c : Co World α β} {w : World} {r : Except PyErr β} (h : Val c w r) : Solo c w w r := fun n => h _ n

theorem checkInitL_solo (S : Sys F) (t : Nat) (io : Bool) (w : World) :
    Solo (checkInitL S t io : Co World α Unit) w (checkInit S w t io).1 (checkInit S w t io).2 := by
  intro n
  unfold checkInitL
  simp only [drive]
  cases (checkInit S w t io).2 <;> rfl

theorem setTok_same (w : World) (t : Nat) (x : Tok) (h : w.tok t = x) : w.setTok t x = w := by
  subst h
  unfold World.setTok
  cases w
  simp only [World.mk.injEq, true_and]
  funext u
  split
  · next h => subst h; rfl
  · rfl

theorem addPrefixesL_solo (t : Nat) (word : Str) (d : Freq) (m k : Nat) (hk : k + m = word.length) (w : World)
    (hd : (w.tok t).freq = addPrefixes word k d) :
    Solo (addPrefixesL t word (List.range' k m) : Co World α Unit) w
      (w.setTok t { w.tok t with freq := addPrefixes word word.length d }) (.ok ()) := by
  induction m generalizing k w with
  | zero =>
    have hk' : word.length = k := by omega
    rw [setTok_same w t _ (by rw [hk', ← hd])]
    exact Solo.ret () w
  | succ m ih =>
    rw [List.range'_succ]
    unfold addPrefixesL
    refine Solo.bind (Solo.get _ w) ?_
    by_cases hh : PyDict.has (w.tok t).freq (word.take (k + 1)) = true
    · simp only [hh, if_true]
      exact ih (k + 1) (by omega) w (by rw [addPrefixes, ← hd, if_pos hh])
    · simp only [hh]
      refine Solo.bind (Solo.upd _ w) ?_
      have := ih (k + 1) (by omega) (w.setTok t { w.tok t with freq := (w.tok t).freq.set (word.take (k + 1)) 0 })
        (by rw [addPrefixes, ← hd, if_neg hh, Threads.setTok_tok])
      rw [Threads.setTok_tok, Threads.setTok_setTok] at this
      exact this

theorem addFreqL_solo (t : Nat) (word : Str) (f : Int) (tag : Option Str) (w : World) :
    Solo (addFreqL t word f tag : Co World α Unit) w (addFreq w t word f tag) (.ok ()) := by
  unfold addFreqL
  refine Solo.bind (Solo.upd _ w) (Solo.bind (Solo.get _ _) (Solo.bind (Solo.upd _ _) ?_))
  rw [Threads.setTok_tok, Threads.setTok_setTok]
  have h1 : Solo (setTagL t word tag : Co World α Unit)
      (w.setTok t { w.tok t with freq := (w.tok t).freq.set word f, total := (w.tok t).total + f })
      (w.setTok t { w.tok t with freq := (w.tok t).freq.set word f, total := (w.tok t).total + f
                                 tags := if truthyStr tag then (w.tok t).tags.set word (tag.getD []) else (w.tok t).tags }) (.ok ()) := by
    unfold setTagL
    split
    · have := Solo.upd (α := α) (fun w => w.setTok t { w.tok t with tags := (w.tok t).tags.set word (tag.getD []) })
        (w.setTok t { w.tok t with freq := (w.tok t).freq.set word f, total := (w.tok t).total + f })
      rw [Threads.setTok_tok, Threads.setTok_setTok] at this
      exact this
    · exact Solo.ret () _
  refine Solo.bind h1 ?_
  have h2 := addPrefixesL_solo (α := α) t word ((w.tok t).freq.set word f) word.length 0 (by omega)
    (w.setTok t { w.tok t with freq := (w.tok t).freq.set word f, total := (w.tok t).total + f
                               tags := if truthyStr tag then (w.tok t).tags.set word (tag.getD []) else (w.tok t).tags })
    (by rw [Threads.setTok_tok]; rfl)
  rw [Threads.setTok_tok, Threads.setTok_setTok, ← List.range_eq_range'] at h2
  refine Solo.bind h2 ?_
  unfold forceL addFreq
  split
  · exact Solo.upd _ _
  · exact Solo.ret _ _

/-- The product in `suggest_freq`. -/
def prod (A : Arith F) (freq : Freq) (ftotal : Int) : Option F → List Str → Option F
  | acc, [] => acc
  | acc, seg :: l => prod A freq ftotal (some (A.mul (acc.getD (A.ofInt 1)) (A.div (A.ofInt ((freq.get? seg).getD 1)) (A.ofInt ftotal)))) l

theorem prod_some (A : Arith F) (freq : Freq) (ftotal : Int) (x : F) (l : List Str) :
    prod A freq ftotal (some x) l = some (mulFreqs A freq (A.ofInt ftotal) x l) := by
  induction l generalizing x with
  | nil => rfl
  | cons seg l ih => simp only [prod, mulFreqs, ih, Option.getD_some]

/-- The body of the loop. -/
def factor (A : Arith F) (t : Nat) (ftotal : Int) (seg : Str) (acc : Option F) : Co World α (Option F) := do
  let n ← Co.get (fun w => (PyDict.get? (w.tok t).freq seg).getD 1)
  if ftotal = 0 then .raise .zeroDivisionError
  else .ret (some (A.mul (acc.getD (A.ofInt 1)) (A.div (A.ofInt n) (A.ofInt ftotal))))

theorem loop_solo (A : Arith F) (t : Nat) (ftotal : Int) (gen : Co World Str Unit) (P : World → Prop) (hq : Quiet P gen) (w : World)
    (hw : P w) (acc : Option F) (n m : Nat) :
    drive (fun _ w => w) (Co.forIn gen (factor A t ftotal) acc : Co World α _) n w =
      (w, [], if (drive (fun _ w => w) gen m w).2.1 ≠ [] ∧ ftotal = 0 then .error .zeroDivisionError
        else match (drive (fun _ w => w) gen m w).2.2 with
          | .error e => .error e
          | .ok _ => .ok (prod A (w.tok t).freq ftotal acc (drive (fun _ w => w) gen m w).2.1)) := by
  induction gen generalizing acc n m with
  | ret b => simp [Co.forIn, drive, prod]
  | raise e => simp [Co.forIn, drive]
  | yield a k ih =>
    simp only [Co.forIn]
    rw [drive_bind]
    by_cases h0 : ftotal = 0
    · have : drive (fun _ w => w) (factor A t ftotal a acc : Co World α _) n w = (w, [], .error .zeroDivisionError) := by
        unfold factor; simp only [h0, if_true]; rfl
      rw [this]
      simp [drive, h0]
    · have : drive (fun _ w => w) (factor A t ftotal a acc : Co World α _) n w = (w, [], .ok
          (some (A.mul (acc.getD (A.ofInt 1)) (A.div (A.ofInt ((PyDict.get? (w.tok t).freq a).getD 1)) (A.ofInt ftotal))))) := by
        unfold factor; simp only [h0, if_false]; rfl
      rw [this]
      simp only [drive]
      rw [ih hq _ _ (m + 1)]
      simp [h0, prod]
  | act f k ih =>
    simp only [Co.forIn, drive, (hq w hw).1]
    exact ih w (hq w hw).2 acc n m

/-- The loop of `suggest_freq` over a generator that changes nothing. -/
theorem expectL_solo (A : Arith F) (t : Nat) (gen : Co World Str Unit) (P : World → Prop) (hq : Quiet P gen) (w : World) (hw : P w) :
    Solo (expectL A t gen : Co World α Int) w w
      (match expectFreq A (w.tok t).freq (w.tok t).total (sem gen w).2.out with
        | .error e => .error e
        | .ok n => match (sem gen w).2.err with
          | some e => .error e
          | none => .ok n) := by
  have hloop := fun n => loop_solo (α := α) A t (w.tok t).total gen P hq w hw none n 0
  unfold expectL
  refine Solo.bind (Solo.get _ w) ?_
  change Solo (Co.forIn gen (factor A t (w.tok t).total) none >>= _) w w _
  have hrest : ∀ o : Option F, Solo (α := α) (do
      let total ← Co.get (fun w => (w.tok t).total)
      .ret (match o with | none => total | some x => A.trunc (A.mul x (A.ofInt total)))) w w
      (.ok (match o with | none => (w.tok t).total | some x => A.trunc (A.mul x (A.ofInt (w.tok t).total)))) :=
    fun o => Solo.bind (Solo.get _ w) (Solo.ret _ w)
  unfold sem expectFreq
  simp only []
  generalize drive (fun _ w => w) gen 0 w = D at hloop ⊢
  obtain ⟨w', segs, r⟩ := D
  simp only [] at hloop ⊢
  by_cases hs : segs = []
  · subst hs
    simp only [ne_eq, not_true_eq_false, false_and, if_false, prod] at hloop
    simp only [if_true]
    cases r with
    | error e => exact Solo.error hloop
    | ok u => exact Solo.bind hloop (hrest none)
  · by_cases h0 : (w.tok t).total = 0
    · simp only [ne_eq, hs, not_false_eq_true, h0, and_self, if_true] at hloop
      simp only [hs, h0, if_true, if_false]
      refine Solo.error ?_
      exact hloop
    · simp only [ne_eq, hs, not_false_eq_true, h0, and_false, if_false] at hloop
      simp only [hs, h0, if_false]
      cases r with
      | error e => exact Solo.error hloop
      | ok u =>
        refine Solo.bind hloop ?_
        obtain ⟨seg, l, rfl⟩ := List.exists_cons_of_ne_nil hs
        have := hrest (prod A (w.tok t).freq (w.tok t).total none (seg :: l))
        simp only [prod, prod_some] at this ⊢
        exact this

theorem suggestWordL_solo (S : Sys F) (t : Nat) (word : Str) (io : Bool) (w0 w : World)
    (hc0 : checkInit S w0 t io = (w, .ok ())) :
    Solo (suggestWordL S t word io : Co World α Int) w0 w (suggestWord S w t word) := by
  have hi := checkInit_initialized S w0 w t io hc0
  have hc := checkInitL_solo (α := α) S t io w0
  rw [hc0] at hc
  have he := expectL_solo (α := α) S.A t _ _ (quiet_cutL S t false false (.str word) io) w hi
  rw [sem_cutL, cutW_of_init S w t false false io (.str word) hi] at he
  unfold suggestWordL suggestWord
  refine Solo.bind hc ?_
  simp only [strdecode] at he ⊢
  cases hx : expectFreq S.A (w.tok t).freq (w.tok t).total (cut (w.env S t) false false word).out with
  | error e => rw [hx] at he; exact Solo.error he
  | ok n =>
    rw [hx] at he
    cases hg : (cut (w.env S t) false false word).err with
    | some e => rw [hg] at he; exact Solo.error he
    | none =>
      rw [hg] at he
      exact Solo.bind he (Solo.bind (Solo.get _ w) (Solo.ret _ w))

theorem suggestSplitL_solo (S : Sys F) (t : Nat) (segs : List Str) (io : Bool) (w0 w : World)
    (hc0 : checkInit S w0 t io = (w, .ok ())) :
    Solo (suggestSplitL S t segs io : Co World α Int) w0 w (suggestSplit S w t segs) := by
  have hi := checkInit_initialized S w0 w t io hc0
  have hc := checkInitL_solo (α := α) S t io w0
  rw [hc0] at hc
  have he := expectL_solo (α := α) S.A t (Co.yieldAll segs) (fun _ => True) (Quiet.yieldAll segs) w trivial
  rw [sem_yieldAll] at he
  unfold suggestSplitL suggestSplit
  refine Solo.bind hc ?_
  simp only [Gen.ok] at he
  cases hx : expectFreq S.A (w.tok t).freq (w.tok t).total segs with
  | error e => rw [hx] at he; exact Solo.error he
  | ok n => rw [hx] at he; exact Solo.bind he (Solo.bind (Solo.get _ w) (Solo.ret _ w))

theorem addWordL_solo (S : Sys F) (t : Nat) (word : PyText) (freq : FreqArg) (tag : Option Str) (io : Bool) (w : World) :
    Solo (addWordL S t word freq tag io : Co World α Unit) w (addWord S w t word freq tag io).1 (addWord S w t word freq tag io).2 := by
  have hc := checkInitL_solo (α := α) S t io w
  unfold addWordL addWord
  cases hr : checkInit S w t io with
  | mk w1 r =>
    rw [hr] at hc
    cases r with
    | error e => exact Solo.error hc
    | ok u =>
      have hi := checkInit_initialized S w w1 t io hr
      refine Solo.bind hc ?_
      simp only []
      have hf : Solo (freqArgL S t (strdecode S.gbk word) io freq : Co World α Int) w1 w1 (addWordFreq S w1 t (strdecode S.gbk word) freq) := by
        cases freq with
        | none => exact suggestWordL_solo S t _ io w1 w1 (checkInit_of_init S w1 t io hi)
        | int n => exact Solo.ret _ _
        | str s =>
          unfold freqArgL addWordFreq
          cases hp : pyInt s with
          | none => simp only [hp]; exact fun _ => rfl
          | some n => simp only [hp]; exact Solo.ret _ _
      cases hx : addWordFreq S w1 t (strdecode S.gbk word) freq with
      | error e => rw [hx] at hf; exact Solo.error hf
      | ok f => rw [hx] at hf; exact Solo.bind hf (addFreqL_solo t _ f tag w1)

theorem suggestCoreL_solo (S : Sys F) (t : Nat) (seg : Segment) (io : Bool) (w0 w : World)
    (hc0 : checkInit S w0 t io = (w, .ok ())) :
    Solo (suggestCoreL S t io seg : Co World α (Str × Int)) w0 w (suggestCore S w t seg) := by
  have hsplit : ∀ segs : List Str, Solo (α := α) (do
      let f ← suggestSplitL S t segs io
      .ret (segs.flatten, f)) w0 w ((suggestSplit S w t segs).map (fun f => (segs.flatten, f))) := by
    intro segs
    have h := suggestSplitL_solo (α := α) S t segs io w0 w hc0
    cases hx : suggestSplit S w t segs with
    | error e => rw [hx] at h; exact Solo.error h
    | ok f => rw [hx] at h; exact Solo.bind h (Solo.ret _ _)
  match seg with
  | .text (.str word) =>
    have h := suggestWordL_solo (α := α) S t word io w0 w hc0
    simp only [suggestCoreL, suggestCore]
    cases hx : suggestWord S w t word with
    | error e => rw [hx] at h; exact Solo.error h
    | ok f => rw [hx] at h; exact Solo.bind h (Solo.ret _ _)
  | .text (.bytes b) =>
    simp only [suggestCoreL, suggestCore]
    by_cases hb : b = []
    · simp only [hb, if_true]; exact hsplit []
    · simp only [hb, if_false]
      have hc := checkInitL_solo (α := α) S t io w0
      rw [hc0] at hc
      exact Solo.bind hc (fun _ => rfl)
  | .tuple l => exact hsplit _

theorem suggestFreqL_solo (S : Sys F) (t : Nat) (seg : Segment) (tune io : Bool) (w : World) :
    Solo (suggestFreqL S t seg tune io : Co World α Int) w (suggestFreq S w t seg tune io).1 (suggestFreq S w t seg tune io).2 := by
  have hc := checkInitL_solo (α := α) S t io w
  unfold suggestFreqL suggestFreq
  cases hr : checkInit S w t io with
  | mk w1 r =>
    rw [hr] at hc
    cases r with
    | error e =>
      refine Solo.error ?_
      match seg with
      | .text (.str word) => exact Solo.error (Solo.error hc)
      | .text (.bytes b) =>
        simp only [suggestCoreL]
        by_cases hb : b = []
        · simp only [hb, if_true]; exact Solo.error (Solo.error hc)
        · simp only [hb, if_false]; exact Solo.error hc
      | .tuple l => exact Solo.error (Solo.error hc)
    | ok u =>
      have hi := checkInit_initialized S w w1 t io hr
      have h := suggestCoreL_solo (α := α) S t seg io w w1 hr
      simp only []
      cases hx : suggestCore S w1 t seg with
      | error e => rw [hx] at h; exact Solo.error h
      | ok p =>
        rw [hx] at h
        refine Solo.bind h ?_
        obtain ⟨word, f⟩ := p
        cases tune with
        | false => exact Solo.bind (Solo.ret () _) (Solo.ret _ _)
        | true =>
          have ha := addWordL_solo (α := α) S t (.str word) (.int f) none io w1
          simp only [addWord, checkInit_of_init S w1 t io hi, addWordFreq, strdecode] at ha
          exact Solo.bind ha (Solo.ret _ _)

theorem addWord_init_io (S : Sys F) (t : Nat) (word : PyText) (freq : FreqArg) (tag : Option Str) (io io' : Bool) (w : World)
    (hi : (w.tok t).initialized = true) : addWord S w t word freq tag io = addWord S w t word freq tag io' := by
  unfold addWord
  rw [checkInit_of_init S w t io hi, checkInit_of_init S w t io' hi]

theorem addFreq_init (w : World) (t : Nat) (word : Str) (f : Int) (tag : Option Str) :
    ((addFreq w t word f tag).tok t).initialized = (w.tok t).initialized := by
  rw [addFreq_tok_self]

theorem addWord_init (S : Sys F) (t : Nat) (word : PyText) (freq : FreqArg) (tag : Option Str) (io : Bool) (w : World)
    (hi : (w.tok t).initialized = true) : ((addWord S w t word freq tag io).1.tok t).initialized = true := by
  unfold addWord
  rw [checkInit_of_init S w t io hi]
  simp only []
  split
  · exact hi
  · simp only [addFreq_init, hi]

theorem userdictLineL_solo (S : Sys F) (t : Nat) (io : Bool) (ln : PyText) (w : World) (hi : (w.tok t).initialized = true) :
    Solo (userdictLineL S t io ln : Co World α Unit) w (userdictLine S w t ln).1 (userdictLine S w t ln).2 := by
  unfold userdictLineL userdictLine
  cases userLine ln with
  | none => exact fun _ => rfl
  | some line =>
    simp only []
    by_cases hl : line = []
    · simp only [hl, if_true]; exact Solo.ret _ _
    · simp only [hl, if_false]
      cases userFields line with
      | none => exact fun _ => rfl
      | some p =>
        obtain ⟨word, freq, tag⟩ := p
        simp only []
        rw [addWord_init_io S t _ _ _ true io w hi]
        exact addWordL_solo S t _ _ tag io w

theorem userdictLine_init (S : Sys F) (t : Nat) (ln : PyText) (w : World) (hi : (w.tok t).initialized = true) :
    ((userdictLine S w t ln).1.tok t).initialized = true := by
  unfold userdictLine
  repeat' split
  all_goals first | exact hi | exact addWord_init S t _ _ _ _ w hi

theorem userdictLoopL_solo (S : Sys F) (t : Nat) (io : Bool) (lns : List PyText) (w : World) (hi : (w.tok t).initialized = true) :
    Solo (userdictLoopL S t io lns : Co World α Unit) w (userdictLoop S t w lns).1 (userdictLoop S t w lns).2 := by
  induction lns generalizing w with
  | nil => exact Solo.ret _ _
  | cons ln lns ih =>
    have h := userdictLineL_solo (α := α) S t io ln w hi
    have hi' := userdictLine_init S t ln w hi
    unfold userdictLoopL userdictLoop
    cases hx : userdictLine S w t ln with
    | mk w1 r =>
      rw [hx] at h hi'
      cases r with
      | error e => exact Solo.error h
      | ok u => exact Solo.bind h (ih w1 hi')

theorem loadUserdictL_solo (S : Sys F) (t : Nat) (f : UserDict) (io : Bool) (w : World) :
    Solo (loadUserdictL S t f io : Co World α Unit) w (loadUserdict S w t f io).1 (loadUserdict S w t f io).2 := by
  have hc := checkInitL_solo (α := α) S t io w
  unfold loadUserdictL loadUserdict
  cases hr : checkInit S w t io with
  | mk w1 r =>
    rw [hr] at hc
    cases r with
    | error e => exact Solo.error hc
    | ok u =>
      have hi := checkInit_initialized S w w1 t io hr
      refine Solo.bind hc ?_
      simp only []
      cases f with
      | file data => exact Solo.bind (Solo.ret _ _) (userdictLoopL_solo S t io _ w1 hi)
      | lines l => exact Solo.bind (Solo.ret _ _) (userdictLoopL_solo S t io _ w1 hi)
      | path p =>
        simp only [userLinesL]
        cases hp : w1.files p with
        | none =>
          refine Solo.error (Solo.bind (Solo.get _ w1) ?_)
          simp only [hp]
          exact fun _ => rfl
        | some x =>
          refine Solo.bind (b := (fileLines x.data).map .bytes) (Solo.bind (Solo.get _ w1) ?_) (userdictLoopL_solo S t io _ w1 hi)
          simp only [hp]
          exact fun _ => rfl

end Jieba.Lazy
