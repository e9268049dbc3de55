import Mathlib.Logic.Relation
import Verif.Proofs.Dict
import Verif.Model.World
/-!
# Every operation is a sequence of primitive changes of the world
-/

set_option linter.unusedSectionVars false

namespace Jieba
open Jieba.Spec Relation

variable {F : Type _} [LinearOrder F]

/-- Which primitive changes may happen. -/
structure Allowed where
  /-- registering a word with a frequency (and a tag) on a tokenizer, given the world just before -/
  add : World → Nat → Str → Int → Option Str → Prop
  /-- pointing a tokenizer to another dictionary, or replacing it by a new one -/
  retarget : Nat → Prop
  /-- writing a file from outside -/
  write : Path → Bytes → Prop
  /-- removing a file from outside -/
  remove : Path → Prop
  /-- the dictionary paths tokenizers are pointed to -/
  target : Path → Prop

/-- Primitive changes. -/
inductive Prim (S : Sys F) (P : Allowed) : World → World → Prop
  | add (w : World) (t : Nat) (word : Str) (f : Int) (tag : Option Str) :
      (w.tok t).initialized = true → P.add w t word f tag → Prim S P w (addFreq w t word f tag)
  | load (w : World) (t : Nat) (cf : File) (x : Freq × Int) :
      (w.tok t).initialized = false →
      w.files (cachePath S (w.tok t) (w.tok t).dictionary) = some cf →
      (∀ p, (w.tok t).dictionary = some p → ∃ df, w.files p = some df ∧ df.mtime < cf.mtime) →
      S.load cf.data = some x →
      Prim S P w (markInit (w.setTok t { w.tok t with freq := x.1, total := x.2 }) t)
  | build (w : World) (t : Nat) (data : Bytes) (x : Freq × Int) :
      (w.tok t).initialized = false →
      dictFile w (w.tok t).dictionary = .ok data → genPfdict data = .ok x →
      Prim S P w (markInit (w.setTok t { w.tok t with freq := x.1, total := x.2 }) t)
  | buildDump (w : World) (t : Nat) (data : Bytes) (x : Freq × Int) :
      (w.tok t).initialized = false →
      dictFile w (w.tok t).dictionary = .ok data → genPfdict data = .ok x →
      Prim S P w (markInit ((w.setTok t { w.tok t with freq := x.1, total := x.2 }).setFile
        (cachePath S (w.tok t) (w.tok t).dictionary) (some ⟨S.dump x, w.clock⟩)) t)
  | retarget (w : World) (t : Nat) (p : Path) : P.retarget t → P.target p →
      Prim S P w (w.setTok t { w.tok t with dictionary := some p, initialized := false })
  | new (w : World) (t : Nat) (d : Option Path) : P.retarget t → (∀ p, d = some p → P.target p) →
      Prim S P w (w.setTok t (Tok.new d))
  | write (w : World) (p : Path) (data : Bytes) : P.write p data → Prim S P w (w.setFile p (some ⟨data, w.clock⟩))
  | remove (w : World) (p : Path) : P.remove p → Prim S P w (w.setFile p none)
  | tick (w : World) : Prim S P w { w with clock := w.clock + 1 }

/-- Sequences of primitive changes. -/
abbrev Prims (S : Sys F) (P : Allowed) : World → World → Prop := ReflTransGen (Prim S P)

theorem Prims.inv {S : Sys F} {P : Allowed} {w w' : World} (h : Prims S P w w') (I : World → Prop) (h0 : I w)
    (hs : ∀ a b, Prim S P a b → I a → I b) : I w' := by
  induction h with
  | refl => exact h0
  | tail _ hbc ih => exact hs _ _ hbc ih

theorem Prim.mono {S : Sys F} {P Q : Allowed} (h1 : ∀ x t w f g, P.add x t w f g → Q.add x t w f g)
    (h2 : ∀ t, P.retarget t → Q.retarget t)
    (h3 : ∀ p d, P.write p d → Q.write p d) (h4 : ∀ p, P.remove p → Q.remove p)
    (h5 : ∀ p, P.target p → Q.target p) {w w' : World} (h : Prim S P w w') :
    Prim S Q w w' := by
  cases h with
  | add t word f tag a b => exact .add w t word f tag a (h1 _ _ _ _ _ b)
  | load t cf x a b c d => exact .load w t cf x a b c d
  | build t data x a b c => exact .build w t data x a b c
  | buildDump t data x a b c => exact .buildDump w t data x a b c
  | retarget t p a => exact .retarget w t p (h2 _ a) (h5 _ (by assumption))
  | new t d a b => exact .new w t d (h2 _ a) (fun p hp => h5 _ (b p hp))
  | write p data a => exact .write w p data (h3 _ _ a)
  | remove p a => exact .remove w p (h4 _ a)
  | tick => exact .tick w

theorem Prims.mono {S : Sys F} {P Q : Allowed} (h1 : ∀ x t w f g, P.add x t w f g → Q.add x t w f g)
    (h2 : ∀ t, P.retarget t → Q.retarget t)
    (h3 : ∀ p d, P.write p d → Q.write p d) (h4 : ∀ p, P.remove p → Q.remove p)
    (h5 : ∀ p, P.target p → Q.target p) {w w' : World} (h : Prims S P w w') :
    Prims S Q w w' := by
  induction h with
  | refl => exact ReflTransGen.refl
  | tail _ hbc ih => exact ih.tail (Prim.mono h1 h2 h3 h4 h5 hbc)

/-! ## Small facts -/

@[simp] theorem setTok_tok_self (w : World) (t : Nat) (x : Tok) : (w.setTok t x).tok t = x := by simp [World.setTok]

theorem setTok_tok (w : World) (t u : Nat) (x : Tok) : (w.setTok t x).tok u = if u = t then x else w.tok u := rfl

theorem setTok_tok_ne (w : World) (t u : Nat) (x : Tok) (h : u ≠ t) : (w.setTok t x).tok u = w.tok u := by
  simp [World.setTok, h]

@[simp] theorem setTok_files (w : World) (t : Nat) (x : Tok) : (w.setTok t x).files = w.files := rfl
@[simp] theorem setTok_force (w : World) (t : Nat) (x : Tok) : (w.setTok t x).force = w.force := rfl
@[simp] theorem setTok_clock (w : World) (t : Nat) (x : Tok) : (w.setTok t x).clock = w.clock := rfl
@[simp] theorem setTok_defaultDict (w : World) (t : Nat) (x : Tok) : (w.setTok t x).defaultDict = w.defaultDict := rfl
@[simp] theorem setFile_tok (w : World) (p : Path) (f : Option File) : (w.setFile p f).tok = w.tok := rfl
@[simp] theorem setFile_force (w : World) (p : Path) (f : Option File) : (w.setFile p f).force = w.force := rfl
@[simp] theorem setFile_clock (w : World) (p : Path) (f : Option File) : (w.setFile p f).clock = w.clock := rfl
@[simp] theorem setFile_defaultDict (w : World) (p : Path) (f : Option File) : (w.setFile p f).defaultDict = w.defaultDict := rfl
theorem setFile_files (w : World) (p q : Path) (f : Option File) :
    (w.setFile p f).files q = if q = p then f else w.files q := rfl
@[simp] theorem markInit_files (w : World) (t : Nat) : (markInit w t).files = w.files := rfl
@[simp] theorem markInit_force (w : World) (t : Nat) : (markInit w t).force = w.force := rfl
@[simp] theorem markInit_clock (w : World) (t : Nat) : (markInit w t).clock = w.clock := rfl
@[simp] theorem markInit_defaultDict (w : World) (t : Nat) : (markInit w t).defaultDict = w.defaultDict := rfl
theorem markInit_tok (w : World) (t u : Nat) :
    (markInit w t).tok u = if u = t then { w.tok t with initialized := true } else w.tok u := rfl

theorem addFreq_tok_self (w : World) (t : Nat) (word : Str) (f : Int) (tag : Option Str) :
    (addFreq w t word f tag).tok t =
      { w.tok t with freq := register (w.tok t).freq word f, total := (w.tok t).total + f,
                     tags := if truthyStr tag then (w.tok t).tags.set word (tag.getD []) else (w.tok t).tags } := by
  unfold addFreq
  simp only []
  split <;> simp [World.setTok]

theorem addFreq_tok_ne (w : World) (t u : Nat) (word : Str) (f : Int) (tag : Option Str) (h : u ≠ t) :
    (addFreq w t word f tag).tok u = w.tok u := by
  unfold addFreq
  simp only []
  split <;> simp [World.setTok, h]

@[simp] theorem addFreq_files (w : World) (t : Nat) (word : Str) (f : Int) (tag : Option Str) :
    (addFreq w t word f tag).files = w.files := by
  unfold addFreq; simp only []; split <;> rfl
@[simp] theorem addFreq_clock (w : World) (t : Nat) (word : Str) (f : Int) (tag : Option Str) :
    (addFreq w t word f tag).clock = w.clock := by
  unfold addFreq; simp only []; split <;> rfl
@[simp] theorem addFreq_defaultDict (w : World) (t : Nat) (word : Str) (f : Int) (tag : Option Str) :
    (addFreq w t word f tag).defaultDict = w.defaultDict := by
  unfold addFreq; simp only []; split <;> rfl

theorem mem_addFreq_force (w : World) (t : Nat) (word : Str) (f : Int) (tag : Option Str) (v : Str) :
    v ∈ (addFreq w t word f tag).force ↔ v ∈ w.force ∨ (f = 0 ∧ v = word) := by
  unfold addFreq
  simp only []
  split
  · next h =>
    simp only [setTok_force]
    by_cases hm : word ∈ w.force
    · simp only [hm, if_true]
      constructor
      · exact Or.inl
      · rintro (h | ⟨-, rfl⟩) <;> assumption
    · simp only [hm, if_false, List.mem_cons, h, true_and]
      exact or_comm
  · next h => simp [h]

theorem checkInit_of_init (S : Sys F) (w : World) (t : Nat) (io : Bool) (h : (w.tok t).initialized = true) :
    checkInit S w t io = (w, .ok ()) := by
  unfold checkInit; rw [if_pos h]

/-! ## initialize -/

theorem cacheUsable_some (w : World) (d : Option Path) (c : Path) (cf : File) (h : cacheUsable w d c = .ok (some cf)) :
    w.files c = some cf ∧ ∀ p, d = some p → ∃ df, w.files p = some df ∧ df.mtime < cf.mtime := by
  unfold cacheUsable at h
  cases hc : w.files c with
  | none => rw [hc] at h; simp at h
  | some cf' =>
    rw [hc] at h
    cases d with
    | none => simp at h; subst h; exact ⟨rfl, by simp⟩
    | some p =>
      simp only at h
      cases hp : w.files p with
      | none => rw [hp] at h; simp at h
      | some df =>
        rw [hp] at h
        simp at h
        obtain ⟨h1, rfl⟩ := h
        exact ⟨rfl, by rintro q ⟨⟩; exact ⟨df, hp, h1⟩⟩

/-- Outcome of the locked part of `initialize` when the argument is the tokenizer's own dictionary: nothing happened and
the result is an exception (or the tokenizer was initialised), or one primitive change initialised it. -/
theorem initLocked_prim (S : Sys F) (P : Allowed) (w : World) (t : Nat) (io : Bool) :
    (∃ e, initLocked S w t (w.tok t).dictionary io = (w, .error e) ∧ (w.tok t).initialized = false) ∨
    ((w.tok t).initialized = true ∧ initLocked S w t (w.tok t).dictionary io = (w, .ok ())) ∨
    (∃ w', initLocked S w t (w.tok t).dictionary io = (w', .ok ()) ∧ Prim S P w w' ∧ (w'.tok t).initialized = true ∧
      (w.tok t).initialized = false) := by
  unfold initLocked
  by_cases hi : (w.tok t).initialized = true
  · right; left; simp [hi]
  · have hi' : (w.tok t).initialized = false := by simpa using hi
    rw [if_neg hi]
    cases hu : cacheUsable w (w.tok t).dictionary (cachePath S (w.tok t) (w.tok t).dictionary) with
    | error e => left; exact ⟨e, by simp [hu], hi'⟩
    | ok cf =>
      simp only [hu]
      cases hl : cf.bind (fun f => S.load f.data) with
      | some x =>
        right; right
        cases cf with
        | none => simp at hl
        | some cf =>
          simp at hl
          obtain ⟨h1, h2⟩ := cacheUsable_some _ _ _ _ hu
          exact ⟨_, rfl, .load w t cf x hi' h1 h2 hl, by simp [markInit_tok], hi'⟩
      | none =>
        unfold buildDict
        cases hd : dictFile w (w.tok t).dictionary with
        | error e => left; exact ⟨e, by simp, hi'⟩
        | ok data =>
          simp only []
          cases hg : genPfdict data with
          | error e => left; exact ⟨e, by simp, hi'⟩
          | ok x =>
            right; right
            cases io with
            | true => exact ⟨_, rfl, .buildDump w t data x hi' hd hg, by simp [markInit_tok], hi'⟩
            | false => exact ⟨_, rfl, .build w t data x hi' hd hg, by simp [markInit_tok], hi'⟩

theorem initTok_none (S : Sys F) (w : World) (t : Nat) (io : Bool) :
    initTok S w t none io = initLocked S w t (w.tok t).dictionary io := rfl

/-- `check_initialized()`: an exception and no change, or success after at most one primitive change. -/
theorem checkInit_prim (S : Sys F) (P : Allowed) (w : World) (t : Nat) (io : Bool) :
    (∃ e, checkInit S w t io = (w, .error e) ∧ (w.tok t).initialized = false) ∨
    (∃ w', checkInit S w t io = (w', .ok ()) ∧ (w'.tok t).initialized = true ∧
      (w' = w ∨ (Prim S P w w' ∧ (w.tok t).initialized = false))) := by
  by_cases hi : (w.tok t).initialized = true
  · right; exact ⟨w, checkInit_of_init S w t io hi, hi, Or.inl rfl⟩
  · have : checkInit S w t io = initLocked S w t (w.tok t).dictionary io := by
      unfold checkInit; rw [if_neg hi]; rfl
    rw [this]
    rcases initLocked_prim S P w t io with ⟨e, h1, h2⟩ | ⟨h1, -⟩ | ⟨w', h1, h2, h3, h4⟩
    · left; exact ⟨e, h1, h2⟩
    · exact absurd h1 hi
    · right; exact ⟨w', h1, h3, Or.inr ⟨h2, h4⟩⟩

theorem checkInit_prims (S : Sys F) (P : Allowed) (w : World) (t : Nat) (io : Bool) :
    Prims S P w (checkInit S w t io).1 := by
  rcases checkInit_prim S P w t io with ⟨e, h, -⟩ | ⟨w', h, -, rfl | ⟨hp, -⟩⟩
  · rw [h]
  · rw [h]
  · rw [h]; exact ReflTransGen.single hp

theorem initTok_prims (S : Sys F) (P : Allowed) (w : World) (t : Nat) (d : Option Path) (io : Bool)
    (hr : truthyStr d = true → P.retarget t) (ht : ∀ p, d = some p → P.target (S.abspath p)) : Prims S P w (initTok S w t d io).1 := by
  have key : ∀ w : World, Prims S P w (initLocked S w t (w.tok t).dictionary io).1 := by
    intro w
    rcases initLocked_prim S P w t io with ⟨e, h1, h2⟩ | ⟨-, h1⟩ | ⟨w', h1, h2, h3, h4⟩
    · rw [h1]
    · rw [h1]
    · rw [h1]; exact ReflTransGen.single h2
  unfold initTok
  split
  · next c p =>
    simp only []
    split
    · exact ReflTransGen.refl
    · have := key (w.setTok t { w.tok t with dictionary := some (S.abspath (c :: p)), initialized := false })
      rw [setTok_tok_self] at this
      exact ReflTransGen.head (.retarget w t _ (hr rfl) (ht _ rfl)) this
  · exact key w

/-! ## cut -/

theorem cutBlocksW_prims (S : Sys F) (P : Allowed) (t : Nat) (ca hm io : Bool) (blks : List Str) (w : World) :
    Prims S P w (cutBlocksW S t ca hm io w blks).1 := by
  induction blks generalizing w with
  | nil => exact ReflTransGen.refl
  | cons b blks ih =>
    unfold cutBlocksW
    split
    · exact ih w
    · split
      · have h := checkInit_prims S P w t io
        generalize checkInit S w t io = r at h
        obtain ⟨w', r⟩ := r
        cases r with
        | error e => exact h
        | ok u =>
          simp only
          split
          · exact h
          · exact h.trans (ih w')
      · exact ih w

/-- On an initialised tokenizer `cut` only reads. -/
theorem cutW_of_init (S : Sys F) (w : World) (t : Nat) (ca hm io : Bool) (s : PyText)
    (h : (w.tok t).initialized = true) :
    cutW S w t ca hm s io = (w, cut (w.env S t) ca hm (strdecode S.gbk s)) := by
  unfold cutW cut
  generalize reHanDefault.split (strdecode S.gbk s) = blks
  induction blks with
  | nil => rfl
  | cons b blks ih =>
    unfold cutBlocksW
    rw [Gen.forEach_cons]
    by_cases hb : b = []
    · rw [if_pos hb, if_pos hb, ih]; simp
    · rw [if_neg hb, if_neg hb]
      by_cases hm' : reHanDefault.isMatch b = true
      · rw [if_pos hm', if_pos hm', checkInit_of_init S w t io h]
        simp only []
        cases he : (cutBlock (w.env S t) ca hm b).err with
        | some e => simp [Gen.andThen, he]
        | none => simp only []; rw [ih]
      · rw [if_neg hm', if_neg hm', ih]

/-! ## Changing words -/

/-- The frequency that an argument of `add_word` stands for. -/
def FreqArg.gives (S : Sys F) (w : World) (t : Nat) (word : Str) : FreqArg → Int → Prop
  | .none, f => suggestWord S w t word = .ok f
  | .int n, f => f = n
  | .str s, f => pyInt s = some f

theorem addWordFreq_gives (S : Sys F) (w : World) (t : Nat) (word : Str) (freq : FreqArg) (f : Int)
    (h : addWordFreq S w t word freq = .ok f) : freq.gives S w t word f := by
  unfold addWordFreq at h
  cases freq with
  | none => exact h
  | int n => simp at h; simp [FreqArg.gives, h]
  | str s =>
    simp only [FreqArg.gives] at h ⊢
    cases hp : pyInt s with
    | none => rw [hp] at h; simp at h
    | some n => rw [hp] at h; simp at h; rw [h]

theorem userdictLine_cases (S : Sys F) (w : World) (t : Nat) (ln : PyText) (hi : (w.tok t).initialized = true) :
    (userdictLine S w t ln).1 = w ∨
    ∃ line word freq tag f, userLine ln = some line ∧ userFields line = some (word, freq, tag) ∧
      (fieldArg freq).gives S w t word f ∧ userdictLine S w t ln = (addFreq w t word f tag, .ok ()) := by
  unfold userdictLine
  cases hl : userLine ln with
  | none => left; rfl
  | some line =>
    simp only []
    split
    · left; rfl
    · cases hf : userFields line with
      | none => left; rfl
      | some x =>
        obtain ⟨word, freq, tag⟩ := x
        simp only []
        unfold addWord
        rw [checkInit_of_init S w t _ hi]
        simp only [strdecode]
        cases hp : addWordFreq S w t word (fieldArg freq) with
        | error e => left; rfl
        | ok f => right; exact ⟨line, word, freq, tag, f, rfl, hf, addWordFreq_gives S w t word _ f hp, rfl⟩

theorem userdictLine_init (S : Sys F) (w : World) (t : Nat) (ln : PyText) (hi : (w.tok t).initialized = true) :
    ((userdictLine S w t ln).1.tok t).initialized = true := by
  rcases userdictLine_cases S w t ln hi with h | ⟨line, word, freq, tag, f, -, -, -, h⟩
  · rw [h]; exact hi
  · rw [h]; simp only [addFreq_tok_self]; exact hi

theorem userdictLoop_prims (S : Sys F) (P : Allowed) (t : Nat) (lns : List PyText) (w : World)
    (hi : (w.tok t).initialized = true)
    (hP : ∀ ln ∈ lns, ∀ w line word freq tag f, userLine ln = some line → userFields line = some (word, freq, tag) →
      (fieldArg freq).gives S w t word f → P.add w t word f tag) :
    Prims S P w (userdictLoop S t w lns).1 := by
  induction lns generalizing w with
  | nil => exact ReflTransGen.refl
  | cons ln lns ih =>
    unfold userdictLoop
    have hstep : Prims S P w (userdictLine S w t ln).1 := by
      rcases userdictLine_cases S w t ln hi with h | ⟨line, word, freq, tag, f, h1, h2, h3, h⟩
      · rw [h]
      · rw [h]
        exact ReflTransGen.single (.add w t word f tag hi (hP ln List.mem_cons_self w line word freq tag f h1 h2 h3))
    have hi' := userdictLine_init S w t ln hi
    generalize userdictLine S w t ln = r at hstep hi'
    obtain ⟨w', r⟩ := r
    cases r with
    | error e => exact hstep
    | ok u => exact hstep.trans (ih w' hi' (fun ln' h => hP ln' (List.mem_cons_of_mem _ h)))

/-! ## Which changes an operation can make -/

/-- The lines a `load_userdict` call sees. -/
def UserDict.lines' (w : World) : UserDict → List PyText
  | .path p => match w.files p with
    | none => []
    | some f => (fileLines f.data).map .bytes
  | .file data => (fileLines data).map .bytes
  | .lines l => l

/-- Texts given to `suggest_freq`, joined. -/
def Segment.word (S : Sys F) : Segment → Str
  | .text (.str word) => word
  | .text (.bytes _) => []
  | .tuple l => (l.map (strdecode S.gbk)).flatten

/-- The changes an operation can make. -/
def Op.allowed (S : Sys F) (w : World) (op : Op) : Allowed where
  add x u word f tag := match op with
    | .addWord t word' freq tag' _ => u = t ∧ word = strdecode S.gbk word' ∧ tag = tag' ∧
        freq.gives S x t word f
    | .delWord t word' _ => u = t ∧ word = strdecode S.gbk word' ∧ tag = none ∧ f = 0
    | .suggestFreq t seg tune _ => u = t ∧ tune = true ∧ suggestCore S x t seg = .ok (word, f) ∧ tag = none
    | .loadUserdict t d io => u = t ∧ ∃ ln ∈ d.lines' (checkInit S w t io).1, ∃ line freq, userLine ln = some line ∧
        userFields line = some (word, freq, tag) ∧ (fieldArg freq).gives S x t word f
    | _ => False
  retarget u := match op with
    | .init t d _ => u = t ∧ truthyStr d = true
    | .setDictionary t _ => u = t
    | .new t _ => u = t
    | _ => False
  write p data := match op with
    | .write p' data' => p = p' ∧ data = data'
    | _ => False
  remove p := match op with
    | .remove p' => p = p'
    | _ => False
  target p := match op with
    | .init _ d _ => ∃ q, d = some q ∧ p = S.abspath q
    | .setDictionary _ q => p = S.abspath q
    | .new _ d => ∃ q, d = some q ∧ p = S.abspath q
    | _ => False

theorem addWord_prims (S : Sys F) (P : Allowed) (w : World) (t : Nat) (word : PyText) (freq : FreqArg) (tag : Option Str)
    (io : Bool) (hP : ∀ w f, freq.gives S w t (strdecode S.gbk word) f → P.add w t (strdecode S.gbk word) f tag) :
    Prims S P w (addWord S w t word freq tag io).1 := by
  unfold addWord
  rcases checkInit_prim S P w t io with ⟨e, h, -⟩ | ⟨w', h, hi, hw⟩
  · rw [h]
  · have hpr : Prims S P w w' := by
      rcases hw with rfl | ⟨hp, -⟩
      · exact ReflTransGen.refl
      · exact ReflTransGen.single hp
    rw [h]
    simp only []
    cases hf : addWordFreq S w' t (strdecode S.gbk word) freq with
    | error e => exact hpr
    | ok f =>
      exact hpr.tail (.add w' t _ f tag hi (hP w' f (addWordFreq_gives S w' t _ freq f hf)))

theorem suggestCore_word (S : Sys F) (w : World) (t : Nat) (seg : Segment) (x : Str × Int)
    (h : suggestCore S w t seg = .ok x) : x.1 = seg.word S := by
  cases seg with
  | text y =>
    cases y with
    | str s =>
      simp only [suggestCore] at h
      cases hs : suggestWord S w t s with
      | error e => rw [hs] at h; simp [Except.map] at h
      | ok n => rw [hs] at h; simp [Except.map] at h; subst h; rfl
    | bytes b =>
      simp only [suggestCore] at h
      split at h
      · cases hs : suggestSplit S w t [] with
        | error e => rw [hs] at h; simp [Except.map] at h
        | ok n => rw [hs] at h; simp [Except.map] at h; subst h; rfl
      · simp at h
  | tuple l =>
    simp only [suggestCore] at h
    cases hs : suggestSplit S w t (l.map (strdecode S.gbk)) with
    | error e => rw [hs] at h; simp [Except.map] at h
    | ok n => rw [hs] at h; simp [Except.map] at h; subst h; rfl

/-- Every operation is a sequence of the changes it is allowed to make. -/
theorem op_prims (S : Sys F) (w : World) (op : Op) : Prims S (op.allowed S w) w (op.run S w) := by
  cases op with
  | addWord t word freq tag io =>
    apply addWord_prims
    intro x f hf
    exact ⟨rfl, rfl, rfl, hf⟩
  | delWord t word io =>
    apply addWord_prims
    intro x f hf
    exact ⟨rfl, rfl, rfl, hf⟩
  | suggestFreq t seg tune io =>
    simp only [Op.run]
    unfold suggestFreq
    rcases checkInit_prim S ((Op.suggestFreq t seg tune io).allowed S w) w t io with ⟨e, h, -⟩ | ⟨w', h, hi, hw⟩
    · rw [h]
    · have hpr : Prims S ((Op.suggestFreq t seg tune io).allowed S w) w w' := by
        rcases hw with rfl | ⟨hp, -⟩
        · exact ReflTransGen.refl
        · exact ReflTransGen.single hp
      rw [h]
      simp only []
      cases hc : suggestCore S w' t seg with
      | error e => exact hpr
      | ok x =>
        obtain ⟨word, f⟩ := x
        simp only []
        cases tune with
        | false => exact hpr
        | true =>
          refine hpr.tail (.add w' t _ f none hi ?_)
          exact ⟨rfl, rfl, hc, rfl⟩
  | loadUserdict t d io =>
    simp only [Op.run]
    unfold loadUserdict
    rcases checkInit_prim S ((Op.loadUserdict t d io).allowed S w) w t io with ⟨e, h, -⟩ | ⟨w', h, hi, hw⟩
    · rw [h]
    · have hpr : Prims S ((Op.loadUserdict t d io).allowed S w) w w' := by
        rcases hw with rfl | ⟨hp, -⟩
        · exact ReflTransGen.refl
        · exact ReflTransGen.single hp
      rw [h]
      simp only []
      have hl : ∀ lns, (∀ ln ∈ lns, ln ∈ d.lines' w') →
          Prims S ((Op.loadUserdict t d io).allowed S w) w' (userdictLoop S t w' lns).1 := by
        intro lns hlns
        apply userdictLoop_prims S _ t lns w' hi
        intro ln hln x line word freq tag f h1 h2 h3
        refine ⟨rfl, ln, ?_, line, freq, h1, h2, h3⟩
        rw [h]; exact hlns ln hln
      cases d with
      | path p =>
        simp only []
        cases hp : w'.files p with
        | none => exact hpr
        | some f =>
          simp only []
          exact hpr.trans (hl _ (by intro ln hln; simp [UserDict.lines', hp]; simpa using hln))
      | file data => exact hpr.trans (hl _ (fun ln hln => hln))
      | lines l => exact hpr.trans (hl _ (fun ln hln => hln))
  | cut t ca hm s io => exact cutBlocksW_prims S _ t ca hm io _ w
  | init t d io =>
    apply initTok_prims
    · intro h; exact ⟨rfl, h⟩
    · intro p hp; exact ⟨p, hp, rfl⟩
  | setDictionary t p =>
    simp only [Op.run]
    unfold setDictionary
    split
    · exact ReflTransGen.refl
    · exact ReflTransGen.single (.retarget w t _ rfl rfl)
  | new t d =>
    refine ReflTransGen.single (.new w t _ rfl ?_)
    intro p hp
    cases d with
    | none => simp at hp
    | some q => simp at hp; exact ⟨q, rfl, hp.symm⟩
  | write p data => exact ReflTransGen.single (.write w p data ⟨rfl, rfl⟩)
  | remove p => exact ReflTransGen.single (.remove w p rfl)
  | tick => exact ReflTransGen.single (.tick w)

/-- Invariants of histories: `I` is preserved by every operation of the history. -/
theorem runOps_inv (S : Sys F) (I : World → Prop) (ops : List Op) (w : World) (h0 : I w)
    (hs : ∀ op ∈ ops, ∀ w, I w → I (op.run S w)) : I (runOps S w ops) := by
  induction ops generalizing w with
  | nil => exact h0
  | cons op ops ih =>
    exact ih _ (hs op List.mem_cons_self w h0) (fun op' h' => hs op' (List.mem_cons_of_mem _ h'))

/-- Invariants of histories, checked on primitive changes. -/
theorem runOps_inv_prim (S : Sys F) (I : World → Prop) (ops : List Op) (w : World) (h0 : I w)
    (hs : ∀ op ∈ ops, ∀ w0 a b, Prim S (op.allowed S w0) a b → I a → I b) : I (runOps S w ops) :=
  runOps_inv S I ops w h0 (fun op hop w hw => (op_prims S w op).inv I hw (hs op hop w))

end Jieba
