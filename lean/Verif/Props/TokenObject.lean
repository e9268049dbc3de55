import Verif.Props.Whoosh
/-!
# C88: the Whoosh tokenizer yields one object again and again
-/

namespace Jieba.Props
open Jieba Jieba.Spec Jieba.Co Jieba.Lazy

variable {F : Type} [LinearOrder F]

/-- What a consumer sees that looks at each yielded object when it gets it, and then changes the state with `μ n`. -/
def seen {W β : Type} (μ : Nat → W × Objs → W × Objs) : Co (W × Objs) Nat β → Nat → W × Objs → List WObj
  | .ret _, _, _ => []
  | .raise _, _, _ => []
  | .yield r k, n, p => p.2 r :: seen μ k (n + 1) (μ n p)
  | .act f k, n, p => seen μ (k p) n (f p)

/-- The objects that a consumer sees who gets the tokens `l` and does `m n` to the object after the `n`-th. -/
def asSeen (m : Nat → WObj → WObj) : Nat → List WToken → List (Str × Str) → List WObj
  | _, [], _ => []
  | n, v :: l, ex => ⟨some v, ex⟩ :: asSeen m (n + 1) l (m n ⟨some v, ex⟩).extra

/-- The consumer changes the process with `ν` and the object at `r` with `m`. -/
def consumer {W : Type} (r : Nat) (ν : Nat → W → W) (m : Nat → WObj → WObj) (n : Nat) (p : W × Objs) : W × Objs :=
  (ν n p.1, fun x => if x = r then m n (p.2 r) else p.2 x)

theorem seen_loop (r : Nat) (ν : Nat → World → World) (m : Nat → WObj → WObj) (c : Co World (Str × Nat × Nat) Unit) (n : Nat) (w : World)
    (h : Objs) :
    seen (consumer r ν m) (Co.forIn (onFst c) (fun e (_ : Unit) =>
      if !(reAccepted.isMatch e.1) && e.1.length ≤ 1 then .ret () else setToken r e.1 e.2.1 e.2.2) ()) n (w, h) =
    asSeen m n (drive ν (Co.forIn c (fun e (_ : Unit) =>
      if !(reAccepted.isMatch e.1) && e.1.length ≤ 1 then (.ret () : Co World WToken Unit)
      else Co.yieldAll [⟨e.1, e.1, e.2.1, e.2.1, e.2.2⟩]) ()) n w).2.1 (h r).extra := by
  induction c generalizing n w h with
  | ret b => rfl
  | raise e => rfl
  | yield a k ih =>
    simp only [onFst, Co.forIn]
    by_cases hc : (!(reAccepted.isMatch a.1) && decide (a.1.length ≤ 1)) = true
    · rw [if_pos hc, if_pos hc]
      exact ih n w h
    · rw [if_neg hc, if_neg hc]
      simp only [setToken, Co.bind, seen, Co.yieldAll, drive, asSeen, consumer, if_pos]
      simp only [setToken, Co.yieldAll] at ih
      rw [ih]
      simp
  | act f k ih =>
    simp only [onFst, Co.forIn, seen, drive]
    exact ih _ _ _ _

/-- C88: a consumer that looks at each token when it gets it sees exactly the tokens of C59, whatever it does to the object (filters
change it in place) and to the process; but attributes that it adds stay on the object and show up on all later tokens. -/
theorem C88_seen (S : Sys F) (t r : Nat) (text : PyText) (io : Bool) (ν : Nat → World → World) (m : Nat → WObj → WObj) (w : World) (h : Objs) :
    seen (consumer r ν m) (chineseTokenizerO S t r text io) 0 (w, h) =
      asSeen m 0 (drive ν (chineseTokenizerL S t text io) 0 w).2.1 [] := by
  unfold chineseTokenizerO chineseTokenizerL
  simp only [seen]
  rw [seen_loop]
  simp

theorem drive_loop (r : Nat) (ν : Nat → World → World) (c : Co World (Str × Nat × Nat) Unit) (n : Nat) (w : World) (h : Objs) :
    let d := drive (fun n p => (ν n p.1, p.2)) (Co.forIn (onFst c) (fun e (_ : Unit) =>
      if !(reAccepted.isMatch e.1) && e.1.length ≤ 1 then .ret () else setToken r e.1 e.2.1 e.2.2) ()) n (w, h)
    let d' := drive ν (Co.forIn c (fun e (_ : Unit) =>
      if !(reAccepted.isMatch e.1) && e.1.length ≤ 1 then (.ret () : Co World WToken Unit)
      else Co.yieldAll [⟨e.1, e.1, e.2.1, e.2.1, e.2.2⟩]) ()) n w
    d.2.1 = List.replicate d'.2.1.length r ∧ d.2.2 = d'.2.2 ∧ d.1.1 = d'.1 ∧ (d.1.2 r).core = (d'.2.1.getLast?).or (h r).core ∧
    ∀ x, x ≠ r → d.1.2 x = h x := by
  induction c generalizing n w h with
  | ret b => simp [onFst, Co.forIn, drive]
  | raise e => simp [onFst, Co.forIn, drive]
  | yield a k ih =>
    simp only [onFst, Co.forIn]
    by_cases hc : (!(reAccepted.isMatch a.1) && decide (a.1.length ≤ 1)) = true
    · rw [if_pos hc, if_pos hc]
      exact ih n w h
    · rw [if_neg hc, if_neg hc]
      obtain ⟨h1, h2, h3, h4, h5⟩ := ih (n + 1) (ν n w) (fun x => if x = r then { h r with core := some ⟨a.1, a.1, a.2.1, a.2.1, a.2.2⟩ } else h x)
      simp only [setToken, Co.yieldAll] at h1 h2 h3 h4 h5
      simp only [setToken, Co.bind, Co.yieldAll, drive]
      refine ⟨?_, h2, h3, ?_, ?_⟩
      · rw [h1]; rfl
      · rw [h4, List.getLast?_cons]
        simp only [if_pos]
        generalize (drive ν _ (n + 1) (ν n w)).2.1.getLast? = o
        cases o <;> rfl
      · intro x hx
        rw [h5 x hx, if_neg hx]
  | act f k ih =>
    simp only [onFst, Co.forIn, drive]
    exact ih _ _ _ _

/-- C88: `list(ChineseTokenizer()(text))` has as many entries as there are tokens, but they are all the same object, and it has the
content of the last token: the others are lost.  Other objects are not touched, so two tokenizers running at once do not disturb
each other. -/
theorem C88_list (S : Sys F) (t r : Nat) (text : PyText) (io : Bool) (ν : Nat → World → World) (w : World) (h : Objs) :
    let d := drive (fun n p => (ν n p.1, p.2)) (chineseTokenizerO S t r text io) 0 (w, h)
    let d' := drive ν (chineseTokenizerL S t text io) 0 w
    d.2.1.map (fun x => (d.1.2 x).core) = List.replicate d'.2.1.length d'.2.1.getLast? ∧ d.2.2 = d'.2.2 ∧ ∀ x, x ≠ r → d.1.2 x = h x := by
  obtain ⟨h1, h2, h3, h4, h5⟩ := drive_loop r ν (tokenizeL S t true true text io) 0 w (fun x => if x = r then ⟨none, []⟩ else h x)
  unfold chineseTokenizerO chineseTokenizerL
  simp only [drive] at h1 h2 h3 h4 h5 ⊢
  refine ⟨?_, h2, ?_⟩
  · rw [h1, List.map_replicate, h4]
    simp
  · intro x hx
    rw [h5 x hx, if_neg hx]

/-- Three tokens, but the list has 北京 three times; seen one by one they are different. -/
example :
    let d := drive (fun _ p => p) (chineseTokenizerO sampleSys 0 0 (.str (lit ['大', '学', '在', '北', '京'])) true) 0 (loadedWorld, fun _ => ⟨none, []⟩)
    d.2.1.map (fun x => ((d.1.2 x).core.map WToken.text)) = List.replicate 3 (some (lit ['北', '京'])) ∧
    (seen (consumer 0 (fun _ w => w) (fun _ o => o)) (chineseTokenizerO sampleSys 0 0 (.str (lit ['大', '学', '在', '北', '京'])) true) 0
      (loadedWorld, fun _ => ⟨none, []⟩)).map (fun o => o.core.map WToken.text) =
      [some (lit ['大', '学']), some (lit ['在']), some (lit ['北', '京'])] := by decide +kernel

end Jieba.Props
