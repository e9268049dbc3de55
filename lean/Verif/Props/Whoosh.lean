import Verif.Model.Whoosh
import Verif.Props.Lazy
/-!
# C59: the tokenizer for Whoosh
-/

namespace Jieba.Props
open Jieba Jieba.Spec Jieba.Co Jieba.Lazy

variable {F : Type} [LinearOrder F]

/-- C59: in every run, even if other threads or the consumer change the process meanwhile, a token has the exact text between
`startchar` and `endchar`, its `original` is its text, its `pos` is `startchar`, and it is a Han character or has two or more
characters. -/
theorem C59_token_exact (S : Sys F) (t : Nat) (s : Str) (io : Bool) (l : List WToken) (r : Except PyErr Unit)
    (hr : Runs (chineseTokenizerL S t (.str s) io) l r) :
    ∀ k ∈ l, k.startchar ≤ k.endchar ∧ k.endchar ≤ s.length ∧ slice s k.startchar k.endchar = k.text ∧
      k.original = k.text ∧ k.pos = k.startchar ∧ (2 ≤ k.text.length ∨ ∃ c, k.text = [c] ∧ isHan c = true) := by
  obtain ⟨u, h1, -⟩ := (chineseTokenizerL_safe S t s io).run hr
  have : ∀ k ∈ l, WTokenOK s k := by
    clear hr
    generalize () = v at h1
    induction h1 with
    | nil s => simp
    | cons s a s' l s'' h _ ih =>
      intro k hk
      rcases List.mem_cons.mp hk with rfl | hk
      · exact h
      · exact ih k hk
  intro k hk
  obtain ⟨h1, h2, ⟨h3, h4, h5⟩, h6⟩ := this k hk
  exact ⟨h3, h4, h5, h1, h2, h6⟩

theorem sem_forIn_yield {W α α' : Type} (f : α → List α') (c : Co W α Unit) (n m : Nat) (w : W) :
    drive (fun _ w => w) (Co.forIn c (fun a (_ : Unit) => Co.yieldAll (f a)) ()) n w =
      ((drive (fun _ w => w) c m w).1, (drive (fun _ w => w) c m w).2.1.flatMap f, (drive (fun _ w => w) c m w).2.2) := by
  induction c generalizing n m w with
  | ret b => rfl
  | raise e => rfl
  | yield a k ih =>
    simp only [Co.forIn]
    rw [drive_bind, drive_yieldAll]
    simp only [drive]
    rw [ih _ (m + 1)]
    simp
  | act f k ih => simp only [Co.forIn, drive]; exact ih _ _ _ _

/-- C59, the other direction: without interference nothing but single characters that are not Han characters is left out; the
tokens are the entries of `jieba.tokenize(text, mode="search")` in order. -/
theorem C59_token_complete (S : Sys F) (t : Nat) (text : PyText) (io : Bool) (w : World) :
    (drive (fun _ w => w) (chineseTokenizerL S t text io) 0 w).2.1 =
      (((drive (fun _ w => w) (tokenizeL S t true true text io) 0 w).2.1).filter
        (fun e => decide (2 ≤ e.1.length) || e.1.any isHan)).map (fun e => ⟨e.1, e.1, e.2.1, e.2.1, e.2.2⟩) ∧
    (drive (fun _ w => w) (chineseTokenizerL S t text io) 0 w).2.2 =
      (drive (fun _ w => w) (tokenizeL S t true true text io) 0 w).2.2 := by
  have h : chineseTokenizerL S t text io = Co.forIn (tokenizeL S t true true text io) (fun e (_ : Unit) =>
      Co.yieldAll (if !(reAccepted.isMatch e.1) && e.1.length ≤ 1 then [] else [⟨e.1, e.1, e.2.1, e.2.1, e.2.2⟩])) () := by
    unfold chineseTokenizerL
    congr 1
    funext e _
    split <;> rfl
  rw [h, sem_forIn_yield _ _ 0 0]
  refine ⟨?_, rfl⟩
  simp only []
  generalize (drive (fun _ w => w) (tokenizeL S t true true text io) 0 w).2.1 = l
  induction l with
  | nil => rfl
  | cons e l ih =>
    have he : (!(reAccepted.isMatch e.1) && decide (e.1.length ≤ 1)) = !(decide (2 ≤ e.1.length) || e.1.any isHan) := by
      match e.1 with
      | [] => rfl
      | [c] =>
        have : reAccepted.isMatch [c] = isHan c := isMatch_plus' isHan [c]
        simp [this]
      | c :: d :: r => simp
    rw [List.flatMap_cons, ih, he]
    cases hx : (decide (2 ≤ e.1.length) || e.1.any isHan)
    · rw [List.filter_cons_of_neg (by simp [hx])]; rfl
    · rw [List.filter_cons_of_pos (by simp [hx])]; rfl

example : (drive (fun _ w => w) (chineseTokenizerL sampleSys 0 (.str (lit ['大', '学', 'a', ' ', '在', '北', '京'])) true) 0 loadedWorld).2 =
    ([⟨lit ['大', '学'], lit ['大', '学'], 0, 0, 2⟩, ⟨lit ['在'], lit ['在'], 4, 4, 5⟩, ⟨lit ['北', '京'], lit ['北', '京'], 5, 5, 7⟩],
      .ok ()) := by decide +kernel

end Jieba.Props
