import Verif.Spec.Dictionary
/-!
# Specification vocabulary: tokens with offsets
-/

namespace Jieba.Spec
open Jieba

/-- `(w, a, b)` is exact for `s`: `s[a:b] == w`, inside the text. -/
def ExactSpan (s : Str) (t : Str × Nat × Nat) : Prop :=
  t.2.1 ≤ t.2.2 ∧ t.2.2 ≤ s.length ∧ slice s t.2.1 t.2.2 = t.1

/-- Each token starts where the previous one ended, the first at `o`; the result is the end of the last one. -/
inductive Contiguous : Nat → List (Str × Nat × Nat) → Nat → Prop
  | nil (o) : Contiguous o [] o
  | cons (o w b l e) : Contiguous b l e → Contiguous o ((w, o, b) :: l) e

/-- A list of (start, token) pairs is a cover of `s` by occurrences. -/
structure Cover (s : Str) (l : List (Nat × Str)) : Prop where
  occurs : ∀ p ∈ l, p.1 + p.2.length ≤ s.length ∧ slice s p.1 (p.1 + p.2.length) = p.2
  covers : ∀ i < s.length, ∃ p ∈ l, p.1 ≤ i ∧ i < p.1 + p.2.length

/-- Number of positions at which `w` occurs in `s`. -/
def occurrences (w s : Str) : Nat := ((List.range s.length).filter (fun k => w.isPrefixOf (s.drop k))).length

/-- `l` lists, from left to right, the `n`-character dictionary words inside the longer token `t`, with their offsets in the text. -/
structure InnerSpans (freq : Freq) (n : Nat) (t : Str × Nat × Nat) (l : List (Str × Nat × Nat)) : Prop where
  sorted : l.Pairwise (fun a b => a.2.1 < b.2.1)
  mem : ∀ x i j, (x, i, j) ∈ l ↔
    n < t.1.length ∧ t.2.1 ≤ i ∧ j = i + n ∧ j ≤ t.2.2 ∧ x = slice t.1 (i - t.2.1) (j - t.2.1) ∧ DictWord freq x

/-- `g` are pieces of `s` that can make one token of full mode: a single piece, or pieces in the order of their starts such that
every character of `s` from the start of the first piece to the start of the last one is an ASCII letter or digit. -/
structure MergedPieces (s : Str) (g : List (Nat × Str)) : Prop where
  ne : g ≠ []
  ordered : g.Pairwise (fun p q => p.1 < q.1)
  letters : 1 < g.length → ∀ i, (∃ p ∈ g, p.1 ≤ i) → (∃ q ∈ g, i ≤ q.1) → ∃ c, s[i]? = some c ∧ isAlnum c = true

/-- No word of at least two characters in `s` meets the characters from offset `a` up to (not including) offset `b`. -/
def NoWordMeets (freq : Freq) (s : Str) (a b : Nat) : Prop :=
  ∀ i j, i + 2 ≤ j → j ≤ s.length → i < b → a < j → ¬ DictWord freq (slice s i j)

/-- A dictionary word of at least two characters lies at offsets `i` to `j` (exclusive). -/
def LongWordAt (freq : Freq) (s : Str) (i j : Nat) : Prop := i + 2 ≤ j ∧ j ≤ s.length ∧ DictWord freq (slice s i j)

/-- Offset `k` is not inside a word that starts at the last offset before `k` where words (of at least two characters) start. -/
def FreeAt (freq : Freq) (s : Str) (k : Nat) : Prop :=
  ∀ i j, i < k → LongWordAt freq s i j → (∀ m, i < m → m < k → ∀ e, ¬ LongWordAt freq s m e) → j ≤ k

/-- `w` is yielded at offset `k` in full mode: a word of at least two characters that starts there, or, if there is none and the
offset is free, the character there. -/
def FullAt (freq : Freq) (s : Str) (k : Nat) (w : Str) : Prop :=
  (∃ j, LongWordAt freq s k j ∧ w = slice s k j) ∨ ((∀ j, ¬ LongWordAt freq s k j) ∧ FreeAt freq s k ∧ w = slice s k (k + 1))

/-- `l` is `s` split at white space, which is kept: stretches without white space (possibly empty) alternate with single white
space characters or CR LF pairs. -/
inductive SpaceSplit : Str → List Str → Prop
  | last (t : Str) : (∀ c ∈ t, isSpace c = false) → SpaceSplit t [t]
  | crlf (t rest : Str) (l : List Str) : (∀ c ∈ t, isSpace c = false) → SpaceSplit rest l →
      SpaceSplit (t ++ 0x0D :: 0x0A :: rest) (t :: [0x0D, 0x0A] :: l)
  | one (t rest : Str) (c : Ch) (l : List Str) : (∀ c ∈ t, isSpace c = false) → isSpace c = true →
      ¬ (c = 0x0D ∧ rest.head? = some 0x0A) → SpaceSplit rest l → SpaceSplit (t ++ c :: rest) (t :: [c] :: l)

end Jieba.Spec
