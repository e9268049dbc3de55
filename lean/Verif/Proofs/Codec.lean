import Verif.Model.Codec
/-!
# UTF-8 round trips
-/

namespace Jieba

theorem utf8Decode_encodeCh (c : Nat) (b : Bytes) (rest : Bytes) (h : utf8EncodeCh c = some b) :
    utf8Decode (b ++ rest) = (utf8Decode rest).map (c :: ·) := by
  unfold utf8EncodeCh at h
  split at h
  · simp at h; subst h
    simp only [List.cons_append, List.nil_append]
    conv => lhs; unfold utf8Decode
    simp [*]
  split at h
  · simp at h; subst h
    simp only [List.cons_append, List.nil_append]
    conv => lhs; unfold utf8Decode
    rw [if_neg (by omega)]
    try simp only []
    rw [if_pos (by simp; omega), if_pos (by simp [isCont]; omega)]
    rw [show (0xC0 + c / 64 - 0xC0) * 64 + (0x80 + c % 64 - 0x80) = c by omega]
  split at h
  · simp at h
  next hs =>
  simp [isSurrogate] at hs
  split at h
  · simp at h; subst h
    simp only [List.cons_append, List.nil_append]
    conv => lhs; unfold utf8Decode
    rw [if_neg (by omega)]
    try simp only []
    rw [if_neg (by simp; omega)]
    try simp only []
    rw [if_pos (by simp; omega), if_pos (by simp [isCont]; omega)]
    rw [show (0xE0 + c / 4096 - 0xE0) * 4096 + (0x80 + c / 64 % 64 - 0x80) * 64 + (0x80 + c % 64 - 0x80) = c by omega]
  split at h
  · simp at h; subst h
    simp only [List.cons_append, List.nil_append]
    conv => lhs; unfold utf8Decode
    rw [if_neg (by omega)]
    try simp only []
    rw [if_neg (by simp; omega)]
    try simp only []
    rw [if_neg (by simp; omega)]
    try simp only []
    rw [if_pos (by simp; omega), if_pos (by simp [isCont]; omega)]
    rw [show (0xF0 + c / 262144 - 0xF0) * 262144 + (0x80 + c / 4096 % 64 - 0x80) * 4096 + (0x80 + c / 64 % 64 - 0x80) * 64 +
        (0x80 + c % 64 - 0x80) = c by omega]
  · simp at h

theorem utf8_decode_encode (s : Str) (b : Bytes) (h : utf8Encode s = some b) : utf8Decode b = some s := by
  induction s generalizing b with
  | nil => simp [utf8Encode] at h; subst h; rfl
  | cons c s ih =>
    unfold utf8Encode at h
    split at h
    · next b1 bs h1 h2 =>
      simp at h; subst h
      rw [utf8Decode_encodeCh c b1 bs h1, ih bs h2]; rfl
    · simp at h

theorem utf8_encode_decode (b : Bytes) (s : Str) (h : utf8Decode b = some s) : utf8Encode s = some b := by
  fun_induction utf8Decode b generalizing s with
  | case1 => simp at h; subst h; rfl
  | case2 b0 rest h0 ih =>
    simp at h
    obtain ⟨t, ht, rfl⟩ := h
    simp [utf8Encode, ih t ht, utf8EncodeCh, h0]
  | case3 => simp at h
  | case4 b0 h0 b1 rest h1 h2 ih =>
    simp at h
    obtain ⟨t, ht, rfl⟩ := h
    simp [isCont] at h1 h2
    have e : utf8EncodeCh ((b0 - 0xC0) * 64 + (b1 - 0x80)) = some [b0, b1] := by
      unfold utf8EncodeCh
      rw [if_neg (by omega), if_pos (by omega)]
      simp only [Option.some.injEq, List.cons.injEq, and_true]
      omega
    simp [utf8Encode, ih t ht, e]
  | case5 => simp at h
  | case6 => simp at h
  | case7 b0 h0 b1 hn b2 rest h1 h2 ih =>
    simp at h
    obtain ⟨t, ht, rfl⟩ := h
    simp [isCont] at h1 h2
    have e : utf8EncodeCh ((b0 - 0xE0) * 4096 + (b1 - 0x80) * 64 + (b2 - 0x80)) = some [b0, b1, b2] := by
      unfold utf8EncodeCh
      rw [if_neg (by omega), if_neg (by omega), if_neg (by simp [isSurrogate]; omega), if_pos (by omega)]
      simp only [Option.some.injEq, List.cons.injEq, and_true]
      omega
    simp [utf8Encode, ih t ht, e]
  | case8 => simp at h
  | case9 => simp at h
  | case10 b0 h0 b1 hn b2 hn2 b3 rest h1 h2 ih =>
    simp at h
    obtain ⟨t, ht, rfl⟩ := h
    simp [isCont] at h1 h2
    have e : utf8EncodeCh ((b0 - 0xF0) * 262144 + (b1 - 0x80) * 4096 + (b2 - 0x80) * 64 + (b3 - 0x80)) =
        some [b0, b1, b2, b3] := by
      unfold utf8EncodeCh
      rw [if_neg (by omega), if_neg (by omega), if_neg (by simp [isSurrogate]; omega), if_neg (by omega), if_pos (by omega)]
      simp only [Option.some.injEq, List.cons.injEq, and_true]
      omega
    simp [utf8Encode, ih t ht, e]
  | case11 => simp at h
  | case12 => simp at h

theorem utf8Encode_isSome (s : Str) (h : ∀ c ∈ s, isSurrogate c = false ∧ c < 0x110000) : ∃ b, utf8Encode s = some b := by
  induction s with
  | nil => exact ⟨[], rfl⟩
  | cons c s ih =>
    obtain ⟨bs, hbs⟩ := ih (fun d hd => h d (List.mem_cons_of_mem _ hd))
    have hc := h c List.mem_cons_self
    have : ∃ b, utf8EncodeCh c = some b := by
      unfold utf8EncodeCh
      split
      · exact ⟨_, rfl⟩
      split
      · exact ⟨_, rfl⟩
      rw [if_neg (by simp [hc.1])]
      split
      · exact ⟨_, rfl⟩
      · rw [if_pos hc.2]; exact ⟨_, rfl⟩
    obtain ⟨b, hb⟩ := this
    exact ⟨b ++ bs, by simp [utf8Encode, hb, hbs]⟩

end Jieba
