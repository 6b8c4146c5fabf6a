import Verif.Py.Utf8
/-! # UTF-8 encode/decode are mutually inverse -/
namespace Py

theorem isCont_iff (b : Nat) : isCont b = true ↔ 0x80 ≤ b ∧ b ≤ 0xBF := by
  simp [isCont]

theorem decN_cons (b0 : Nat) (rest : List Nat) : utf8DecodeN (b0 :: rest) =
    if b0 < 0x80 then (utf8DecodeN rest).map (b0 :: ·)
    else match rest with
      | [] => none
      | b1 :: rest1 =>
        if 0xC2 ≤ b0 && b0 ≤ 0xDF then
          if isCont b1 then (utf8DecodeN rest1).map (((b0 - 0xC0) * 64 + (b1 - 0x80)) :: ·) else none
        else match rest1 with
          | [] => none
          | b2 :: rest2 =>
            if 0xE0 ≤ b0 && b0 ≤ 0xEF then
              let c := (b0 - 0xE0) * 4096 + (b1 - 0x80) * 64 + (b2 - 0x80)
              if isCont b1 && isCont b2 && 0x800 ≤ c && !(0xD800 ≤ c && c ≤ 0xDFFF) then
                (utf8DecodeN rest2).map (c :: ·)
              else none
            else match rest2 with
              | [] => none
              | b3 :: rest3 =>
                if 0xF0 ≤ b0 && b0 ≤ 0xF4 then
                  let c := (b0 - 0xF0) * 262144 + (b1 - 0x80) * 4096 + (b2 - 0x80) * 64 + (b3 - 0x80)
                  if isCont b1 && isCont b2 && isCont b3 && 0x10000 ≤ c && c ≤ 0x10FFFF then
                    (utf8DecodeN rest3).map (c :: ·)
                  else none
                else none := by
  rw [utf8DecodeN.eq_def]; rfl

theorem utf8DecodeN_encodeChar (c : Nat) (h : isScalar c = true) (rest : List Nat) :
    utf8DecodeN (utf8EncodeChar c ++ rest) = (utf8DecodeN rest).map (c :: ·) := by
  simp only [isScalar, Bool.and_eq_true, decide_eq_true_eq, Bool.not_eq_true',
    Bool.and_eq_false_imp, decide_eq_false_iff_not] at h
  unfold utf8EncodeChar
  split
  · simp only [List.cons_append, List.nil_append]
    rw [decN_cons, if_pos ‹_›]
  · split
    · simp only [List.cons_append, List.nil_append]
      rw [decN_cons, if_neg (by omega)]
      simp only []
      rw [if_pos (by simp; omega), if_pos (by rw [isCont_iff]; omega)]
      have e : (0xC0 + c / 64 - 0xC0) * 64 + (0x80 + c % 64 - 0x80) = c := by omega
      rw [e]
    · split
      · simp only [List.cons_append, List.nil_append]
        rw [decN_cons, if_neg (by omega)]
        simp only []
        rw [if_neg (by simp; omega), if_pos (by simp; omega)]
        have e : (0xE0 + c / 4096 - 0xE0) * 4096 + (0x80 + c / 64 % 64 - 0x80) * 64 +
            (0x80 + c % 64 - 0x80) = c := by omega
        rw [e]
        rw [if_pos]
        simp only [Bool.and_eq_true, isCont_iff, decide_eq_true_eq, Bool.not_eq_true',
          Bool.and_eq_false_imp, decide_eq_false_iff_not]
        omega
      · simp only [List.cons_append, List.nil_append]
        rw [decN_cons, if_neg (by omega)]
        simp only []
        rw [if_neg (by simp; omega), if_neg (by simp; omega), if_pos (by simp; omega)]
        have e : (0xF0 + c / 262144 - 0xF0) * 262144 + (0x80 + c / 4096 % 64 - 0x80) * 4096 +
            (0x80 + c / 64 % 64 - 0x80) * 64 + (0x80 + c % 64 - 0x80) = c := by omega
        rw [e]
        rw [if_pos]
        simp only [Bool.and_eq_true, isCont_iff, decide_eq_true_eq]
        omega

theorem utf8DecodeN_encode (s : Str) (h : s.all isScalar = true) :
    utf8DecodeN (s.flatMap utf8EncodeChar) = some s := by
  induction s with
  | nil => simp [utf8DecodeN]
  | cons c cs ih =>
    simp at h
    rw [List.flatMap_cons, utf8DecodeN_encodeChar c h.1, ih (by simpa using h.2)]
    rfl

theorem utf8EncodeChar_lt (c : Nat) (h : isScalar c = true) : ∀ b ∈ utf8EncodeChar c, b < 256 := by
  simp only [isScalar, Bool.and_eq_true, decide_eq_true_eq, Bool.not_eq_true',
    Bool.and_eq_false_imp, decide_eq_false_iff_not] at h
  unfold utf8EncodeChar
  intro b hb
  split at hb
  · simp at hb; omega
  · split at hb
    · simp at hb; omega
    · split at hb
      · simp at hb; omega
      · simp at hb; omega

theorem map_toNat_ofNat (l : List Nat) (h : ∀ b ∈ l, b < 256) :
    (l.map UInt8.ofNat).map UInt8.toNat = l := by
  rw [List.map_map]
  conv => rhs; rw [← List.map_id l]
  apply List.map_congr_left
  intro b hb
  simp only [Function.comp, UInt8.toNat_ofNat', id]
  exact Nat.mod_eq_of_lt (h b hb)

theorem map_ofNat_toNat (l : Bytes) : (l.map UInt8.toNat).map UInt8.ofNat = l := by
  rw [List.map_map]
  conv => rhs; rw [← List.map_id l]
  apply List.map_congr_left
  intro b _
  simp

theorem toNat_inj (a b : Bytes) (h : a.map UInt8.toNat = b.map UInt8.toNat) : a = b := by
  rw [← map_ofNat_toNat a, h, map_ofNat_toNat]

theorem utf8Decode_of_encode (s : Str) (b : Bytes) (h : utf8Encode s = .ok b) :
    utf8Decode b = some s := by
  unfold utf8Encode at h
  split at h
  · rename_i hs
    cases h
    unfold utf8Decode
    rw [map_toNat_ofNat, utf8DecodeN_encode s hs]
    intro x hx
    rw [List.mem_flatMap] at hx
    obtain ⟨c, hc, hx⟩ := hx
    exact utf8EncodeChar_lt c (by simp at hs; exact hs c hc) x hx
  · cases h

theorem utf8DecodeN_inv : ∀ (l : List Nat) (s : Str), utf8DecodeN l = some s →
    s.all isScalar = true ∧ s.flatMap utf8EncodeChar = l := by
  intro l
  induction l using utf8DecodeN.induct with
  | case1 => intro s h; rw [utf8DecodeN.eq_def] at h; simp at h; subst h; simp
  | case2 b0 rest hb ih =>
    intro s h
    rw [decN_cons, if_pos hb] at h
    cases hr : utf8DecodeN rest with
    | none => rw [hr] at h; cases h
    | some t =>
      rw [hr] at h; simp at h; subst h
      obtain ⟨h1, h2⟩ := ih t hr
      refine ⟨?_, ?_⟩
      · simp only [List.all_cons, h1, Bool.and_true, isScalar]; simp; omega
      · rw [List.flatMap_cons, h2]; simp [utf8EncodeChar, hb]
  | case3 b0 hb => intro s h; rw [decN_cons, if_neg hb] at h; simp at h
  | case4 b0 hb b1 rest1 h2 h3 ih =>
    intro s h
    rw [decN_cons, if_neg hb] at h
    simp only [] at h
    rw [if_pos h2, if_pos h3] at h
    cases hr : utf8DecodeN rest1 with
    | none => rw [hr] at h; cases h
    | some t =>
      rw [hr] at h; simp at h; subst h
      obtain ⟨i1, i2⟩ := ih t hr
      rw [isCont_iff] at h3
      simp at h2
      have hc1 : ((b0 - 0xC0) * 64 + (b1 - 0x80)) / 64 = b0 - 0xC0 := by omega
      have hc2 : ((b0 - 0xC0) * 64 + (b1 - 0x80)) % 64 = b1 - 0x80 := by omega
      refine ⟨?_, ?_⟩
      · simp only [List.all_cons, i1, Bool.and_true, isScalar]; simp; omega
      · rw [List.flatMap_cons, i2]
        unfold utf8EncodeChar
        rw [if_neg (by omega), if_pos (by omega), hc1, hc2]
        simp; omega
  | case5 b0 hb b1 rest1 h2 h3 =>
    intro s h; rw [decN_cons, if_neg hb] at h; simp only [] at h
    rw [if_pos h2, if_neg h3] at h; cases h
  | case6 b0 hb b1 h2 =>
    intro s h; rw [decN_cons, if_neg hb] at h; simp only [] at h
    rw [if_neg h2] at h; cases h
  | case7 b0 hb b1 h2 b2 rest2 h3 c h4 ih =>
    intro s h
    rw [decN_cons, if_neg hb] at h
    simp only [] at h
    rw [if_neg h2, if_pos h3, if_pos h4] at h
    cases hr : utf8DecodeN rest2 with
    | none => rw [hr] at h; cases h
    | some t =>
      rw [hr] at h; simp at h; subst h
      obtain ⟨i1, i2⟩ := ih t hr
      simp only [Bool.and_eq_true, isCont_iff, decide_eq_true_eq, Bool.not_eq_true',
        Bool.and_eq_false_imp, decide_eq_false_iff_not, c] at h4
      simp at h3
      obtain ⟨⟨⟨q1, q2⟩, q3⟩, q4⟩ := h4
      generalize hcc : (b0 - 0xE0) * 4096 + (b1 - 0x80) * 64 + (b2 - 0x80) = cc at *
      refine ⟨?_, ?_⟩
      · simp only [List.all_cons, i1, Bool.and_true, isScalar]
        simp only [Bool.and_eq_true, decide_eq_true_eq, Bool.not_eq_true',
          Bool.and_eq_false_imp, decide_eq_false_iff_not]
        omega
      · rw [List.flatMap_cons, i2]
        unfold utf8EncodeChar
        rw [if_neg (by omega), if_neg (by omega), if_pos (by omega)]
        simp; omega
  | case8 b0 hb b1 h2 b2 rest2 h3 c h4 =>
    intro s h; rw [decN_cons, if_neg hb] at h; simp only [] at h
    rw [if_neg h2, if_pos h3, if_neg h4] at h; cases h
  | case9 b0 hb b1 h2 b2 h3 =>
    intro s h; rw [decN_cons, if_neg hb] at h; simp only [] at h
    rw [if_neg h2, if_neg h3] at h; cases h
  | case10 b0 hb b1 h2 b2 h3 b3 rest3 h4 c h5 ih =>
    intro s h
    rw [decN_cons, if_neg hb] at h
    simp only [] at h
    rw [if_neg h2, if_neg h3, if_pos h4, if_pos h5] at h
    cases hr : utf8DecodeN rest3 with
    | none => rw [hr] at h; cases h
    | some t =>
      rw [hr] at h; simp at h; subst h
      obtain ⟨i1, i2⟩ := ih t hr
      simp only [Bool.and_eq_true, isCont_iff, decide_eq_true_eq, c] at h5
      simp at h4
      obtain ⟨⟨⟨⟨q1, q2⟩, q3⟩, q4⟩, q5⟩ := h5
      generalize hcc : (b0 - 0xF0) * 262144 + (b1 - 0x80) * 4096 + (b2 - 0x80) * 64 + (b3 - 0x80) = cc at *
      refine ⟨?_, ?_⟩
      · simp only [List.all_cons, i1, Bool.and_true, isScalar]
        simp only [Bool.and_eq_true, decide_eq_true_eq, Bool.not_eq_true',
          Bool.and_eq_false_imp, decide_eq_false_iff_not]
        omega
      · rw [List.flatMap_cons, i2]
        unfold utf8EncodeChar
        rw [if_neg (by omega), if_neg (by omega), if_neg (by omega)]
        simp; omega
  | case11 b0 hb b1 h2 b2 h3 b3 rest3 h4 c h5 =>
    intro s h; rw [decN_cons, if_neg hb] at h; simp only [] at h
    rw [if_neg h2, if_neg h3, if_pos h4, if_neg h5] at h; cases h
  | case12 b0 hb b1 h2 b2 h3 b3 rest3 h4 =>
    intro s h; rw [decN_cons, if_neg hb] at h; simp only [] at h
    rw [if_neg h2, if_neg h3, if_neg h4] at h; cases h

theorem utf8Encode_of_decode (b : Bytes) (s : Str) (h : utf8Decode b = some s) :
    utf8Encode s = .ok b := by
  obtain ⟨h1, h2⟩ := utf8DecodeN_inv _ _ h
  unfold utf8Encode
  rw [if_pos h1, h2, map_ofNat_toNat]

theorem utf8Decode_all (b : Bytes) (s : Str) (h : utf8Decode b = some s) : s.all isScalar = true :=
  (utf8DecodeN_inv _ _ h).1

/-- ASCII bytes decode to themselves. -/
theorem utf8DecodeN_ascii (l : List Nat) (h : ∀ b ∈ l, b < 128) : utf8DecodeN l = some l := by
  induction l with
  | nil => rw [utf8DecodeN.eq_def]
  | cons x xs ih =>
    rw [decN_cons, if_pos (h x (by simp)), ih (fun b hb => h b (by simp [hb]))]; rfl

theorem utf8DecodeN_ascii_prefix (a b : List Nat) (h : ∀ x ∈ a, x < 128) :
    utf8DecodeN (a ++ b) = (utf8DecodeN b).map (a ++ ·) := by
  induction a with
  | nil => simp
  | cons x xs ih =>
    rw [List.cons_append, decN_cons, if_pos (h x (by simp)), ih (fun b hb => h b (by simp [hb]))]
    cases utf8DecodeN b <;> simp

end Py
