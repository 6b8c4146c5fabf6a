import Verif.Lemmas.Str
import Verif.Lemmas.Utf8
import Verif.Spec.Framing
/-! # Lemmas: checksum text and get_parts against the framing specification -/
namespace Nmea
open Py Spec

theorem xorStr_eq (s : Str) : xorStr s = xorAll s := by
  have gen : ∀ (s : Str) (a : Nat), s.foldl (fun a c => a ^^^ c) a = a ^^^ xorAll s := by
    intro s
    induction s with
    | nil => intro a; simp [xorAll]
    | cons c cs ih => intro a; simp only [List.foldl_cons, ih, xorAll, Nat.xor_assoc]
  simp [xorStr, gen]

theorem xorAll_append (a b : Str) : xorAll (a ++ b) = xorAll a ^^^ xorAll b := by
  induction a with
  | nil => simp [xorAll]
  | cons c cs ih => simp [xorAll, ih, Nat.xor_assoc]

theorem xorAll_perm {a b : Str} (h : a.Perm b) : xorAll a = xorAll b := by
  induction h with
  | nil => rfl
  | cons x _ ih => simp [xorAll, ih]
  | swap x y l => simp only [xorAll]; rw [← Nat.xor_assoc, Nat.xor_comm y x, Nat.xor_assoc]
  | trans _ _ ih1 ih2 => rw [ih1, ih2]

theorem xorAll_lt (s : Str) (k : Nat) (h : ∀ c ∈ s, c < 2 ^ k) : xorAll s < 2 ^ k := by
  induction s with
  | nil => simp [xorAll]; exact Nat.two_pow_pos k
  | cons c cs ih =>
    simp only [xorAll]
    exact Nat.xor_lt_two_pow (h c (by simp)) (ih (fun c hc => h c (by simp [hc])))

theorem idxOf_digitUpper (d : Nat) (h : d < 16) : hexDigits.idxOf (digitUpper d) = d := by
  have : ∀ d : Fin 16, hexDigits.idxOf (digitUpper d.val) = d.val := by decide
  exact this ⟨d, h⟩

theorem digitUpper_mem (d : Nat) (h : d < 16) : digitUpper d ∈ hexDigits := by
  have : ∀ d : Fin 16, digitUpper d.val ∈ hexDigits := by decide
  exact this ⟨d, h⟩

theorem hexValue_map (ds : List Nat) (h : ∀ d ∈ ds, d < 16) :
    hexValue (ds.map digitUpper) = ofDigits 16 ds := by
  unfold hexValue ofDigits
  generalize (0 : Nat) = a
  induction ds generalizing a with
  | nil => rfl
  | cons d ds ih =>
    simp only [List.map_cons, List.foldl_cons]
    rw [idxOf_digitUpper d (h d (by simp)), ih (fun d hd => h d (by simp [hd])), Nat.mul_comm]

theorem hexValue_pad (n : Nat) (s : Str) : hexValue (List.replicate n 48 ++ s) = hexValue s := by
  induction n with
  | zero => rfl
  | succ n ih =>
    have e : ∀ t : Str, hexValue (48 :: t) = hexValue t := fun t => rfl
    rw [List.replicate_succ, List.cons_append, e, ih]

theorem fmt02X_isHex (n : Nat) : IsHexText (fmt02X n) n := by
  have hlt := digits_lt 16 n (by omega)
  have hne := digits_ne_nil 16 n
  refine ⟨?_, ?_, ?_, ?_⟩
  · intro c hc
    unfold fmt02X padZero at hc
    rw [List.mem_append] at hc
    rcases hc with hc | hc
    · rw [List.mem_replicate] at hc; rw [hc.2]; decide
    · rw [List.mem_map] at hc
      obtain ⟨d, hd, rfl⟩ := hc
      exact digitUpper_mem d (hlt d hd)
  · unfold fmt02X padZero
    rw [hexValue_pad, hexValue_map _ hlt, ofDigits_digits 16 n (by omega)]
  · unfold fmt02X padZero; simp; omega
  · unfold fmt02X padZero
    intro h
    simp only [List.length_append, List.length_replicate, List.length_map] at h
    have h3 : 2 - (List.map digitUpper (digits 16 n)).length = 0 := by simp; omega
    rw [h3]
    simp only [List.replicate_zero, List.nil_append, List.head?_map]
    have hpos : 0 < n := by
      rcases Nat.eq_zero_or_pos n with h0 | h0
      · subst h0; simp [digits, digitsAux] at h
      · exact h0
    have h0 := digits_head_ne_zero 16 n (by omega) hpos
    cases hh : (digits 16 n).head? with
    | none => simp
    | some d =>
      have := h0 d (by simp [hh])
      have hd := hlt d (List.mem_of_mem_head? (by simp [hh]))
      simp only [Option.map_some, ne_eq, Option.some.injEq]
      intro he
      exact this (digitUpper_inj d 0 hd (by omega) (by rw [he]; rfl))

theorem fmt02X_inj (a b : Nat) (h : fmt02X a = fmt02X b) : a = b := by
  have h1 := (fmt02X_isHex a).2.1
  have h2 := (fmt02X_isHex b).2.1
  rw [h] at h1; omega

/-! ## Framing -/

theorem isFrame_iff (c : Nat) : isFrame c = true ↔ FrameChar c := by
  unfold isFrame FrameChar; simp [or_assoc]

theorem isFrame_false_iff (c : Nat) : isFrame c = false ↔ ¬ FrameChar c := by
  rw [← isFrame_iff]; simp

theorem commaJoin_eq (l : List Str) : commaJoin l = joinWith 44 l := by
  induction l with
  | nil => rfl
  | cons f fs ih =>
    cases fs with
    | nil => rfl
    | cons g gs => simp only [commaJoin, joinWith, ih]; simp

theorem framedBody_iff (msg body : Str) : FramedBody msg body ↔ stripBy isFrame msg = body := by
  constructor
  · rintro ⟨pre, post, rfl, h1, h2, h3, h4⟩
    apply stripBy_of_stripped
    · constructor
      · intro x hx; rw [isFrame_false_iff]; exact h3 x hx
      · intro x hx; rw [isFrame_false_iff]; exact h4 x hx
    · simp only [List.all_eq_true]; intro x hx; rw [isFrame_iff]; exact h1 x hx
    · simp only [List.all_eq_true]; intro x hx; rw [isFrame_iff]; exact h2 x hx
  · rintro rfl
    obtain ⟨pre, post, h1, h2, h3⟩ := stripBy_decomp isFrame msg
    obtain ⟨s1, s2⟩ := stripBy_stripped isFrame msg
    refine ⟨pre, post, h1, ?_, ?_, ?_, ?_⟩
    · simp only [List.all_eq_true] at h2; intro x hx; rw [← isFrame_iff]; exact h2 x hx
    · simp only [List.all_eq_true] at h3; intro x hx; rw [← isFrame_iff]; exact h3 x hx
    · intro x hx; rw [← isFrame_false_iff]; exact s1 x hx
    · intro x hx; rw [← isFrame_false_iff]; exact s2 x hx

theorem hasContent_iff (msg content ck : Str) :
    HasContent msg content ck ↔ splitFirst 42 (stripBy isFrame msg) = some (content, ck) := by
  unfold HasContent
  rw [framedBody_iff, splitFirst_some]
  simp

theorem contentOf_eq (t m : Str) (p : List Str) : contentOf t m p = commaJoin ((t ++ m) :: p) := by
  rw [commaJoin_eq]
  unfold contentOf
  generalize t ++ m = h
  induction p generalizing h with
  | nil => rfl
  | cons f fs ih =>
    simp only [List.foldl_cons]
    rw [ih, joinWith_cons 44 h (f :: fs) (by simp)]
    cases fs with
    | nil => rfl
    | cons g gs => simp [joinWith]

/-- The header split of `get_parts`. -/
theorem header_split (t m : Str) :
    (t = (t ++ m).take (if (t ++ m).take 1 = py!"P" then 1 else 2) ∧
     m = (t ++ m).drop (if (t ++ m).take 1 = py!"P" then 1 else 2)) ↔
    (t = py!"P" ∨ (t.head? ≠ some 80 ∧ (t.length = 2 ∨ (t.length < 2 ∧ m = [])))) := by
  match t with
  | [] =>
    match m with
    | [] => simp
    | x :: xs => by_cases h : x = 80 <;> simp [h]
  | [a] =>
    by_cases h : a = 80
    · simp [h]
    · match m with
      | [] => simp [h]
      | x :: xs => simp [h]
  | [a, b] => by_cases h : a = 80 <;> simp [h]
  | a :: b :: c :: r =>
    by_cases h : a = 80
    · simp [h]
    · simp [h]; omega

theorem hasFields_iff (content t m : Str) (p : List Str) :
    HasFields content t m p ↔ ∃ hdr, splitAll 44 content = hdr :: p ∧
      t = hdr.take (if hdr.take 1 = py!"P" then 1 else 2) ∧
      m = hdr.drop (if hdr.take 1 = py!"P" then 1 else 2) := by
  unfold HasFields
  rw [commaJoin_eq]
  constructor
  · rintro ⟨h1, h2, h3⟩
    refine ⟨t ++ m, ?_, ?_⟩
    · rw [h1]; exact splitAll_joinWith 44 _ (by simp) h2
    · rw [← header_split] at h3; exact h3
  · rintro ⟨hdr, h1, h2, h3⟩
    have hh : t ++ m = hdr := by rw [h2, h3]; exact List.take_append_drop _ _
    subst hh
    refine ⟨?_, ?_, (header_split t m).1 ⟨h2, h3⟩⟩
    · rw [← h1, joinWith_splitAll]
    · rw [← h1]; exact splitAll_free 44 content

theorem getPartsStr_iff (msg : Str) (p : Parts) :
    getPartsStr msg = some p ↔
      HasContent msg p.content p.cksum ∧ HasFields p.content p.talker p.msgid p.payload := by
  rw [hasContent_iff, hasFields_iff]
  unfold getPartsStr
  cases h : splitFirst 42 (stripBy isFrame msg) with
  | none => simp
  | some q =>
    obtain ⟨content, ck⟩ := q
    simp only []
    cases h2 : splitAll 44 content with
    | nil => exact absurd h2 (splitAll_ne_nil 44 content)
    | cons hdr pl =>
      simp only [Option.some.injEq, Prod.mk.injEq]
      constructor
      · rintro rfl
        exact ⟨⟨rfl, rfl⟩, hdr, h2, rfl, rfl⟩
      · rintro ⟨⟨e1, e2⟩, hdr', e3, e4, e5⟩
        subst e1
        rw [h2] at e3
        simp only [List.cons.injEq] at e3
        obtain ⟨rfl, e6⟩ := e3
        cases p
        simp_all

theorem star_stripBy (msg : Str) : 42 ∈ stripBy isFrame msg ↔ 42 ∈ msg := by
  obtain ⟨pre, post, h1, h2, h3⟩ := stripBy_decomp isFrame msg
  have n1 : 42 ∉ pre := by
    intro h; simp only [List.all_eq_true] at h2; exact absurd (h2 42 h) (by decide)
  have n2 : 42 ∉ post := by
    intro h; simp only [List.all_eq_true] at h3; exact absurd (h3 42 h) (by decide)
  conv => rhs; rw [h1]
  simp [n1, n2]

theorem getPartsStr_none (msg : Str) : getPartsStr msg = none ↔ 42 ∉ msg := by
  rw [← star_stripBy, ← splitFirst_none]
  unfold getPartsStr
  cases h : splitFirst 42 (stripBy isFrame msg) with
  | none => simp
  | some q =>
    simp only []
    cases h2 : splitAll 44 q.1 with
    | nil => exact absurd h2 (splitAll_ne_nil 44 q.1)
    | cons hdr pl => simp

theorem textOf_iff (b : Bytes) (s : Str) : TextOf (.bytes b) s ↔ utf8Decode b = some s := by
  constructor
  · intro h; cases h with | bytes _ _ h => exact utf8Decode_of_encode s b h
  · intro h; exact .bytes b s (utf8Encode_of_decode b s h)

theorem textOf_str (t s : Str) : TextOf (.str t) s ↔ s = t := by
  constructor
  · intro h; cases h; rfl
  · rintro rfl; exact .str s

theorem getParts_iff (msg : RawMsg) (p : Parts) :
    getParts msg = .ok p ↔ ∃ s, TextOf msg s ∧ getPartsStr s = some p := by
  cases msg with
  | bytes b =>
    unfold getParts
    simp only [textOf_iff]
    cases h : utf8Decode b with
    | none => simp
    | some s =>
      simp only [Option.bind_some, Option.some.injEq]
      cases h2 : getPartsStr s with
      | none => simp [h2]
      | some q => simp [h2]
  | str t =>
    unfold getParts
    simp only [textOf_str]
    simp only [Option.bind_some]
    cases h2 : getPartsStr t with
    | none => simp [h2]
    | some q => simp [h2]
  | other =>
    unfold getParts
    simp only [Option.bind_none]
    constructor
    · intro h; cases h
    · rintro ⟨s, h, _⟩; cases h

theorem getParts_error (msg : RawMsg) (e : Err) :
    getParts msg = .error e ↔ e = .nmeaMessage ∧ ¬ ∃ s, TextOf msg s ∧ 42 ∈ s := by
  constructor
  · intro h
    constructor
    · unfold getParts at h
      simp only at h
      split at h
      · cases h
      · cases h; rfl
    · rintro ⟨s, hs, hm⟩
      cases h2 : getPartsStr s with
      | none => rw [getPartsStr_none] at h2; exact h2 hm
      | some p =>
        have := (getParts_iff msg p).2 ⟨s, hs, h2⟩
        rw [this] at h; cases h
  · rintro ⟨rfl, h⟩
    cases h2 : getParts msg with
    | ok p =>
      exfalso
      obtain ⟨s, hs, hp⟩ := (getParts_iff msg p).1 h2
      apply h
      refine ⟨s, hs, ?_⟩
      apply Classical.byContradiction
      intro hn
      rw [← getPartsStr_none] at hn
      rw [hn] at hp; cases hp
    | error e =>
      unfold getParts at h2
      simp only at h2
      split at h2
      · cases h2
      · cases h2; rfl

/-! ## parse in terms of get_parts and the constructor -/

theorem parse_eq (now : Nat → DateTime) (msg : RawMsg) (mode : Int) (v : Nat) (u : UDefs)
    (hm : mode = 0 ∨ mode = 1 ∨ mode = 2) :
    parse now msg mode v u =
      match getParts msg with
      | .error _ => if valMsgid v then .error .nmeaParse else .ok none
      | .ok p =>
        if valCksum v = true ∧ upper p.cksum ≠ calcChecksum p.content then .error .nmeaParse
        else match mkMsg now p.talker p.msgid mode false v u (some p.cksum)
            { payload := some p.payload, others := [] } with
          | .ok m => .ok (some m)
          | .error .nmeaMessage => if valMsgid v then .error .nmeaParse else .ok none
          | .error e => .error e := by
  unfold parse
  rw [if_neg (by simp only [Classical.not_not]; exact hm)]
  simp only [bind, Except.bind]
  cases hp : getParts msg with
  | error e =>
    have := ((getParts_error msg e).1 hp).1
    subst this
    rfl
  | ok p =>
    simp only []
    by_cases hc : valCksum v = true ∧ upper p.cksum ≠ calcChecksum p.content
    · rw [if_pos hc]
      have : (valCksum v && upper p.cksum != calcChecksum p.content) = true := by
        simp [hc.1, hc.2]
      rw [if_pos this]
    · rw [if_neg hc]
      have : ¬ (valCksum v && upper p.cksum != calcChecksum p.content) = true := by
        simp only [Bool.and_eq_true, bne_iff_ne]; exact hc
      rw [if_neg this]
      generalize mkMsg now p.talker p.msgid mode false v u (some p.cksum)
        { payload := some p.payload, others := [] } = r
      match r with
      | .ok m => rfl
      | .error e => cases e <;> rfl

theorem parse_mode (now : Nat → DateTime) (msg : RawMsg) (mode : Int) (v : Nat) (u : UDefs)
    (hm : ¬ (mode = 0 ∨ mode = 1 ∨ mode = 2)) : parse now msg mode v u = .error .nmeaParse := by
  unfold parse
  rw [if_pos (by simpa using hm)]

/-- What an accepted sentence tells us. -/
theorem parse_accept (now : Nat → DateTime) (msg : RawMsg) (mode : Int) (v : Nat) (u : UDefs) (m : Msg)
    (h : parse now msg mode v u = .ok (some m)) :
    (mode = 0 ∨ mode = 1 ∨ mode = 2) ∧ ∃ p, getParts msg = .ok p ∧
      (valCksum v = true → upper p.cksum = calcChecksum p.content) ∧
      mkMsg now p.talker p.msgid mode false v u (some p.cksum)
        { payload := some p.payload, others := [] } = .ok m := by
  by_cases hm : mode = 0 ∨ mode = 1 ∨ mode = 2
  · refine ⟨hm, ?_⟩
    rw [parse_eq now msg mode v u hm] at h
    cases hp : getParts msg with
    | error e => rw [hp] at h; simp only at h; split at h <;> cases h
    | ok p =>
      rw [hp] at h
      simp only at h
      split at h
      · cases h
      · rename_i hc
        refine ⟨p, rfl, ?_, ?_⟩
        · intro hv
          apply Classical.byContradiction
          intro hne; exact hc ⟨hv, hne⟩
        · split at h
          · cases h; assumption
          · split at h <;> cases h
          · cases h
  · rw [parse_mode now msg mode v u hm] at h; cases h

end Nmea

namespace Nmea
open Py Spec

theorem valCksum_iff (v : Nat) : valCksum v = true ↔ ValCksum v := by
  unfold valCksum ValCksum
  rw [Nat.testBit_zero, Nat.and_one_is_mod]
  simp

theorem valMsgid_iff (v : Nat) : valMsgid v = true ↔ ValMsgid v := by
  unfold valMsgid ValMsgid
  constructor
  · intro h
    simp only [bne_iff_ne, ne_eq] at h
    apply Classical.byContradiction
    intro hn
    apply h
    apply Nat.eq_of_testBit_eq
    intro i
    rw [Nat.testBit_and, show (2 : Nat) = 2 ^ 1 from rfl, Nat.testBit_two_pow]
    by_cases hi : 1 = i
    · subst hi; simp at hn; simp [hn]
    · simp [hi]
  · intro h
    simp only [bne_iff_ne, ne_eq]
    intro h0
    have := congrArg (fun n => Nat.testBit n 1) h0
    simp only [Nat.testBit_and, h] at this
    exact absurd this (by decide)

theorem valMsgid_false_iff (v : Nat) : valMsgid v = false ↔ ¬ ValMsgid v := by
  rw [← valMsgid_iff]; simp

/-- Content and checksum of a text with a known non-frame character before the first `*`. -/
theorem hasContent_at (a b k : Str) (x : Nat) (hx : ¬ FrameChar x) (hx2 : x ≠ 42) (ha : 42 ∉ a)
    (hb : 42 ∉ b) :
    HasContent (a ++ x :: b ++ py!"*" ++ k) (a.dropWhile isFrame ++ x :: b)
      (k.reverse.dropWhile isFrame).reverse := by
  refine ⟨?_, ?_⟩
  · obtain ⟨pre, h1, h2⟩ := dropWhile_decomp isFrame a
    obtain ⟨post, h3, h4⟩ := dropWhile_decomp isFrame k.reverse
    have h5 := congrArg List.reverse h3
    rw [List.reverse_reverse, List.reverse_append] at h5
    refine ⟨pre, post.reverse, ?_, ?_, ?_, ?_, ?_⟩
    · conv => lhs; rw [h1, h5]
      simp
    · simp only [List.all_eq_true] at h2; intro c hc; rw [← isFrame_iff]; exact h2 c hc
    · simp only [List.all_eq_true] at h4; intro c hc
      rw [← isFrame_iff]; exact h4 c (by simpa using hc)
    · intro c hc
      have := head_dropWhile isFrame a
      cases hd : a.dropWhile isFrame with
      | nil => rw [hd] at hc; simp at hc; subst hc; exact hx
      | cons y ys =>
        rw [hd] at hc this; simp at hc; subst hc
        rw [← isFrame_false_iff]; exact this y (by simp)
    · intro c hc
      cases hd : k.reverse.dropWhile isFrame with
      | nil =>
        rw [hd, List.reverse_nil, List.append_nil, List.getLast?_append] at hc
        simp at hc; subst hc; unfold FrameChar; omega
      | cons y ys =>
        have h := head_dropWhile isFrame k.reverse
        rw [hd] at hc h
        rw [List.getLast?_append] at hc
        simp at hc; subst hc
        rw [← isFrame_false_iff]; exact h y (by simp)
  · have : 42 ∉ a.dropWhile isFrame := fun h => ha ((List.dropWhile_sublist _).subset h)
    simp [this, hb, Ne.symm hx2]

theorem getPartsStr_at (a b k : Str) (x : Nat) (hx : ¬ FrameChar x) (hx2 : x ≠ 42) (ha : 42 ∉ a)
    (hb : 42 ∉ b) : ∃ p, getPartsStr (a ++ x :: b ++ py!"*" ++ k) = some p ∧
      p.content = a.dropWhile isFrame ++ x :: b ∧ p.cksum = (k.reverse.dropWhile isFrame).reverse := by
  cases h : getPartsStr (a ++ x :: b ++ py!"*" ++ k) with
  | none => rw [getPartsStr_none] at h; simp at h
  | some p =>
    refine ⟨p, rfl, ?_⟩
    have h1 := ((getPartsStr_iff _ p).1 h).1
    have h2 := hasContent_at a b k x hx hx2 ha hb
    rw [hasContent_iff] at h1 h2
    rw [h1] at h2
    simpa using h2

theorem getParts_str_at (a b k : Str) (x : Nat) (hx : ¬ FrameChar x) (hx2 : x ≠ 42) (ha : 42 ∉ a)
    (hb : 42 ∉ b) : ∃ p, getParts (.str (a ++ x :: b ++ py!"*" ++ k)) = .ok p ∧
      p.content = a.dropWhile isFrame ++ x :: b ∧ p.cksum = (k.reverse.dropWhile isFrame).reverse := by
  obtain ⟨p, h1, h2⟩ := getPartsStr_at a b k x hx hx2 ha hb
  exact ⟨p, (getParts_iff _ p).2 ⟨_, .str _, h1⟩, h2⟩

theorem xorAll_replace (a b : Str) (x y : Nat) (h : xorAll (a ++ x :: b) = xorAll (a ++ y :: b)) :
    x = y := by
  simp only [xorAll_append, xorAll] at h
  have h1 : x ^^^ xorAll b = y ^^^ xorAll b := by
    have := congrArg (xorAll a ^^^ ·) h
    simpa [← Nat.xor_assoc] using this
  have := congrArg (· ^^^ xorAll b) h1
  simpa [Nat.xor_assoc] using this

theorem utf8DecodeN_bad (y c : Nat) (rest : List Nat) (hy : 128 ≤ y) (hc : c < 128) :
    utf8DecodeN (y :: c :: rest) = none := by
  rw [decN_cons, if_neg (by omega)]
  simp only
  have : isCont c = false := by simp [isCont]; omega
  simp only [this]
  split
  · rfl
  · split
    · rfl
    · split
      · simp
      · split
        · rfl
        · split <;> simp

end Nmea
