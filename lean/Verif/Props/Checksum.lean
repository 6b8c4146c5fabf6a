import Verif.Lemmas.Message
/-!
# C01 – C03: the checksum
-/
namespace Props
open Py Nmea Spec

/-! ## C01 -/

/-- `calc_checksum(content)` is the upper-case hexadecimal text of the XOR of all characters. -/
theorem C01_checksum_is_hex_of_xor (content : Str) :
    IsHexText (calcChecksum content) (xorAll content) := by
  unfold calcChecksum; rw [xorStr_eq]; exact fmt02X_isHex _

/-- The specification leaves no choice: only one text renders a given number. -/
theorem C01_hex_text_unique (s t : Str) (n : Nat) (hs : IsHexText s n) (ht : IsHexText t n) :
    s = t := by
  have key : ∀ s : Str, IsHexText s n → s = fmt02X n := by
    -- the digits of a text are determined by its value and length
    have inj : ∀ (l : Nat) (s t : Str), s.length = l → t.length = l → (∀ c ∈ s, c ∈ hexDigits) →
        (∀ c ∈ t, c ∈ hexDigits) → hexValue s = hexValue t → s = t := by
      intro l
      induction l with
      | zero =>
        intro s t hs ht _ _ _
        rw [List.length_eq_zero_iff.1 hs, List.length_eq_zero_iff.1 ht]
      | succ l ih =>
        intro s t hs ht h1 h2 h3
        have es := List.dropLast_concat_getLast (l := s) (by intro h; simp [h] at hs)
        have et := List.dropLast_concat_getLast (l := t) (by intro h; simp [h] at ht)
        generalize s.getLast _ = a at es
        generalize t.getLast _ = b at et
        generalize s.dropLast = s' at es
        generalize t.dropLast = t' at et
        subst es et
        simp only [List.length_append, List.length_cons, List.length_nil, Nat.zero_add,
          Nat.add_right_cancel_iff] at hs ht
        have ev : ∀ (u : Str) (c : Nat), hexValue (u ++ [c]) = 16 * hexValue u + hexDigits.idxOf c := by
          intro u c; simp [hexValue, List.foldl_append]
        rw [ev, ev] at h3
        have ha : a ∈ hexDigits := h1 a (by simp)
        have hb : b ∈ hexDigits := h2 b (by simp)
        have la : hexDigits.idxOf a < 16 := List.idxOf_lt_length_iff.2 ha
        have lb : hexDigits.idxOf b < 16 := List.idxOf_lt_length_iff.2 hb
        have e1 : hexValue s' = hexValue t' := by omega
        have e2 : hexDigits.idxOf a = hexDigits.idxOf b := by omega
        have e3 : a = b := by
          have hab : ∀ a ∈ hexDigits, ∀ b ∈ hexDigits, hexDigits.idxOf a = hexDigits.idxOf b → a = b := by
            decide
          exact hab a ha b hb e2
        rw [ih s' t' hs ht (fun c hc => h1 c (by simp [hc])) (fun c hc => h2 c (by simp [hc])) e1, e3]
    -- a text with a non-zero leading digit has a value of exactly that many digits
    have bound : ∀ s : Str, (∀ c ∈ s, c ∈ hexDigits) → hexValue s < 16 ^ s.length := by
      intro s
      have gen : ∀ (s : Str) (a k : Nat), (∀ c ∈ s, c ∈ hexDigits) → a < 16 ^ k →
          s.foldl (fun a c => 16 * a + hexDigits.idxOf c) a < 16 ^ (k + s.length) := by
        intro s
        induction s with
        | nil => intro a k _ h; simpa using h
        | cons c cs ih =>
          intro a k h1 h2
          simp only [List.foldl_cons]
          have lc : hexDigits.idxOf c < 16 := List.idxOf_lt_length_iff.2 (h1 c (by simp))
          have := ih (16 * a + hexDigits.idxOf c) (k + 1) (fun c hc => h1 c (by simp [hc]))
            (by rw [Nat.pow_succ]; omega)
          rw [List.length_cons]
          rw [Nat.add_assoc, Nat.add_comm 1] at this
          exact this
      intro h
      have := gen s 0 0 h (by simp)
      simpa [hexValue] using this
    have low : ∀ (c : Nat) (r : Str), c ∈ hexDigits → c ≠ 48 → 16 ^ r.length ≤ hexValue (c :: r) := by
      intro c r hc h0
      have gen : ∀ (s : Str) (a : Nat), 16 ^ s.length * a ≤
          s.foldl (fun a c => 16 * a + hexDigits.idxOf c) a := by
        intro s
        induction s with
        | nil => intro a; simp
        | cons c cs ih =>
          intro a
          simp only [List.foldl_cons, List.length_cons]
          refine Nat.le_trans ?_ (ih _)
          rw [Nat.pow_succ, Nat.mul_assoc]
          exact Nat.mul_le_mul_left _ (by omega)
      have hpos : 1 ≤ hexDigits.idxOf c := by
        have : ∀ c ∈ hexDigits, c ≠ 48 → 1 ≤ hexDigits.idxOf c := by decide
        exact this c hc h0
      have := gen r (16 * 0 + hexDigits.idxOf c)
      simp only [hexValue, List.foldl_cons]
      refine Nat.le_trans ?_ this
      exact Nat.le_mul_of_pos_right _ (by omega)
    intro s hs
    have hf := fmt02X_isHex n
    apply inj (fmt02X n).length s (fmt02X n) ?_ rfl hs.1 hf.1 (by rw [hs.2.1, hf.2.1])
    -- equal lengths
    have h3 : ∀ s t : Str, IsHexText s n → IsHexText t n → ¬ s.length < t.length := by
      intro s t hs ht hlt
      have h2 := ht.2.2.2 (by have := hs.2.2.1; omega)
      cases t with
      | nil => simp at hlt
      | cons c r =>
        simp at h2
        have hc : c ∈ hexDigits := ht.1 c (by simp)
        have l1 := low c r hc h2
        have l2 := bound s hs.1
        rw [ht.2.1] at l1
        rw [hs.2.1] at l2
        have : (16 : Nat) ^ s.length ≤ 16 ^ r.length :=
          Nat.pow_le_pow_right (by omega) (by simp at hlt; omega)
        omega
    have := h3 s _ hs hf
    have := h3 _ s hf hs
    omega
  rw [key s hs, key t ht]

/-- Exactly two digits for content in the 8-bit range. -/
theorem C01_two_digits (content : Str) (h : ∀ c ∈ content, c < 256) :
    (calcChecksum content).length = 2 := by
  have hx : xorAll content < 2 ^ 8 := xorAll_lt content 8 h
  have hl := (digits_length_le 16 (xorAll content) 2 (by omega) (by omega)).2 (by simpa using hx)
  have := List.length_pos_iff.2 (digits_ne_nil 16 (xorAll content))
  unfold calcChecksum fmt02X padZero
  rw [xorStr_eq]
  simp
  omega

/-- The order of the characters does not matter. -/
theorem C01_order_irrelevant (a b : Str) (h : a.Perm b) : calcChecksum a = calcChecksum b := by
  unfold calcChecksum; rw [xorStr_eq, xorStr_eq, xorAll_perm h]

/-- Checksums agree exactly when the XORs agree. -/
theorem C01_checksum_eq_iff (a b : Str) : calcChecksum a = calcChecksum b ↔ xorAll a = xorAll b := by
  unfold calcChecksum
  rw [xorStr_eq, xorStr_eq]
  exact ⟨fmt02X_inj _ _, fun h => by rw [h]⟩

/-- `generate_checksum` is the checksum of the comma-joined sentence content. -/
theorem C01_generate_checksum (talker msgID : Str) (payload : List Str) :
    generateChecksum talker msgID payload = calcChecksum (commaJoin ((talker ++ msgID) :: payload)) := by
  unfold generateChecksum; rw [contentOf_eq]

-- concrete cases
example : calcChecksum py!"GNGLL,5327.04319,S,00214.41396,E,223232.00,A,A" = py!"68" := by decide
example : generateChecksum py!"GN" py!"GLL" [py!"A", py!""] = calcChecksum py!"GNGLL,A," := by decide
/-- Outside the 8-bit range there may be more than two digits. -/
example : (calcChecksum [0x20AC]).length = 4 := by decide

/-! ## C02 -/

/-- Single-character corruption is always rejected: if a sentence is accepted with checksum
validation, then after replacing one content character `x` (a position before the first `*`) by a
different character `y` - neither of them `$`, CR, LF or `*` - every call of `parse` with checksum
validation raises `NMEAParseError`. -/
theorem C02_corruption_rejected (now now' : Nat → DateTime) (a b k : Str) (x y : Nat)
    (mode mode' : Int) (v v' : Nat) (u u' : UDefs) (m : Msg)
    (hx : ¬ FrameChar x ∧ x ≠ 42) (hy : ¬ FrameChar y ∧ y ≠ 42) (hxy : x ≠ y)
    (ha : 42 ∉ a) (hb : 42 ∉ b) (hv : ValCksum v) (hv' : ValCksum v')
    (hacc : parse now (.str (a ++ x :: b ++ py!"*" ++ k)) mode v u = .ok (some m)) :
    parse now' (.str (a ++ y :: b ++ py!"*" ++ k)) mode' v' u' = .error .nmeaParse := by
  obtain ⟨_, p, hp, hc, _⟩ := parse_accept _ _ _ _ _ _ hacc
  obtain ⟨p1, h1, h2, h3⟩ := getParts_str_at a b k x hx.1 hx.2 ha hb
  obtain ⟨p2, g1, g2, g3⟩ := getParts_str_at a b k y hy.1 hy.2 ha hb
  rw [h1] at hp; cases hp
  have hc := hc ((valCksum_iff v).2 hv)
  by_cases hm : mode' = 0 ∨ mode' = 1 ∨ mode' = 2
  · rw [parse_eq _ _ _ _ _ hm, g1]
    simp only
    rw [if_pos]
    refine ⟨(valCksum_iff v').2 hv', ?_⟩
    rw [g3, ← h3, hc, h2, g2]
    intro he
    have := (C01_checksum_eq_iff _ _).1 he
    exact hxy (xorAll_replace _ _ _ _ this)
  · exact parse_mode _ _ _ _ _ hm

/-- The same for bytes: an ASCII sentence with one content byte replaced by any other byte is
never accepted. -/
theorem C02_byte_corruption_rejected (now now' : Nat → DateTime) (a b k : Bytes) (x y : UInt8)
    (mode mode' : Int) (v v' : Nat) (u u' : UDefs) (m m' : Msg)
    (hasc : ∀ c ∈ a ++ x :: b ++ k, c.toNat < 128)
    (hx : ¬ FrameChar x.toNat ∧ x ≠ 42) (hy : ¬ FrameChar y.toNat ∧ y ≠ 42) (hxy : x ≠ y)
    (ha : 42 ∉ a) (hb : 42 ∉ b) (hv : ValCksum v) (hv' : ValCksum v')
    (hacc : parse now (.bytes (a ++ x :: b ++ pb!"*" ++ k)) mode v u = .ok (some m)) :
    parse now' (.bytes (a ++ y :: b ++ pb!"*" ++ k)) mode' v' u' ≠ .ok (some m') := by
  have la : ∀ c ∈ a.map UInt8.toNat, c < 128 := by
    intro c hc; rw [List.mem_map] at hc; obtain ⟨d, hd, rfl⟩ := hc; exact hasc d (by simp [hd])
  have lb : ∀ c ∈ b.map UInt8.toNat, c < 128 := by
    intro c hc; rw [List.mem_map] at hc; obtain ⟨d, hd, rfl⟩ := hc; exact hasc d (by simp [hd])
  have lk : ∀ c ∈ k.map UInt8.toNat, c < 128 := by
    intro c hc; rw [List.mem_map] at hc; obtain ⟨d, hd, rfl⟩ := hc; exact hasc d (by simp [hd])
  have lx : x.toNat < 128 := hasc x (by simp)
  have ne42 : ∀ z : UInt8, z ≠ 42 → z.toNat ≠ 42 := by
    intro z hz h; apply hz; apply UInt8.toNat_inj.1; simpa using h
  have nm42 : ∀ l : Bytes, 42 ∉ l → 42 ∉ l.map UInt8.toNat := by
    intro l hl h; rw [List.mem_map] at h; obtain ⟨d, hd, hd2⟩ := h
    apply hl; have : d = 42 := by apply UInt8.toNat_inj.1; simpa using hd2
    rwa [← this]
  have dec : ∀ z : UInt8, z.toNat < 128 → utf8Decode (a ++ z :: b ++ pb!"*" ++ k) =
      some (a.map UInt8.toNat ++ z.toNat :: b.map UInt8.toNat ++ py!"*" ++ k.map UInt8.toNat) := by
    intro z hz
    unfold utf8Decode
    have e : (a ++ z :: b ++ pb!"*" ++ k).map UInt8.toNat =
        a.map UInt8.toNat ++ z.toNat :: b.map UInt8.toNat ++ py!"*" ++ k.map UInt8.toNat := by simp
    rw [e]
    apply utf8DecodeN_ascii
    intro c hc
    simp only [List.mem_append, List.mem_cons, List.not_mem_nil, or_false] at hc
    rcases hc with ((hc | hc | hc) | hc) | hc
    · exact la c hc
    · omega
    · exact lb c hc
    · omega
    · exact lk c hc
  have cong : ∀ (nw : Nat → DateTime) (bs : Bytes) (s : Str) (md : Int) (vv : Nat) (uu : UDefs),
      utf8Decode bs = some s → parse nw (.bytes bs) md vv uu = parse nw (.str s) md vv uu := by
    intro nw bs s md vv uu h
    have : getParts (.bytes bs) = getParts (.str s) := by unfold getParts; simp [h]
    unfold parse; rw [this]
  by_cases hy128 : y.toNat < 128
  · rw [cong _ _ _ _ _ _ (dec x lx)] at hacc
    rw [cong _ _ _ _ _ _ (dec y hy128)]
    rw [C02_corruption_rejected now now' _ _ _ _ _ mode mode' v v' u u' m ⟨hx.1, ne42 x hx.2⟩
      ⟨hy.1, ne42 y hy.2⟩ (fun h => hxy (UInt8.toNat_inj.1 h)) (nm42 a ha) (nm42 b hb) hv hv' hacc]
    simp
  · have hnone : utf8Decode (a ++ y :: b ++ pb!"*" ++ k) = none := by
      unfold utf8Decode
      have e : (a ++ y :: b ++ pb!"*" ++ k).map UInt8.toNat =
          a.map UInt8.toNat ++ (y.toNat :: (b.map UInt8.toNat ++ 42 :: k.map UInt8.toNat)) := by simp
      rw [e, utf8DecodeN_ascii_prefix _ _ la]
      cases hb' : b.map UInt8.toNat with
      | nil => rw [List.nil_append, utf8DecodeN_bad _ _ _ (by omega) (by omega)]; rfl
      | cons c r =>
        rw [List.cons_append, utf8DecodeN_bad _ _ _ (by omega) (lb c (by simp [hb']))]; rfl
    intro h
    obtain ⟨_, p, hp, _⟩ := parse_accept _ _ _ _ _ _ h
    obtain ⟨s, hs, _⟩ := (getParts_iff _ _).1 hp
    rw [textOf_iff, hnone] at hs
    cases hs

/-- The hypotheses are met: this sentence is accepted with checksum validation, and its text has
the required shape with `x` = `S` (the corrupted character), `y` = `N`. -/
example : (∃ m, parse clock0 (.str py!"$GNGLL,5327.04319,S,00214.41396,E,223232.00,A,A*68\r\n") 0 1 []
      = .ok (some m)) ∧
    py!"$GNGLL,5327.04319,S,00214.41396,E,223232.00,A,A*68\r\n" =
      py!"$GNGLL,5327.04319," ++ 83 :: py!",00214.41396,E,223232.00,A,A" ++ py!"*" ++ py!"68\r\n" ∧
    ValCksum 1 :=
  ⟨(accepted_iff _).1 (by decide +kernel), by decide, by decide⟩

example : parse clock0 (.str py!"$GNGLL,5327.04319,N,00214.41396,E,223232.00,A,A*68\r\n") 0 1 []
    = .error .nmeaParse :=
  C02_corruption_rejected clock0 clock0 py!"$GNGLL,5327.04319," py!",00214.41396,E,223232.00,A,A"
    py!"68\r\n" 83 78 0 0 1 1 [] [] _ (by unfold FrameChar; decide) (by unfold FrameChar; decide)
    (by decide) (by decide) (by decide) (by decide) (by decide)
    (Classical.choose_spec ((accepted_iff _).1 (by decide +kernel :
      accepted (parse clock0 (.str py!"$GNGLL,5327.04319,S,00214.41396,E,223232.00,A,A*68\r\n") 0 1 [])
        = true)))

/-! ## C03 -/

/-- With checksum validation, acceptance implies that the upper-cased text after the first `*` is
the computed checksum of the text before it. -/
theorem C03_accept_implies_checksum (now : Nat → DateTime) (msg : RawMsg) (mode : Int) (v : Nat)
    (u : UDefs) (m : Msg) (hv : ValCksum v) (h : parse now msg mode v u = .ok (some m)) :
    ∃ text content cksum, TextOf msg text ∧ HasContent text content cksum ∧
      upper cksum = calcChecksum content := by
  obtain ⟨_, p, hp, hc, _⟩ := parse_accept _ _ _ _ _ _ h
  obtain ⟨s, hs, hps⟩ := (getParts_iff _ _).1 hp
  exact ⟨s, p.content, p.cksum, hs, ((getPartsStr_iff _ _).1 hps).1, hc ((valCksum_iff v).2 hv)⟩

/-- A well-framed sentence with a wrong checksum text is always rejected with `NMEAParseError`. -/
theorem C03_wrong_checksum_rejected (now : Nat → DateTime) (msg : RawMsg) (mode : Int) (v : Nat)
    (u : UDefs) (text content cksum : Str) (hv : ValCksum v) (ht : TextOf msg text)
    (hc : HasContent text content cksum) (hne : upper cksum ≠ calcChecksum content) :
    parse now msg mode v u = .error .nmeaParse := by
  by_cases hm : mode = 0 ∨ mode = 1 ∨ mode = 2
  · rw [parse_eq _ _ _ _ _ hm]
    have hstar : 42 ∈ text := by
      obtain ⟨⟨pre, post, h, _⟩, _⟩ := hc; rw [h]; simp
    cases hg : getPartsStr text with
    | none => rw [getPartsStr_none] at hg; exact absurd hstar hg
    | some p =>
      have h1 := ((getPartsStr_iff _ _).1 hg).1
      rw [hasContent_iff] at h1 hc
      rw [h1] at hc; simp at hc
      rw [(getParts_iff msg p).2 ⟨text, ht, hg⟩]
      simp only
      rw [if_pos]
      exact ⟨(valCksum_iff v).2 hv, by rw [hc.1, hc.2]; exact hne⟩
  · exact parse_mode _ _ _ _ _ hm

/-- Upper and lower case are equivalent in the checksum: texts with the same upper-casing are
accepted or rejected alike, and the resulting messages differ only in the recorded checksum
text. -/
def sameUpToChecksum : Except Err (Option Msg) → Except Err (Option Msg) → Prop
  | .ok (some m), .ok (some m') => m' = { m with checksum := m'.checksum }
  | .ok none, .ok none => True
  | .error e, .error e' => e = e'
  | _, _ => False

theorem mkMsg_checksum (now : Nat → DateTime) (t i : Str) (mode : Int) (hp : Bool) (v : Nat) (u : UDefs)
    (k k' : Str) (kw : Kwargs) :
    sameUpToChecksum ((mkMsg now t i mode hp v u (some k) kw).map some)
      ((mkMsg now t i mode hp v u (some k') kw).map some) := by
  by_cases hm : mode = 0 ∨ mode = 1 ∨ mode = 2
  · rw [mkMsg_eq _ _ _ _ _ _ _ _ _ hm, mkMsg_eq _ _ _ _ _ _ _ _ _ hm]
    split
    · simp [Except.map, sameUpToChecksum]
    · generalize outcome _ now = r
      match r with
      | .error e => simp [Except.map, sameUpToChecksum]
      | .ok none => simp [Except.map, sameUpToChecksum, finish]
      | .ok (some st) => simp [Except.map, sameUpToChecksum, finish]
  · rw [mkMsg_mode _ _ _ _ _ _ _ _ _ hm, mkMsg_mode _ _ _ _ _ _ _ _ _ hm]
    simp [Except.map, sameUpToChecksum]

theorem getPartsStr_cksum (s s' c k k' : Str) (h : HasContent s c k) (h' : HasContent s' c k') :
    ∃ p, getPartsStr s = some p ∧ p.content = c ∧ p.cksum = k ∧
      getPartsStr s' = some { p with cksum := k' } := by
  rw [hasContent_iff] at h h'
  unfold getPartsStr
  rw [h, h']
  simp only
  cases h2 : splitAll 44 c with
  | nil => exact absurd h2 (splitAll_ne_nil 44 c)
  | cons hdr pl => exact ⟨_, rfl, rfl, rfl, rfl⟩

/-- Without checksum validation the checksum text has no influence on acceptance; with it,
checksum texts that agree up to case are interchangeable. -/
theorem C03_checksum_text_irrelevant (now : Nat → DateTime) (s s' : Str) (content k k' : Str)
    (mode : Int) (v : Nat) (u : UDefs) (h : HasContent s content k) (h' : HasContent s' content k')
    (hv : ¬ ValCksum v ∨ upper k = upper k') :
    sameUpToChecksum (parse now (.str s) mode v u) (parse now (.str s') mode v u) := by
  by_cases hm : mode = 0 ∨ mode = 1 ∨ mode = 2
  · obtain ⟨p, h1, h2, h3, h4⟩ := getPartsStr_cksum s s' content k k' h h'
    rw [parse_eq _ _ _ _ _ hm, parse_eq _ _ _ _ _ hm,
      (getParts_iff _ p).2 ⟨s, .str s, h1⟩, (getParts_iff _ _).2 ⟨s', .str s', h4⟩]
    simp only
    have hcond : (valCksum v = true ∧ upper p.cksum ≠ calcChecksum p.content) ↔
        (valCksum v = true ∧ upper k' ≠ calcChecksum p.content) := by
      rcases hv with hv | hv
      · rw [valCksum_iff]; constructor <;> exact fun h => absurd h.1 hv
      · rw [h3, hv]
    by_cases hc : valCksum v = true ∧ upper k' ≠ calcChecksum p.content
    · rw [if_pos (hcond.2 hc), if_pos hc]; rfl
    · rw [if_neg (fun h => hc (hcond.1 h)), if_neg hc]
      have := mkMsg_checksum now p.talker p.msgid mode false v u p.cksum k'
        { payload := some p.payload, others := [] }
      generalize mkMsg now p.talker p.msgid mode false v u (some p.cksum) _ = r1 at this ⊢
      generalize mkMsg now p.talker p.msgid mode false v u (some k') _ = r2 at this ⊢
      match r1, r2, this with
      | .ok m1, .ok m2, h => exact h
      | .error e1, .error e2, h =>
        simp only [Except.map, sameUpToChecksum] at h
        subst h
        cases valMsgid v <;> cases e1 <;> simp [sameUpToChecksum]
  · rw [parse_mode _ _ _ _ _ hm, parse_mode _ _ _ _ _ hm]; rfl

example : HasContent py!"$GPXYZ,1*4a\r\n" py!"GPXYZ,1" py!"4a" ∧
    HasContent py!"$GPXYZ,1*4A\r\n" py!"GPXYZ,1" py!"4A" ∧ upper py!"4a" = upper py!"4A" := by
  simp only [hasContent_iff]; decide
example : ∃ m, parse clock0 (.str py!"$GNGLL,,,,,,V,N*7a\r\n") 0 1 [] = .ok (some m) :=
  (accepted_iff _).1 (by decide +kernel)
example : HasContent py!"$GNGLL,,,,,,V,N*7B\r\n" py!"GNGLL,,,,,,V,N" py!"7B" ∧
    upper py!"7B" ≠ calcChecksum py!"GNGLL,,,,,,V,N" := by
  simp only [hasContent_iff]; decide

end Props
