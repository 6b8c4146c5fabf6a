import Verif.Props.Checksum
import Verif.Props.Invariance
import Verif.Spec.Damage
/-!
# Which damage the checksum detects (C91)
-/
namespace Props
open Py Nmea Spec

/-- Damage to the content that changes the XOR of its characters is always detected. -/
theorem C91_detected (now now' : Nat → DateTime) (msg msg' : RawMsg) (text text' c c' k k' : Str) (mode mode' : Int)
    (v v' : Nat) (u u' : UDefs) (m : Msg) (hv : ValCksum v) (hv' : ValCksum v')
    (ht : TextOf msg text) (hc : HasContent text c k) (hacc : parse now msg mode v u = .ok (some m))
    (ht' : TextOf msg' text') (hc' : HasContent text' c' k') (hk : upper k = upper k') (hx : xorAll c ≠ xorAll c') :
    parse now' msg' mode' v' u' = .error .nmeaParse := by
  refine C03_wrong_checksum_rejected _ _ _ _ _ _ _ _ hv' ht' hc' ?_
  rw [← hk]
  by_cases he : upper k = calcChecksum c
  · rw [he]
    intro h
    exact hx ((C01_checksum_eq_iff _ _).1 h)
  · rw [C03_wrong_checksum_rejected now msg mode v u text c k hv ht hc he] at hacc
    cases hacc

/-- The content of a sentence is determined. -/
theorem content_unique {text c c' k k' : Str} (h : HasContent text c k) (h' : HasContent text c' k') : c = c' ∧ k = k' := by
  rw [hasContent_iff] at h h'
  rw [h] at h'
  simpa using h'

/-- The text of a message is determined. -/
theorem text_unique {msg : RawMsg} {s s' : Str} (h : TextOf msg s) (h' : TextOf msg s') : s = s' := by
  cases msg with
  | str t => cases h; cases h'; rfl
  | other => cases h
  | bytes b =>
    rw [textOf_iff] at h h'
    rw [h] at h'
    exact Option.some.inj h'

/-- Exactly so: a sentence whose content was damaged, in any way, is accepted with `VALCKSUM` exactly if it would be
accepted without, and the XOR of the characters is what it was. -/
theorem C91_exact (now now' : Nat → DateTime) (msg msg' : RawMsg) (text text' c c' k k' : Str) (mode mode' : Int)
    (u u' : UDefs) (m : Msg) (ht : TextOf msg text) (hc : HasContent text c k)
    (hacc : parse now msg mode 1 u = .ok (some m))
    (ht' : TextOf msg' text') (hc' : HasContent text' c' k') (hk : upper k = upper k') :
    (∃ m', parse now' msg' mode' 1 u' = .ok (some m')) ↔
      (∃ m', parse now' msg' mode' 0 u' = .ok (some m')) ∧ xorAll c = xorAll c' := by
  have hv : ValCksum 1 := by decide
  have hck : upper k = calcChecksum c := by
    refine Decidable.byContradiction fun he => ?_
    rw [C03_wrong_checksum_rejected now msg mode 1 u text c k hv ht hc he] at hacc
    cases hacc
  have key : ∀ v m', parse now' msg' mode' v u' = .ok (some m') → ∃ t i f, IsSentence msg' c' t i f k' := by
    intro v m' h
    obtain ⟨_, p, hp, _⟩ := parse_accepted _ _ _ _ _ _ h
    have hs := (getParts_sentence _ _).1 hp
    have hs0 := hs
    obtain ⟨s, hs1, hs2, _⟩ := hs
    have : s = text' := text_unique hs1 ht'
    subst this
    obtain ⟨rfl, rfl⟩ := content_unique hs2 hc'
    exact ⟨_, _, _, hs0⟩
  constructor
  · rintro ⟨m', h⟩
    obtain ⟨t, i, f, hs⟩ := key _ _ h
    obtain ⟨h1, -⟩ := C61_exact now' msg' c' t i f k' hs mode' 1 u'
    obtain ⟨m0, h0, -⟩ := h1 m' h
    refine ⟨⟨m0, h0⟩, ?_⟩
    refine Decidable.byContradiction fun hx => ?_
    rw [C91_detected now now' msg msg' text text' c c' k k' mode mode' 1 1 u u' m hv hv ht hc hacc ht' hc' hk hx] at h
    cases h
  · rintro ⟨⟨m0, h0⟩, hx⟩
    obtain ⟨t, i, f, hs⟩ := key _ _ h0
    obtain ⟨-, h2⟩ := C61_exact now' msg' c' t i f k' hs mode' 1 u'
    refine (h2 m0 h0).2 ⟨fun _ => ?_, fun h => absurd h (by decide)⟩
    rw [← hk, hck]
    exact (C01_checksum_eq_iff _ _).2 hx

theorem xorAll_testBit (c c' : Str) (hl : c.length = c'.length) (j : Nat) :
    (xorAll c).testBit j = (xorAll c').testBit j ↔ differing j c c' % 2 = 0 := by
  induction c generalizing c' with
  | nil =>
    cases c' with
    | nil => simp [differing]
    | cons y c' => cases hl
  | cons x c ih =>
    cases c' with
    | nil => cases hl
    | cons y c' =>
      have := ih c' (by simpa using hl)
      have hd : differing j (x :: c) (y :: c') = differing j c c' + (if x.testBit j != y.testBit j then 1 else 0) := by
        unfold differing
        rw [List.zipWith_cons_cons, List.count_cons]
        simp
      rw [hd]
      simp only [xorAll, Nat.testBit_xor]
      by_cases h : x.testBit j = y.testBit j
      · rw [h]
        simp only [bne_self_eq_false, if_neg, Bool.false_eq_true, not_false_eq_true, Nat.add_zero, ← this]
        cases y.testBit j <;> simp
      · have h' : (x.testBit j != y.testBit j) = true := by simpa using h
        rw [h', if_pos rfl, show (differing j c c' + 1) % 2 = 0 ↔ ¬ differing j c c' % 2 = 0 by omega, ← this]
        revert h
        cases x.testBit j <;> cases y.testBit j <;> cases (xorAll c).testBit j <;> cases (xorAll c').testBit j <;> simp

/-- For damage that keeps the length of the content, the XOR is what it was exactly if for each bit of a character the
number of characters in which it changed is even. So for example any damage to an odd number of bits is detected. -/
theorem C91_bits (c c' : Str) (hl : c.length = c'.length) :
    xorAll c = xorAll c' ↔ ∀ j, differing j c c' % 2 = 0 := by
  rw [Nat.eq_iff_testBit_eq]
  exact forall_congr' (xorAll_testBit c c' hl)

theorem burst_xor (p q : Str) (x y x' y' b : Nat) (hne : x ≠ x' ∨ y ≠ y')
    (h : Burst x y x' y' b) :
    xorAll (p ++ x :: y :: q) ≠ xorAll (p ++ x' :: y' :: q) := by
  intro he
  have hb : ∀ j, (x.testBit j ^^ y.testBit j) = (x'.testBit j ^^ y'.testBit j) := by
    intro j
    have := congrArg (fun n => Nat.testBit n j) he
    simp only [xorAll_append, xorAll, Nat.testBit_xor] at this
    revert this
    cases (xorAll p).testBit j <;> cases (xorAll q).testBit j <;> cases x.testBit j <;> cases y.testBit j <;>
      cases x'.testBit j <;> cases y'.testBit j <;> simp
  have key : x = x' ∧ y = y' := by
    rcases h with ⟨h1, h2⟩ | ⟨h1, h2⟩
    · constructor <;> apply Nat.eq_of_testBit_eq <;> intro j <;> have := hb j <;> by_cases hj : j < b
      · exact h1 j hj
      · rw [h2 j (by omega)] at this; simpa using this
      · rw [h1 j hj] at this; simpa using this
      · exact h2 j (by omega)
    · constructor <;> apply Nat.eq_of_testBit_eq <;> intro j <;> have := hb j <;> by_cases hj : j < b
      · rw [h2 j hj] at this; simpa using this
      · exact h1 j (by omega)
      · exact h2 j hj
      · rw [h1 j (by omega)] at this; simpa using this
  rcases hne with h | h
  · exact h key.1
  · exact h key.2

/-- Damage to at most eight consecutive bits, as a short disturbance of a line causes it, is always detected, wherever
the bits lie in two neighbouring characters of the content. -/
theorem C91_burst (now now' : Nat → DateTime) (msg msg' : RawMsg) (text text' k k' p q : Str) (x y x' y' b : Nat)
    (mode mode' : Int) (v v' : Nat) (u u' : UDefs) (m : Msg) (hv : ValCksum v) (hv' : ValCksum v')
    (ht : TextOf msg text) (hc : HasContent text (p ++ x :: y :: q) k) (hacc : parse now msg mode v u = .ok (some m))
    (ht' : TextOf msg' text') (hc' : HasContent text' (p ++ x' :: y' :: q) k') (hk : upper k = upper k')
    (hb : Burst x y x' y' b) (hne : x ≠ x' ∨ y ≠ y') :
    parse now' msg' mode' v' u' = .error .nmeaParse :=
  C91_detected now now' msg msg' text text' _ _ k k' mode mode' v v' u u' m hv hv' ht hc hacc ht' hc' hk
    (burst_xor p q x y x' y' b hne hb)

/-- For example bits 4 to 7 of one character and 0 to 3 of the next: `L,` become `<#` (a field separator lost). -/
theorem C91_burst_example :
    acceptedWith (fun _ => true) (parse clock0 (.str py!"$GNGLL,5327.00000,N,00214.41396,E,223232.00,A,A*7A\r\n") 0 1 []) = true ∧
    HasContent py!"$GNGLL,5327.00000,N,00214.41396,E,223232.00,A,A*7A\r\n"
      (py!"GNGL" ++ 76 :: 44 :: py!"5327.00000,N,00214.41396,E,223232.00,A,A") py!"7A" ∧
    HasContent py!"$GNGL<#5327.00000,N,00214.41396,E,223232.00,A,A*7A\r\n"
      (py!"GNGL" ++ 60 :: 35 :: py!"5327.00000,N,00214.41396,E,223232.00,A,A") py!"7A" ∧
    Burst 76 44 60 35 4 := by
  refine ⟨by decide +kernel, (hasContent_iff _ _ _).2 (by decide), (hasContent_iff _ _ _).2 (by decide),
    .inl ⟨by decide, fun j hj => ?_⟩⟩
  by_cases h : j < 8
  · have : j = 4 ∨ j = 5 ∨ j = 6 ∨ j = 7 := by omega
    rcases this with rfl | rfl | rfl | rfl <;> rfl
  · rw [Nat.testBit_lt_two_pow (Nat.lt_of_lt_of_le (by decide : 44 < 2 ^ 8) (Nat.pow_le_pow_right (by decide) (by omega))),
      Nat.testBit_lt_two_pow (Nat.lt_of_lt_of_le (by decide : 35 < 2 ^ 8) (Nat.pow_le_pow_right (by decide) (by omega)))]

/-- A `*` that damage put into the content is always detected: the text after the first `*` is no checksum. -/
theorem C91_star (now : Nat → DateTime) (msg : RawMsg) (text c k : Str) (mode : Int) (v : Nat) (u : UDefs)
    (hv : ValCksum v) (ht : TextOf msg text) (hc : HasContent text c k) (hs : 42 ∈ k) :
    parse now msg mode v u = .error .nmeaParse := by
  refine C03_wrong_checksum_rejected now msg mode v u text c k hv ht hc fun he => ?_
  have h1 : 42 ∈ upper k := by
    unfold upper
    rw [List.mem_flatMap]
    exact ⟨42, hs, by decide⟩
  rw [he] at h1
  exact absurd ((C01_checksum_is_hex_of_xor c).1 42 h1) (by decide)

example : HasContent py!"$GNG*L,A*7A\r\n" py!"GNG" py!"L,A*7A" := (hasContent_iff _ _ _).2 (by decide)

theorem xor_lost (p q : Str) (x : Nat) : xorAll (p ++ x :: q) = xorAll (p ++ q) ↔ x = 0 := by
  simp only [xorAll_append, xorAll]
  constructor
  · intro h
    have : (xorAll p ^^^ xorAll q) ^^^ x = (xorAll p ^^^ xorAll q) ^^^ 0 := by
      rw [Nat.xor_zero]
      exact (by rw [Nat.xor_assoc, Nat.xor_comm (xorAll q) x] : _ = xorAll p ^^^ (x ^^^ xorAll q)).trans h
    have h2 := congrArg (fun n => (xorAll p ^^^ xorAll q) ^^^ n) this
    simpa [← Nat.xor_assoc] using h2
  · rintro rfl; simp

/-- A character of the content that is lost is always detected, unless it is NUL. -/
theorem C91_lost (now now' : Nat → DateTime) (msg msg' : RawMsg) (text text' k k' p q : Str) (x : Nat)
    (mode mode' : Int) (v v' : Nat) (u u' : UDefs) (m : Msg) (hv : ValCksum v) (hv' : ValCksum v')
    (ht : TextOf msg text) (hc : HasContent text (p ++ x :: q) k) (hacc : parse now msg mode v u = .ok (some m))
    (ht' : TextOf msg' text') (hc' : HasContent text' (p ++ q) k') (hk : upper k = upper k') (hx : x ≠ 0) :
    parse now' msg' mode' v' u' = .error .nmeaParse :=
  C91_detected now now' msg msg' text text' _ _ k k' mode mode' v v' u u' m hv hv' ht hc hacc ht' hc' hk
    (mt (xor_lost p q x).1 hx)

/-- And so is a character inserted, or one that was doubled. -/
theorem C91_inserted (now now' : Nat → DateTime) (msg msg' : RawMsg) (text text' k k' p q : Str) (x : Nat)
    (mode mode' : Int) (v v' : Nat) (u u' : UDefs) (m : Msg) (hv : ValCksum v) (hv' : ValCksum v')
    (ht : TextOf msg text) (hc : HasContent text (p ++ q) k) (hacc : parse now msg mode v u = .ok (some m))
    (ht' : TextOf msg' text') (hc' : HasContent text' (p ++ x :: q) k') (hk : upper k = upper k') (hx : x ≠ 0) :
    parse now' msg' mode' v' u' = .error .nmeaParse :=
  C91_detected now now' msg msg' text text' _ _ k k' mode mode' v v' u u' m hv hv' ht hc hacc ht' hc' hk
    (fun h => mt (xor_lost p q x).1 hx h.symm)

example : HasContent py!"$GNGL,5327.00000,N,00214.41396,E,223232.00,A,A*7A\r\n"
      (py!"GNGL" ++ py!",5327.00000,N,00214.41396,E,223232.00,A,A") py!"7A" ∧
    HasContent py!"$GNGLL,5327.00000,N,00214.41396,E,223232.00,A,A*7A\r\n"
      (py!"GNGL" ++ 76 :: py!",5327.00000,N,00214.41396,E,223232.00,A,A") py!"7A" :=
  ⟨(hasContent_iff _ _ _).2 (by decide), (hasContent_iff _ _ _).2 (by decide)⟩

/-- What is never detected: characters in another order. -/
theorem C91_reordered (now now' : Nat → DateTime) (msg msg' : RawMsg) (text text' c c' k k' : Str) (mode mode' : Int)
    (u u' : UDefs) (m : Msg) (ht : TextOf msg text) (hc : HasContent text c k)
    (hacc : parse now msg mode 1 u = .ok (some m))
    (ht' : TextOf msg' text') (hc' : HasContent text' c' k') (hk : upper k = upper k') (hp : c.Perm c') :
    (∃ m', parse now' msg' mode' 1 u' = .ok (some m')) ↔ (∃ m', parse now' msg' mode' 0 u' = .ok (some m')) := by
  rw [C91_exact now now' msg msg' text text' c c' k k' mode mode' u u' m ht hc hacc ht' hc' hk]
  exact and_iff_left (xorAll_perm hp)

/-- For example two digits of a latitude, a degree and a minute, exchanged: the sentence is accepted, with a position
hundreds of kilometres away. -/
theorem C91_reordered_example :
    acceptedWith (fun m => lookup py!"lat" m.attrs == some (.float (.fin false (3761209376296141 / 70368744177664))))
      (parse clock0 (.str py!"$GNGLL,5327.00000,N,00214.41396,E,223232.00,A,A*7A\r\n") 0 1 []) = true ∧
    acceptedWith (fun m => lookup py!"lat" m.attrs == some (.float (.fin false (6741325692220211 / 281474976710656))))
      (parse clock0 (.str py!"$GNGLL,2357.00000,N,00214.41396,E,223232.00,A,A*7A\r\n") 0 1 []) = true := by decide +kernel

end Props
