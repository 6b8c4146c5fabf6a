import Verif.Lemmas.FloatText
import Verif.Model.Values
import Verif.Spec.Float
/-!
# Typed values on the wire (C06)
-/
set_option linter.unusedSimpArgs false
namespace Nmea
open Py

theorem f64Limit_eq : f64Limit = (2 : ℚ) ^ (1024 : ℤ) := by
  unfold f64Limit; rw [pow2_eq]

theorem IsDouble.wf {x : PyFloat} (h : IsDouble x) : x.Wf := by
  cases x with
  | nan => trivial
  | inf s => trivial
  | fin s q =>
    obtain ⟨m, e, hm, h1, h2, rfl⟩ := h
    refine ⟨⟨m, e, le_of_lt hm, h1, rfl⟩, ?_⟩
    rw [f64Limit_eq]
    calc (m : ℚ) * (2 : ℚ) ^ e < (2 : ℚ) ^ (53 : ℤ) * (2 : ℚ) ^ e := by
          apply mul_lt_mul_of_pos_right _ (by positivity)
          have : (m : ℚ) < (2 : ℚ) ^ (53 : ℕ) := by exact_mod_cast hm
          exact_mod_cast this
      _ = (2 : ℚ) ^ (53 + e) := by rw [zpow_add₀ (by norm_num)]
      _ ≤ _ := zpow_le_zpow_right₀ (by norm_num) (by omega)

theorem isDouble_of_small {neg : Bool} {m : ℕ} {e : ℤ} (hm : m ≤ 2 ^ 53) (he : -1074 ≤ e)
    (h : (m : ℚ) * (2 : ℚ) ^ e < 2 ^ (64 : ℕ)) : IsDouble (.fin neg ((m : ℚ) * (2 : ℚ) ^ e)) := by
  rcases Nat.eq_zero_or_pos m with rfl | m0
  · exact ⟨0, 0, by norm_num, by norm_num, by norm_num, by simp⟩
  have hb : e < 64 := by
    have h1 : (2 : ℚ) ^ e ≤ (m : ℚ) * (2 : ℚ) ^ e := by
      have : (1 : ℚ) ≤ m := by exact_mod_cast m0
      exact le_mul_of_one_le_left (by positivity) this
    have h2 : (2 : ℚ) ^ e < (2 : ℚ) ^ (64 : ℤ) := by
      have : (2 : ℚ) ^ (64 : ℤ) = 2 ^ (64 : ℕ) := by norm_cast
      rw [this]; exact lt_of_le_of_lt h1 h
    exact (zpow_lt_zpow_iff_right₀ (by norm_num)).mp h2
  rcases Nat.lt_or_ge m (2 ^ 53) with hlt | hge
  · exact ⟨m, e, hlt, he, by omega, rfl⟩
  · have : m = 2 ^ 53 := le_antisymm hm hge
    refine ⟨2 ^ 52, e + 1, by norm_num, by omega, by omega, ?_⟩
    rw [this, zpow_add₀ (by norm_num)]
    push_cast
    ring

/-- Writing a value as a field of type `att` and reading the field back. -/
def overTheWire (v : PyVal) (att : Str) (hp : Bool) : Except Err PyVal :=
  match val2str v att hp with
  | .ok s => str2val s att
  | .error e => .error e

/-- C06. Character, string, hemisphere, status and hexadecimal fields carry every text unchanged. -/
theorem C06_text (att : Str) (ha : att ∈ [CH, ST, LAD, LND, QS, HX]) (s : Str) (hp : Bool) :
    overTheWire (.str s) att hp = .ok (.str s) := by
  simp only [List.mem_cons, List.not_mem_nil, or_false] at ha
  rcases ha with rfl | rfl | rfl | rfl | rfl | rfl <;> rfl

example : overTheWire (.str py!"Größe ₂") ST true = .ok (.str py!"Größe ₂") :=
  C06_text _ (by decide) _ _

/-- C06. Integer fields carry every integer of at most 4300 digits unchanged. -/
theorem C06_int (i : Int) (hi : i.natAbs < 10 ^ 4300) (hp : Bool) :
    overTheWire (.int i) IN hp = .ok (.int i) := by
  obtain ⟨s, hs⟩ := strOfInt_ok i hi
  have h1 : val2str (.int i) IN hp = .ok s := hs
  have h2 : str2val s IN = (intOfStr s).map .int := by
    have : s ≠ [] := strOfInt_ne_nil i s hs
    unfold str2val
    rw [if_neg (by decide), if_neg (by decide), if_neg (by decide), if_neg (by decide), if_pos rfl,
      if_pos this]
  unfold overTheWire
  rw [h1]
  simp only [h2, intOfStr_strOfInt i s hs]
  rfl

example : overTheWire (.int (-12345678901234567890)) IN false = .ok (.int (-12345678901234567890)) :=
  C06_int _ (lt_of_lt_of_le (b := 10 ^ 20) (by decide)
    (Nat.pow_le_pow_right (by omega) (by omega))) _

/-- C06. Longer integers cannot be written (a CPython limit): the `ValueError` is the library's own. -/
theorem C06_int_limit (i : Int) (hi : 10 ^ 4300 ≤ i.natAbs) (hp : Bool) :
    val2str (.int i) IN hp = .error .value := by
  have h1 : val2str (.int i) IN hp = strOfInt i := rfl
  rw [h1]
  unfold strOfInt
  have : ¬ (natDec i.natAbs).length ≤ 4300 := by
    intro hle
    unfold natDec at hle
    rw [List.length_map] at hle
    have := (digits_length_le 10 i.natAbs 4300 (by omega) (by omega)).1 hle
    omega
  simp only
  rw [if_pos (by unfold maxStrDigits; omega)]

/-- C06. Decimal fields carry every float unchanged: all finite values including both zeros,
subnormals and the largest, and also the infinities and nan. -/
theorem C06_decimal (x : PyFloat) (hx : IsDouble x) (hp : Bool) :
    overTheWire (.float x) DE hp = .ok (.float x) := by
  have h1 : val2str (.float x) DE hp = .ok (reprFloat x) := rfl
  have hr := floatOfStr_reprFloat x hx.wf
  have hne : reprFloat x ≠ [] := by
    intro h0
    rw [h0] at hr
    have : floatOfStr [] = .error .value := by decide
    rw [this] at hr
    cases hr
  have h2 : str2val (reprFloat x) DE = (floatOfStr (reprFloat x)).map .float := by
    unfold str2val
    rw [if_neg (by decide), if_neg (by decide), if_pos rfl, if_pos hne]
  unfold overTheWire
  rw [h1]
  simp only [h2, hr]
  rfl

/-- A value with no short decimal form: the float nearest 0.1. -/
example : overTheWire (.float (.fin true (7205759403792794 * (2 : ℚ) ^ (-56 : ℤ)))) DE false =
    .ok (.float (.fin true (7205759403792794 * (2 : ℚ) ^ (-56 : ℤ)))) :=
  C06_decimal (.fin true (7205759403792794 * (2 : ℚ) ^ (-56 : ℤ))) ⟨7205759403792794, -56, by norm_num, by norm_num, by norm_num, by norm_num⟩ _

/-- The attribute type codes documented in `nmeatypes_core.py`. -/
def attributeTypes : List Str :=
  [py!"CH", py!"DE", py!"DT", py!"DTL", py!"DM", py!"HX", py!"IN", py!"LA", py!"LAD", py!"LN",
   py!"LND", py!"QS", py!"ST", py!"TM"]

/-- C06. Any other attribute type raises `NMEATypeError` in all three conversions. -/
theorem C06_unknown (att : Str) (ha : att ∉ attributeTypes) :
    (∀ s, str2val s att = .error .nmeaType) ∧
    (∀ v hp, val2str v att hp = .error .nmeaType) ∧
    (∀ mode now, nomval att mode now = .error .nmeaType) := by
  have hn : ∀ t ∈ attributeTypes, att ≠ t := fun t ht h => ha (h ▸ ht)
  have c1 := hn CH (by decide)
  have c2 := hn DE (by decide)
  have c3 := hn DT (by decide)
  have c4 := hn DTL (by decide)
  have c5 := hn DM (by decide)
  have c6 := hn HX (by decide)
  have c7 := hn IN (by decide)
  have c8 := hn LA (by decide)
  have c9 := hn LAD (by decide)
  have c10 := hn LN (by decide)
  have c11 := hn LND (by decide)
  have c12 := hn QS (by decide)
  have c13 := hn ST (by decide)
  have c14 := hn TM (by decide)
  refine ⟨fun s => ?_, fun v hp => ?_, fun mode now => ?_⟩
  · unfold str2val
    rw [if_neg (by tauto), if_neg c6, if_neg c2, if_neg (by tauto), if_neg c7, if_neg (by tauto),
      if_neg c14]
  · unfold val2str
    rw [if_neg (by tauto), if_neg c6, if_neg c2, if_neg c7, if_neg (by tauto), if_neg c14, if_neg c3,
      if_neg c4, if_neg c5]
  · unfold nomval
    rw [if_neg (by tauto), if_neg c9, if_neg c11, if_neg c6, if_neg c2, if_neg c7, if_neg c14,
      if_neg (by tauto), if_neg c12]

example : py!"Z2" ∉ attributeTypes := by decide

/-- C06. Every documented attribute type has a nominal value, whatever the mode and the time. -/
theorem C06_nominal (att : Str) (ha : att ∈ attributeTypes) (mode : Nat) (now : DateTime) :
    ∃ v, nomval att mode now = .ok v := by
  simp only [attributeTypes, List.mem_cons, List.not_mem_nil, or_false] at ha
  rcases ha with rfl | rfl | rfl | rfl | rfl | rfl | rfl | rfl | rfl | rfl | rfl | rfl | rfl | rfl <;>
    exact ⟨_, rfl⟩

/-- C06. Of the documented types, only the long date cannot be read back: `str2val` has no case for
it, although `val2str` and `nomval` do. -/
theorem C06_long_date (s : Str) (d : Date) (hp : Bool) :
    str2val s DTL = .error .nmeaType ∧ ∃ t, val2str (.date d) DTL hp = .ok t := by
  refine ⟨?_, ?_⟩
  · unfold str2val
    rw [if_neg (by decide), if_neg (by decide), if_neg (by decide), if_neg (by decide),
      if_neg (by decide), if_neg (by decide), if_neg (by decide)]
  · exact ⟨_, rfl⟩

/-- C06. An empty numeric field stays an empty text; it is not read as zero. -/
theorem C06_empty : str2val [] IN = .ok (.str []) ∧ str2val [] DE = .ok (.str []) := ⟨rfl, rfl⟩

/-- C06. Nominal values of the types that do not depend on the clock survive the wire. -/
theorem C06_nominal_wire (att : Str) (ha : att ∈ [CH, ST, LAD, LND, HX, DE, IN, QS]) (mode : Nat)
    (now : DateTime) (hp : Bool) (v : PyVal) (hv : nomval att mode now = .ok v) :
    overTheWire v att hp = .ok v := by
  have hs : (∃ s, v = .str s ∧ att ∈ [CH, ST, LAD, LND, QS, HX]) ∨
      (v = .float (.fin false 0) ∧ att = DE) ∨ (v = .int 0 ∧ att = IN) := by
    simp only [List.mem_cons, List.not_mem_nil, or_false] at ha
    rcases ha with rfl | rfl | rfl | rfl | rfl | rfl | rfl | rfl
    · exact Or.inl ⟨_, (Except.ok.inj hv).symm, by decide⟩
    · exact Or.inl ⟨_, (Except.ok.inj hv).symm, by decide⟩
    · exact Or.inl ⟨_, (Except.ok.inj hv).symm, by decide⟩
    · exact Or.inl ⟨_, (Except.ok.inj hv).symm, by decide⟩
    · exact Or.inl ⟨_, (Except.ok.inj hv).symm, by decide⟩
    · exact Or.inr (Or.inl ⟨(Except.ok.inj hv).symm, rfl⟩)
    · exact Or.inr (Or.inr ⟨(Except.ok.inj hv).symm, rfl⟩)
    · exact Or.inl ⟨_, (Except.ok.inj hv).symm, by decide⟩
  rcases hs with ⟨s, rfl, h⟩ | ⟨rfl, rfl⟩ | ⟨rfl, rfl⟩
  · exact C06_text att h s hp
  · exact C06_decimal (.fin false 0) ⟨0, 0, by norm_num, by norm_num, by norm_num, by norm_num⟩ hp
  · exact C06_int 0 (by positivity) hp

end Nmea
