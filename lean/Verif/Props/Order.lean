import Verif.Spec.Order
import Verif.Props.StandardMore
import Verif.Lemmas.Writing
/-!
# Reading keeps the order (C98)
-/
namespace Props.Order
open Py Nmea Spec Spec.Nmea0183 Spec.Order

/-- What a field that is exactly `q` becomes. -/
inductive ValueOf : Kind → ℚ → PyVal → Prop
  | int (n : Int) : ValueOf .whole n (.int n)
  | float (neg : Bool) (a : ℚ) : 0 ≤ a → ValueOf .decimal (if neg then -a else a) (.float (PyFloat.ofMag neg a))
  | time (t : Time) : t.minute < 60 → t.second < 60 → t.micro < 1000000 →
      ValueOf .time (clock t.hour t.minute t.second + (t.micro : ℚ) / 1000000) (.time t)
  | date (k : Kind) (d : Date) : k = .date ∨ k = .usdate → d.month < 100 → d.day < 100 → ValueOf k (calendar d) (.date d)
  | coord (k : Kind) (D : ℕ) (M : ℚ) : k = .latitude ∨ k = .longitude → 0 ≤ M → M < 60 →
      |coordVal D M - (D + M / 60)| ≤ 6 / 10 ^ 11 → ValueOf k (D + M / 60) (.float (.fin false (coordVal D M)))

theorem number_lt {s : Str} (h : IsDigits s) : number s < 10 ^ s.length := by
  rw [number_eq]
  have := Py.ofDigits_lt 10 (s.map (· - 48)) (by
    intro d hd
    obtain ⟨c, hc, rfl⟩ := List.mem_map.1 hd
    have := h c hc
    omega)
  rwa [List.length_map] at this

theorem coord_exact {k : Kind} (hk : k = .latitude ∨ k = .longitude) {deg min frac : Str} (h1 : IsDigits deg)
    (h2 : IsDigits min) (h3 : IsDigits frac) (h4 : 2 ≤ deg.length) (h4' : deg.length ≤ 3) (h5 : min.length = 2)
    (h6 : number min < 60) :
    ∃ v, dmm2ddd (deg ++ min ++ py!"." ++ frac) = .ok v ∧
      ValueOf k ((number deg : ℚ) + ((number min : ℚ) + (number frac : ℚ) / 10 ^ frac.length) / 60) v := by
  have hv : asciiDigitsVal (deg ++ min) = number deg * 100 + number min := by
    rw [asciiVal_append, h5, number_eq, number_eq]
  have hlt : number deg < 1000 := by rw [number_eq]; exact ofDigits_lt3 h4' h1
  have hm := number_lt h2
  rw [h5] at hm
  have hf := number_lt h3
  have hd : ∀ c ∈ deg ++ min, isAsciiDigit c = true := by
    intro c hc
    rcases List.mem_append.1 hc with h | h
    · exact h1.ascii c h
    · exact h2.ascii c h
  have hl : 4 ≤ (deg ++ min).length := by simp; omega
  have e := dmm2ddd_exact (deg ++ min) frac hd h3.ascii hl (by rw [hv]; omega)
  obtain ⟨r, e', _, _, hr⟩ := dmm2ddd_accurate (deg ++ min) frac hd h3.ascii hl (by rw [hv]; omega)
  rw [e] at e'
  have hrr := Except.ok.inj e'
  simp only [PyVal.float.injEq, PyFloat.fin.injEq, true_and] at hrr
  rw [← hrr] at hr
  have ed : (number deg * 100 + number min) / 100 = number deg := by omega
  have em : (number deg * 100 + number min) % 100 = number min := by omega
  have ef : asciiDigitsVal frac = number frac := by rw [number_eq]
  rw [hv, ed, em, ef] at e hr
  refine ⟨_, by rw [← e]; congr 1; simp, .coord k _ _ hk (by positivity) ?_ (by norm_num at hr ⊢; exact hr)⟩
  have : (number frac : ℚ) / 10 ^ frac.length < 1 := by
    rw [div_lt_one (by positivity)]; exact_mod_cast hf
  have : (number min : ℚ) + 1 ≤ 60 := by exact_mod_cast h6
  linarith

theorem exact_value {kind : Kind} {text ty : Str} {q : ℚ} {v : PyVal} (h : Exactly kind text q)
    (hk : kindOf ty = some kind) (hv : str2val text ty = .ok v) : ValueOf kind q v := by
  have den : ∀ {w}, Denotes kind text w → kind ≠ .latitude → kind ≠ .longitude → v = w := by
    intro w hw h1 h2
    obtain ⟨v', e1, _, e2⟩ := str2val_denotes hk hw
    rw [hv] at e1; cases e1
    exact e2 h1 h2
  have hty := kindOf_cases hk
  cases h with
  | whole negative ds h1 h2 h3 =>
    rw [den (.whole negative ds h1 h2 h3) (by decide) (by decide)]
    have := ValueOf.int (if negative then -(number ds : Int) else number ds)
    cases negative <;> simpa using this
  | decimal negative ip fp h1 h2 h3 =>
    rw [den (.decimal negative ip fp h1 h2 h3) (by decide) (by decide)]
    exact .float negative _ (by positivity)
  | integral negative ip h1 h2 =>
    rw [den (.integral negative ip h1 h2) (by decide) (by decide)]
    exact .float negative _ (by positivity)
  | time h m s h1 h2 h3 =>
    rw [den (.time h m s h1 h2 h3) (by decide) (by decide)]
    have := ValueOf.time ⟨h, m, s, 0⟩ h2 h3 (show 0 < 1000000 by decide)
    simpa using this
  | fraction h m s frac h1 h2 h3 h4 h5 h6 =>
    rw [den (.fraction h m s frac h1 h2 h3 h4 h5 h6) (by decide) (by decide)]
    have hl := number_lt h4
    have hp : 10 ^ frac.length * 10 ^ (6 - frac.length) = 1000000 := by
      rw [← pow_add, show frac.length + (6 - frac.length) = 6 by omega]; norm_num
    have hb : number frac * 10 ^ (6 - frac.length) < 1000000 := by
      rw [← hp]
      exact Nat.mul_lt_mul_of_pos_right hl (by positivity)
    have := ValueOf.time ⟨h, m, s, number frac * 10 ^ (6 - frac.length)⟩ h2 h3 hb
    have e : ((number frac * 10 ^ (6 - frac.length) : ℕ) : ℚ) / 1000000 = (number frac : ℚ) / 10 ^ frac.length := by
      have hp' : (10 : ℚ) ^ frac.length * 10 ^ (6 - frac.length) = 1000000 := by exact_mod_cast hp
      rw [← hp']
      push_cast
      field_simp
    simp only at this
    rw [e] at this
    exact this
  | date d h1 h2 h3 =>
    rw [den (.date d h1 h2 h3) (by decide) (by decide)]
    have := day_le h1
    exact .date _ d (.inl rfl) (by have := h1; simp only [Date.Valid] at this; omega) (by omega)
  | usdate d h1 h2 h3 =>
    rw [den (.usdate d h1 h2 h3) (by decide) (by decide)]
    have := day_le h1
    exact .date _ d (.inr rfl) (by have := h1; simp only [Date.Valid] at this; omega) (by omega)
  | latitude deg min frac h1 h2 h3 h4 h5 h6 =>
    obtain rfl : ty = LA := by simpa using hty
    obtain ⟨w, e, hw⟩ := coord_exact (.inl rfl) h1 h2 h3 (by omega) (by omega) h5 h6
    have : str2val (deg ++ min ++ py!"." ++ frac) LA = dmm2ddd (deg ++ min ++ py!"." ++ frac) := rfl
    rw [this, e] at hv; cases hv
    exact hw
  | longitude deg min frac h1 h2 h3 h4 h5 h6 =>
    obtain rfl : ty = LN := by simpa using hty
    obtain ⟨w, e, hw⟩ := coord_exact (.inr rfl) h1 h2 h3 (by omega) (by omega) h5 h6
    have : str2val (deg ++ min ++ py!"." ++ frac) LN = dmm2ddd (deg ++ min ++ py!"." ++ frac) := rfl
    rw [this, e] at hv; cases hv
    exact hw

theorem floatLe_round {s t : Bool} {a b : ℚ} (ha : 0 ≤ a) (hb : 0 ≤ b)
    (h : (if s then -a else a) ≤ (if t then -b else b)) : FloatLe (PyFloat.ofMag s a) (PyFloat.ofMag t b) := by
  have ra := roundMag_nonneg a
  have rb := roundMag_nonneg b
  have hz : roundMag 0 = 0 := roundMag_zero
  have hL : (0 : ℚ) < f64Limit := by decide +kernel
  unfold PyFloat.ofMag
  dsimp only
  cases s <;> cases t <;> simp only [Bool.false_eq_true, if_false, if_true] at h
  · have := roundMag_mono h
    by_cases h1 : f64Limit ≤ roundMag a
    · rw [if_pos h1, if_pos (le_trans h1 this)]; trivial
    · rw [if_neg h1]
      split
      · trivial
      · simpa [FloatLe] using this
  · obtain rfl : a = 0 := by linarith
    obtain rfl : b = 0 := by linarith
    rw [hz, if_neg (by linarith), if_neg (by linarith)]
    simp [FloatLe]
  · by_cases h1 : f64Limit ≤ roundMag a
    · rw [if_pos h1]; split <;> trivial
    · rw [if_neg h1]
      split
      · trivial
      · simp [FloatLe]; linarith
  · have := roundMag_mono (show b ≤ a by linarith)
    by_cases h1 : f64Limit ≤ roundMag a
    · rw [if_pos h1]; split <;> trivial
    · rw [if_neg h1, if_neg (by linarith)]
      simpa [FloatLe] using this

theorem isMinus_kind {kind : Kind} {next : Option Kind} {letter : Option Str}
    (h : (kind = .latitude ∧ next = some .north ∧ letter = some py!"S") ∨
     (kind = .longitude ∧ next = some .east ∧ letter = some py!"W")) : kind = .latitude ∨ kind = .longitude := by
  rcases h with ⟨h, _⟩ | ⟨h, _⟩
  · exact .inl h
  · exact .inr h

theorem signed_other {kind : Kind} (h : ¬ (kind = .latitude ∨ kind = .longitude)) (n l q) : signed kind n l q = q := by
  unfold signed
  rw [if_neg (fun h' => h (isMinus_kind h'))]

theorem oriented_other {kind : Kind} (h : ¬ (kind = .latitude ∨ kind = .longitude)) (n l q) :
    oriented kind n l q = q := by
  unfold oriented
  rw [if_neg (fun h' => h (isMinus_kind h'))]

/-- Signs and values together. -/
theorem coord_signed {k : Kind} {D : ℕ} {M : ℚ} (n l) :
    ∃ s : Bool, signed k n l (D + M / 60) = (if s then -((D : ℚ) + M / 60) else D + M / 60) ∧
      oriented k n l (.float (.fin false (coordVal D M))) = .float (.fin s (coordVal D M)) := by
  unfold signed oriented
  split
  · exact ⟨true, rfl, rfl⟩
  · exact ⟨false, rfl, rfl⟩

theorem coordVal_nonneg (D : ℕ) (M : ℚ) : 0 ≤ coordVal D M := roundMag_nonneg _

theorem values_order {kind : Kind} {q1 q2 : ℚ} {v1 v2 : PyVal} (h1 : ValueOf kind q1 v1) (h2 : ValueOf kind q2 v2)
    {n1 n2 l1 l2} (h : signed kind n1 l1 q1 ≤ signed kind n2 l2 q2) :
    AtMost (oriented kind n1 l1 v1) (oriented kind n2 l2 v2) := by
  cases h1 with
  | int a =>
    cases h2 with
    | int b =>
      rw [signed_other (by decide), signed_other (by decide)] at h
      rw [oriented_other (by decide), oriented_other (by decide)]
      exact .int _ _ (by exact_mod_cast h)
    | date k d hk => simp at hk
    | coord k D M hk => simp at hk
  | float s a ha =>
    generalize hq : q2 = r at *
    cases h2 with
    | float t b hb =>
      rw [signed_other (by decide), signed_other (by decide)] at h
      rw [oriented_other (by decide), oriented_other (by decide)]
      exact .float _ _ (floatLe_round ha hb h)
    | date k d hk => simp at hk
    | coord k D M hk => simp at hk
  | time a a1 a2 a3 =>
    generalize hq : q2 = r at *
    cases h2 with
    | time b b1 b2 b3 =>
      rw [signed_other (by decide), signed_other (by decide)] at h
      rw [oriented_other (by decide), oriented_other (by decide)]
      refine .time _ _ ?_
      have h' : (3600 * a.hour + 60 * a.minute + a.second) * 1000000 + a.micro ≤
          (3600 * b.hour + 60 * b.minute + b.second) * 1000000 + b.micro := by
        unfold clock at h
        have : (((3600 * a.hour + 60 * a.minute + a.second) * 1000000 + a.micro : ℕ) : ℚ) ≤
            (((3600 * b.hour + 60 * b.minute + b.second) * 1000000 + b.micro : ℕ) : ℚ) := by
          push_cast; linarith
        exact_mod_cast this
      unfold TimeLe
      omega
    | date k d hk => simp at hk
    | coord k D M hk => simp at hk
  | date k a hk a1 a2 =>
    have hk' : ¬ (kind = .latitude ∨ kind = .longitude) := by rcases hk with rfl | rfl <;> decide
    generalize hq : q2 = r at *
    cases h2 with
    | date k d hk'' b1 b2 =>
      rw [signed_other hk', signed_other hk'] at h
      rw [oriented_other hk', oriented_other hk']
      refine .date _ _ ?_
      have h' : 10000 * a.year + 100 * a.month + a.day ≤ 10000 * d.year + 100 * d.month + d.day := by
        unfold calendar at h
        exact_mod_cast h
      unfold DateLe
      omega
    | int | float | time => simp at hk
    | coord k D M hk'' => exact absurd hk'' hk'
  | coord k D M hk a1 a2 a3 =>
    generalize hq : q2 = r at *
    cases h2 with
    | int | float | time => simp at hk
    | date k d hk'' => rcases hk with rfl | rfl <;> simp at hk''
    | coord k E N _ b1 b2 b3 =>
      obtain ⟨s, e1, e2⟩ := coord_signed (k := kind) (D := D) (M := M) n1 l1
      obtain ⟨t, e3, e4⟩ := coord_signed (k := kind) (D := E) (M := N) n2 l2
      rw [e1, e3] at h
      rw [e2, e4]
      refine .float _ _ ?_
      have p1 := coordVal_nonneg D M
      have p2 := coordVal_nonneg E N
      have d0 : (0 : ℚ) ≤ D := by positivity
      have e0 : (0 : ℚ) ≤ E := by positivity
      cases s <;> cases t <;> simp only [FloatLe, Bool.false_eq_true, if_false, if_true] at h ⊢
      · exact coordVal_mono a1 a2 b2 h
      · have z1 : (D : ℚ) = 0 := by linarith
        have z2 : (E : ℚ) = 0 := by linarith
        obtain rfl : D = 0 := by exact_mod_cast z1
        obtain rfl : E = 0 := by exact_mod_cast z2
        obtain rfl : M = 0 := by linarith
        obtain rfl : N = 0 := by linarith
        rw [coordVal_zero]; simp
      · linarith
      · have := coordVal_mono b1 b2 a2 (D := E) (E := D) (by linarith)
        linarith

/-- Strictly: what is exactly less (a coordinate: by more than `1.2e-10` degrees) is less as a value, except for decimal
numbers. -/
theorem values_distinct {kind : Kind} {q1 q2 : ℚ} {v1 v2 : PyVal} (h1 : ValueOf kind q1 v1) (h2 : ValueOf kind q2 v2)
    {n1 n2 l1 l2} (hk : kind ≠ .decimal) (h : signed kind n1 l1 q1 < signed kind n2 l2 q2)
    (hc : kind = .latitude ∨ kind = .longitude → signed kind n1 l1 q1 + 12 / 10 ^ 11 < signed kind n2 l2 q2) :
    ¬ AtMost (oriented kind n2 l2 v2) (oriented kind n1 l1 v1) := by
  cases h1 with
  | int a =>
    cases h2 with
    | int b =>
      rw [signed_other (by decide), signed_other (by decide)] at h
      rw [oriented_other (by decide), oriented_other (by decide)]
      rintro (⟨_, _, h'⟩)
      have : a < b := by exact_mod_cast h
      omega
    | date k d hk => simp at hk
    | coord k D M hk => simp at hk
  | float s a ha => exact absurd rfl hk
  | time a a1 a2 a3 =>
    generalize hq : q2 = r at *
    cases h2 with
    | time b b1 b2 b3 =>
      rw [signed_other (by decide), signed_other (by decide)] at h
      rw [oriented_other (by decide), oriented_other (by decide)]
      intro h3
      cases h3 with
      | time _ _ h4 =>
      have h' : (3600 * a.hour + 60 * a.minute + a.second) * 1000000 + a.micro <
          (3600 * b.hour + 60 * b.minute + b.second) * 1000000 + b.micro := by
        unfold clock at h
        have : (((3600 * a.hour + 60 * a.minute + a.second) * 1000000 + a.micro : ℕ) : ℚ) <
            (((3600 * b.hour + 60 * b.minute + b.second) * 1000000 + b.micro : ℕ) : ℚ) := by
          push_cast; linarith
        exact_mod_cast this
      unfold TimeLe at h4
      omega
    | date k d hk => simp at hk
    | coord k D M hk => simp at hk
  | date k a hk a1 a2 =>
    have hk' : ¬ (kind = .latitude ∨ kind = .longitude) := by rcases hk with rfl | rfl <;> decide
    generalize hq : q2 = r at *
    cases h2 with
    | date k d hk'' b1 b2 =>
      rw [signed_other hk', signed_other hk'] at h
      rw [oriented_other hk', oriented_other hk']
      intro h3
      cases h3 with
      | date _ _ h4 =>
      have h' : 10000 * a.year + 100 * a.month + a.day < 10000 * d.year + 100 * d.month + d.day := by
        unfold calendar at h
        exact_mod_cast h
      unfold DateLe at h4
      omega
    | int | float | time => simp at hk
    | coord k D M hk'' => exact absurd hk'' hk'
  | coord k D M hk' a1 a2 a3 =>
    generalize hq : q2 = r at *
    cases h2 with
    | int | float | time => simp at hk'
    | date k d hk'' => rcases hk' with rfl | rfl <;> simp at hk''
    | coord k E N _ b1 b2 b3 =>
      obtain ⟨s, e1, e2⟩ := coord_signed (k := kind) (D := D) (M := M) n1 l1
      obtain ⟨t, e3, e4⟩ := coord_signed (k := kind) (D := E) (M := N) n2 l2
      have hc := hc hk'
      rw [e1, e3] at hc
      rw [e2, e4]
      intro h3
      cases h3 with
      | float _ _ h4 =>
      rw [abs_le] at a3 b3
      norm_num at a3 b3 hc
      cases s <;> cases t <;> simp only [FloatLe, Bool.false_eq_true, if_false, if_true] at hc h4 <;>
        linarith [a3.1, a3.2, b3.1, b3.2]

/-- One sentence read: its attributes, each with the conversion behind it. -/
theorem read_listed (now : Nat → DateTime) (msg : RawMsg) (v : Nat) (u : UDefs) (c t i k : Str) (f : List Str)
    (lay : List Item) (hl : Standard i lay) (hs : IsSentence msg c t i f k) (ha : Admitted 0 v u c t i k)
    (hcnt : CountsGiven f lay)
    (hw : ∀ (p : Nat) name kind text, (fields f lay 0)[p]? = some (name, kind) → f[p]? = some text →
      ∃ val, Denotes kind text val) :
    ∃ m, parse now msg 0 v u = .ok (some m) ∧
      ∀ (p : Nat) name kind text, (fields f lay 0)[p]? = some (name, kind) → f[p]? = some text →
        ∃ val, (∃ ty, kindOf ty = some kind ∧ str2val text ty = .ok val) ∧
          lookup name m.attrs = some (oriented kind ((fields f lay 0)[p + 1]?.map Prod.snd) f[p + 1]? val) := by
  obtain ⟨d, hd, hok, hstd, hpre, hlen⟩ : ∃ d, lookup (upper i) (standardDefs 0) = some d ∧ layoutOk d lay = true ∧
      IsStandard i ∧ i ∉ NMEA_PREFIX_PROP ∧ i.length ≤ 4 := by
    rcases hl with hl | hl
    · obtain ⟨d, h1, h2, h3, h4, h5, _⟩ := sentence_facts hl
      exact ⟨d, h1, h2, h3, h4, by omega⟩
    · have h := others_ok _ hl
      unfold otherOk at h
      cases hd : lookup (upper i) (standardDefs 0) with
      | none => rw [hd] at h; cases h
      | some d =>
        rw [hd] at h
        simp only [Bool.and_eq_true, decide_eq_true_eq] at h
        obtain ⟨⟨⟨hok, hstd⟩, hpre⟩, hlen⟩ := h
        exact ⟨d, rfl, hok, hstd, hpre, hlen⟩
  obtain ⟨m, h1, _, h3⟩ := reading_exact now msg 0 v u c t i k f f lay d hs ha (layout_definition hd hstd hpre u f)
    (layout_definition hd hstd hpre [] f) (tables_sane.1 0 _ (lookup_some_mem _ _ _ hd))
    (standard_texts hs hpre hlen) hok hcnt hw
  refine ⟨m, h1, fun p name kind text hp ht => ?_⟩
  obtain ⟨val, _, h4, h5⟩ := h3 p name kind text hp ht
  exact ⟨val, h4, h5⟩

/-- Reading keeps the order. Take two standard sentences, of the same or of different types, with well-formed fields, and
in each a field of the same kind. If what the first field says is exactly at most what the second says (south and west
count negatively), then the attributes compare so too: `a <= b` in Python. -/
theorem C98_order (now now' : Nat → DateTime) (msg msg' : RawMsg) (v v' : Nat) (u u' : UDefs)
    (c t i k c' t' i' k' : Str) (f f' : List Str) (lay lay' : List Item)
    (hl : Standard i lay) (hs : IsSentence msg c t i f k) (ha : Admitted 0 v u c t i k) (hcnt : CountsGiven f lay)
    (hw : ∀ (p : Nat) name kind text, (fields f lay 0)[p]? = some (name, kind) → f[p]? = some text →
      ∃ val, Denotes kind text val)
    (hl' : Standard i' lay') (hs' : IsSentence msg' c' t' i' f' k') (ha' : Admitted 0 v' u' c' t' i' k')
    (hcnt' : CountsGiven f' lay')
    (hw' : ∀ (p : Nat) name kind text, (fields f' lay' 0)[p]? = some (name, kind) → f'[p]? = some text →
      ∃ val, Denotes kind text val)
    (p p' : Nat) (name name' text text' : Str) (kind : Kind) (q q' : ℚ)
    (hp : (fields f lay 0)[p]? = some (name, kind)) (ht : f[p]? = some text) (hq : Exactly kind text q)
    (hp' : (fields f' lay' 0)[p']? = some (name', kind)) (ht' : f'[p']? = some text') (hq' : Exactly kind text' q')
    (hle : signed kind ((fields f lay 0)[p + 1]?.map Prod.snd) f[p + 1]? q ≤
      signed kind ((fields f' lay' 0)[p' + 1]?.map Prod.snd) f'[p' + 1]? q') :
    ∃ m m' a a', parse now msg 0 v u = .ok (some m) ∧ parse now' msg' 0 v' u' = .ok (some m') ∧
      lookup name m.attrs = some a ∧ lookup name' m'.attrs = some a' ∧ AtMost a a' := by
  obtain ⟨m, h1, h2⟩ := read_listed now msg v u c t i k f lay hl hs ha hcnt hw
  obtain ⟨m', h1', h2'⟩ := read_listed now' msg' v' u' c' t' i' k' f' lay' hl' hs' ha' hcnt' hw'
  obtain ⟨w, ⟨ty, g1, g2⟩, g3⟩ := h2 p name kind text hp ht
  obtain ⟨w', ⟨ty', g1', g2'⟩, g3'⟩ := h2' p' name' kind text' hp' ht'
  exact ⟨m, m', _, _, h1, h1', g3, g3', values_order (exact_value hq g1 g2) (exact_value hq' g1' g2') hle⟩

/-- And what differs stays apart: if the first field is exactly less than the second, coordinates by more than
`1.2e-10` degrees, then `b <= a` is false (decimal numbers may fall on the same float). -/
theorem C98_distinct (now now' : Nat → DateTime) (msg msg' : RawMsg) (v v' : Nat) (u u' : UDefs)
    (c t i k c' t' i' k' : Str) (f f' : List Str) (lay lay' : List Item)
    (hl : Standard i lay) (hs : IsSentence msg c t i f k) (ha : Admitted 0 v u c t i k) (hcnt : CountsGiven f lay)
    (hw : ∀ (p : Nat) name kind text, (fields f lay 0)[p]? = some (name, kind) → f[p]? = some text →
      ∃ val, Denotes kind text val)
    (hl' : Standard i' lay') (hs' : IsSentence msg' c' t' i' f' k') (ha' : Admitted 0 v' u' c' t' i' k')
    (hcnt' : CountsGiven f' lay')
    (hw' : ∀ (p : Nat) name kind text, (fields f' lay' 0)[p]? = some (name, kind) → f'[p]? = some text →
      ∃ val, Denotes kind text val)
    (p p' : Nat) (name name' text text' : Str) (kind : Kind) (q q' : ℚ) (hd : kind ≠ .decimal)
    (hp : (fields f lay 0)[p]? = some (name, kind)) (ht : f[p]? = some text) (hq : Exactly kind text q)
    (hp' : (fields f' lay' 0)[p']? = some (name', kind)) (ht' : f'[p']? = some text') (hq' : Exactly kind text' q')
    (hlt : signed kind ((fields f lay 0)[p + 1]?.map Prod.snd) f[p + 1]? q <
      signed kind ((fields f' lay' 0)[p' + 1]?.map Prod.snd) f'[p' + 1]? q')
    (hc : kind = .latitude ∨ kind = .longitude →
      signed kind ((fields f lay 0)[p + 1]?.map Prod.snd) f[p + 1]? q + 12 / 10 ^ 11 <
        signed kind ((fields f' lay' 0)[p' + 1]?.map Prod.snd) f'[p' + 1]? q') :
    ∃ m m' a a', parse now msg 0 v u = .ok (some m) ∧ parse now' msg' 0 v' u' = .ok (some m') ∧
      lookup name m.attrs = some a ∧ lookup name' m'.attrs = some a' ∧ AtMost a a' ∧ ¬ AtMost a' a := by
  obtain ⟨m, h1, h2⟩ := read_listed now msg v u c t i k f lay hl hs ha hcnt hw
  obtain ⟨m', h1', h2'⟩ := read_listed now' msg' v' u' c' t' i' k' f' lay' hl' hs' ha' hcnt' hw'
  obtain ⟨w, ⟨ty, g1, g2⟩, g3⟩ := h2 p name kind text hp ht
  obtain ⟨w', ⟨ty', g1', g2'⟩, g3'⟩ := h2' p' name' kind text' hp' ht'
  exact ⟨m, m', _, _, h1, h1', g3, g3', values_order (exact_value hq g1 g2) (exact_value hq' g1' g2') hlt.le,
    values_distinct (exact_value hq g1 g2) (exact_value hq' g1' g2') hd hlt hc⟩

/-- Writing keeps the order as well: of two latitudes (longitudes), the one that is nearer to the equator (meridian), or as
near, is not written as further away. Degrees, minutes and their fraction are the digits written. -/
theorem C98_writing (s s' : Bool) (a b : ℚ) (hx : IsDouble (.fin s a)) (hy : IsDouble (.fin s' b)) (att : Str) (hp : Bool)
    (hab : a ≤ b) (hb : b ≤ if att = LA then 90 else 180) :
    ∃ deg min frac deg' min' frac',
      ddd2dmm (.float (.fin s a)) att hp = .ok (deg ++ min ++ py!"." ++ frac) ∧
      ddd2dmm (.float (.fin s' b)) att hp = .ok (deg' ++ min' ++ py!"." ++ frac') ∧
      (∀ x ∈ [deg, min, frac, deg', min', frac'], IsDigits x) ∧ min.length = 2 ∧ min'.length = 2 ∧
      (number deg : ℚ) + ((number min : ℚ) + (number frac : ℚ) / 10 ^ frac.length) / 60 ≤
        (number deg' : ℚ) + ((number min' : ℚ) + (number frac' : ℚ) / 10 ^ frac'.length) / 60 := by
  obtain ⟨deg, min, frac, e, d1, d2, d3, _, l1, _, _, _, D, k, hD, hk, k1, k2, hang⟩ :=
    coordinate_count s a hx att hp (le_trans hab hb)
  obtain ⟨deg', min', frac', e', d1', d2', d3', _, l1', _, _, _, E, j, hE, hj, j1, j2, hang'⟩ :=
    coordinate_count s' b hy att hp hb
  refine ⟨deg, min, frac, deg', min', frac', e, e', ?_, l1, l1', ?_⟩
  · intro x hx
    simp only [List.mem_cons, List.not_mem_nil, or_false] at hx
    rcases hx with rfl | rfl | rfl | rfl | rfl | rfl <;> assumption
  show angle deg min frac ≤ angle deg' min' frac'
  rw [hang, hang']
  generalize minuteDecimals hp = n at *
  have hpow : (0 : ℚ) < 10 ^ n := by positivity
  have hDE : D ≤ E := by
    have h1 := roundMag_mono (show a * 60 ≤ b * 60 by linarith)
    have h2 : ⌊roundMag (a * 60) / 60⌋ ≤ ⌊roundMag (b * 60) / 60⌋ := Int.floor_le_floor (by linarith)
    omega
  have up : ∀ (x y : ℕ), y ≤ (100 * x + 60) * 10 ^ n → (y : ℚ) / 10 ^ n ≤ 100 * x + 60 := by
    intro x y h
    rw [div_le_iff₀ hpow]
    exact_mod_cast h
  have lo : ∀ (x y : ℕ), 100 * x * 10 ^ n ≤ y → 100 * (x : ℚ) ≤ (y : ℚ) / 10 ^ n := by
    intro x y h
    rw [le_div_iff₀ hpow]
    exact_mod_cast h
  rcases Nat.lt_or_eq_of_le hDE with hlt | rfl
  · have u := up D k k2
    have l := lo E j j1
    have : (D : ℚ) + 1 ≤ E := by exact_mod_cast hlt
    linarith
  · have hkj : (k : ℤ) ≤ j := by
      rw [hk, hj]
      apply rhe_mono
      have h1 := roundMag_mono (show a * 60 ≤ b * 60 by linarith)
      exact mul_le_mul_of_nonneg_right (roundMag_mono (by linarith)) hpow.le
    have : (k : ℚ) / 10 ^ n ≤ (j : ℚ) / 10 ^ n := by
      have : (k : ℚ) ≤ j := by exact_mod_cast hkj
      gcongr
    linarith

/-- 10.5 and -33.75 degrees of latitude. -/
example : ∃ deg min frac deg' min' frac',
      ddd2dmm (.float (.fin false (21 / 2))) LA false = .ok (deg ++ min ++ py!"." ++ frac) ∧
      ddd2dmm (.float (.fin true (135 / 4))) LA false = .ok (deg' ++ min' ++ py!"." ++ frac') ∧
      (∀ x ∈ [deg, min, frac, deg', min', frac'], IsDigits x) ∧ min.length = 2 ∧ min'.length = 2 ∧
      (number deg : ℚ) + ((number min : ℚ) + (number frac : ℚ) / 10 ^ frac.length) / 60 ≤
        (number deg' : ℚ) + ((number min' : ℚ) + (number frac' : ℚ) / 10 ^ frac'.length) / 60 :=
  C98_writing false true (21 / 2) (135 / 4) ⟨21, -1, by norm_num, by norm_num, by norm_num, by norm_num⟩
    ⟨135, -2, by norm_num, by norm_num, by norm_num, by norm_num⟩ LA false (by norm_num) (by decide +kernel)

/-! ## An example: two sentences, the second fix a little further north, half a second later -/

def laterFields : List Str := [py!"5327.04318", py!"S", py!"00214.41396", py!"W", py!"223232.5", py!"A", py!"A"]

theorem later_gll : IsSentence (.bytes pb!"$GNGLL,5327.04318,S,00214.41396,W,223232.5,A,A*4E\r\n")
    py!"GNGLL,5327.04318,S,00214.41396,W,223232.5,A,A" py!"GN" py!"GLL" laterFields py!"4E" :=
  (getParts_sentence _ ⟨_, _, _, _, _⟩).1 (by decide +kernel)

def gllLayout : List Item := [.one py!"lat" .latitude, .one py!"NS" .north, .one py!"lon" .longitude,
  .one py!"EW" .east, .one py!"time" .time, .one py!"status" .text, .one py!"posMode" .text]

theorem later_fields_ok : ∀ (p : Nat) name kind text,
    (fields laterFields gllLayout 0)[p]? = some (name, kind) → laterFields[p]? = some text →
      ∃ val, Denotes kind text val := by
  intro p name kind text h1 h2
  match p with
  | 0 =>
    simp only [fields, gllLayout, laterFields, List.getElem?_cons_zero, Option.some.injEq, Prod.mk.injEq] at h1 h2
    obtain ⟨_, rfl⟩ := h1; subst h2
    exact ⟨_, Denotes.latitude py!"53" py!"27" py!"04318" _ (by decide) (by decide) (by decide) rfl rfl
      (by rw [sub_self, abs_zero]; norm_num)⟩
  | 2 =>
    simp only [fields, gllLayout, laterFields, List.getElem?_cons_succ, List.getElem?_cons_zero, Option.some.injEq,
      Prod.mk.injEq] at h1 h2
    obtain ⟨_, rfl⟩ := h1; subst h2
    exact ⟨_, Denotes.longitude py!"002" py!"14" py!"41396" _ (by decide) (by decide) (by decide) rfl rfl
      (by rw [sub_self, abs_zero]; norm_num)⟩
  | 4 =>
    simp only [fields, gllLayout, laterFields, List.getElem?_cons_succ, List.getElem?_cons_zero, Option.some.injEq,
      Prod.mk.injEq] at h1 h2
    obtain ⟨_, rfl⟩ := h1; subst h2
    exact ⟨_, Denotes.fraction 22 32 32 py!"5" (by omega) (by omega) (by omega) (by decide) (by decide) (by decide)⟩
  | 1 | 3 | 5 | 6 =>
    simp only [fields, gllLayout, laterFields, List.getElem?_cons_succ, List.getElem?_cons_zero, Option.some.injEq,
      Prod.mk.injEq] at h1 h2
    obtain ⟨_, rfl⟩ := h1
    first | exact ⟨_, .north _⟩ | exact ⟨_, .east _⟩ | exact ⟨_, .text _⟩
  | p + 7 => simp [fields, gllLayout] at h1

theorem gll_standard : Standard py!"GLL" gllLayout := .inl (by decide +kernel)

theorem gll_counts (f : List Str) : CountsGiven f gllLayout := by
  intro p b h
  simp [gllLayout] at h

/-- The latitude (south: negative) increases strictly. -/
example : ∃ m m' a a', parse clock0 (.bytes pb!"$GNGLL,5327.04319,S,00214.41396,E,223232.00,A,A*68\r\n") 0 3 [] = .ok (some m) ∧
    parse clock0 (.bytes pb!"$GNGLL,5327.04318,S,00214.41396,W,223232.5,A,A*4E\r\n") 0 3 [] = .ok (some m') ∧
    lookup py!"lat" m.attrs = some a ∧ lookup py!"lat" m'.attrs = some a' ∧ AtMost a a' ∧ ¬ AtMost a' a :=
  C98_distinct clock0 clock0 _ _ 3 3 [] [] _ _ _ _ _ _ _ _ gllFields laterFields gllLayout gllLayout gll_standard standard_gll
    ⟨.inl rfl, fun _ => by decide +kernel, fun _ => ⟨by decide +kernel, by decide +kernel⟩⟩ (gll_counts _) gll_fields_ok
    gll_standard later_gll ⟨.inl rfl, fun _ => by decide +kernel, fun _ => ⟨by decide +kernel, by decide +kernel⟩⟩
    (gll_counts _) later_fields_ok 0 0 _ _ py!"5327.04319" py!"5327.04318" .latitude _ _ (by decide) rfl rfl
    (.latitude py!"53" py!"27" py!"04319" (by decide) (by decide) (by decide) rfl rfl (by decide)) rfl rfl
    (.latitude py!"53" py!"27" py!"04318" (by decide) (by decide) (by decide) rfl rfl (by decide))
    (by decide +kernel) (fun _ => by decide +kernel)

/-- The longitude decreases: west comes before east. -/
example : ∃ m m' a a', parse clock0 (.bytes pb!"$GNGLL,5327.04318,S,00214.41396,W,223232.5,A,A*4E\r\n") 0 3 [] = .ok (some m) ∧
    parse clock0 (.bytes pb!"$GNGLL,5327.04319,S,00214.41396,E,223232.00,A,A*68\r\n") 0 3 [] = .ok (some m') ∧
    lookup py!"lon" m.attrs = some a ∧ lookup py!"lon" m'.attrs = some a' ∧ AtMost a a' :=
  C98_order clock0 clock0 _ _ 3 3 [] [] _ _ _ _ _ _ _ _ laterFields gllFields gllLayout gllLayout gll_standard later_gll
    ⟨.inl rfl, fun _ => by decide +kernel, fun _ => ⟨by decide +kernel, by decide +kernel⟩⟩ (gll_counts _) later_fields_ok
    gll_standard standard_gll ⟨.inl rfl, fun _ => by decide +kernel, fun _ => ⟨by decide +kernel, by decide +kernel⟩⟩
    (gll_counts _) gll_fields_ok 2 2 _ _ py!"00214.41396" py!"00214.41396" .longitude _ _ rfl rfl
    (.longitude py!"002" py!"14" py!"41396" (by decide) (by decide) (by decide) rfl rfl (by decide)) rfl rfl
    (.longitude py!"002" py!"14" py!"41396" (by decide) (by decide) (by decide) rfl rfl (by decide))
    (by decide +kernel)

end Props.Order
