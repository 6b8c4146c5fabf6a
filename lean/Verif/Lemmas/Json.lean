import Verif.Spec.WebServer
import Verif.Lemmas.DmsText
import Verif.Props.Display
/-!
# Lemmas: values of numeric fields, and their JSON texts
-/
namespace Props.Web
open Py Nmea Spec Spec.Web PyFloat

/-! ## Floats a program can hold -/

theorem floatOfStr_wf {s : Str} {x : PyFloat} (h : floatOfStr s = .ok x) : x.Wf := by
  unfold floatOfStr at h
  split at h
  · cases h
  · simp only at h
    split at h
    · rename_i y hy
      cases h
      unfold floatOfBody at hy
      simp only at hy
      split at hy
      · cases hy; trivial
      · split at hy
        · cases hy; trivial
        · rw [Option.map_eq_some_iff] at hy
          obtain ⟨⟨m, e⟩, -, rfl⟩ := hy
          exact ofMag_wf _ _
    · cases h

theorem abs_wf {x : PyFloat} (h : x.Wf) : x.abs.Wf := by cases x <;> exact h

theorem neg_wf {x : PyFloat} (h : x.Wf) : x.neg.Wf := by cases x <;> exact h

theorem zero_wf (s : Bool) : (PyFloat.fin s 0).Wf :=
  ⟨isF64_zero, by rw [f64Limit, pow2_eq]; positivity⟩

theorem roundTo_wf {x y : PyFloat} {n : Int} (hx : x.Wf) (h : x.roundTo n = .ok y) : y.Wf := by
  unfold roundTo at h
  split at h
  · rename_i s m
    split at h
    · cases h; exact hx
    · split at h
      · cases h; exact zero_wf s
      · split at h
        · rename_i s' m' he
          cases h
          rw [← he]
          exact ofMag_wf _ _
        · cases h
  · cases h; exact hx

theorem add_wf (x y : PyFloat) : (x.add y).Wf := by
  unfold add
  split
  · simp only
    split
    · exact zero_wf _
    · exact ofMag_wf _ _
  · trivial
  · trivial
  · split <;> trivial
  · trivial

/-! ## Values of numeric fields -/

/-- A number or an empty text. -/
def Num : PyVal → Prop
  | .float x => x.Wf
  | .int i => ∃ s, strOfInt i = .ok s
  | .str s => s = []
  | _ => False

theorem num_value {text ty : Str} {v : PyVal} (hty : ty ∈ [LA, LN, DE, IN]) (h : str2val text ty = .ok v) : Num v := by
  have hd : ∀ r, dmm2ddd text = .ok r → Num r := by
    intro r h
    unfold dmm2ddd at h
    simp only at h
    split at h
    · rename_i x hx
      cases h
      split at hx
      · cases hx
      · split at hx
        · cases hx
        · rename_i dp hdp _
          cases h1 : floatOfStr (text.take (dp - 2)) with
          | error e => rw [h1] at hx; cases hx
          | ok d =>
            rw [h1] at hx
            cases h2 : floatOfStr (text.drop (dp - 2)) with
            | error e => rw [h2] at hx; cases hx
            | ok m =>
              rw [h2] at hx
              cases h3 : PyFloat.div m (.fin false 60) with
              | error e => simp [bind, Except.bind, h3] at hx
              | ok q =>
                simp [bind, Except.bind, h3] at hx
                exact roundTo_wf (add_wf _ _) hx
    · cases h; rfl
    · cases h; rfl
    · cases h
  simp only [List.mem_cons, List.not_mem_nil, or_false] at hty
  rcases hty with rfl | rfl | rfl | rfl
  · exact hd v h
  · exact hd v h
  · have h' : (if text ≠ [] then (floatOfStr text).map PyVal.float else .ok (.str text)) = .ok v := h
    split at h'
    · cases hf : floatOfStr text with
      | error e => rw [hf] at h'; cases h'
      | ok x => rw [hf] at h'; cases h'; exact floatOfStr_wf hf
    · rename_i ht
      cases h'
      exact not_not.1 ht
  · have h' : (if text ≠ [] then (intOfStr text).map PyVal.int else .ok (.str text)) = .ok v := h
    split at h'
    · cases hf : intOfStr text with
      | error e => rw [hf] at h'; cases h'
      | ok x => rw [hf] at h'; cases h'; exact strOfInt_ok _ (intOfStr_printable _ _ hf)
    · rename_i ht
      cases h'
      exact not_not.1 ht

/-- The attributes of the given names are numbers or empty. -/
def NumAttrs (names : List Str) (attrs : Attrs) : Prop := ∀ n ∈ names, ∀ v, lookup n attrs = some v → Num v

theorem num_insert {names : List Str} {attrs : Attrs} (h : NumAttrs names attrs) (k : Str) (v : PyVal)
    (hv : k ∈ names → Num v) : NumAttrs names (Py.insert k v attrs) := by
  intro n hn x hx
  by_cases e : n = k
  · subst e
    rw [lookup_insert, if_pos rfl] at hx
    cases hx
    exact hv hn
  · rw [lookup_insert, if_neg e] at hx
    exact h n hn x hx

theorem strOfInt_natAbs {i j : Int} (hij : i.natAbs = j.natAbs) (h : ∃ s, strOfInt i = .ok s) : ∃ s, strOfInt j = .ok s := by
  unfold strOfInt at h ⊢
  simp only at h ⊢
  rw [hij] at h
  split at h
  · obtain ⟨s, hs⟩ := h; cases hs
  · rename_i hl
    rw [if_neg hl]
    exact ⟨_, rfl⟩

theorem num_sign {names : List Str} {attrs : Attrs} (h : NumAttrs names attrs) (n : Str) (b : Bool) :
    NumAttrs names (withSign n b attrs) := by
  unfold withSign
  split
  · rename_i i hl
    apply num_insert h
    intro hn
    exact strOfInt_natAbs (by split <;> simp [Int.natAbs_abs]) (h n hn _ hl)
  · rename_i x hl
    apply num_insert h
    intro hn
    have := h n hn _ hl
    split
    · exact neg_wf (abs_wf this)
    · exact abs_wf this
  · rename_i i hl
    apply num_insert h
    intro hn
    exact absurd (h n hn _ hl) (by simp [Num])
  · exact h

theorem num_read (names : List Str) (slots : List Slot) : ∀ (f : List Str) (attrs attrs' : Attrs),
    readSlots slots f attrs = .ok attrs' →
    (∀ s ∈ slots, s.1 ∈ names → s.2 ∈ [LA, LN, DE, IN]) → NumAttrs names attrs → NumAttrs names attrs' := by
  induction slots with
  | nil => intro f attrs attrs' h _ hp; simp only [readSlots, Except.ok.injEq] at h; rw [← h]; exact hp
  | cons s ss ih =>
    obtain ⟨n, ty⟩ := s
    intro f attrs attrs' h ht hp
    cases f with
    | nil => simp only [readSlots, Except.ok.injEq] at h; rw [← h]; exact hp
    | cons x f =>
      simp only [readSlots] at h
      cases hv : str2val x ty with
      | error e => rw [hv] at h; cases h
      | ok v =>
        rw [hv] at h
        refine ih f _ attrs' h (fun s hs => ht s (List.mem_cons_of_mem _ hs)) ?_
        have h1 : NumAttrs names (Py.insert n v attrs) := num_insert hp n v (fun hn => num_value (ht (n, ty) (by simp) hn) hv)
        unfold Spec.hemisphere
        split
        · exact num_sign h1 _ _
        · split
          · exact num_sign h1 _ _
          · exact h1

/-! ## Numbers in JSON -/

/-- A number without sign, with its parts. -/
def Unsigned (s : Str) : Prop :=
  ∃ int frac exp, s = int ++ frac ++ exp ∧
    Digits int ∧ (int = py!"0" ∨ int.head? ≠ some 48) ∧
    (frac = [] ∨ ∃ ds, Digits ds ∧ frac = py!"." ++ ds) ∧
    (exp = [] ∨ ∃ e sign ds, (e = py!"e" ∨ e = py!"E") ∧ (sign = [] ∨ sign = py!"+" ∨ sign = py!"-") ∧ Digits ds ∧
      exp = e ++ sign ++ ds)

theorem Unsigned.number {s : Str} (h : Unsigned s) (neg : Bool) : IsNumber (if neg then 45 :: s else s) := by
  obtain ⟨i, f, e, rfl, h1, h2, h3, h4⟩ := h
  cases neg
  · exact ⟨[], i, f, e, by simp, .inl rfl, h1, h2, h3, h4⟩
  · exact ⟨py!"-", i, f, e, by simp, .inr rfl, h1, h2, h3, h4⟩

theorem digits_chars {ds : List Nat} (h : ∀ d ∈ ds, d < 10) : ∀ c ∈ ds.map digitUpper, 48 ≤ c ∧ c ≤ 57 := by
  intro c hc
  obtain ⟨d, hd, rfl⟩ := List.mem_map.1 hc
  have := h d hd
  unfold digitUpper
  split <;> omega

theorem natDec_digits (n : Nat) : Digits (natDec n) := ⟨natDec_ne_nil n, natDec_hex n⟩

theorem fmt02d_digits (n : Nat) : Digits (fmt02d n) := by
  constructor
  · intro h
    have := congrArg List.length h
    unfold fmt02d padZero at this
    simp only [List.length_append, List.length_nil, Nat.add_eq_zero_iff, List.length_eq_zero_iff] at this
    exact natDec_ne_nil n this.2
  · intro c hc
    unfold fmt02d padZero at hc
    rcases List.mem_append.1 hc with hc | hc
    · rw [List.mem_replicate] at hc; omega
    · exact natDec_hex n c hc

theorem natDec_number (n : Nat) : Unsigned (natDec n) := by
  refine ⟨natDec n, [], [], by simp, natDec_digits n, ?_, .inl rfl, .inl rfl⟩
  rcases Nat.eq_zero_or_pos n with rfl | hn
  · left; decide
  · right
    unfold natDec
    intro h
    rw [List.head?_map, Option.map_eq_some_iff] at h
    obtain ⟨d, hd, h48⟩ := h
    have h1 := digits_head_ne_zero 10 n (by omega) hn d hd
    have h2 := digits_lt 10 n (by omega) d (List.mem_of_mem_head? hd)
    unfold digitUpper at h48
    split at h48 <;> omega

theorem reprDigits_number (ds : List Nat) (h : ∀ d ∈ ds, d < 10) (hne : ds ≠ []) (h0 : ds.head? ≠ some 0) (decpt : Int) :
    Unsigned (reprDigits ds decpt) := by
  have hc := digits_chars h
  have hcne : ds.map digitUpper ≠ [] := by simp [hne]
  have hhead : (ds.map digitUpper).head? ≠ some 48 := by
    rw [List.head?_map]
    intro e
    rw [Option.map_eq_some_iff] at e
    obtain ⟨d, hd, e⟩ := e
    have := h d (List.mem_of_mem_head? hd)
    have : d ≠ 0 := by rintro rfl; exact h0 hd
    unfold digitUpper at e
    split at e <;> omega
  have hz : ∀ n, ∀ c ∈ List.replicate n 48, 48 ≤ c ∧ c ≤ 57 := by
    intro n c hc
    rw [List.mem_replicate] at hc
    omega
  unfold reprDigits
  simp only
  generalize ds.map digitUpper = cs at *
  cases cs with
  | nil => exact absurd rfl hcne
  | cons c r =>
    have h1 : Digits [c] := ⟨by simp, fun x hx => hc x (by simp_all)⟩
    have h2 : c ≠ 48 := by simpa using hhead
    split
    · cases r with
      | nil =>
        refine ⟨[c], [], _, rfl, h1, .inr (by simpa using h2), .inl rfl, .inr ?_⟩
        split
        · exact ⟨py!"e", py!"-", _, .inl rfl, .inr (.inr rfl), fmt02d_digits _, rfl⟩
        · exact ⟨py!"e", py!"+", _, .inl rfl, .inr (.inl rfl), fmt02d_digits _, rfl⟩
      | cons x r =>
        refine ⟨[c], 46 :: x :: r, _, rfl, h1, .inr (by simpa using h2),
          .inr ⟨x :: r, ⟨by simp, fun y hy => hc y (by simp_all)⟩, rfl⟩, .inr ?_⟩
        split
        · exact ⟨py!"e", py!"-", _, .inl rfl, .inr (.inr rfl), fmt02d_digits _, rfl⟩
        · exact ⟨py!"e", py!"+", _, .inl rfl, .inr (.inl rfl), fmt02d_digits _, rfl⟩
    · split
      · refine ⟨py!"0", _, [], (List.append_nil _).symm, ⟨by simp, by decide⟩, .inl rfl,
          .inr ⟨List.replicate (-decpt).toNat 48 ++ c :: r, ⟨by simp, ?_⟩, rfl⟩, .inl rfl⟩
        intro y hy
        rcases List.mem_append.1 hy with hy | hy
        · exact hz _ y hy
        · exact hc y hy
      · split
        · refine ⟨c :: r ++ List.replicate (decpt.toNat - (c :: r).length) 48, [46, 48], [], by simp, ⟨by simp, ?_⟩,
            .inr (by simpa using h2), .inr ⟨py!"0", ⟨by simp, by decide⟩, rfl⟩, .inl rfl⟩
          intro y hy
          rcases List.mem_append.1 hy with hy | hy
          · exact hc y hy
          · exact hz _ y hy
        · rename_i hlen
          obtain ⟨p, hp⟩ : ∃ p, decpt.toNat = p + 1 := ⟨decpt.toNat - 1, by omega⟩
          rw [hp] at hlen ⊢
          refine ⟨(c :: r).take (p + 1), 46 :: (c :: r).drop (p + 1), [], by simp, ⟨by simp, ?_⟩,
            .inr (by simpa using h2), .inr ⟨(c :: r).drop (p + 1), ⟨?_, ?_⟩, rfl⟩, .inl rfl⟩
          · intro y hy; exact hc y (List.mem_of_mem_take hy)
          · intro e
            have := congrArg List.length e
            simp only [List.length_drop, List.length_nil] at this
            omega
          · intro y hy; exact hc y (List.mem_of_mem_drop hy)

theorem reprFloat_number (s : Bool) (m : ℚ) (h : (PyFloat.fin s m).Wf) : IsNumber (reprFloat (.fin s m)) := by
  obtain ⟨hf, -⟩ : IsF64 m ∧ m < f64Limit := h
  unfold reprFloat
  simp only
  apply Unsigned.number
  split
  · exact ⟨py!"0", py!".0", [], rfl, ⟨by simp, by decide⟩, .inl rfl, .inr ⟨py!"0", ⟨by simp, by decide⟩, rfl⟩, .inl rfl⟩
  · rename_i h0
    have hm : 0 < m := lt_of_le_of_ne hf.nonneg (Ne.symm h0)
    apply reprDigits_number _ (stripZeros_lt _) (stripZeros_shortest_ne hf hm)
    intro e
    have hd0 : (shortest m).1 ≠ 0 := by
      intro h0
      have hsp := shortest_spec hf hm
      rw [h0] at hsp
      simp [roundMag_zero] at hsp
      rw [← hsp] at hm; exact absurd hm (lt_irrefl _)
    obtain ⟨k, hk⟩ := stripZeros_split (digits 10 (shortest m).1)
    have : (digits 10 (shortest m).1).head? = some 0 := by
      rw [hk, List.head?_append, e]
      rfl
    exact digits_head_ne_zero 10 _ (by omega) (Nat.pos_of_ne_zero hd0) 0 this rfl

theorem strOfInt_number (i : Int) (s : Str) (h : strOfInt i = .ok s) : IsNumber s := by
  unfold strOfInt at h
  simp only at h
  split at h
  · cases h
  · cases h
    have := (natDec_number i.natAbs).number (decide (i < 0))
    simpa using this

/-! ## Values in JSON -/

/-- A value that is a JSON value. -/
def Jsonable : PyVal → Prop
  | .float x => x.Wf
  | .int i => ∃ s, strOfInt i = .ok s
  | .str s => ∀ c ∈ s, 32 ≤ c ∧ c ≤ 126 ∧ c ≠ 34 ∧ c ≠ 92
  | _ => False

theorem Num.jsonable {v : PyVal} (h : Num v) : Jsonable v := by
  cases v <;> simp only [Num] at h <;> first | exact h | exact h.elim | skip
  subst h
  intro c hc; cases hc

theorem jsonString_plain (s : Str) (h : ∀ c ∈ s, 32 ≤ c ∧ c ≤ 126 ∧ c ≠ 34 ∧ c ≠ 92) : jsonString s = py!"\"" ++ s ++ py!"\"" := by
  have : s.flatMap jsonChar = s := by
    induction s with
    | nil => rfl
    | cons c s ih =>
      obtain ⟨h1, h2, h3, h4⟩ := h c (by simp)
      have hc : jsonChar c = [c] := by
        unfold jsonChar
        rw [if_neg h3, if_neg h4, if_neg (by omega), if_neg (by omega), if_neg (by omega), if_neg (by omega), if_neg (by omega),
          if_pos ⟨h1, h2⟩]
      rw [List.flatMap_cons, hc, ih (fun x hx => h x (by simp [hx]))]
      rfl
  unfold jsonString
  rw [this]
  simp

theorem jsonValue_ok {v : PyVal} (h : Jsonable v) : ∃ s, jsonValue v = .ok s ∧ (IsFiniteFloat v → IsJson s v) := by
  cases v with
  | str s => exact ⟨_, rfl, fun _ => ⟨h, jsonString_plain s h⟩⟩
  | int i =>
    obtain ⟨s, hs⟩ := h
    exact ⟨s, hs, fun _ => ⟨strOfInt_number i s hs, intOfStr_strOfInt i s hs⟩⟩
  | float x =>
    cases x with
    | nan => exact ⟨_, rfl, fun h => h.elim⟩
    | inf s => exact ⟨_, rfl, fun h => h.elim⟩
    | fin s m => exact ⟨_, rfl, fun _ => ⟨reprFloat_number s m h, floatOfStr_reprFloat _ h⟩⟩
  | _ => exact h.elim

theorem jsonMembers_ok (d : List (Str × PyVal)) (hk : ∀ m ∈ d, ∀ c ∈ m.1, 32 ≤ c ∧ c ≤ 126 ∧ c ≠ 34 ∧ c ≠ 92)
    (hv : ∀ m ∈ d, Jsonable m.2) :
    ∃ ts, jsonMembers d = .ok ts ∧ ((∀ m ∈ d, IsFiniteFloat m.2) →
      List.Forall₂ (fun t (m : Str × PyVal) => ∃ v, IsJson v m.2 ∧ t = py!"\"" ++ m.1 ++ py!"\": " ++ v) ts d) := by
  induction d with
  | nil => exact ⟨[], rfl, fun _ => .nil⟩
  | cons m d ih =>
    obtain ⟨k, v⟩ := m
    obtain ⟨ts, h1, h2⟩ := ih (fun m hm => hk m (by simp [hm])) (fun m hm => hv m (by simp [hm]))
    obtain ⟨s, h3, h4⟩ := jsonValue_ok (hv (k, v) (by simp))
    refine ⟨(jsonString k ++ py!": " ++ s) :: ts, ?_, ?_⟩
    · simp [jsonMembers, h1, h3, bind, Except.bind, pure, Except.pure]
    · intro hf
      refine .cons ⟨s, h4 (hf (k, v) (by simp)), ?_⟩ (h2 (fun m hm => hf m (by simp [hm])))
      rw [jsonString_plain k (hk (k, v) (by simp))]
      simp

theorem getData_ok (d : List (Str × PyVal)) (hk : ∀ m ∈ d, ∀ c ∈ m.1, 32 ≤ c ∧ c ≤ 126 ∧ c ≠ 34 ∧ c ≠ 92)
    (hv : ∀ m ∈ d, Jsonable m.2) :
    ∃ text, getData d = .ok text ∧ ((∀ m ∈ d, IsFiniteFloat m.2) → IsObject text d) := by
  obtain ⟨ts, h1, h2⟩ := jsonMembers_ok d hk hv
  refine ⟨_, by simp [getData, h1, bind, Except.bind, pure, Except.pure]; rfl, fun hf => ⟨ts, h2 hf, by simp⟩⟩

end Props.Web
