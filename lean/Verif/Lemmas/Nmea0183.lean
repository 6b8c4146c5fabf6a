import Verif.Spec.Nmea0183
import Verif.Props.Degrees
import Verif.Props.DateTime
import Verif.Props.Layout
import Verif.Lemmas.Dec
import Verif.Lemmas.FloatText
/-! # Lemmas: meaning of the fields and layouts of standard sentences -/
namespace Spec.Nmea0183
open Py Nmea Spec Props

/-- The kinds of the library's attribute types. -/
def kindOf (ty : Str) : Option Kind :=
  if ty ∈ [CH, ST, HX, QS] then some .text
  else if ty = IN then some .whole
  else if ty = DE then some .decimal
  else if ty = TM then some .time
  else if ty = DT then some .date
  else if ty = DM then some .usdate
  else if ty = LA then some .latitude
  else if ty = LN then some .longitude
  else if ty = LAD then some .north
  else if ty = LND then some .east
  else none

theorem number_eq (s : Str) : number s = asciiDigitsVal s := by
  unfold number asciiDigitsVal ofDigits
  rw [List.foldl_map]
  congr 1
  funext a c
  rw [Nat.mul_comm]

theorem IsDigits.ascii {s : Str} (h : IsDigits s) : ∀ c ∈ s, isAsciiDigit c = true := by
  intro c hc
  have := h c hc
  simp [isAsciiDigit]; omega

theorem digits_upper {s : Str} (h : IsDigits s) : s = (s.map (· - 48)).map digitUpper := by
  rw [List.map_map]
  symm
  calc s.map (digitUpper ∘ (· - 48)) = s.map id := by
        apply List.map_congr_left
        intro c hc
        have := h c hc
        simp only [Function.comp, digitUpper, id]
        rw [if_pos (by omega)]; omega
    _ = s := by simp

theorem reads_dot {ip fp : Str} (h1 : IsDigits ip) (h2 : IsDigits fp) (hne : ip ≠ []) :
    ReadsAs (ip ++ 46 :: fp) ((number (ip ++ fp) : ℚ) / 10 ^ fp.length) := by
  refine ⟨?_, head_digit h1.ascii hne _, ?_⟩
  · intro c hc
    rcases List.mem_append.1 hc with h | h
    · exact .inl (h1 c h)
    · rcases List.mem_cons.1 h with rfl | h
      · exact .inr (.inl rfl)
      · exact .inl (h2 c h)
  · intro neg
    have := floatOfBody_dot neg ip fp [] 0 h1.ascii h2.ascii (by simp) hne rfl
    rw [List.append_nil] at this
    rw [this, number_eq]
    congr 2
    rw [div_eq_mul_inv]
    congr 1
    rw [pow10_eq]
    simp

theorem reads_int {ip : Str} (h1 : IsDigits ip) (hne : ip ≠ []) : ReadsAs ip (number ip : ℚ) := by
  have hh := head_digit h1.ascii hne []
  rw [List.append_nil] at hh
  refine ⟨fun c hc => .inl (h1 c hc), hh, ?_⟩
  intro neg
  have := floatOfBody_nodot neg ip [] 0 h1.ascii (by simp) hne rfl
  rw [List.append_nil] at this
  rw [this, number_eq]
  congr 2
  simp [pow10]

theorem ofDigits_lt3 {s : Str} (hl : s.length ≤ 3) (h : IsDigits s) : ofDigits 10 (s.map (· - 48)) < 1000 := by
  have := Py.ofDigits_lt 10 (s.map (· - 48)) (by
    intro d hd
    obtain ⟨c, hc, rfl⟩ := List.mem_map.1 hd
    have := h c hc
    omega)
  have h2 : 10 ^ (s.map (· - 48)).length ≤ 10 ^ 3 := Nat.pow_le_pow_right (by omega) (by simpa using hl)
  omega

theorem kindOf_cases {kind : Kind} {ty : Str} (hk : kindOf ty = some kind) :
    (kind = .text ∧ ty ∈ [CH, ST, HX, QS]) ∨ (kind = .whole ∧ ty = IN) ∨ (kind = .decimal ∧ ty = DE) ∨
      (kind = .time ∧ ty = TM) ∨ (kind = .date ∧ ty = DT) ∨ (kind = .usdate ∧ ty = DM) ∨ (kind = .latitude ∧ ty = LA) ∨
      (kind = .longitude ∧ ty = LN) ∨ (kind = .north ∧ ty = LAD) ∨ (kind = .east ∧ ty = LND) := by
  unfold kindOf at hk
  split at hk
  · rename_i h'; cases hk; exact .inl ⟨rfl, h'⟩
  repeat' (split at hk <;> [(rename_i h'; cases hk; simp [h']); skip])
  cases hk


theorem kindOf_north {ty : Str} (h : kindOf ty = some .north) : ty = LAD := by
  simpa using kindOf_cases h

theorem kindOf_east {ty : Str} (h : kindOf ty = some .east) : ty = LND := by
  simpa using kindOf_cases h

/-- A well-formed field is converted to what it denotes. -/
theorem str2val_denotes {kind : Kind} {text ty : Str} {w : PyVal} (hk : kindOf ty = some kind)
    (h : Denotes kind text w) :
    ∃ v, str2val text ty = .ok v ∧ Denotes kind text v ∧ (kind ≠ .latitude → kind ≠ .longitude → v = w) := by
  have hty := kindOf_cases hk
  have hempty : ∀ ty' : Str, ty' ∈ [CH, ST, HX, QS, IN, DE, TM, DT, DM, LA, LN, LAD, LND] → str2val [] ty' = .ok (.str []) := by
    decide +kernel
  by_cases ht : text = []
  · subst ht
    refine ⟨.str [], hempty ty ?_, .empty kind, fun h1 h2 => ?_⟩
    rotate_left
    · generalize hte : ([] : Str) = te at h
      cases h with
      | empty => rfl
      | text | north | east => rw [← hte]
      | whole negative ds h3 =>
        exact absurd (List.append_eq_nil_iff.1 hte.symm).2 h3
      | decimal | fraction => 
        exfalso
        have := congrArg List.length hte
        simp at this
      | integral negative ip h3 =>
        exact absurd (List.append_eq_nil_iff.1 hte.symm).2 h3
      | time h m s hh hm hs => exfalso; rw [dec2 h (by omega)] at hte; simp at hte
      | date d hv => 
        exfalso
        have := day_le hv
        rw [dec2 d.day (by omega)] at hte; simp at hte
      | usdate d hv =>
        exfalso
        rw [dec2 d.month (by have := hv; simp only [Date.Valid] at this; omega)] at hte; simp at hte
      | latitude => exact absurd rfl h1
      | longitude => exact absurd rfl h2
    rcases hty with ⟨_, h'⟩ | ⟨_, h'⟩ | ⟨_, h'⟩ | ⟨_, h'⟩ | ⟨_, h'⟩ | ⟨_, h'⟩ | ⟨_, h'⟩ | ⟨_, h'⟩ | ⟨_, h'⟩ | ⟨_, h'⟩ <;>
      first
        | (simp only [List.mem_cons, List.not_mem_nil, or_false] at h'; rcases h' with rfl | rfl | rfl | rfl <;> simp)
        | (rw [h']; simp)
  cases h with
  | empty => exact absurd rfl ht
  | text =>
    refine ⟨.str text, ?_, .text text, fun _ _ => rfl⟩
    obtain h' : ty ∈ [CH, ST, HX, QS] := by simpa using hty
    simp only [List.mem_cons, List.not_mem_nil, or_false] at h'
    rcases h' with rfl | rfl | rfl | rfl <;> rfl
  | north =>
    obtain rfl : ty = LAD := by simpa using hty
    exact ⟨.str text, rfl, .north text, fun _ _ => rfl⟩
  | east =>
    obtain rfl : ty = LND := by simpa using hty
    exact ⟨.str text, rfl, .east text, fun _ _ => rfl⟩
  | whole negative ds h1 h2 h3 =>
    obtain rfl : ty = IN := by simpa using hty
    refine ⟨_, ?_, .whole negative ds h1 h2 h3, fun _ _ => rfl⟩
    have hd := intOfStr_digits ds (ds.map (· - 48)) (digits_upper h2) (by
      intro d hd
      obtain ⟨c, hc, rfl⟩ := List.mem_map.1 hd
      have := h2 c hc
      omega) (by simpa using h1) (by simpa [maxStrDigits] using h3)
    have hn : (ofDigits 10 (ds.map (· - 48))) = number ds := (number_eq ds).symm
    rw [hn] at hd
    have e : ∀ s : Str, s ≠ [] → str2val s IN = (intOfStr s).map .int := by
      intro s hs
      unfold str2val
      rw [if_neg (by decide), if_neg (by decide), if_neg (by decide), if_neg (by decide), if_pos rfl, if_pos hs]
    rw [e _ ht]
    cases negative with
    | false =>
      rw [show signText false ++ ds = ds from rfl, hd.1]; rfl
    | true =>
      rw [show signText true ++ ds = 45 :: ds from rfl, hd.2]; rfl
  | decimal negative ip fp h1 h2 h3 =>
    obtain rfl : ty = DE := by simpa using hty
    refine ⟨_, ?_, .decimal negative ip fp h1 h2 h3, fun _ _ => rfl⟩
    have hr := reads_dot h2 h3 h1
    have e : ∀ s : Str, s ≠ [] → str2val s DE = (floatOfStr s).map .float := by
      intro s hs
      unfold str2val
      rw [if_neg (by decide), if_neg (by decide), if_pos rfl, if_pos hs]
    rw [e _ ht]
    cases negative with
    | false =>
      rw [show signText false ++ ip ++ py!"." ++ fp = ip ++ 46 :: fp by simp [signText], hr.pos]; rfl
    | true =>
      rw [show signText true ++ ip ++ py!"." ++ fp = 45 :: (ip ++ 46 :: fp) by simp [signText], hr.neg]; rfl
  | integral negative ip h1 h2 =>
    obtain rfl : ty = DE := by simpa using hty
    refine ⟨_, ?_, .integral negative ip h1 h2, fun _ _ => rfl⟩
    have hr := reads_int h2 h1
    have e : ∀ s : Str, s ≠ [] → str2val s DE = (floatOfStr s).map .float := by
      intro s hs
      unfold str2val
      rw [if_neg (by decide), if_neg (by decide), if_pos rfl, if_pos hs]
    rw [e _ ht]
    cases negative with
    | false =>
      rw [show signText false ++ ip = ip from rfl, hr.pos]; rfl
    | true =>
      rw [show signText true ++ ip = 45 :: ip from rfl, hr.neg]; rfl
  | time h m s hh hm hs =>
    obtain rfl : ty = TM := by simpa using hty
    refine ⟨_, ?_, .time h m s hh hm hs, fun _ _ => rfl⟩
    have := C11_reads h m s hh hm hs [] (by simp) (by simp)
    simp only [if_true, List.append_nil] at this
    show Except.ok (time2utc _) = _
    rw [this]
    rfl
  | fraction h m s frac hh hm hs hd hne hl =>
    obtain rfl : ty = TM := by simpa using hty
    refine ⟨_, ?_, .fraction h m s frac hh hm hs hd hne hl, fun _ _ => rfl⟩
    have := C11_reads h m s hh hm hs frac hd hl
    rw [if_neg hne] at this
    show Except.ok (time2utc _) = _
    rw [show dec 2 h ++ dec 2 m ++ dec 2 s ++ py!"." ++ frac = dec 2 h ++ dec 2 m ++ dec 2 s ++ 46 :: frac by simp,
      this, number_eq]
  | date d hv h0 h1 =>
    obtain rfl : ty = DT := by simpa using hty
    refine ⟨_, ?_, .date d hv h0 h1, fun _ _ => rfl⟩
    have := C10_round_trip d hv h0 h1 DT (.inl rfl)
    show Except.ok (date2utc _ DT) = _
    rw [show dec 2 d.day ++ dec 2 d.month ++ dec 2 (d.year % 100) = date2str (.date d) DT from rfl, this]
  | usdate d hv h0 h1 =>
    obtain rfl : ty = DM := by simpa using hty
    refine ⟨_, ?_, .usdate d hv h0 h1, fun _ _ => rfl⟩
    have := C10_round_trip d hv h0 h1 DM (.inr rfl)
    show Except.ok (date2utc _ DM) = _
    rw [show dec 2 d.month ++ dec 2 d.day ++ dec 2 (d.year % 100) = date2str (.date d) DM from rfl, this]
  | latitude deg min frac r h1 h2 h3 h4 h5 h6 =>
    obtain rfl : ty = LA := by simpa using hty
    obtain ⟨r', e1, e2⟩ := C07_reading deg min frac h1 h2 h3 (by omega) h5 (by
      exact ofDigits_lt3 (by omega) h1)
    refine ⟨_, e1, .latitude deg min frac r' h1 h2 h3 h4 h5 ?_, fun h7 h8 => by first | exact absurd rfl h7 | exact absurd rfl h8⟩
    rw [number_eq, number_eq, number_eq]; exact e2
  | longitude deg min frac r h1 h2 h3 h4 h5 h6 =>
    obtain rfl : ty = LN := by simpa using hty
    obtain ⟨r', e1, e2⟩ := C07_reading deg min frac h1 h2 h3 (by omega) h5 (by
      exact ofDigits_lt3 (by omega) h1)
    refine ⟨_, e1, .longitude deg min frac r' h1 h2 h3 h4 h5 ?_, fun h7 h8 => by first | exact absurd rfl h7 | exact absurd rfl h8⟩
    rw [number_eq, number_eq, number_eq]; exact e2

/-! ## Layouts -/

/-- A group's members agree with a definition without groups. -/
def bodyMatches : PDict → List (Str × Kind) → Bool
  | .nil, [] => true
  | .single k t r, (n, kd) :: b => k == n && kindOf t == some kd && bodyMatches r b
  | _, _ => false

/-- A definition agrees with a layout. `acc` is what precedes, as long as no group has occurred; a counted
group must be counted by a whole number among that. -/
def layoutMatches : Option (List Slot) → PDict → List Item → Bool
  | _, .nil, [] => true
  | acc, .single k t r, .one n kd :: b =>
    k == n && kindOf t == some kd && layoutMatches (acc.map (· ++ [(k, t)])) r b
  | _, .group _ (.fixed z) body r, .times n b :: rest =>
    z == (n : Int) && bodyMatches body b && layoutMatches none r rest
  | _, .group _ .indet body r, .many b :: rest => b != [] && bodyMatches body b && layoutMatches none r rest
  | some acc, .group _ (.named c) body r, .counted p b :: rest =>
    (acc[p]? == some (c, IN) && decide (acc.map Prod.fst).Nodup && c != py!"lat" && c != py!"lon" &&
      c != py!"msgmode") && bodyMatches body b && layoutMatches none r rest
  | _, _, _ => false

/-- Slots and fields agree. -/
def Agree (s : List Slot) (l : List (Str × Kind)) : Prop :=
  s.map (fun x => (x.1, kindOf x.2)) = l.map (fun x => (x.1, some x.2))

theorem Agree.append {a b l m} (h : Agree a l) (h' : Agree b m) : Agree (a ++ b) (l ++ m) := by
  unfold Agree at *; rw [List.map_append, List.map_append, h, h']

theorem Agree.length {a l} (h : Agree a l) : a.length = l.length := by
  have := congrArg List.length h; simpa using this

theorem body_agree (body : PDict) (b : List (Str × Kind)) (h : bodyMatches body b = true) :
    IsStatic body = true ∧ body.len = b.length ∧
    ∀ sfx, Agree (slotsOf body sfx) (b.map fun x => (x.1 ++ sfx, x.2)) := by
  induction body generalizing b with
  | nil =>
    cases b with
    | nil => exact ⟨rfl, rfl, fun _ => rfl⟩
    | cons => cases h
  | single k t r ih =>
    cases b with
    | nil => cases h
    | cons x b =>
      obtain ⟨n, kd⟩ := x
      simp only [bodyMatches, Bool.and_eq_true, beq_iff_eq] at h
      obtain ⟨⟨rfl, h2⟩, h3⟩ := h
      obtain ⟨i1, i2, i3⟩ := ih b h3
      refine ⟨i1, by simp [PDict.len, i2], fun sfx => ?_⟩
      have := i3 sfx
      unfold Agree at *
      simp only [slotsOf, List.map_cons, h2]
      rw [this]
  | group => cases b <;> cases h

theorem repeated_agree (body : PDict) (b : List (Str × Kind)) (h : bodyMatches body b = true) (n : Nat) :
    Agree ((List.range n).flatMap fun i => slotsOf body (groupSuffix (i + 1))) (repeated n b) := by
  unfold repeated
  induction n with
  | zero => rfl
  | succ n ih =>
    simp only [List.range_succ, List.flatMap_append, List.flatMap_cons, List.flatMap_nil, List.append_nil]
    exact ih.append ((body_agree body b h).2.2 _)

theorem repeated_length (n : Nat) (b : List (Str × Kind)) : (repeated n b).length = n * b.length := by
  unfold repeated
  induction n with
  | zero => simp
  | succ n ih =>
    simp only [List.range_succ, List.flatMap_append, List.flatMap_cons, List.flatMap_nil, List.append_nil,
      List.length_append, List.length_map, ih, Nat.succ_mul]

/-- The number a count field holds. -/
theorem count_value {ds : Str} {w : PyVal} (h1 : ds ≠ []) (h2 : IsDigits ds) (h : Denotes .whole ds w) :
    Denotes .whole ds (.int (number ds)) := by
  have h3 : ds.length ≤ 4300 := by
    cases h with
    | empty => exact absurd rfl h1
    | whole negative ds' _ _ h3 =>
      cases negative with
      | false => simpa [signText] using h3
      | true =>
        have := h2 45 (by simp [signText])
        omega
  have := Denotes.whole false ds h1 h2 h3
  simpa [signText] using this

theorem readSlots_counts {fs : List Str} {acc : List Slot} {p : Nat} {c : Str}
    (hp : acc[p]? = some (c, IN)) (hn : (acc.map Prod.fst).Nodup) (h1 : c ≠ py!"lat") (h2 : c ≠ py!"lon")
    (hok : ∀ (q : Nat) s text, acc[q]? = some s → fs[q]? = some text →
      ∃ kind, kindOf s.2 = some kind ∧ ∃ w, Denotes kind text w)
    (hc : ∃ ds, fs[p]? = some ds ∧ ds ≠ [] ∧ IsDigits ds) :
    ∃ attrs, readSlots acc fs [] = .ok attrs ∧ lookup c attrs = some (.int (number (fs.getD p []))) := by
  obtain ⟨ds, hds, hne, hdig⟩ := hc
  cases h : readSlots acc fs [] with
  | error e =>
    exfalso
    obtain ⟨n, name, ty, text, e1, e2, e3⟩ := readSlots_error _ _ _ _ h
    obtain ⟨kind, hk, w, hw⟩ := hok n _ text e1 e2
    obtain ⟨_, h4, _⟩ := str2val_denotes hk hw
    rw [e3] at h4; cases h4
  | ok attrs =>
    refine ⟨attrs, rfl, ?_⟩
    obtain ⟨val, e1, e2⟩ := readSlots_value _ _ _ _ h hn p c IN ds hp hds h2 h1
    obtain ⟨kind, hk, w, hw⟩ := hok p _ ds hp hds
    have hk' : kindOf IN = some Kind.whole := by decide
    rw [hk'] at hk; cases hk
    obtain ⟨v, e3, _, e4⟩ := str2val_denotes hk' (count_value hne hdig hw)
    rw [e3] at e1; cases e1
    rw [e2, e4 (by decide) (by decide), List.getD_eq_getElem?_getD, hds]; rfl

theorem layout_expand (mode : Nat) (fs : List Str) (d : PDict) (lay : List Item) (acc : Option (List Slot))
    (h : layoutMatches acc d lay = true) (pre : List Slot) (hcnt : CountsGiven fs lay)
    (hacc : ∀ a, acc = some a → pre = a ∧ ∀ (q : Nat) s text, a[q]? = some s → fs[q]? = some text →
      ∃ kind, kindOf s.2 = some kind ∧ ∃ w, Denotes kind text w)
    (hw : ∀ (p : Nat) name kind text, (fields fs lay pre.length)[p]? = some (name, kind) →
      fs[pre.length + p]? = some text → ∃ val, Denotes kind text val) :
    ∃ S, Expand mode fs d [] pre (pre ++ S) ∧ Agree S (fields fs lay pre.length) := by
  induction d generalizing lay pre acc with
  | nil =>
    cases lay with
    | nil => exact ⟨[], by rw [List.append_nil]; exact .nil _ _, rfl⟩
    | cons => cases acc <;> cases h
  | single k t r ih =>
    cases lay with
    | nil => cases acc <;> cases h
    | cons x lay =>
      cases x with
      | one n kd =>
        simp only [layoutMatches, Bool.and_eq_true, beq_iff_eq] at h
        obtain ⟨⟨rfl, h2⟩, h3⟩ := h
        obtain ⟨S, i1, i2⟩ := ih lay _ h3 (pre ++ [(k, t)])
          (fun p b hb => hcnt p b (List.mem_cons_of_mem _ hb)) (by
            intro a ha
            cases acc with
            | none => cases ha
            | some a0 =>
              cases ha
              obtain ⟨rfl, ha2⟩ := hacc a0 rfl
              refine ⟨rfl, ?_⟩
              intro q s text hq ht
              rw [List.getElem?_append] at hq
              split at hq
              · exact ha2 q s text hq ht
              · rename_i hlt
                obtain ⟨j, rfl⟩ : ∃ j, q = pre.length + j := ⟨q - pre.length, by omega⟩
                cases j with
                | zero =>
                  simp only [Nat.add_zero, Nat.sub_self, List.getElem?_cons_zero, Option.some.injEq] at hq
                  subst hq
                  exact ⟨kd, h2, hw 0 k kd text (by simp [fields]) ht⟩
                | succ j =>
                  simp at hq) (by
            intro p name kind text hp ht
            rw [List.length_append, List.length_singleton] at hp ht
            exact hw (p + 1) name kind text (by simpa [fields] using hp)
              (by rw [← ht]; congr 1; omega))
        refine ⟨(k, t) :: S, ?_, ?_⟩
        · apply Expand.single
          simpa using i1
        · simp only [fields, List.length_append, List.length_cons, List.length_nil, Nat.zero_add] at i2 ⊢
          unfold Agree at *
          simp only [List.map_cons, h2, i2]
      | times => cases acc <;> cases h
      | many => cases acc <;> cases h
      | counted => cases acc <;> cases h
  | group k rep body r _ ihr =>
    have main : ∀ (n : Nat) (b : List (Str × Kind)) (rest : List Item), bodyMatches body b = true →
        layoutMatches none r rest = true → CountsGiven fs rest →
        (∀ (p : Nat) name kind text, (repeated n b ++ fields fs rest (pre.length + n * b.length))[p]? =
          some (name, kind) → fs[pre.length + p]? = some text → ∃ val, Denotes kind text val) →
        Repeats mode fs pre (keysOf body).length rep n →
        ∃ S, Expand mode fs (.group k rep body r) [] pre (pre ++ S) ∧
          Agree S (repeated n b ++ fields fs rest (pre.length + n * b.length)) := by
      intro n b rest hb hr hcnt' hw' hrep
      have ha := repeated_agree body b hb n
      have hlen : (pre ++ (List.range n).flatMap fun i => slotsOf body (groupSuffix (i + 1))).length =
          pre.length + n * b.length := by
        rw [List.length_append, ha.length, repeated_length]
      obtain ⟨S, i1, i2⟩ := ihr rest none hr
        (pre ++ (List.range n).flatMap fun i => slotsOf body (groupSuffix (i + 1))) hcnt'
        (fun a ha => by cases ha) (by
          intro p name kind text hp ht
          rw [hlen] at hp ht
          refine hw' (n * b.length + p) name kind text ?_ (by rw [← ht]; congr 1; omega)
          rw [List.getElem?_append_right (by rw [repeated_length]; omega), repeated_length,
            Nat.add_sub_cancel_left]
          exact hp)
      refine ⟨((List.range n).flatMap fun i => slotsOf body (groupSuffix (i + 1))) ++ S, ?_, ?_⟩
      · refine .group k rep body r [] pre _ n
          (fun j => pre ++ (List.range j).flatMap fun i => slotsOf body (groupSuffix (i + 1))) hrep (by simp) ?_ ?_
        · intro i _
          have := expand_static mode fs body (body_agree body b hb).1 ([] ++ groupSuffix (i + 1))
            (pre ++ (List.range i).flatMap fun i => slotsOf body (groupSuffix (i + 1)))
          simpa [List.range_succ] using this
        · rw [← List.append_assoc]; exact i1
      · apply ha.append
        rw [hlen] at i2
        exact i2
    cases lay with
    | nil => cases rep <;> cases acc <;> cases h
    | cons x lay =>
      have hcnt' : CountsGiven fs lay := fun p b hb => hcnt p b (List.mem_cons_of_mem _ hb)
      cases x with
      | one => cases rep <;> cases acc <;> cases h
      | times n b =>
        cases rep with
        | fixed z =>
          simp only [layoutMatches, Bool.and_eq_true, beq_iff_eq] at h
          obtain ⟨⟨rfl, h2⟩, h3⟩ := h
          exact main n b lay h2 h3 hcnt' hw (Repeats.fixed (n : Int))
        | indet => cases acc <;> cases h
        | named => cases acc <;> cases h
      | many b =>
        cases rep with
        | fixed z => cases acc <;> cases h
        | indet =>
          simp only [layoutMatches, Bool.and_eq_true, bne_iff_ne, ne_eq] at h
          obtain ⟨⟨h1, h2⟩, h3⟩ := h
          have hl := (body_agree body b h2).2.1
          refine main _ b lay h2 h3 hcnt' hw ?_
          rw [keysOf_length, hl]
          exact .indet (by simpa using h1)
        | named => cases acc <;> cases h
      | counted p b =>
        cases rep with
        | fixed z => cases acc <;> cases h
        | indet => cases acc <;> cases h
        | named c =>
          cases acc with
          | none => cases h
          | some a =>
            simp only [layoutMatches, Bool.and_eq_true, beq_iff_eq, bne_iff_ne, ne_eq, decide_eq_true_eq] at h
            obtain ⟨⟨⟨⟨⟨⟨h1, h2⟩, h3⟩, h4⟩, h5⟩, h6⟩, h7⟩ := h
            obtain ⟨rfl, hok⟩ := hacc a rfl
            obtain ⟨attrs, e1, e2⟩ := readSlots_counts h1 h2 h3 h4 hok (hcnt p b (by simp))
            refine main _ b lay h6 h7 hcnt' hw ?_
            exact Repeats.named c attrs _ e1 h5 e2

/-! ## Names -/

/-- Names of a layout, groups once. -/
def baseNames : List Item → List Str
  | [] => []
  | .one n _ :: r => n :: baseNames r
  | .times _ b :: r => b.map Prod.fst ++ baseNames r
  | .many b :: r => b.map Prod.fst ++ baseNames r
  | .counted _ b :: r => b.map Prod.fst ++ baseNames r

/-- A decimal digit. -/
def isDig (c : Nat) : Bool := decide (48 ≤ c) && decide (c ≤ 57)

/-- A name without the number of a repetition, that is, without an underscore and digits at its end. -/
def stem (s : Str) : Str :=
  match s.reverse.dropWhile isDig with
  | 95 :: t => if (s.reverse.head?.map isDig).getD false then t.reverse else s
  | _ => s

theorem fmt02d_dig (j : Nat) : fmt02d j ≠ [] ∧ ∀ c ∈ fmt02d j, isDig c = true := by
  have hd : ∀ c ∈ fmt02d j, isDig c = true := by
    intro c hc
    unfold fmt02d padZero at hc
    rcases List.mem_append.1 hc with h | h
    · rw [(List.mem_replicate.1 h).2]; decide
    · have := natDec_hex j c h
      simp [isDig]; omega
  refine ⟨?_, hd⟩
  intro h
  unfold fmt02d padZero at h
  exact natDec_ne_nil j (List.append_eq_nil_iff.1 h).2

theorem stem_suffix (n : Str) (j : Nat) : stem (n ++ groupSuffix j) = n := by
  obtain ⟨h1, h2⟩ := fmt02d_dig j
  unfold stem groupSuffix
  have e : (n ++ (py!"_" ++ fmt02d j)).reverse = (fmt02d j).reverse ++ 95 :: n.reverse := by simp
  rw [e, List.dropWhile_append_of_pos (by intro c hc; exact h2 c (List.mem_reverse.1 hc))]
  rw [List.dropWhile_cons_of_neg (by decide)]
  simp only
  rw [if_pos, List.reverse_reverse]
  cases hr : (fmt02d j).reverse with
  | nil => simp at hr; exact absurd hr h1
  | cons c r =>
    have : c ∈ fmt02d j := by rw [← List.mem_reverse, hr]; simp
    simp [h2 c this]

theorem suffix_inj {a b : Nat} (h : groupSuffix a = groupSuffix b) : a = b := by
  unfold groupSuffix at h
  exact fmt02d_inj a b (List.append_cancel_left h)

theorem repeated_nodup (n : Nat) (b : List (Str × Kind)) (hb : (b.map Prod.fst).Nodup) :
    ((repeated n b).map Prod.fst).Nodup := by
  unfold repeated
  induction n with
  | zero => simp
  | succ n ih =>
    simp only [List.range_succ, List.flatMap_append, List.flatMap_cons, List.flatMap_nil, List.append_nil,
      List.map_append]
    rw [List.nodup_append]
    refine ⟨ih, ?_, ?_⟩
    · rw [List.map_map]
      have : (Prod.fst ∘ fun x : Str × Kind => (x.1 ++ groupSuffix (n + 1), x.2)) =
        (fun s => s ++ groupSuffix (n + 1)) ∘ Prod.fst := rfl
      rw [this, ← List.map_map]
      exact (List.pairwise_map).2 (hb.imp (fun hne h => hne (List.append_cancel_right h)))
    · intro x hx y hy hxy
      subst hxy
      simp only [List.mem_map, List.mem_flatMap, List.mem_range] at hx hy
      obtain ⟨_, ⟨j, hj, z, hz, rfl⟩, rfl⟩ := hx
      obtain ⟨_, ⟨w, hw, rfl⟩, h⟩ := hy
      simp only at h
      have h1 := congrArg stem h
      rw [stem_suffix, stem_suffix] at h1
      rw [h1] at h
      have := suffix_inj (List.append_cancel_left h)
      omega

theorem stem_mem (f : List Str) (lay : List Item) (pos : Nat) (hu : ∀ x ∈ baseNames lay, stem x = x) :
    ∀ x ∈ (fields f lay pos).map Prod.fst, stem x ∈ baseNames lay := by
  have hrep : ∀ n (b : List (Str × Kind)),
      ∀ x ∈ (repeated n b).map Prod.fst, stem x ∈ b.map Prod.fst := by
    intro n b x hx
    simp only [repeated, List.mem_map, List.mem_flatMap, List.mem_range] at hx
    obtain ⟨_, ⟨j, _, z, hz, rfl⟩, rfl⟩ := hx
    simp only
    rw [stem_suffix]
    exact List.mem_map_of_mem hz
  induction lay generalizing pos with
  | nil => simp [fields]
  | cons i r ih =>
    cases i with
    | one n k =>
      intro x hx
      simp only [fields, List.map_cons, List.mem_cons] at hx
      simp only [baseNames, List.mem_cons] at hu ⊢
      rcases hx with rfl | hx
      · left; rw [hu _ (.inl rfl)]
      · right; exact ih _ (fun y hy => hu y (.inr hy)) x hx
    | times n b =>
      intro x hx
      simp only [fields, List.map_append, List.mem_append] at hx
      simp only [baseNames, List.mem_append] at hu ⊢
      rcases hx with hx | hx
      · left; exact hrep n b x hx
      · right; exact ih _ (fun y hy => hu y (.inr hy)) x hx
    | many b | counted _ b =>
      intro x hx
      simp only [fields, List.map_append, List.mem_append] at hx
      simp only [baseNames, List.mem_append] at hu ⊢
      rcases hx with hx | hx
      · left; exact hrep _ b x hx
      · right; exact ih _ (fun y hy => hu y (.inr hy)) x hx

theorem fields_nodup (f : List Str) (lay : List Item) (pos : Nat) (hn : (baseNames lay).Nodup)
    (hu : ∀ x ∈ baseNames lay, stem x = x) : ((fields f lay pos).map Prod.fst).Nodup := by
  have hgroup : ∀ n (b : List (Str × Kind)) (r : List Item) (p : Nat), (b.map Prod.fst ++ baseNames r).Nodup →
      (∀ x ∈ b.map Prod.fst ++ baseNames r, stem x = x) → ((fields f r p).map Prod.fst).Nodup →
      ((repeated n b ++ fields f r p).map Prod.fst).Nodup := by
    intro n b r p h1 h2 h3
    rw [List.nodup_append] at h1
    rw [List.map_append, List.nodup_append]
    refine ⟨repeated_nodup n b h1.1, h3, ?_⟩
    intro x hx y hy hxy
    subst hxy
    have s2 := stem_mem f r p (fun z hz => h2 z (List.mem_append_right _ hz)) x hy
    simp only [repeated, List.mem_map, List.mem_flatMap, List.mem_range] at hx
    obtain ⟨_, ⟨j, _, z, hz, rfl⟩, rfl⟩ := hx
    simp only at s2
    rw [stem_suffix] at s2
    exact h1.2.2 _ (List.mem_map_of_mem hz) _ s2 rfl
  induction lay generalizing pos with
  | nil => simp [fields]
  | cons i r ih =>
    cases i with
    | one n k =>
      simp only [baseNames, List.nodup_cons, List.mem_cons] at hn hu
      simp only [fields, List.map_cons, List.nodup_cons]
      refine ⟨fun hx => hn.1 ?_, ih _ hn.2 (fun y hy => hu y (.inr hy))⟩
      have := stem_mem f r (pos + 1) (fun y hy => hu y (.inr hy)) n hx
      rwa [hu _ (.inl rfl)] at this
    | times n b =>
      simp only [baseNames] at hn hu
      exact hgroup n b r _ hn hu (ih _ (List.nodup_append.1 hn).2.1 (fun y hy => hu y (List.mem_append_right _ hy)))
    | many b | counted _ b =>
      simp only [baseNames] at hn hu
      exact hgroup _ b r _ hn hu (ih _ (List.nodup_append.1 hn).2.1 (fun y hy => hu y (List.mem_append_right _ hy)))

/-- Every element is a single field. -/
def flat : List Item → Bool
  | [] => true
  | .one _ _ :: r => flat r
  | _ :: _ => false

theorem fields_flat (f : List Str) (lay : List Item) (pos : Nat) (h : flat lay = true) :
    (fields f lay pos).map Prod.fst = baseNames lay := by
  induction lay generalizing pos with
  | nil => rfl
  | cons i r ih =>
    cases i with
    | one n k => simp only [fields, List.map_cons, baseNames, ih _ h]
    | times | many | counted => cases h

end Spec.Nmea0183
