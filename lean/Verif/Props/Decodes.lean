import Verif.Model.Decodes
import Verif.Spec.Decodes
import Verif.Props.Standard
/-!
# The decode tables (C82)
-/
namespace Props.Decodes
open Py Nmea Spec Spec.Nmea0183 Spec.Decodes Props

/-- What is checked of a coded field: where it is and its type. -/
def codedOk (i : Str) (p : Nat) (name : Str) (tys : List Str) : Bool :=
  match lookup (upper i) (standardDefs 0) with
  | none => false
  | some d =>
    IsStatic d && decide ((slotsOf d []).map Prod.fst).Nodup && decide (IsStandard i) && decide (i ∉ NMEA_PREFIX_PROP) &&
      decide (i.length = 3) && decide (name ≠ py!"lon") && decide (name ≠ py!"lat") &&
      (match (slotsOf d [])[p]? with | some s => decide (s.1 = name ∧ s.2 ∈ tys) | none => false)

theorem coded_attribute {i : Str} {p : Nat} {name : Str} {tys : List Str} (hok : codedOk i p name tys = true)
    {now : Nat → DateTime} {msg : RawMsg} {v : Nat} {u : UDefs} {c t k : Str} {f : List Str} {m : Msg} {text : Str}
    (hs : IsSentence msg c t i f k) (h : parse now msg 0 v u = .ok (some m)) (hp : f[p]? = some text) :
    ∃ ty val, ty ∈ tys ∧ str2val text ty = .ok val ∧ lookup name m.attrs = some val := by
  unfold codedOk at hok
  cases hd : lookup (upper i) (standardDefs 0) with
  | none => rw [hd] at hok; cases hok
  | some d =>
    rw [hd] at hok
    simp only [Bool.and_eq_true, decide_eq_true_eq] at hok
    obtain ⟨⟨⟨⟨⟨⟨⟨hst, hnd⟩, hstd⟩, hpre⟩, hlen⟩, hlon⟩, hlat⟩, hslot⟩ := hok
    have hmem : (upper i, d) ∈ standardDefs 0 := lookup_some_mem _ _ _ hd
    have hft : fieldTexts t i f = f := by
      apply fieldTexts_id
      have htl : t.length ≤ 2 := by
        obtain ⟨_, _, _, _, _, h⟩ := hs
        rcases h with rfl | ⟨_, h | h⟩
        · decide
        · omega
        · omega
      rintro (h | ⟨_, h, _⟩)
      · have := congrArg List.length h
        rw [List.length_append, hlen] at this
        have e : (py!"PSSNSNC").length = 7 := by decide
        omega
      · subst h
        exact hpre (by decide)
    have ha := admitted_of_accept _ _ _ _ _ _ _ _ _ _ hs _ h
    obtain ⟨slots, hx, hr⟩ := (C16_layout now msg 0 v u c t i k f hs ha d (layout_definition hd hstd hpre u f)
      (tables_sane.1 0 _ hmem) m.attrs).1 ⟨m, h, rfl⟩
    rw [hft] at hx hr
    rw [expand_static_iff _ _ _ hst] at hx
    subst hx
    cases hsl : (slotsOf d [])[p]? with
    | none => rw [hsl] at hslot; cases hslot
    | some s =>
      rw [hsl] at hslot
      obtain ⟨n, ty⟩ := s
      simp only [decide_eq_true_eq] at hslot
      obtain ⟨rfl, hty⟩ := hslot
      obtain ⟨val, h1, h2⟩ := readSlots_value _ _ _ _ hr hnd p n ty text hsl hp hlon hlat
      exact ⟨ty, val, hty, h1, h2⟩

theorem text_value {text ty : Str} {val : PyVal} (hty : ty ∈ [Nmea.ST, CH, HX]) (h : str2val text ty = .ok val) :
    val = .str text := by
  simp only [List.mem_cons, List.not_mem_nil, or_false] at hty
  rcases hty with rfl | rfl | rfl <;> (simp only [str2val] at h; revert h; simp) <;> intro h <;> exact h.symm

theorem coded_ok : (systemFields.all (fun x => codedOk x.1 x.2 py!"systemId" [Nmea.ST, CH, HX]) &&
    signalFields.all (fun x => codedOk x.1 (x.2 + 1) py!"signalId" [Nmea.ST, CH, HX]) &&
    modeFields.all (fun x => codedOk x.1 x.2 py!"posMode" [Nmea.ST, CH, HX]) &&
    codedOk py!"GGA" 5 py!"quality" [IN] && codedOk py!"FMI" 11 py!"status" [Nmea.ST, CH, HX] &&
    codedOk py!"GNS" 5 py!"posMode" [Nmea.ST, CH, HX]) = true := by decide +kernel

theorem lookup_iff {α : Type} [BEq α] [LawfulBEq α] {β : Type} {d : List (α × β)} (hn : (d.map Prod.fst).Nodup) (a : α) (b : β) :
    d.lookup a = some b ↔ (a, b) ∈ d := by
  induction d with
  | nil => simp
  | cons x r ih =>
    obtain ⟨y, z⟩ := x
    simp only [List.map_cons, List.nodup_cons] at hn
    rw [List.lookup_cons]
    by_cases e : a = y
    · subst e
      simp only [beq_self_eq_true, List.mem_cons, Prod.mk.injEq, true_and]
      constructor
      · intro h; simp only [Option.some.injEq] at h; exact .inl h.symm
      · rintro (h | h)
        · rw [h]
        · exact absurd (List.mem_map.2 ⟨_, h, rfl⟩) hn.1
    · have e' : (a == y) = false := by simpa using e
      rw [e']
      simp only [ih hn.2, List.mem_cons, Prod.mk.injEq, e, false_and, false_or]

theorem decodeStr_iff {α : Type} {d : List (Str × α)} (hn : (d.map Prod.fst).Nodup) (s : Str) (b : α) :
    decodeStr d (.str s) = .ok b ↔ (s, b) ∈ d := by
  unfold decodeStr
  constructor
  · intro h
    simp only at h
    split at h
    · rename_i x hx
      cases h
      exact (lookup_iff hn _ _).1 hx
    · cases h
  · intro h
    simp only [(lookup_iff hn _ _).2 h]

theorem decodeInt_iff {α : Type} {d : List (Int × α)} (hn : (d.map Prod.fst).Nodup) (n : Int) (b : α) :
    decodeInt d (.int n) = .ok b ↔ (n, b) ∈ d := by
  unfold decodeInt
  constructor
  · intro h
    simp only at h
    split at h
    · rename_i x hx
      cases h
      exact (lookup_iff hn _ _).1 hx
    · cases h
  · intro h
    simp only [(lookup_iff hn _ _).2 h]

theorem decodePair_iff {α : Type} {d : List ((Str × Str) × α)} (hn : (d.map Prod.fst).Nodup) (s t : Str) (b : α) :
    decodePair d (.str s) (.str t) = .ok b ↔ ((s, t), b) ∈ d := by
  unfold decodePair
  constructor
  · intro h
    simp only at h
    split at h
    · rename_i x hx
      cases h
      exact (lookup_iff hn _ _).1 hx
    · cases h
  · intro h
    simp only [(lookup_iff hn _ _).2 h]

/-- The attribute `systemId` of a received sentence can be looked up in `SYSTEMID`: this gives the name of the system
exactly if the field is the code of a system, and otherwise fails. -/
theorem C82_system (now : Nat → DateTime) (msg : RawMsg) (v : Nat) (u : UDefs) (c t i k : Str) (f : List Str) (m : Msg)
    (p : Nat) (hi : (i, p) ∈ systemFields) (text : Str) (hs : IsSentence msg c t i f k)
    (h : parse now msg 0 v u = .ok (some m)) (hp : f[p]? = some text) :
    ∃ val, lookup py!"systemId" m.attrs = some val ∧
      (∀ name, decodeStr SYSTEMID val = .ok name ↔ (text, name) ∈ systems) := by
  have hok := coded_ok
  simp only [Bool.and_eq_true, List.all_eq_true] at hok
  obtain ⟨ty, val, hty, hv, hl⟩ := coded_attribute (hok.1.1.1.1.1 _ hi) hs h hp
  rw [text_value hty hv] at hl
  refine ⟨_, hl, fun name => ?_⟩
  rw [decodeStr_iff (by decide), show SYSTEMID = systems from rfl]

/-- The attributes `systemId` and `signalId` of a received sentence can be looked up in `SIGNALID`; if this succeeds, both
fields are codes, and the description of the signal begins with the name of the system, in capitals or not. -/
theorem C82_signal (now : Nat → DateTime) (msg : RawMsg) (v : Nat) (u : UDefs) (c t i k : Str) (f : List Str) (m : Msg)
    (p : Nat) (hi : (i, p) ∈ signalFields) (a b : Str) (hs : IsSentence msg c t i f k)
    (h : parse now msg 0 v u = .ok (some m)) (hp : f[p]? = some a) (hq : f[p + 1]? = some b) :
    ∃ x y, lookup py!"systemId" m.attrs = some x ∧ lookup py!"signalId" m.attrs = some y ∧
      (∀ text, decodePair SIGNALID x y = .ok text → b.length = 1 ∧
        ∃ name, (a, name) ∈ systems ∧ upper name <+: upper text) ∧
      ((∃ text, decodePair SIGNALID x y = .ok text) ↔ (a, b) ∈ SIGNALID.map Prod.fst) := by
  have hok := coded_ok
  simp only [Bool.and_eq_true, List.all_eq_true] at hok
  have hi' : (i, p) ∈ systemFields := by
    revert hi; simp only [signalFields, systemFields, List.mem_cons, List.not_mem_nil, or_false]; tauto
  obtain ⟨ty, val, hty, hv, hl⟩ := coded_attribute (hok.1.1.1.1.1 _ hi') hs h hp
  obtain ⟨ty2, val2, hty2, hv2, hl2⟩ := coded_attribute (hok.1.1.1.1.2 _ hi) hs h hq
  rw [text_value hty hv] at hl
  rw [text_value hty2 hv2] at hl2
  have hn : (SIGNALID.map Prod.fst).Nodup := by decide +kernel
  refine ⟨_, _, hl, hl2, fun text ht => ?_, ?_⟩
  · rw [decodePair_iff hn] at ht
    have : ∀ x ∈ SIGNALID, x.1.2.length = 1 ∧ ∃ y ∈ systems, y.1 = x.1.1 ∧ upper y.2 <+: upper x.2 := by decide +kernel
    obtain ⟨h1, y, hy, e1, e2⟩ := this _ ht
    exact ⟨h1, y.2, by rw [← show y.1 = a from e1]; exact hy, e2⟩
  · simp only [decodePair_iff hn, List.mem_map]
    constructor
    · rintro ⟨x, hx⟩; exact ⟨_, hx, rfl⟩
    · rintro ⟨⟨_, x⟩, hx, rfl⟩; exact ⟨x, hx⟩

/-- But of the eight signals of GPS three are missing. -/
theorem C82_signals_missing :
    gpsSignals.filter (fun s => (SIGNALID.lookup (py!"1", s)).isNone) = [py!"2", py!"3", py!"4"] := by decide +kernel

/-- The quality of a position can be looked up in `FIXTYPE_GGA` exactly up to 6: the values 7 (manual input) and 8
(simulator) of the standard, and an empty field, raise `KeyError`. -/
theorem C82_quality (now : Nat → DateTime) (msg : RawMsg) (v : Nat) (u : UDefs) (c t k : Str) (f : List Str) (m : Msg)
    (text : Str) (hs : IsSentence msg c t py!"GGA" f k) (h : parse now msg 0 v u = .ok (some m))
    (hp : f[5]? = some text) :
    ∃ val, lookup py!"quality" m.attrs = some val ∧ (text = [] → val = .str []) ∧
      (IsDigits text → text ≠ [] → text.length ≤ 4300 → val = .int (number text) ∧
        ((∃ x, decodeInt FIXTYPE_GGA val = .ok x) ↔ number text ≤ 6) ∧
        (decodeInt FIXTYPE_GGA val = .ok py!"NO FIX" ↔ number text = 0) ∧
        (decodeInt FIXTYPE_GGA val = .ok py!"RTK FIXED" ↔ number text = 4) ∧
        (decodeInt FIXTYPE_GGA val = .ok py!"RTK FLOAT" ↔ number text = 5) ∧
        (decodeInt FIXTYPE_GGA val = .ok py!"DR ONLY" ↔ number text = 6)) ∧
      (text = [] → decodeInt FIXTYPE_GGA val = .error .key) := by
  have hok := coded_ok
  simp only [Bool.and_eq_true] at hok
  obtain ⟨ty, val, hty, hv, hl⟩ := coded_attribute hok.1.1.2 hs h hp
  simp only [List.mem_cons, List.not_mem_nil, or_false] at hty
  subst hty
  have he : text = [] → val = .str [] := by
    rintro rfl
    have : str2val [] IN = .ok (.str []) := by decide
    rw [this] at hv; cases hv; rfl
  refine ⟨val, hl, he, fun hd hne hlen => ?_, fun e => by rw [he e]; rfl⟩
  have hval : val = .int (number text) := by
    obtain ⟨w, e1, _, e2⟩ := str2val_denotes (show kindOf IN = some .whole by decide) (Denotes.whole false text hne hd hlen)
    have e3 : signText false ++ text = text := rfl
    rw [e3, hv] at e1
    cases e1
    exact (e2 (by decide) (by decide)).trans (by simp)
  subst hval
  have hn : (FIXTYPE_GGA.map Prod.fst).Nodup := by decide +kernel
  simp only [decodeInt_iff hn]
  generalize number text = n
  refine ⟨trivial, ?_, ?_, ?_, ?_, ?_⟩
  · constructor
    · rintro ⟨x, hx⟩
      have : ∀ y ∈ FIXTYPE_GGA, y.1 ≤ 6 := by decide +kernel
      have := this _ hx
      simp only at this
      omega
    · intro hle
      have : ∀ j : Fin 7, ∃ y ∈ FIXTYPE_GGA, y.1 = (j.1 : Int) := by decide +kernel
      obtain ⟨⟨y1, y2⟩, hy, e⟩ := this ⟨n, by omega⟩
      simp only at e
      subst e
      exact ⟨_, hy⟩
  all_goals
    simp only [FIXTYPE_GGA, List.mem_cons, Prod.mk.injEq, List.not_mem_nil, or_false]
    constructor
    · intro h
      revert h
      simp
      try omega
    · rintro rfl
      decide

/-- The label of the two most common values, 1 and 2, is "2D" and "3D"; in the standard they mean a position without and
with differential corrections. -/
theorem C82_quality_labels : FIXTYPE_GGA.lookup 1 = some py!"2D" ∧ FIXTYPE_GGA.lookup 2 = some py!"3D" := by decide

/-- The mode indicator of a received sentence can be looked up in `POSMODE`; only for the manual, precise and simulator
modes of the standard this raises `KeyError`. What it says is right for no fix, dead reckoning and both kinds of RTK. -/
theorem C82_mode (now : Nat → DateTime) (msg : RawMsg) (v : Nat) (u : UDefs) (c t i k : Str) (f : List Str) (m : Msg)
    (p : Nat) (hi : (i, p) ∈ modeFields) (text : Str) (hs : IsSentence msg c t i f k)
    (h : parse now msg 0 v u = .ok (some m)) (hp : f[p]? = some text) :
    ∃ val, lookup py!"posMode" m.attrs = some val ∧
      ((∃ x, decodeStr POSMODE val = .ok x) ↔ text ∈ modes ∧ text ∉ [py!"M", py!"P", py!"S"]) ∧
      ∀ x, decodeStr POSMODE val = .ok x →
        (x = py!"N/A" ↔ text = py!"N") ∧ (x = py!"DR" ↔ text = py!"E") ∧ (x = py!"RTK FLOAT" ↔ text = py!"F") ∧
        (x = py!"RTK FIXED" ↔ text = py!"R") := by
  have hok := coded_ok
  simp only [Bool.and_eq_true, List.all_eq_true] at hok
  obtain ⟨ty, val, hty, hv, hl⟩ := coded_attribute (hok.1.1.1.2 _ hi) hs h hp
  rw [text_value hty hv] at hl
  refine ⟨_, hl, ?_⟩
  have hn : (POSMODE.map Prod.fst).Nodup := by decide +kernel
  simp only [decodeStr_iff hn]
  refine ⟨?_, fun x hx => ?_⟩
  swap
  · have : ∀ y ∈ POSMODE, (y.2 = py!"N/A" ↔ y.1 = py!"N") ∧ (y.2 = py!"DR" ↔ y.1 = py!"E") ∧
        (y.2 = py!"RTK FLOAT" ↔ y.1 = py!"F") ∧ (y.2 = py!"RTK FIXED" ↔ y.1 = py!"R") := by decide +kernel
    exact this _ hx
  constructor
  · rintro ⟨x, hx⟩
    have : ∀ y ∈ POSMODE, y.1 ∈ modes ∧ y.1 ∉ [py!"M", py!"P", py!"S"] := by decide +kernel
    exact this _ hx
  · rintro ⟨h1, h2⟩
    have : ∀ y ∈ modes, y ∉ [py!"M", py!"P", py!"S"] → ∃ z ∈ POSMODE, z.1 = y := by decide +kernel
    obtain ⟨⟨z1, z2⟩, hz, rfl⟩ := this _ h1 h2
    exact ⟨_, hz⟩

/-- The mode indicator of `GNS` has one letter for each satellite system; with two letters or more the lookup fails. -/
theorem C82_mode_gns (now : Nat → DateTime) (msg : RawMsg) (v : Nat) (u : UDefs) (c t k : Str) (f : List Str) (m : Msg)
    (text : Str) (hs : IsSentence msg c t py!"GNS" f k) (h : parse now msg 0 v u = .ok (some m))
    (hp : f[5]? = some text) (hlen : 2 ≤ text.length) :
    ∃ val, lookup py!"posMode" m.attrs = some val ∧ decodeStr POSMODE val = .error .key := by
  have hok := coded_ok
  simp only [Bool.and_eq_true] at hok
  obtain ⟨ty, val, hty, hv, hl⟩ := coded_attribute hok.2 hs h hp
  rw [text_value hty hv] at hl
  refine ⟨_, hl, ?_⟩
  have hn : (POSMODE.map Prod.fst).Nodup := by decide +kernel
  have hno : ∀ x, decodeStr POSMODE (.str text) ≠ .ok x := by
    intro x hx
    have hm := (decodeStr_iff hn _ _).1 hx
    have : ∀ y ∈ POSMODE, y.1.length = 1 := by decide +kernel
    have := this _ hm
    simp only at this
    omega
  unfold decodeStr at hno ⊢
  simp only at hno ⊢
  split
  · rename_i x hx
    rw [hx] at hno
    exact absurd rfl (hno x)
  · rfl

/-- The keys of `FMI_STATUS` are single bits, no two the same: a status word names exactly one condition for each bit. -/
theorem C82_flags : (FMI_STATUS.map Prod.fst).Nodup ∧ ((FMI_STATUS.map Prod.snd).map Prod.fst).Nodup ∧
    ∀ x ∈ FMI_STATUS, ∃ j : Nat, j < 32 ∧ x.1 = 2 ^ j := by
  refine ⟨by decide +kernel, by decide +kernel, ?_⟩
  have : ∀ x ∈ FMI_STATUS, ∃ j : Fin 32, x.1 = 2 ^ j.1 := by decide +kernel
  intro x hx
  obtain ⟨j, hj⟩ := this x hx
  exact ⟨j.1, j.2, hj⟩

/-- But the status of a received `FMI` sentence is a text, so that it cannot be used as a key. -/
theorem C82_flags_text (now : Nat → DateTime) (msg : RawMsg) (v : Nat) (u : UDefs) (c t k : Str) (f : List Str) (m : Msg)
    (text : Str) (hs : IsSentence msg c t py!"FMI" f k) (h : parse now msg 0 v u = .ok (some m))
    (hp : f[11]? = some text) :
    lookup py!"status" m.attrs = some (.str text) ∧ decodeInt FMI_STATUS (.str text) = .error .key := by
  have hok := coded_ok
  simp only [Bool.and_eq_true] at hok
  obtain ⟨ty, val, hty, hv, hl⟩ := coded_attribute hok.1.2 hs h hp
  rw [text_value hty hv] at hl
  exact ⟨hl, rfl⟩

/-! ## The hypotheses are met -/

/-- An accepted `GSA` sentence with the code of Galileo. -/
example : (IsSentence (.bytes pb!"$GNGSA,A,3,02,,,,,,,,,,,,1.5,1.0,1.1,3*34\r\n")
      py!"GNGSA,A,3,02,,,,,,,,,,,,1.5,1.0,1.1,3" py!"GN" py!"GSA"
      (splitAll 44 py!"A,3,02,,,,,,,,,,,,1.5,1.0,1.1,3") py!"34" ∧
    (splitAll 44 py!"A,3,02,,,,,,,,,,,,1.5,1.0,1.1,3")[17]? = some py!"3" ∧ (py!"GSA", 17) ∈ systemFields) ∧
    acceptedWith (fun m => match decodeStr SYSTEMID ((lookup py!"systemId" m.attrs).getD .none) with
      | .ok x => x == py!"Galileo" | _ => false)
      (parse clock0 (.bytes pb!"$GNGSA,A,3,02,,,,,,,,,,,,1.5,1.0,1.1,3*34\r\n") 0 1 []) = true := by
  refine ⟨⟨(getParts_sentence _ ⟨_, _, _, _, _⟩).1 (by decide +kernel), by decide +kernel, by decide⟩, by decide +kernel⟩

/-- A `GGA` sentence with quality 7. -/
example : acceptedWith (fun m => match decodeInt FIXTYPE_GGA ((lookup py!"quality" m.attrs).getD .none) with
      | .error .key => true | _ => false)
      (parse clock0 (.bytes pb!"$GNGGA,,,,,,7,00,,,M,,M,,*00\r\n") 0 0 []) = true := by decide +kernel

end Props.Decodes
