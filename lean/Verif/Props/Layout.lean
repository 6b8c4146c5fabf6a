import Verif.Props.Errors
import Verif.Lemmas.Slots
/-!
# Positional attributes, repeating groups, short payloads, hemispheres (C15, C16, C17, C08)
-/
namespace Props
open Py Nmea Spec

/-- The requirements `parse` puts on a sentence before looking at its fields. -/
structure Admitted (mode : Int) (v : Nat) (u : UDefs) (content talker msgid cksum : Str) : Prop where
  mode : mode = 0 ∨ mode = 1 ∨ mode = 2
  cksum : ValCksum v → upper cksum = calcChecksum content
  known : ValMsgid v → talker ∈ NMEA_TALKERS ∧ Recognised u msgid

theorem parse_admitted (now : Nat → DateTime) (msg : RawMsg) (mode : Int) (v : Nat) (u : UDefs)
    (c t i k : Str) (f : List Str) (hs : IsSentence msg c t i f k) (ha : Admitted mode v u c t i k)
    (d : PDict) (hd : definitionFor mode.toNat u i f = .ok (some d)) :
    parse now msg mode v u =
      match setPDict (ctxOf t i mode.toNat false v u ⟨some f, []⟩) now d [] (st0 f) with
      | .ok st => .ok (some (finish (ctxOf t i mode.toNat false v u ⟨some f, []⟩) (some k) (some st)))
      | .error e => .error (wrapE e) := by
  rw [parse_cases _ _ _ _ _ ha.mode, sentence_getParts _ _ _ _ _ _ hs]
  simp only
  rw [if_neg (fun h => h.2 (ha.cksum h.1)), if_neg (fun h => h.2 (ha.known h.1)), hd]
  rfl

/-- An accepted sentence was admitted. -/
theorem admitted_of_accept (now : Nat → DateTime) (msg : RawMsg) (mode : Int) (v : Nat) (u : UDefs)
    (c t i k : Str) (f : List Str) (hs : IsSentence msg c t i f k) (m : Msg)
    (h : parse now msg mode v u = .ok (some m)) : Admitted mode v u c t i k := by
  obtain ⟨hm, p, hp, hc, hr, _⟩ := parse_accepted _ _ _ _ _ _ h
  have := sentence_parts _ _ _ _ _ _ hs p hp
  subst this
  exact ⟨hm, hc, hr⟩

/-! ## C16 -/

/-- For every definition, `parse` succeeds exactly when the definition expands, over the fields, to a
list of slots that can be read positionally, and the attributes are what is read. -/
theorem C16_layout (now : Nat → DateTime) (msg : RawMsg) (mode : Int) (v : Nat) (u : UDefs)
    (c t i k : Str) (f : List Str) (hs : IsSentence msg c t i f k) (ha : Admitted mode v u c t i k)
    (d : PDict) (hd : definitionFor mode.toNat u i f = .ok (some d)) (hsane : SaneNames d) (attrs : Attrs) :
    (∃ m, parse now msg mode v u = .ok (some m) ∧ m.attrs = attrs) ↔
      ∃ slots, Expand mode.toNat (fieldTexts t i f) d [] [] slots ∧
        readSlots slots (fieldTexts t i f) [] = .ok attrs := by
  rw [parse_admitted now msg mode v u c t i k f hs ha d hd]
  obtain ⟨r1, r2⟩ := received (ctxOf t i mode.toNat false v u ⟨some f, []⟩) now d f hsane rfl
    (fun _ => hd)
  constructor
  · rintro ⟨m, h, rfl⟩
    cases hst : setPDict (ctxOf t i mode.toNat false v u ⟨some f, []⟩) now d [] (st0 f) with
    | error e => rw [hst] at h; cases h
    | ok st =>
      rw [hst] at h
      obtain ⟨post, hr⟩ := r1 st hst
      cases h
      exact ⟨post, hr.expand, hr.read⟩
  · rintro ⟨slots, h1, h2⟩
    obtain ⟨st, h3, h4⟩ := r2 slots attrs h1 h2
    rw [h3]
    refine ⟨_, rfl, ?_⟩
    have h5 := h4.read
    rw [expand_det h4.expand h1] at h5
    have := h5.symm.trans h2
    cases this
    rfl

/-- The expansion is unique. -/
theorem C16_unique (mode : Nat) (fields : List Str) (d : PDict) (s s' : List Slot)
    (h : Expand mode fields d [] [] s) (h' : Expand mode fields d [] [] s') : s = s' :=
  expand_det h h'

/-- Built-in definitions satisfy the naming requirement, so `C16_layout` applies to every sentence
without user-defined definitions. -/
theorem C16_builtin (mode : Nat) (i : Str) (f : List Str) (d : PDict)
    (h : definitionFor mode [] i f = .ok (some d)) : SaneNames d :=
  definitionFor_sane mode [] (by simp) i f d h

/-- In an expansion, a group at the beginning of what remains of a definition is repeated `n` times
with suffixes `_01`, ..., where `n` is determined by `Repeats`. -/
theorem C16_group (mode : Nat) (fields : List Str) (k : Str) (rep : Rep) (body rest : PDict) (pre post : List Slot)
    (h : Expand mode fields (.group k rep body rest) [] pre post) (hb : IsFlat body = true) :
    ∃ n, Repeats mode fields pre (keysOf body).length rep n ∧
      Expand mode fields rest []
        (pre ++ (List.range n).flatMap (fun j => slotsOf body (groupSuffix (j + 1)))) post := by
  have hflat : ∀ b : PDict, IsFlat b = true → IsStatic b = true := by
    intro b
    induction b with
    | nil => simp [IsStatic]
    | single _ _ _ ih => simpa [IsFlat, IsStatic] using ih
    | group => simp [IsFlat]
  cases h with
  | group _ _ _ _ _ _ _ n at_ hr h0 hi hrest =>
    refine ⟨n, hr, ?_⟩
    have : ∀ j ≤ n, at_ j = pre ++ (List.range j).flatMap (fun j => slotsOf body (groupSuffix (j + 1))) := by
      intro j hj
      induction j with
      | zero => simp [h0]
      | succ j ih =>
        have h1 := expand_det (hi j (by omega)) (expand_static mode fields body (hflat _ hb) _ _)
        rw [h1, ih (by omega), List.range_succ, List.flatMap_append]
        simp
    rw [← this n (Nat.le_refl _)]
    exact hrest

/-- A received GSV sentence: the group of satellites is expanded. -/
example : ∃ m, parse clock0 (.bytes pb!"$GPGSV,1,1,02,01,10,100,40,02,20,200,45*75\r\n") 0 0 [] = .ok (some m) ∧
    m.attrs.map Prod.fst = [py!"numMsg", py!"msgNum", py!"numSV", py!"svid_01", py!"elv_01", py!"az_01",
      py!"cno_01", py!"svid_02", py!"elv_02", py!"az_02", py!"cno_02"] := by
  obtain ⟨m, h, hm⟩ := (acceptedWith_iff (fun m => decide (m.attrs.map Prod.fst = [py!"numMsg", py!"msgNum",
    py!"numSV", py!"svid_01", py!"elv_01", py!"az_01", py!"cno_01", py!"svid_02", py!"elv_02", py!"az_02",
    py!"cno_02"])) _).1 (by decide +kernel : acceptedWith _ (parse clock0
      (.bytes pb!"$GPGSV,1,1,02,01,10,100,40,02,20,200,45*75\r\n") 0 0 []) = true)
  exact ⟨m, h, by simpa using hm⟩

/-! ## C15 -/

/-- A sentence whose definition has no variable groups: the attributes are those of the definition
for which there is a field, in the order of the definition, each holding the converted field (the
sign of a latitude or longitude is decided by its direction field, see C08). -/
theorem C15_positional (now : Nat → DateTime) (msg : RawMsg) (mode : Int) (v : Nat) (u : UDefs) (m : Msg)
    (c t i k : Str) (f : List Str) (hs : IsSentence msg c t i f k)
    (d : PDict) (hd : definitionFor mode.toNat u i f = .ok (some d)) (hsane : SaneNames d)
    (hst : IsStatic d = true) (hnd : ((slotsOf d []).map Prod.fst).Nodup)
    (h : parse now msg mode v u = .ok (some m)) :
    m.attrs.map Prod.fst = ((slotsOf d []).map Prod.fst).take f.length ∧
    ∀ (n : Nat) name ty text, (slotsOf d [])[n]? = some (name, ty) → (fieldTexts t i f)[n]? = some text →
      ∃ val w, str2val text ty = .ok val ∧ lookup name m.attrs = some w ∧ UpToSign val w ∧
        (name ≠ py!"lat" → name ≠ py!"lon" → w = val) := by
  have ha := admitted_of_accept now msg mode v u c t i k f hs m h
  obtain ⟨slots, h1, h2⟩ := (C16_layout now msg mode v u c t i k f hs ha d hd hsane m.attrs).1 ⟨m, h, rfl⟩
  rw [expand_static_iff _ _ d hst] at h1
  subst h1
  constructor
  · have := readSlots_keys _ _ _ _ h2 hnd (by simp)
    rw [this, fieldTexts_length]
    rfl
  · intro n name ty text hn ht
    obtain ⟨val, w, e1, e2, e3⟩ := readSlots_value_upto _ _ _ _ h2 hnd n name ty text hn ht
    refine ⟨val, w, e1, e2, e3, fun hlat hlon => ?_⟩
    obtain ⟨val', e4, e5⟩ := readSlots_value _ _ _ _ h2 hnd n name ty text hn ht hlon hlat
    rw [e1] at e4; cases e4
    rw [e2] at e5; cases e5; rfl

/-- For a definition without any groups the slots are the attributes themselves. -/
theorem C15_flat (d : PDict) (h : IsFlat d = true) :
    IsStatic d = true ∧ (slotsOf d []).map Prod.fst = allNames d := by
  induction d with
  | nil => exact ⟨rfl, rfl⟩
  | single k t r ih =>
    obtain ⟨h1, h2⟩ := ih h
    exact ⟨h1, by simp [slotsOf, allNames, h2]⟩
  | group => cases h

/-- Every built-in definition without variable groups satisfies the requirements of
`C15_positional`. -/
theorem C15_builtin (mode : Nat) (i : Str) (f : List Str) (d : PDict)
    (h : definitionFor mode [] i f = .ok (some d)) (hs : IsStatic d = true) :
    SaneNames d ∧ ((slotsOf d []).map Prod.fst).Nodup := by
  refine ⟨C16_builtin mode i f d h, ?_⟩
  have h1 : ∀ mode, ∀ kd ∈ standardDefs mode, IsStatic kd.2 = true → ((slotsOf kd.2 []).map Prod.fst).Nodup := by
    intro mode; unfold standardDefs; split <;> decide +kernel
  have h2 : ∀ mode, ∀ kd ∈ proprietaryDefs mode, IsStatic kd.2 = true → ((slotsOf kd.2 []).map Prod.fst).Nodup := by
    intro mode; unfold proprietaryDefs; split <;> decide +kernel
  rcases definitionFor_mem mode [] i f d h with ⟨k, hk⟩ | ⟨k, hk⟩ | ⟨⟨k, hk⟩, _⟩
  · exact h1 mode _ hk hs
  · exact h2 mode _ hk hs
  · cases hk

/-- The example sentence has a definition of this kind. -/
example : ∃ d, definitionFor 0 [] py!"GLL" [py!"5327.04319", py!"S", py!"00214.41396", py!"E",
    py!"223232.00", py!"A", py!"A"] = .ok (some d) ∧ IsFlat d = true ∧ (allNames d).length = 7 := by
  refine ⟨_, by rfl, ?_, ?_⟩ <;> decide +kernel

example : accepted (parse clock0 (.bytes pb!"$GNGLL,5327.04319,S,00214.41396,E,223232.00,A,A*68\r\n") 0 3 [])
    = true := by decide +kernel

/-! ## C17 -/

/-- Without groups counted by an attribute, `parse` of an admitted sentence fails only if a field
that is present cannot be converted to its type - whatever the number of fields. -/
theorem C17_short_ok (now : Nat → DateTime) (msg : RawMsg) (mode : Int) (v : Nat) (u : UDefs)
    (c t i k : Str) (f : List Str) (hs : IsSentence msg c t i f k) (ha : Admitted mode v u c t i k)
    (d : PDict) (hd : definitionFor mode.toNat u i f = .ok (some d)) (hsane : SaneNames d)
    (hn : NoNamed d = true) (he : EmptyGroup d = false) :
    ∃ slots, Expand mode.toNat (fieldTexts t i f) d [] [] slots ∧
      ((∃ m, parse now msg mode v u = .ok (some m)) ↔
        ∀ (n : Nat) name ty text, slots[n]? = some (name, ty) → (fieldTexts t i f)[n]? = some text →
          ∃ val, str2val text ty = .ok val) := by
  obtain ⟨slots, hx⟩ := expand_exists mode.toNat (fieldTexts t i f) d hn he [] []
  refine ⟨slots, hx, ?_, ?_⟩
  · rintro ⟨m, h⟩ n name ty text h1 h2
    obtain ⟨slots', h3, h4⟩ := (C16_layout now msg mode v u c t i k f hs ha d hd hsane m.attrs).1 ⟨m, h, rfl⟩
    rw [expand_det h3 hx] at h4
    exact readSlots_ok_val _ _ _ _ h4 n name ty text h1 h2
  · intro h
    cases hr : readSlots slots (fieldTexts t i f) [] with
    | ok attrs =>
      obtain ⟨m, h1, _⟩ := (C16_layout now msg mode v u c t i k f hs ha d hd hsane attrs).2 ⟨slots, hx, hr⟩
      exact ⟨m, h1⟩
    | error e =>
      obtain ⟨n, name, ty, text, h1, h2, h3⟩ := readSlots_error _ _ _ _ hr
      obtain ⟨val, h4⟩ := h n name ty text h1 h2
      rw [h3] at h4; cases h4

/-- In particular an empty payload is always accepted. -/
theorem C17_empty (now : Nat → DateTime) (msg : RawMsg) (mode : Int) (v : Nat) (u : UDefs)
    (c t i k : Str) (hs : IsSentence msg c t i [] k) (ha : Admitted mode v u c t i k)
    (d : PDict) (hd : definitionFor mode.toNat u i [] = .ok (some d)) (hsane : SaneNames d)
    (hn : NoNamed d = true) (he : EmptyGroup d = false) :
    ∃ m, parse now msg mode v u = .ok (some m) ∧ m.attrs = [] := by
  obtain ⟨slots, hx⟩ := expand_exists mode.toNat (fieldTexts t i []) d hn he [] []
  refine (C16_layout now msg mode v u c t i k [] hs ha d hd hsane []).2 ⟨slots, hx, ?_⟩
  have hft : fieldTexts t i [] = [] := List.length_eq_zero_iff.1 (fieldTexts_length t i [])
  rw [hft]
  cases slots <;> rfl

/-- A parsed message never has more attributes than the sentence has fields. -/
theorem C17_bounded (now : Nat → DateTime) (msg : RawMsg) (mode : Int) (v : Nat) (u : UDefs) (m : Msg)
    (c t i k : Str) (f : List Str) (hs : IsSentence msg c t i f k) (hu : ∀ kd ∈ u, SaneNames kd.2)
    (h : parse now msg mode v u = .ok (some m)) : m.attrs.length ≤ f.length := by
  have ha := admitted_of_accept now msg mode v u c t i k f hs m h
  cases hd : definitionFor mode.toNat u i f with
  | error e =>
    rw [parse_cases _ _ _ _ _ ha.mode, sentence_getParts _ _ _ _ _ _ hs] at h
    simp only at h
    rw [if_neg (fun h => h.2 (ha.cksum h.1)), if_neg (fun h => h.2 (ha.known h.1)), hd] at h
    cases h
  | ok od =>
    cases od with
    | some d =>
      obtain ⟨slots, _, h2⟩ := (C16_layout now msg mode v u c t i k f hs ha d hd
        (definitionFor_sane _ _ hu _ _ _ hd) m.attrs).1 ⟨m, h, rfl⟩
      have := readSlots_length _ _ _ _ h2
      rw [fieldTexts_length] at this
      simpa using this
    | none =>
      by_cases hv : ValMsgid v
      · rw [parse_cases _ _ _ _ _ ha.mode, sentence_getParts _ _ _ _ _ _ hs] at h
        simp only at h
        rw [if_neg (fun h => h.2 (ha.cksum h.1)), if_neg (fun h => h.2 (ha.known h.1)), hd] at h
        simp only at h
        rw [if_pos hv] at h
        cases h
      · obtain ⟨m', h1, _, _, _, _, h2⟩ := C18_nominal now msg mode v u c t i k f hs ha.mode hv ha.cksum hd
        rw [h] at h1; cases h1
        rw [h2]; simp

theorem fieldTexts_take (t i : Str) (f : List Str) (n : Nat) :
    fieldTexts t i (f.take n) = (fieldTexts t i f).take n := by
  unfold fieldTexts
  split
  · rw [List.map_take]
  · cases n with
    | zero => simp
    | succ n =>
      cases f with
      | nil => simp
      | cons x xs =>
        have e : (List.take (n + 1) (x :: xs)) = x :: xs.take n := rfl
        rw [e]
        by_cases hc : t = py!"P" ∧ i = py!"SSN" ∧ some x = some py!"SNC"
        · rw [if_pos (show t = py!"P" ∧ i = py!"SSN" ∧ (x :: xs.take n).head? = some py!"SNC" from hc),
            if_pos (show t = py!"P" ∧ i = py!"SSN" ∧ (x :: xs).head? = some py!"SNC" from hc),
            List.take_succ_cons, List.tail_cons, List.tail_cons, List.map_take]
        · rw [if_neg (show ¬ (t = py!"P" ∧ i = py!"SSN" ∧ (x :: xs.take n).head? = some py!"SNC") from hc),
            if_neg (show ¬ (t = py!"P" ∧ i = py!"SSN" ∧ (x :: xs).head? = some py!"SNC") from hc),
            List.take_succ_cons]

/-- A shortened sentence (same header, `n` leading fields, same definition without variable groups)
is accepted whenever the full one is, and has exactly the leading attributes, with the same values
(up to the sign of coordinates whose direction field was cut off). -/
theorem C17_truncate (now now' : Nat → DateTime) (msg msg' : RawMsg) (mode : Int) (v v' : Nat) (u : UDefs) (m : Msg)
    (c c' t i k k' : Str) (f : List Str) (n : Nat) (hs : IsSentence msg c t i f k)
    (hs' : IsSentence msg' c' t i (f.take n) k') (ha' : Admitted mode v' u c' t i k')
    (d : PDict) (hd : definitionFor mode.toNat u i f = .ok (some d))
    (hd' : definitionFor mode.toNat u i (f.take n) = .ok (some d)) (hsane : SaneNames d)
    (hst : IsStatic d = true) (hnd : ((slotsOf d []).map Prod.fst).Nodup)
    (h : parse now msg mode v u = .ok (some m)) :
    ∃ m', parse now' msg' mode v' u = .ok (some m') ∧
      m'.attrs.map Prod.fst = (m.attrs.map Prod.fst).take n ∧
      ∀ name w', lookup name m'.attrs = some w' → ∃ w, lookup name m.attrs = some w ∧
        (name ≠ py!"lat" → name ≠ py!"lon" → w = w') := by
  have ha := admitted_of_accept now msg mode v u c t i k f hs m h
  obtain ⟨slots, h1, h2⟩ := (C16_layout now msg mode v u c t i k f hs ha d hd hsane m.attrs).1 ⟨m, h, rfl⟩
  rw [expand_static_iff _ _ d hst] at h1
  subst h1
  have hft := fieldTexts_take t i f n
  have hx' : Expand mode.toNat (fieldTexts t i (f.take n)) d [] [] (slotsOf d []) :=
    (expand_static_iff _ _ d hst _).2 rfl
  cases hr : readSlots (slotsOf d []) (fieldTexts t i (f.take n)) [] with
  | error e =>
    obtain ⟨j, name, ty, text, e1, e2, e3⟩ := readSlots_error _ _ _ _ hr
    rw [hft, List.getElem?_take] at e2
    split at e2
    · obtain ⟨val, e4⟩ := readSlots_ok_val _ _ _ _ h2 j name ty text e1 e2
      rw [e3] at e4; cases e4
    · cases e2
  | ok attrs' =>
    obtain ⟨m', h3, h4⟩ := (C16_layout now' msg' mode v' u c' t i k' (f.take n) hs' ha' d hd' hsane attrs').2
      ⟨_, hx', hr⟩
    have hk := readSlots_keys _ _ _ _ h2 hnd (by simp)
    have hk' := readSlots_keys _ _ _ _ hr hnd (by simp)
    simp only [List.map_nil, List.nil_append] at hk hk'
    have hlen : (fieldTexts t i (f.take n)).length = min n (fieldTexts t i f).length := by
      rw [hft, List.length_take]
    refine ⟨m', h3, ?_, ?_⟩
    · rw [h4, hk, hk', hlen, List.take_take]
    · intro name w' hw
      rw [h4] at hw
      have hmem : name ∈ attrs'.map Prod.fst := List.mem_map.2 ⟨_, lookup_some_mem _ _ _ hw, rfl⟩
      rw [hk'] at hmem
      obtain ⟨j, hj⟩ := List.mem_iff_getElem?.1 hmem
      rw [List.getElem?_take] at hj
      split at hj
      · rename_i hlt
        rw [List.getElem?_map] at hj
        obtain ⟨⟨nm, ty⟩, hj1, hj2⟩ := Option.map_eq_some_iff.1 hj
        simp only at hj2; subst hj2
        obtain ⟨text, htx⟩ : ∃ text, (fieldTexts t i (f.take n))[j]? = some text :=
          ⟨_, List.getElem?_eq_getElem hlt⟩
        have htx2 : (fieldTexts t i f)[j]? = some text := by
          rw [hft, List.getElem?_take] at htx
          split at htx
          · exact htx
          · cases htx
        obtain ⟨val, w, e1, e2, _⟩ := readSlots_value_upto _ _ _ _ h2 hnd j nm ty text hj1 htx2
        refine ⟨w, e2, fun hlat hlon => ?_⟩
        obtain ⟨v1, e3, e4⟩ := readSlots_value _ _ _ _ h2 hnd j nm ty text hj1 htx2 hlon hlat
        obtain ⟨v2, e5, e6⟩ := readSlots_value _ _ _ _ hr hnd j nm ty text hj1 htx hlon hlat
        rw [e3] at e5; cases e5
        rw [e4] at e2; cases e2
        rw [e6] at hw; cases hw; rfl
      · cases hj

/-- Surplus fields (beyond a definition without variable groups) change no attribute; they are kept
in the payload. -/
theorem C17_surplus (now now' : Nat → DateTime) (msg msg' : RawMsg) (mode : Int) (v v' : Nat) (u : UDefs) (m : Msg)
    (c c' t i k k' : Str) (f extra : List Str) (hs : IsSentence msg c t i f k)
    (hs' : IsSentence msg' c' t i (f ++ extra) k') (ha' : Admitted mode v' u c' t i k')
    (d : PDict) (hd : definitionFor mode.toNat u i f = .ok (some d))
    (hd' : definitionFor mode.toNat u i (f ++ extra) = .ok (some d)) (hsane : SaneNames d)
    (hst : IsStatic d = true) (hlen : (slotsOf d []).length ≤ f.length)
    (h : parse now msg mode v u = .ok (some m)) :
    ∃ m', parse now' msg' mode v' u = .ok (some m') ∧ m'.attrs = m.attrs ∧
      (m'.identity ≠ .ok py!"PSSNSNC" → m'.payload = f ++ extra) := by
  have ha := admitted_of_accept now msg mode v u c t i k f hs m h
  obtain ⟨slots, h1, h2⟩ := (C16_layout now msg mode v u c t i k f hs ha d hd hsane m.attrs).1 ⟨m, h, rfl⟩
  rw [expand_static_iff _ _ d hst] at h1
  subst h1
  have hx' : Expand mode.toNat (fieldTexts t i (f ++ extra)) d [] [] (slotsOf d []) :=
    (expand_static_iff _ _ d hst _).2 rfl
  have hr : readSlots (slotsOf d []) (fieldTexts t i (f ++ extra)) [] = .ok m.attrs := by
    rw [readSlots_take] at h2 ⊢
    have e1 : (slotsOf d []).take (fieldTexts t i (f ++ extra)).length =
        (slotsOf d []).take (fieldTexts t i f).length := by
      rw [fieldTexts_length, fieldTexts_length, List.take_of_length_le, List.take_of_length_le]
      · exact hlen
      · rw [List.length_append]; omega
    have e2 : (fieldTexts t i (f ++ extra)).take (slotsOf d []).length =
        (fieldTexts t i f).take (slotsOf d []).length := by
      rw [← fieldTexts_take, ← fieldTexts_take, List.take_append_of_le_length hlen]
    rw [e1, e2]; exact h2
  obtain ⟨m', h3, h4⟩ := (C16_layout now' msg' mode v' u c' t i k' (f ++ extra) hs' ha' d hd' hsane m.attrs).2
    ⟨_, hx', hr⟩
  exact ⟨m', h3, h4, (C50_getters now' msg' mode v' u m' c' t i k' (f ++ extra) hs' h3).2.2.2.2⟩

/-- A short, a normal and a long GLL sentence. -/
example : acceptedWith (fun m => m.attrs.length = 3) (parse clock0 (.bytes pb!"$GNGLL,5327.04319,S,00214.41396*64\r\n") 0 0 []) = true ∧
    acceptedWith (fun m => m.attrs.length = 7)
      (parse clock0 (.bytes pb!"$GNGLL,5327.04319,S,00214.41396,E,223232.00,A,A,surplus,fields*68\r\n") 0 0 []) = true := by
  constructor <;> decide +kernel

/-- Counterexample for groups counted by an attribute: `ALC` without its counter. -/
theorem C17_named_counterexample : parse clock0 (.bytes pb!"$GPALC,01*00\r\n") 0 0 [] = .error .nmeaType := by
  decide +kernel

/-! ## C08 -/

/-- After parsing, `lat` (`lon`) is the converted field with the sign given by the direction field:
negative exactly for `S` (`W`). `p` and `q` are the positions of the coordinate and of its direction
in the expanded definition; the only requirement is that no later field has the same name or is
another direction of that kind, and that the attribute itself is not overwritten in between. -/
theorem C08_sign (now : Nat → DateTime) (msg : RawMsg) (mode : Int) (v : Nat) (u : UDefs) (m : Msg)
    (c t i k : Str) (f : List Str) (hs : IsSentence msg c t i f k)
    (d : PDict) (hd : definitionFor mode.toNat u i f = .ok (some d)) (hsane : SaneNames d)
    (h : parse now msg mode v u = .ok (some m))
    (slots : List Slot) (hx : Expand mode.toNat (fieldTexts t i f) d [] [] slots)
    (dty name letter : Str) (hg : Governs dty name letter)
    (p q : Nat) (ty dname text dtext : Str) (hpq : p < q)
    (hp : slots[p]? = some (name, ty)) (hq : slots[q]? = some (dname, dty))
    (hpt : (fieldTexts t i f)[p]? = some text) (hqt : (fieldTexts t i f)[q]? = some dtext)
    (hty : ty ≠ dty) (hdn : dname ≠ name)
    (honly : ∀ (j : Nat) s, p < j → j ≠ q → slots[j]? = some s → s.1 ≠ name ∧ s.2 ≠ dty) :
    ∃ val, str2val text ty = .ok val ∧
      lookup name m.attrs = some (resign (decide (dtext = letter)) val) := by
  have ha := admitted_of_accept now msg mode v u c t i k f hs m h
  obtain ⟨slots', h1, h2⟩ := (C16_layout now msg mode v u c t i k f hs ha d hd hsane m.attrs).1 ⟨m, h, rfl⟩
  rw [expand_det h1 hx] at h2
  obtain ⟨mid, e1, e2⟩ := readSlots_signed hg slots _ _ _ h2 q dname dtext hq hqt hdn
    (fun j s hj hs _ => honly j s (by omega) (by omega) hs)
  obtain ⟨val, e3, e4⟩ := readSlots_last hg _ _ _ _ e1 p ty text
    (by rw [List.getElem?_take, if_pos hpq, hp]) (by rw [List.getElem?_take, if_pos hpq, hpt]) hty
    (fun j s hj hs hl => by
      have hjq : j < q := by
        rw [List.length_take] at hl; omega
      rw [List.getElem?_take, if_pos hjq] at hs
      exact honly j s hj (by omega) hs)
  exact ⟨val, e3, by rw [e2, e4]; rfl⟩

/-- Positions in a list of slots of the coordinate `name` and of directions of type `dty`. -/
def coordAt (name : Str) (slots : List Slot) : List Nat :=
  (List.range slots.length).filter fun j => (slots[j]?.map Prod.fst) = some name
@[inherit_doc coordAt] def dirAt (dty : Str) (slots : List Slot) : List Nat :=
  (List.range slots.length).filter fun j => (slots[j]?.map Prod.snd) = some dty

/-- In every built-in definition a coordinate `lat`/`lon` is either followed immediately by the only
direction field of its kind, or there is no direction field of that kind at all. -/
theorem coord_tables (mode : Nat) (d : PDict)
    (h : (∃ k, (k, d) ∈ standardDefs mode) ∨ (∃ k, (k, d) ∈ proprietaryDefs mode)) (dty name letter : Str)
    (hg : Governs dty name letter) (p : Nat) (hp : p ∈ coordAt name (slotsOf d [])) :
    IsStatic d = true ∧ coordAt name (slotsOf d []) = [p] ∧
      (dirAt dty (slotsOf d []) = [p + 1] ∨ dirAt dty (slotsOf d []) = []) := by
  have key : ∀ (T : List (Str × PDict)), (∀ kd ∈ T, ∀ g ∈ [(py!"LND", py!"lon"), (py!"LAD", py!"lat")],
      (match coordAt g.2 (slotsOf kd.2 []) with
        | [] => true
        | [p] => IsStatic kd.2 && (dirAt g.1 (slotsOf kd.2 []) == [p + 1] || dirAt g.1 (slotsOf kd.2 []) == [])
        | _ => false) = true) → ∀ k, (k, d) ∈ T → IsStatic d = true ∧ coordAt name (slotsOf d []) = [p] ∧
      (dirAt dty (slotsOf d []) = [p + 1] ∨ dirAt dty (slotsOf d []) = []) := by
    intro T hT k hk
    have := hT (k, d) hk (dty, name) (by cases hg <;> simp)
    simp only at this
    split at this
    · rename_i e; rw [e] at hp; cases hp
    · rename_i x e
      rw [e] at hp
      simp only [List.mem_singleton] at hp
      subst hp
      simp only [Bool.and_eq_true, Bool.or_eq_true, beq_iff_eq] at this
      exact ⟨this.1, e, this.2⟩
    · cases this
  rcases h with ⟨k, hk⟩ | ⟨k, hk⟩
  · refine key _ ?_ k hk
    unfold standardDefs; split <;> decide +kernel
  · refine key _ ?_ k hk
    unfold proprietaryDefs; split <;> decide +kernel

/-- In every definition selected for a sentence by the built-in tables, a coordinate `lat`/`lon` is
either followed immediately by the only direction field of its kind, or there is none. -/
theorem C08_builtin (mode : Nat) (i : Str) (f : List Str) (d : PDict)
    (h : definitionFor mode [] i f = .ok (some d)) (dty name letter : Str) (hg : Governs dty name letter)
    (p : Nat) (hp : p ∈ coordAt name (slotsOf d [])) :
    IsStatic d = true ∧ coordAt name (slotsOf d []) = [p] ∧
      (dirAt dty (slotsOf d []) = [p + 1] ∨ dirAt dty (slotsOf d []) = []) := by
  refine coord_tables mode d ?_ dty name letter hg p hp
  rcases definitionFor_mem mode [] i f d h with hk | hk | ⟨⟨k, hk⟩, _⟩
  · exact .inl hk
  · exact .inr hk
  · cases hk

/-- For every sentence with a built-in definition: if the definition has the attribute `lat` (`lon`)
and a direction of its kind, and the sentence has both fields, the direction decides the sign. -/
theorem C08_builtin_sign (now : Nat → DateTime) (msg : RawMsg) (mode : Int) (v : Nat) (m : Msg)
    (c t i k : Str) (f : List Str) (hs : IsSentence msg c t i f k) (d : PDict)
    (hd : definitionFor mode.toNat [] i f = .ok (some d))
    (h : parse now msg mode v [] = .ok (some m))
    (dty name letter : Str) (hg : Governs dty name letter) (p : Nat)
    (hp : p ∈ coordAt name (slotsOf d [])) (hdir : dirAt dty (slotsOf d []) ≠ [])
    (text dtext : Str) (hpt : (fieldTexts t i f)[p]? = some text)
    (hqt : (fieldTexts t i f)[p + 1]? = some dtext) :
    ∃ ty val, (slotsOf d [])[p]? = some (name, ty) ∧ str2val text ty = .ok val ∧
      lookup name m.attrs = some (resign (decide (dtext = letter)) val) := by
  obtain ⟨h1, h2, h3⟩ := C08_builtin mode.toNat i f d hd dty name letter hg p hp
  have h3 := h3.resolve_right hdir
  have hq : p + 1 ∈ dirAt dty (slotsOf d []) := by rw [h3]; simp
  simp only [coordAt, dirAt, List.mem_filter, List.mem_range, decide_eq_true_eq] at hp hq
  obtain ⟨⟨nm, ty⟩, hp1, hp2⟩ := Option.map_eq_some_iff.1 hp.2
  obtain ⟨⟨dname, dt⟩, hq1, hq2⟩ := Option.map_eq_some_iff.1 hq.2
  simp only at hp2 hq2; subst hp2; subst hq2
  have only1 : ∀ (j : Nat) s, (slotsOf d [])[j]? = some s → s.1 = nm → j = p := by
    intro j s hj hsn
    have : j ∈ coordAt nm (slotsOf d []) := by
      simp only [coordAt, List.mem_filter, List.mem_range, decide_eq_true_eq]
      exact ⟨(List.getElem?_eq_some_iff.1 hj).1, by rw [hj, ← hsn]; rfl⟩
    rw [h2] at this; simpa using this
  have only2 : ∀ (j : Nat) s, (slotsOf d [])[j]? = some s → s.2 = dt → j = p + 1 := by
    intro j s hj hsn
    have : j ∈ dirAt dt (slotsOf d []) := by
      simp only [dirAt, List.mem_filter, List.mem_range, decide_eq_true_eq]
      exact ⟨(List.getElem?_eq_some_iff.1 hj).1, by rw [hj, ← hsn]; rfl⟩
    rw [h3] at this; simpa using this
  obtain ⟨val, e1, e2⟩ := C08_sign now msg mode v [] m c t i k f hs d hd (C16_builtin _ _ _ _ hd) h
    (slotsOf d []) ((expand_static_iff _ _ d h1 _).2 rfl) dt nm letter hg p (p + 1) ty dname text dtext
    (by omega) hp1 hq1 hpt hqt (fun e => by have := only2 p _ hp1 e; omega)
    (fun e => by have := only1 _ _ hq1 e; omega)
    (fun j s hj hjq hjs => ⟨fun e => by have := only1 j s hjs e; omega, fun e => hjq (only2 j s hjs e)⟩)
  exact ⟨ty, val, hp1, e1, e2⟩

/-- The same in numbers: `lat` (`lon`) is minus the magnitude of the converted field for `S` (`W`) and the
magnitude itself for every other direction text. -/
theorem C08_numeric (now : Nat → DateTime) (msg : RawMsg) (mode : Int) (v : Nat) (m : Msg)
    (c t i k : Str) (f : List Str) (hs : IsSentence msg c t i f k) (d : PDict)
    (hd : definitionFor mode.toNat [] i f = .ok (some d))
    (h : parse now msg mode v [] = .ok (some m))
    (dty name letter : Str) (hg : Governs dty name letter) (p : Nat)
    (hp : p ∈ coordAt name (slotsOf d [])) (hdir : dirAt dty (slotsOf d []) ≠ [])
    (text dtext : Str) (hpt : (fieldTexts t i f)[p]? = some text)
    (hqt : (fieldTexts t i f)[p + 1]? = some dtext) (ty : Str) (hty : (slotsOf d [])[p]? = some (name, ty))
    (neg : Bool) (a : Rat) (hval : str2val text ty = .ok (.float (.fin neg a))) :
    ∃ x, lookup name m.attrs = some (.float x) ∧ x.isFin = true ∧ (dtext = letter → x.toRat = -a) ∧
      (dtext ≠ letter → x.toRat = a) := by
  obtain ⟨ty', val, h1, h2, h3⟩ := C08_builtin_sign now msg mode v m c t i k f hs d hd h dty name letter hg p hp hdir
    text dtext hpt hqt
  rw [hty] at h1
  cases h1
  rw [hval] at h2
  cases h2
  by_cases hd : dtext = letter
  · exact ⟨_, h3, by simp [hd, PyFloat.abs, PyFloat.neg, PyFloat.isFin],
      fun _ => by simp [hd, PyFloat.abs, PyFloat.neg, PyFloat.toRat], fun e => absurd hd e⟩
  · exact ⟨_, h3, by simp [hd, PyFloat.abs, PyFloat.isFin], fun e => absurd e hd,
      fun _ => by simp [hd, PyFloat.abs, PyFloat.toRat]⟩

/-- The hypotheses are met by the GLL sentence. -/
example : ∃ d, definitionFor 0 [] py!"GLL" [py!"5327.04319", py!"S", py!"00214.41396", py!"E",
    py!"223232.00", py!"A", py!"A"] = .ok (some d) ∧ 0 ∈ coordAt py!"lat" (slotsOf d []) ∧
    dirAt py!"LAD" (slotsOf d []) ≠ [] ∧ 2 ∈ coordAt py!"lon" (slotsOf d []) ∧
    dirAt py!"LND" (slotsOf d []) ≠ [] := by
  refine ⟨_, by rfl, ?_, ?_, ?_, ?_⟩ <;> decide +kernel

/-- The built-in standard definitions with a latitude direction field that determines no sign,
because no attribute is called `lat` (the hemisphere is lost in the numeric value). -/
theorem C08_unsigned : (NMEA_PAYLOADS_GET.filter fun kd =>
      dirAt py!"LAD" (slotsOf kd.2 []) ≠ [] ∧ coordAt py!"lat" (slotsOf kd.2 []) = []).map Prod.fst =
    [py!"ACA", py!"BEC", py!"DTM", py!"LRI", py!"SM3", py!"SM4", py!"TLL"] := by
  decide +kernel

example : ∃ m, parse clock0 (.bytes pb!"$GNGLL,5327.04319,S,00214.41396,E,223232.00,A,A*68\r\n") 0 1 [] = .ok (some m) ∧
    (match lookup py!"lat" m.attrs with | some (.float x) => x.ltZero | _ => false) = true := by
  obtain ⟨m, h, hm⟩ := (acceptedWith_iff (fun m => match lookup py!"lat" m.attrs with
    | some (.float x) => x.ltZero | _ => false) _).1 (by decide +kernel : acceptedWith _ (parse clock0
      (.bytes pb!"$GNGLL,5327.04319,S,00214.41396,E,223232.00,A,A*68\r\n") 0 1 []) = true)
  exact ⟨m, h, hm⟩

end Props
