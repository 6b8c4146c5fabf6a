import Verif.Props.Layout
/-!
# Which definition is used; properties of the definition tables (C47, C48, C51)
-/
namespace Props
open Py Nmea Spec

/-! ## C51 -/

/-- Ids that are not proprietary prefixes are not extended. -/
theorem fullId_plain (i : Str) (f : List Str) (h : i ∉ NMEA_PREFIX_PROP) : fullId i f = .ok i := by
  unfold fullId; rw [if_neg h]

theorem standard_not_prefix (i : Str) (h : IsStandard i) : i ∉ NMEA_PREFIX_PROP :=
  fun hp => (prefix_source i hp).1 h

/-- Standard ids use the standard table of the mode, under the upper-case id. -/
theorem C51_standard (mode : Nat) (u : UDefs) (i : Str) (f : List Str) (h : IsStandard i) :
    definitionFor mode u i f = .ok (lookup (upper i) (standardDefs mode)) := by
  unfold definitionFor
  rw [fullId_plain i f (standard_not_prefix i h)]
  simp only
  rw [if_pos h]

/-- Proprietary ids use only the proprietary table of the mode. -/
theorem C51_proprietary (mode : Nat) (u : UDefs) (i : Str) (f : List Str) (hs : ¬ IsStandard i)
    (hp : IsProprietary i) (d : PDict) (h : definitionFor mode u i f = .ok (some d)) :
    ∃ id name, fullId i f = .ok id ∧ layoutName mode (upper id) f = .ok name ∧
      lookup name (proprietaryDefs mode) = some d := by
  unfold definitionFor at h
  cases hf : fullId i f with
  | error e => rw [hf] at h; cases h
  | ok id =>
    rw [hf] at h
    simp only at h
    rw [if_neg hs, if_pos hp] at h
    cases hl : layoutName mode (upper id) f with
    | error e => rw [hl] at h; cases h
    | ok name =>
      rw [hl] at h
      simp only [Except.ok.injEq] at h
      exact ⟨id, name, rfl, hl, h⟩

/-- Other ids defined by the user use the user's dictionary, in every mode, under the upper-case
id. -/
theorem C51_user (mode : Nat) (u : UDefs) (i : Str) (f : List Str) (hs : ¬ IsStandard i)
    (hp : ¬ IsProprietary i) (hu : IsUserDefined u i) :
    definitionFor mode u i f = .ok (lookup (upper i) u) := by
  unfold definitionFor
  rw [fullId_plain i f (fun h => hp (.inr h))]
  simp only
  rw [if_neg hs, if_neg hp, if_pos hu]

/-- User-defined definitions never influence the definition of a built-in id. -/
theorem C51_no_override (mode : Nat) (u u' : UDefs) (i : Str) (f : List Str)
    (h : IsStandard i ∨ IsProprietary i) : definitionFor mode u i f = definitionFor mode u' i f := by
  unfold definitionFor
  cases hf : fullId i f with
  | error e => rfl
  | ok id =>
    simp only
    by_cases hs : IsStandard i
    · rw [if_pos hs, if_pos hs]
    · rw [if_neg hs, if_neg hs, if_pos (h.resolve_left hs), if_pos (h.resolve_left hs)]

/-- What can be observed of a message (everything but the dictionary it was parsed with). -/
def observe (r : Except Err (Option Msg)) :
    Except Err (Option (Str × Str × Nat × List Str × Option Str × Attrs × Except Err Str × Except Err Str × Except Err Bytes)) :=
  r.map (Option.map fun m =>
    (m.talker, m.msgID, m.mode, m.payload, m.checksum, m.attrs, m.identity, m.str, m.serialize))

/-- ... hence a sentence with a built-in id is parsed the same way whatever the user defines. -/
theorem C51_parse_builtin (now : Nat → DateTime) (msg : RawMsg) (mode : Int) (v : Nat) (u u' : UDefs)
    (c t i k : Str) (f : List Str) (hs : IsSentence msg c t i f k) (h : IsStandard i ∨ IsProprietary i) :
    observe (parse now msg mode v u) = observe (parse now msg mode v u') := by
  by_cases hm : mode = 0 ∨ mode = 1 ∨ mode = 2
  · rw [parse_cases _ _ _ _ _ hm, parse_cases _ _ _ _ _ hm, sentence_getParts _ _ _ _ _ _ hs]
    simp only
    have hsrc : ∀ u, sourceOf i u = if IsStandard i then .stnd else .prop := by
      intro u
      rw [sourceOf_eq]
      by_cases h1 : IsStandard i
      · simp [h1]
      · simp [h1, h.resolve_left h1]
    have hrec : ∀ u, Recognised u i := fun u => h.elim .inl (fun h => .inr (.inl h))
    by_cases h1 : ValCksum v ∧ upper k ≠ calcChecksum c
    · rw [if_pos h1, if_pos h1]
    rw [if_neg h1, if_neg h1]
    by_cases h2 : ValMsgid v ∧ ¬ t ∈ NMEA_TALKERS
    · rw [if_pos ⟨h2.1, fun h => h2.2 h.1⟩, if_pos ⟨h2.1, fun h => h2.2 h.1⟩]
    have h2' : ∀ u, ¬ (ValMsgid v ∧ ¬ (t ∈ NMEA_TALKERS ∧ Recognised u i)) := by
      rintro u ⟨hv, hn⟩
      exact h2 ⟨hv, fun ht => hn ⟨ht, hrec u⟩⟩
    rw [if_neg (h2' u), if_neg (h2' u'), C51_no_override mode.toNat u u' i f h]
    cases hd : definitionFor mode.toNat u' i f with
    | error e => rfl
    | ok od =>
      cases od with
      | none =>
        simp only
        split
        · rfl
        · simp [observe, finish, ctxOf, Msg.identity, Msg.str, Msg.serialize, Msg.text, hsrc, Except.map,
            Ctx.payload0, Ctx.streaming]
      | some d =>
        simp only
        rw [setPDict_stream_congr (ctxOf t i mode.toNat false v u ⟨some f, []⟩)
          (ctxOf t i mode.toNat false v u' ⟨some f, []⟩) now now ⟨rfl, rfl, rfl, rfl, rfl⟩]
        split
        · simp [observe, finish, ctxOf, Msg.identity, Msg.str, Msg.serialize, Msg.text, hsrc, Except.map,
            Ctx.streaming]
        · rfl
  · rw [parse_mode _ _ _ _ _ hm, parse_mode _ _ _ _ _ hm]

theorem list_lookup_mem {α β} [BEq α] [LawfulBEq α] (k : α) (v : β) (T : List (α × β))
    (h : T.lookup k = some v) : (k, v) ∈ T := by
  induction T with
  | nil => cases h
  | cons p r ih =>
    obtain ⟨x, y⟩ := p
    rw [List.lookup_cons] at h
    split at h
    · rename_i he
      cases h
      rw [beq_iff_eq] at he
      rw [he]; simp
    · exact List.mem_cons_of_mem _ (ih h)

/-- Upper-casing never yields an ASCII lower-case letter. -/
theorem upper_no_lower (s : Str) : ∀ c ∈ upper s, ¬ (97 ≤ c ∧ c ≤ 122) := by
  have hm : ∀ p ∈ Uni.upperMulti, ∀ c ∈ p.2, ¬ (97 ≤ c ∧ c ≤ 122) := by decide +kernel
  have hr : ∀ r ∈ Uni.upperRuns, (122 : Int) < (r.1 : Int) + r.2.2.2 ∨ (r.2.1 : Int) + r.2.2.2 < 97 := by
    decide +kernel
  intro c hc
  unfold upper at hc
  obtain ⟨a, _, ha⟩ := List.mem_flatMap.1 hc
  unfold upperChar at ha
  split at ha
  · split at ha
    · simp only [List.mem_singleton] at ha
      rename_i h1 h2
      simp only [Bool.and_eq_true, decide_eq_true_eq] at h2
      omega
    · simp only [List.mem_singleton] at ha
      rename_i h1 h2
      simp only [Bool.and_eq_true, decide_eq_true_eq] at h2
      omega
  · rename_i h128
    split at ha
    · rename_i m hl
      have : (a, m) ∈ Uni.upperMulti := list_lookup_mem _ _ _ hl
      exact hm _ this c ha
    · split at ha
      · rename_i r hf
        simp only [List.mem_singleton] at ha
        have h1 := List.mem_of_find?_eq_some hf
        have h2 := List.find?_some hf
        simp only [Bool.and_eq_true, decide_eq_true_eq] at h2
        rcases hr r h1 with h | h <;> omega
      · simp only [List.mem_singleton] at ha
        omega

/-- A definition of the user can be selected only under an upper-case name: an entry whose name
contains a lower-case letter is never used. -/
theorem C51_lower_case_user (mode : Nat) (u : UDefs) (i : Str) (f : List Str) (hs : ¬ IsStandard i)
    (hp : ¬ IsProprietary i) (hu : IsUserDefined u i)
    (hall : ∀ kd ∈ u, ∃ c ∈ kd.1, 97 ≤ c ∧ c ≤ 122) :
    definitionFor mode u i f = .ok none := by
  rw [C51_user mode u i f hs hp hu]
  congr 1
  rw [lookup_none_iff]
  intro hmem
  obtain ⟨kd, h1, h2⟩ := List.mem_map.1 hmem
  obtain ⟨c, h3, h4⟩ := hall kd h1
  rw [h2] at h3
  exact upper_no_lower i c h3 h4

example : ¬ IsStandard py!"foobar" ∧ ¬ IsProprietary py!"foobar" ∧
    IsUserDefined [(py!"foobar", .single py!"a" py!"IN" .nil)] py!"foobar" := by decide +kernel

/-- The definition named `TNLGGKx` is never selected: no sentence has a layout of that name. -/
theorem C51_TNLGGKx_dead (mode : Nat) (i id : Str) (f : List Str) (h : fullId i f = .ok id) :
    layoutName mode (upper id) f ≠ .ok py!"TNLGGKx" := by
  have hlow := upper_no_lower id
  intro hl
  have hx : ∀ key, key = py!"TNLGGKx" → upper id ≠ key := by
    intro key hk he
    exact hlow 120 (by rw [he, hk]; decide) (by omega)
  unfold layoutName at hl
  split at hl
  · cases f with
    | nil => cases hl
    | cons a r =>
      simp only [Except.ok.injEq] at hl
      split at hl <;> exact absurd hl (by decide)
  · split at hl
    · cases f with
      | nil => cases hl
      | cons a r =>
        simp only [Except.ok.injEq] at hl
        exact absurd hl (by simp)
    · split at hl
      · rename_i sfx hlk
        simp only [Except.ok.injEq] at hl
        have hsfx : ∀ p ∈ layouts, ∀ key, key ++ p.2 = py!"TNLGGKx" → False := by
          intro p hp key he
          have h1 : ∀ p ∈ layouts, p.2.head? = some 95 := by decide
          have h2 := h1 p hp
          have : (95 : Nat) ∈ key ++ p.2 := by
            cases hq : p.2 with
            | nil => rw [hq] at h2; cases h2
            | cons a r => rw [hq] at h2; simp at h2; subst h2; simp
          rw [he] at this
          exact absurd this (by decide)
        have hmem : ((mode, upper id, f.length), sfx) ∈ layouts := list_lookup_mem _ _ _ hlk
        exact hsfx _ hmem _ hl
      · simp only [Except.ok.injEq] at hl
        split at hl
        · unfold ackName at hl
          split at hl
          · exact absurd hl (by decide)
          · split at hl
            · exact absurd hl (by decide)
            · exact hx _ hl rfl
        · exact hx _ hl rfl

/-- Entries of the standard POLL table that no recognised id can select: their names are not those
of standard ids, and other recognised ids do not use this table. -/
theorem C51_poll_dead : ((NMEA_PAYLOADS_POLL.filter fun kd =>
      kd.1 ∉ (NMEA_MSGIDS.map Prod.fst).map upper).map Prod.fst).length = 66 ∧
    (∀ kd ∈ NMEA_PAYLOADS_POLL, kd.1 ∉ (NMEA_MSGIDS.map Prod.fst).map upper →
      (∃ m ∈ NMEA_MSGIDS_PROP.map Prod.fst, m = kd.1) ∨ kd.1 = py!"ASHRHR") := by
  decide +kernel

/-- Standard ids without any definition for received sentences (the query talkers). -/
theorem C51_undefined_standard : (NMEA_MSGIDS.map Prod.fst).filter
      (fun i => (lookup (upper i) NMEA_PAYLOADS_GET).isNone) =
    [py!"GAQ", py!"GBQ", py!"GLQ", py!"GNQ", py!"GPQ", py!"GQQ"] := by decide +kernel

/-! ## C48 -/

/-- The Quectel command and response types with several layouts. -/
def variantTypes : List Str :=
  [py!"QTMCFGUART", py!"QTMCFGMSGRATE", py!"QTMCFGPPS", py!"QTMCFGSAT", py!"QTMCFGGEOFENCE"]

/-- `name` is the type `key` itself or one of its variants `key_...`. -/
def VariantOf (key name : Str) : Prop := name = key ∨ (key ++ py!"_").isPrefixOf name = true

instance (k n : Str) : Decidable (VariantOf k n) := by unfold VariantOf; infer_instance

/-- Whenever the table for the mode has a variant with as many attributes as the sentence has fields,
the sentence is read with exactly the attributes of that variant (name and type, in order); unless it
is a generic `OK` / `ERROR,code` acknowledgement. -/
theorem C48_variant (mode : Nat) (hm : mode = 0 ∨ mode = 1 ∨ mode = 2) (u : UDefs) (key name : Str) (d : PDict)
    (f : List Str) (hk : key ∈ variantTypes) (hv : VariantOf key name) (hd : (name, d) ∈ proprietaryDefs mode)
    (hlen : f.length = (slotsOf d []).length) (hack : f ≠ [py!"OK"] ∧ f.head? ≠ some py!"ERROR") :
    ∃ d', definitionFor mode u key f = .ok (some d') ∧ IsFlat d' = true ∧
      (slotsOf d' []).take f.length = slotsOf d [] := by
  have hack' : ackName key f = key := by
    unfold ackName
    rw [if_neg hack.1, if_neg (fun h => hack.2 h.2)]
  have hids : ∀ key ∈ variantTypes, ¬ IsStandard key ∧ IsProprietary key ∧ key ∉ NMEA_PREFIX_PROP ∧
      upper key = key ∧ key ≠ py!"QTMSN" ∧ key ≠ py!"STMDRSENMSG" := by decide +kernel
  obtain ⟨h1, h2, h3, h4, h5, h6⟩ := hids key hk
  have hsel : definitionFor mode u key f =
      .ok (lookup (match layouts.lookup (mode, key, (slotsOf d []).length) with
        | some sfx => key ++ sfx
        | none => key) (proprietaryDefs mode)) := by
    unfold definitionFor
    rw [fullId_plain key f h3]
    simp only
    rw [if_neg h1, if_pos h2, h4, layoutName_plain _ _ _ h5 h6, hlen]
    cases layouts.lookup (mode, key, (slotsOf d []).length) with
    | some sfx => rfl
    | none =>
      simp only [hack', ite_self]
  have hall : ∀ mode ∈ [0, 1, 2], ∀ key ∈ variantTypes, ∀ nd ∈ proprietaryDefs mode, VariantOf key nd.1 →
      (match lookup (match layouts.lookup (mode, key, (slotsOf nd.2 []).length) with
        | some sfx => key ++ sfx
        | none => key) (proprietaryDefs mode) with
      | some d' => IsFlat d' = true ∧ (slotsOf d' []).take (slotsOf nd.2 []).length = slotsOf nd.2 []
      | none => False) := by
    have : ∀ mode ∈ [0, 1, 2], ∀ key ∈ variantTypes, ∀ nd ∈ proprietaryDefs mode, VariantOf key nd.1 →
      (match lookup (match layouts.lookup (mode, key, (slotsOf nd.2 []).length) with
        | some sfx => key ++ sfx
        | none => key) (proprietaryDefs mode) with
      | some d' => IsFlat d' && decide ((slotsOf d' []).take (slotsOf nd.2 []).length = slotsOf nd.2 [])
      | none => false) = true := by decide +kernel
    intro mode hm key hk nd hnd hv
    have := this mode hm key hk nd hnd hv
    split at this
    · simpa using this
    · cases this
  have := hall mode (by simpa using hm) key hk (name, d) hd hv
  simp only at this
  split at this
  · rename_i d' he
    exact ⟨d', by rw [hsel, he], this.1, by rw [hlen]; exact this.2⟩
  · exact this.elim

/-- A received response with as many fields as the variant `_LOW`. -/
example : VariantOf py!"QTMCFGSAT" py!"QTMCFGSAT_LOW" ∧
    (proprietaryDefs 0).any (fun nd => nd.1 == py!"QTMCFGSAT_LOW" && (slotsOf nd.2 []).length == 4) = true := by
  decide +kernel

/-- The one variant never used under its own name: for received geofence responses with three fields
the general layout is used, whose first three attributes are the same. -/
theorem C48_geofence_dis : ∀ u f, f.length = 3 →
    definitionFor 0 u py!"QTMCFGGEOFENCE" f = .ok (lookup py!"QTMCFGGEOFENCE" NMEA_PAYLOADS_GET_PROP) ∧
    lookup py!"QTMCFGGEOFENCE_DIS" NMEA_PAYLOADS_GET_PROP ≠ none := by
  intro u f hf
  refine ⟨?_, by decide +kernel⟩
  unfold definitionFor
  rw [fullId_plain _ f (by decide)]
  simp only
  rw [if_neg (by decide +kernel), if_pos (by decide +kernel),
    show upper py!"QTMCFGGEOFENCE" = py!"QTMCFGGEOFENCE" by decide,
    layoutName_plain _ _ _ (by decide) (by decide), hf]
  have : layouts.lookup (0, py!"QTMCFGGEOFENCE", 3) = none := by decide
  rw [this]
  simp only [ackName_other _ f (by omega), ite_self]
  rfl

/-- `PQTMSN` responses: the layout with the numeric field first is used exactly if the first field is
numeric; `PSTMDRSENMSG`: the layout named by the first field. -/
theorem C48_by_content (u : UDefs) (a : Str) (r : List Str) :
    definitionFor 0 u py!"QTMSN" (a :: r) =
      .ok (lookup (if isNumeric a then py!"QTMSN_ALT" else py!"QTMSN") NMEA_PAYLOADS_GET_PROP) ∧
    definitionFor 0 u py!"STMDRSENMSG" (a :: r) =
      .ok (lookup (py!"STMDRSENMSG_" ++ a) NMEA_PAYLOADS_GET_PROP) := by
  constructor
  · unfold definitionFor
    rw [fullId_plain _ _ (by decide)]
    simp only
    rw [if_neg (by decide +kernel), if_pos (by decide +kernel), show upper py!"QTMSN" = py!"QTMSN" by decide]
    unfold layoutName
    rw [if_pos ⟨rfl, rfl⟩]
    rfl
  · unfold definitionFor
    rw [fullId_plain _ _ (by decide)]
    simp only
    rw [if_neg (by decide +kernel), if_pos (by decide +kernel),
      show upper py!"STMDRSENMSG" = py!"STMDRSENMSG" by decide]
    unfold layoutName
    rw [if_neg (by decide), if_pos rfl]
    rfl

/-! ## C47 -/

/-- Built-in definitions. -/
def BuiltIn (mode : Nat) (name : Str) (d : PDict) : Prop :=
  (name, d) ∈ standardDefs mode ∨ (name, d) ∈ proprietaryDefs mode

/-- A check of all built-in definitions. -/
theorem builtin_all (P : Str → PDict → Bool)
    (h1 : NMEA_PAYLOADS_GET.all (fun kd => P kd.1 kd.2) = true)
    (h2 : NMEA_PAYLOADS_SET.all (fun kd => P kd.1 kd.2) = true)
    (h3 : NMEA_PAYLOADS_POLL.all (fun kd => P kd.1 kd.2) = true)
    (h4 : NMEA_PAYLOADS_GET_PROP.all (fun kd => P kd.1 kd.2) = true)
    (h5 : NMEA_PAYLOADS_SET_PROP.all (fun kd => P kd.1 kd.2) = true)
    (h6 : NMEA_PAYLOADS_POLL_PROP.all (fun kd => P kd.1 kd.2) = true)
    (mode : Nat) (name : Str) (d : PDict) (h : BuiltIn mode name d) : P name d = true := by
  rw [List.all_eq_true] at h1 h2 h3 h4 h5 h6
  rcases h with h | h
  · unfold standardDefs at h
    split at h
    · exact h3 _ h
    · exact h2 _ h
    · exact h1 _ h
  · unfold proprietaryDefs at h
    split at h
    · exact h6 _ h
    · exact h5 _ h
    · exact h4 _ h

/-- All attributes of a definition at any depth, with their types. -/
def typed : PDict → List (Str × Str)
  | .nil => []
  | .single k t r => (k, t) :: typed r
  | .group _ _ b r => typed b ++ typed r

/-- Every attribute of every built-in definition has a type that `str2val` can convert (an empty
field, for instance), except in two definitions - whose offending types `str2val` rejects for every
field. -/
theorem C47_typed (mode : Nat) (name : Str) (d : PDict) (h : BuiltIn mode name d) (k t : Str)
    (hk : (k, t) ∈ typed d) :
    (∃ v, str2val [] t = .ok v) ∨
    ((name = py!"FOO" ∨ (name = py!"LR2" ∧ k = py!"date")) ∧ ∀ s, str2val s t = .error .nmeaType) := by
  have hb := builtin_all (fun name d => (typed d).all fun kt =>
      (match str2val [] kt.2 with | .ok _ => true | .error _ => false) ||
      ((name == py!"FOO" || (name == py!"LR2" && kt.1 == py!"date")) &&
        (kt.2 == py!"Z2" || kt.2 == py!"Y1" || kt.2 == py!"DTL")))
    (by decide +kernel) (by decide +kernel) (by decide +kernel) (by decide +kernel) (by decide +kernel)
    (by decide +kernel) mode name d h
  rw [List.all_eq_true] at hb
  have := hb _ hk
  simp only [Bool.or_eq_true, Bool.and_eq_true, beq_iff_eq] at this
  rcases this with h | ⟨h1, h2⟩
  · left
    split at h
    · rename_i v e; exact ⟨v, e⟩
    · cases h
  · right
    refine ⟨h1, fun s => ?_⟩
    rcases h2 with (rfl | rfl) | rfl <;> rfl

/-- The attributes of a definition with the names of the integer attributes that precede each group
(at the same level). -/
def countersOk : PDict → List Str → Bool
  | .nil, _ => true
  | .single k t r, seen => countersOk r (if t = py!"IN" then k :: seen else seen)
  | .group _ rep b r, seen =>
    (match rep with | .named k => seen.contains k | .fixed z => decide (0 < z) | .indet => b.len != 0) &&
      countersOk b [] && countersOk r seen

/-- Repeat counts of groups in built-in definitions are positive constants or refer to an integer
attribute that precedes the group. -/
theorem C47_counters (mode : Nat) (name : Str) (d : PDict) (h : BuiltIn mode name d) :
    countersOk d [] = true :=
  builtin_all (fun _ d => countersOk d []) (by decide +kernel) (by decide +kernel) (by decide +kernel)
    (by decide +kernel) (by decide +kernel) (by decide +kernel) mode name d h

/-- Attribute names within a built-in definition are pairwise different, do not hide a property or a
conversion method of the message class, do not begin with an underscore and are not empty. -/
theorem C47_names (mode : Nat) (name : Str) (d : PDict) (h : BuiltIn mode name d) :
    (allNames d).Nodup ∧ (∀ k ∈ allNames d, k ∉ [py!"identity", py!"talker", py!"msgID", py!"msgmode",
      py!"payload", py!"checksum", py!"str2val", py!"val2str", py!"nomval", py!"serialize"]) ∧
    ∀ k ∈ allNames d, k ≠ [] ∧ k.head? ≠ some 95 := by
  have := builtin_all (fun _ d => decide ((allNames d).Nodup) && (allNames d).all (fun k =>
      decide (k ∉ [py!"identity", py!"talker", py!"msgID", py!"msgmode",
      py!"payload", py!"checksum", py!"str2val", py!"val2str", py!"nomval", py!"serialize"]) &&
      (k != [] && k.head? != some 95)))
    (by decide +kernel) (by decide +kernel) (by decide +kernel)
    (by decide +kernel) (by decide +kernel) (by decide +kernel) mode name d h
  simp only [Bool.and_eq_true, decide_eq_true_eq, List.all_eq_true, bne_iff_ne] at this
  exact ⟨this.1, fun k hk => (this.2 k hk).1, fun k hk => (this.2 k hk).2⟩

/-- Within a table every name is defined once. -/
theorem C47_tables_nodup (mode : Nat) :
    ((standardDefs mode).map Prod.fst).Nodup ∧ ((proprietaryDefs mode).map Prod.fst).Nodup := by
  constructor
  · unfold standardDefs; split <;> decide +kernel
  · unfold proprietaryDefs; split <;> decide +kernel

/-- Consequence of the unsupported type: no LR2 sentence with a date field can ever be parsed. -/
theorem C47_LR2 (now : Nat → DateTime) (msg : RawMsg) (v : Nat) (u : UDefs) (c t k : Str) (f : List Str)
    (hs : IsSentence msg c t py!"LR2" f k) (hl : 3 ≤ f.length) (m : Msg) :
    parse now msg 0 v u ≠ .ok (some m) := by
  intro h
  have hd : definitionFor 0 u py!"LR2" f = .ok (lookup py!"LR2" NMEA_PAYLOADS_GET) := by
    rw [C51_standard 0 u _ f (by decide +kernel)]
    rfl
  have hlk : ∃ d, lookup py!"LR2" NMEA_PAYLOADS_GET = some d ∧ SaneNames d ∧ IsStatic d = true ∧
      (slotsOf d [])[2]? = some (py!"date", py!"DTL") := by
    refine ⟨_, by rfl, ?_, ?_, ?_⟩ <;> decide +kernel
  obtain ⟨d, e, h1, h2, h3⟩ := hlk
  rw [e] at hd
  have ha := admitted_of_accept now msg 0 v u c t _ k f hs m h
  obtain ⟨slots, h4, h5⟩ := (C16_layout now msg 0 v u c t _ k f hs ha d hd h1 m.attrs).1 ⟨m, h, rfl⟩
  rw [expand_static_iff _ _ d h2] at h4
  subst h4
  have hlen : 2 < (fieldTexts t py!"LR2" f).length := by rw [fieldTexts_length]; omega
  obtain ⟨val, hv⟩ := readSlots_ok_val _ _ _ _ h5 2 _ _ _ h3 (List.getElem?_eq_getElem hlen)
  cases hv

example : parse clock0 (.bytes pb!"$AILR2,1,123456789,15082024,120000,,,,,,,,*00\r\n") 0 0 [] =
    .error .nmeaType := by decide +kernel

end Props
