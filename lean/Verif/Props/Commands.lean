import Verif.Props.Vendor
import Verif.Props.Writing
import Verif.Props.Defaults
import Verif.Spec.Commands
/-!
# Commands and queries (C80, C81)
-/
namespace Props.Commands
open Py Nmea Spec Spec.Nmea0183 Spec.Vendor Spec.Commands Props Props.Vendor

/-! ## What is checked of the tables -/

/-- Ids of sentences of which the keywords select a variant. -/
def kwVariantIds : List Str :=
  [py!"QTMCFGUART", py!"QTMCFGMSGRATE", py!"QTMCFGPPS", py!"QTMCFGSAT", py!"QTMCFGGEOFENCE", py!"STMDRSENMSG"]

/-- What is checked of the way a definition is found. -/
def choiceOk (i : Str) : Select → Bool
  | .always => decide (i ∉ NMEA_PREFIX_PROP)
  | .word _ => decide (i ∈ NMEA_PREFIX_PROP) && decide (i ≠ py!"ASHR") && decide (i ≠ py!"SSN")
  | _ => false

/-- A field `status` of a Quectel sentence has the type which is `W` or `R` by default. -/
def verbOk (d : PDict) (lay : List Item) : Bool :=
  match lay with
  | .one n .text :: _ => decide (n ≠ py!"status") || (match d with | .single k t _ => decide (k = py!"status" ∧ t = QS) | _ => false)
  | _ => true

/-- What is checked of each command or query. -/
def commandOk (mode : Nat) (x : Str × Select × List Item) : Bool :=
  match lookup (keyOf x.1 x.2.1) (proprietaryDefs mode) with
  | none => false
  | some d =>
    layoutOk d x.2.2 && Determinate d && decide (¬ IsStandard x.1) && decide (IsProprietary x.1) && choiceOk x.1 x.2.1 &&
      (decide (keyOf x.1 x.2.1 ∉ kwVariantIds) || decide (mode = 2 ∧ keyOf x.1 x.2.1 ∉ [py!"QTMCFGUART", py!"QTMCFGMSGRATE", py!"STMDRSENMSG"])) &&
      layouts.all (fun l => decide (l.1.1 ≠ mode) || decide (l.1.2.1 ≠ keyOf x.1 x.2.1)) &&
      decide (x.1 ∉ [py!"PSSNSNC", py!"SSNSNC", py!"SNSNC"]) && decide (x.1 ≠ py!"SSN") && verbOk d x.2.2

theorem commands_ok : ∀ x ∈ commands, commandOk 1 x = true := by decide +kernel

theorem queries_ok : ∀ x ∈ queries, commandOk 2 x = true := by decide +kernel

theorem known_ok {mode : Int} (hm : mode = 1 ∨ mode = 2) : ∀ x ∈ known mode, commandOk mode.toNat x = true := by
  rcases hm with rfl | rfl
  · exact commands_ok
  · exact queries_ok

/-- The variant of a command or query: the suffix of its definition's name depends on the number of fields. -/
def variantKey (mode : Nat) (i : Str) (lay : List Item) : Str := i ++ (layouts.lookup (mode, i, lay.length)).getD []

/-- What is checked of each variant. -/
def variantRowOk (mode : Nat) (x : Str × List When × List Item) : Bool :=
  match lookup (variantKey mode x.1 x.2.2) (proprietaryDefs mode) with
  | none => false
  | some d =>
    layoutOk d x.2.2 && Determinate d && decide (¬ IsStandard x.1) && decide (IsProprietary x.1) &&
      decide (x.1 ∉ NMEA_PREFIX_PROP) && decide (upper x.1 = x.1) && decide (x.1 ∈ kwVariantIds) &&
      decide (x.1 ∉ [py!"PSSNSNC", py!"SSNSNC", py!"SNSNC"]) && decide (x.1 ≠ py!"SSN") &&
      decide (x.1 ≠ py!"STMDRSENMSG") && verbOk d x.2.2

theorem commandVariants_ok : ∀ x ∈ commandVariants, variantRowOk 1 x = true := by decide +kernel

theorem queryVariants_ok : ∀ x ∈ queryVariants, variantRowOk 2 x = true := by decide +kernel

theorem variantRows_ok {mode : Int} (hm : mode = 1 ∨ mode = 2) : ∀ x ∈ Commands.variants mode, variantRowOk mode.toNat x = true := by
  rcases hm with rfl | rfl
  · exact commandVariants_ok
  · exact queryVariants_ok

/-! ## Writing -/

/-- The first field, when it is `status` and not given. -/
theorem written_verb (now : Nat → DateTime) (t i : Str) (mode : Int) (hm : mode = 1 ∨ mode = 2) (hp : Bool)
    (v : Nat) (u : UDefs) (kw : List (Str × PyVal)) (m : Msg) (hkw : PlainKeywords i kw) (d : PDict)
    (hd : KwDefinition mode.toNat u i kw d) (hsane : SaneGen d) (hnow : ClockOk now) (lay : List Item)
    (hv : verbOk d lay = true) (h : mkMsg now t i mode hp v u none ⟨none, kw⟩ = .ok m)
    (hlay : lay.head? = some (.one py!"status" .text)) (hno : ¬ Given kw py!"status") :
    m.payload.head? = some (verb mode) := by
  match lay, hlay, hv with
  | x :: r, hlay, hv =>
    obtain rfl : x = .one py!"status" .text := by simpa using hlay
    match d, hv with
    | .single k ty rest, hv =>
      simp only [verbOk, ne_eq, not_true_eq_false, decide_false, Bool.false_or, decide_eq_true_eq] at hv
      obtain ⟨rfl, rfl⟩ := hv
      obtain ⟨ws, he, hpay, _, hdef⟩ := C69_default now (fun n => (hnow n).2.1) t i mode hp v u kw m hkw _ hd hsane h
      cases he with
      | single _ _ _ _ _ _ val text _ _ hrest =>
        obtain ⟨c, hc⟩ := emit_prefix hrest
        simp only [List.nil_append, List.append_nil, List.singleton_append] at hc
        subst hc
        obtain ⟨n, hn⟩ := hdef 0 _ rfl ⟨hno, by intro a b e hab; cases hab⟩
        rw [hpay]
        simp only [List.map_cons, List.head?_cons]
        generalize hq : (⟨py!"status", QS, val, text⟩ : Written) = w at hn
        have hwt : w.ty = py!"QS" := by rw [← hq]
        have hwx : w.text = text := by rw [← hq]
        rw [hwt, hwx] at hn
        generalize w.val = wv at hn
        rcases hm with rfl | rfl <;> cases hn <;> first | rfl | contradiction

theorem kw_definition {mode : Int} (hm : mode = 1 ∨ mode = 2) {i : Str} {sel : Select} {lay : List Item}
    (hl : (i, sel, lay) ∈ known mode) (u : UDefs) (kw : List (Str × PyVal)) (hsel : SelectsBy kw sel) :
    ∃ d, KwDefinition mode.toNat u i kw d ∧ SaneGen d ∧ layoutOk d lay = true ∧ Determinate d = true ∧
      verbOk d lay = true := by
  have hok := known_ok hm _ hl
  unfold commandOk at hok
  simp only at hok
  cases hd : lookup (keyOf i sel) (proprietaryDefs mode.toNat) with
  | none => rw [hd] at hok; cases hok
  | some d =>
    rw [hd] at hok
    simp only [Bool.and_eq_true, decide_eq_true_eq, Bool.or_eq_true] at hok
    obtain ⟨⟨⟨⟨⟨⟨⟨⟨⟨h1, h2⟩, h3⟩, h4⟩, h5⟩, h6⟩, h7⟩, h8⟩, h9⟩, h10⟩ := hok
    refine ⟨d, ?_, tables_sane_gen.2 _ _ (lookup_some_mem _ _ _ hd), h1, h2, h10⟩
    have hid : ∃ id, kwFullId i kw = .ok id ∧ upper id = keyOf i sel := by
      unfold kwFullId
      cases sel with
      | always =>
        simp only [choiceOk, decide_eq_true_eq] at h5
        exact ⟨i, by rw [if_neg h5], rfl⟩
      | word w =>
        simp only [choiceOk, Bool.and_eq_true, decide_eq_true_eq] at h5
        have : lookup py!"msgId" kw = some (.str w) := hsel
        exact ⟨i ++ w, by rw [if_pos h5.1.1, this], rfl⟩
      | time => cases h5
      | data => cases h5
    obtain ⟨id, e1, e2⟩ := hid
    refine ⟨id, e1, ?_⟩
    rw [if_neg h3, if_pos h4, e2]
    refine .inr ⟨?_, ?_, hd⟩
    · intro sfx hk
      generalize keyOf i sel = key at hk h6
      generalize mode.toNat = md at hk h6
      rcases h6 with h6 | ⟨rfl, h6⟩
      · apply h6; cases hk <;> simp [kwVariantIds]
      · cases hk <;> simp at h6 <;> omega
    · intro e
      rw [e] at h6
      rcases h6 with h6 | ⟨_, h6⟩ <;> exact absurd h6 (by decide)

/-- The constructor, given keywords that suit a command or query (mode SET or POLL) of a manufacturer, succeeds,
and the message has the fields of that command, in order and each written properly, omitted keywords left at their
defaults. A Quectel command begins with `W` and a query with `R` unless the keyword `status` says otherwise. If no
text among the keywords has a reserved character, the bytes of the message are a sentence with these fields and the
right checksum. -/
theorem C80_commands (now : Nat → DateTime) (t i : Str) (mode : Int) (hm : mode = 1 ∨ mode = 2) (hp : Bool) (v : Nat)
    (u : UDefs) (kw : List (Str × PyVal)) (sel : Select) (lay : List Item) (hl : (i, sel, lay) ∈ known mode)
    (hsel : SelectsBy kw sel) (hids : KnownIds v u t i) (hkw : PlainKeywords i kw) (hnow : ClockOk now)
    (hs : SuitableKeywords kw lay) :
    ∃ m, mkMsg now t i mode hp v u none ⟨none, kw⟩ = .ok m ∧ IsWritten hp mode.toNat now kw lay m ∧
      (lay.head? = some (.one py!"status" .text) → ¬ Given kw py!"status" → m.payload.head? = some (verb mode)) ∧
      (PlainStrings kw → PlainText (t ++ i) → SplitsBack t i → OnTheWire t i m) := by
  obtain ⟨d, h1, h2, h3, h4, h5⟩ := kw_definition hm hl u kw hsel
  obtain ⟨m, a1, a2, a3⟩ := writing_made now t i mode (.inr hm) hp v u kw hids hkw d h1 h2 hnow lay h3 h4 hs
  exact ⟨m, a1, a2, fun b1 b2 => written_verb now t i mode hm hp v u kw m hkw d h1 h2 hnow lay h5 a1 b1 b2, a3⟩

/-- Which variant the keywords select. -/
theorem variant_selected {mode : Int} (hm : mode = 1 ∨ mode = 2) {i : Str} {conds : List When} {lay : List Item}
    (hl : (i, conds, lay) ∈ Commands.variants mode) (kw : List (Str × PyVal)) (hc : ∀ w ∈ conds, w.Met kw) :
    (∃ sfx, KwSuffix kw mode.toNat i sfx ∧ variantKey mode.toNat i lay = i ++ sfx) ∨
      ((∀ sfx, ¬ KwSuffix kw mode.toNat i sfx) ∧ variantKey mode.toNat i lay = i) := by
  rcases hm with rfl | rfl
  · change (i, conds, lay) ∈ commandVariants at hl
    simp only [commandVariants, List.mem_cons, Prod.mk.injEq, List.not_mem_nil, or_false] at hl
    rcases hl with ⟨rfl, rfl, rfl⟩ | ⟨rfl, rfl, rfl⟩ | ⟨rfl, rfl, rfl⟩ | ⟨rfl, rfl, rfl⟩ | ⟨rfl, rfl, rfl⟩ |
      ⟨rfl, rfl, rfl⟩ | ⟨rfl, rfl, rfl⟩ | ⟨rfl, rfl, rfl⟩ | ⟨rfl, rfl, rfl⟩ | ⟨rfl, rfl, rfl⟩ | ⟨rfl, rfl, rfl⟩ |
      ⟨rfl, rfl, rfl⟩ | ⟨rfl, rfl, rfl⟩ | ⟨rfl, rfl, rfl⟩ | ⟨rfl, rfl, rfl⟩ <;>
      simp only [List.forall_mem_cons, List.not_mem_nil, false_implies, implies_true, and_true, When.Met] at hc
    · exact .inl ⟨_, .uartCurrBaud hc.1 hc.2.1 hc.2.2, by decide +kernel⟩
    · exact .inl ⟨_, .uartBaud hc.1 hc.2.1 hc.2.2, by decide +kernel⟩
    · exact .inl ⟨_, .uartCurr hc.1 hc.2.1 hc.2.2, by decide +kernel⟩
    · refine .inr ⟨fun sfx h => ?_, by decide +kernel⟩
      cases h <;> simp_all
    · exact .inl ⟨_, .rateNoVer _ hc.1 hc.2, by decide +kernel⟩
    · refine .inr ⟨fun sfx h => ?_, by decide +kernel⟩
      cases h <;> simp_all
    · exact .inl ⟨_, .rateIntfNoVer _ hc.1 hc.2, by decide +kernel⟩
    · exact .inl ⟨_, .rateIntf _ hc.1 hc.2, by decide +kernel⟩
    · exact .inl ⟨_, .pps hc, by decide +kernel⟩
    · refine .inr ⟨fun sfx h => ?_, by decide +kernel⟩
      cases h <;> simp_all
    · exact .inl ⟨_, .sat _ (.inr rfl) hc, by decide +kernel⟩
    · refine .inr ⟨fun sfx h => ?_, by decide +kernel⟩
      cases h <;> simp_all
    · exact .inl ⟨_, .poly _ (.inr rfl) hc, by decide +kernel⟩
    · exact .inl ⟨_, .dis hc.1 hc.2, by decide +kernel⟩
    · refine .inr ⟨fun sfx h => ?_, by decide +kernel⟩
      cases h <;> simp_all
  · change (i, conds, lay) ∈ queryVariants at hl
    simp only [queryVariants, List.mem_cons, Prod.mk.injEq, List.not_mem_nil, or_false] at hl
    rcases hl with ⟨rfl, rfl, rfl⟩ | ⟨rfl, rfl, rfl⟩ | ⟨rfl, rfl, rfl⟩ | ⟨rfl, rfl, rfl⟩ | ⟨rfl, rfl, rfl⟩ |
      ⟨rfl, rfl, rfl⟩ <;>
      simp only [List.forall_mem_cons, List.not_mem_nil, false_implies, implies_true, and_true, When.Met] at hc
    · exact .inl ⟨_, .uartPoll hc, by decide +kernel⟩
    · refine .inr ⟨fun sfx h => ?_, by decide +kernel⟩
      cases h <;> simp_all
    · exact .inl ⟨_, .rateNoVer _ hc.1 hc.2, by decide +kernel⟩
    · refine .inr ⟨fun sfx h => ?_, by decide +kernel⟩
      cases h <;> simp_all
    · exact .inl ⟨_, .rateIntfNoVer _ hc.1 hc.2, by decide +kernel⟩
    · exact .inl ⟨_, .rateIntf _ hc.1 hc.2, by decide +kernel⟩

theorem kw_variant {mode : Int} (hm : mode = 1 ∨ mode = 2) {i : Str} {conds : List When} {lay : List Item}
    (hl : (i, conds, lay) ∈ Commands.variants mode) (u : UDefs) (kw : List (Str × PyVal))
    (hc : ∀ w ∈ conds, w.Met kw) :
    ∃ d, KwDefinition mode.toNat u i kw d ∧ SaneGen d ∧ layoutOk d lay = true ∧ Determinate d = true ∧
      verbOk d lay = true := by
  have hok := variantRows_ok hm _ hl
  unfold variantRowOk at hok
  simp only at hok
  cases hd : lookup (variantKey mode.toNat i lay) (proprietaryDefs mode.toNat) with
  | none => rw [hd] at hok; cases hok
  | some d =>
    rw [hd] at hok
    simp only [Bool.and_eq_true, decide_eq_true_eq] at hok
    obtain ⟨⟨⟨⟨⟨⟨⟨⟨⟨⟨h1, h2⟩, h3⟩, h4⟩, h5⟩, h6⟩, h7⟩, h8⟩, h9⟩, h10⟩, h11⟩ := hok
    refine ⟨d, ⟨i, by unfold kwFullId; rw [if_neg h5], ?_⟩, tables_sane_gen.2 _ _ (lookup_some_mem _ _ _ hd), h1, h2, h11⟩
    rw [if_neg h3, if_pos h4, h6]
    rcases variant_selected hm hl kw hc with ⟨sfx, e1, e2⟩ | ⟨e1, e2⟩
    · exact .inl ⟨sfx, e1, by rw [← e2]; exact hd⟩
    · exact .inr ⟨e1, h10, by rw [← e2]; exact hd⟩

/-- The same for commands and queries of which there are variants: the keywords that are given, and for two of them
whether a keyword is zero, say which variant is written. -/
theorem C80_variants (now : Nat → DateTime) (t i : Str) (mode : Int) (hm : mode = 1 ∨ mode = 2) (hp : Bool) (v : Nat)
    (u : UDefs) (kw : List (Str × PyVal)) (conds : List When) (lay : List Item)
    (hl : (i, conds, lay) ∈ Commands.variants mode) (hc : ∀ w ∈ conds, w.Met kw) (hids : KnownIds v u t i)
    (hkw : PlainKeywords i kw) (hnow : ClockOk now) (hs : SuitableKeywords kw lay) :
    ∃ m, mkMsg now t i mode hp v u none ⟨none, kw⟩ = .ok m ∧ IsWritten hp mode.toNat now kw lay m ∧
      (lay.head? = some (.one py!"status" .text) → ¬ Given kw py!"status" → m.payload.head? = some (verb mode)) ∧
      (PlainStrings kw → PlainText (t ++ i) → SplitsBack t i → OnTheWire t i m) := by
  obtain ⟨d, h1, h2, h3, h4, h5⟩ := kw_variant hm hl u kw hc
  obtain ⟨m, a1, a2, a3⟩ := writing_made now t i mode (.inr hm) hp v u kw hids hkw d h1 h2 hnow lay h3 h4 hs
  exact ⟨m, a1, a2, fun b1 b2 => written_verb now t i mode hm hp v u kw m hkw d h1 h2 hnow lay h5 a1 b1 b2, a3⟩

/-! ## Reading -/

/-- The definition used for a received command or query. -/
theorem read_definition {mode : Int} (hm : mode = 1 ∨ mode = 2) {i : Str} {sel : Select} {lay : List Item}
    (hl : (i, sel, lay) ∈ known mode) (f : List Str) (hf : Selects sel f) :
    ∃ d, (∀ u, definitionFor mode.toNat u i f = .ok (some d)) ∧ SaneNames d ∧ layoutOk d lay = true ∧
      ∀ t : Str, t.length ≤ 2 → fieldTexts t i f = f := by
  have hok := known_ok hm _ hl
  have hm0 : mode.toNat ≠ 0 := by rcases hm with rfl | rfl <;> decide
  unfold commandOk at hok
  simp only at hok
  cases hd : lookup (keyOf i sel) (proprietaryDefs mode.toNat) with
  | none => rw [hd] at hok; cases hok
  | some d =>
    rw [hd] at hok
    simp only [Bool.and_eq_true, decide_eq_true_eq, Bool.or_eq_true] at hok
    obtain ⟨⟨⟨⟨⟨⟨⟨⟨⟨h1, h2⟩, h3⟩, h4⟩, h5⟩, h6⟩, h7⟩, h8⟩, h9⟩, h10⟩ := hok
    refine ⟨d, fun u => ?_, tables_sane.2 _ _ (lookup_some_mem _ _ _ hd), h1, fun t ht => texts_id f ht h8 h9⟩
    have hid : ∃ id, fullId i f = .ok id ∧ upper id = keyOf i sel := by
      unfold fullId
      cases sel with
      | always =>
        simp only [choiceOk, decide_eq_true_eq] at h5
        exact ⟨i, by rw [if_neg h5], rfl⟩
      | word w =>
        simp only [choiceOk, Bool.and_eq_true, decide_eq_true_eq] at h5
        refine ⟨i ++ w, ?_, rfl⟩
        rw [if_pos h5.1.1]
        cases f with
        | nil => cases hf
        | cons x r =>
          have hx : x = w := by simpa [Selects] using hf
          subst hx
          simp only
          rw [if_neg h5.1.2]
      | time => cases h5
      | data => cases h5
    obtain ⟨id, hid, hkey⟩ := hid
    unfold definitionFor
    rw [hid]
    simp only
    rw [if_neg h3, if_pos h4, hkey]
    have hname : layoutName mode.toNat (keyOf i sel) f = .ok (keyOf i sel) := by
      unfold layoutName
      rw [if_neg (fun e => hm0 e.2), if_neg]
      · have : layouts.lookup (mode.toNat, keyOf i sel, f.length) = none := by
          rw [List.lookup_eq_none_iff]
          intro l hl'
          have := List.all_eq_true.1 h7 l hl'
          simp only [Bool.or_eq_true, decide_eq_true_eq] at this
          rw [bne_iff_ne]
          intro e'
          rcases this with h1 | h1
          · exact h1 (by rw [← e'])
          · exact h1 (by rw [← e'])
        rw [this]
        simp only
        rw [if_neg (fun e => hm0 e.1)]
      · intro e
        rw [e] at h6
        rcases h6 with h6 | ⟨_, h6⟩ <;> exact absurd h6 (by decide)
    rw [hname]
    simp only
    rw [hd]

/-- `parse`, told to expect commands (SET) or queries (POLL), reads each of them as it is documented: if
every field is well-formed (or empty), it is accepted, with the attributes of the fields that are present, in their
order, and each attribute has the value its field denotes. -/
theorem C81_reading (now : Nat → DateTime) (msg : RawMsg) (mode : Int) (hm : mode = 1 ∨ mode = 2) (v : Nat) (u : UDefs)
    (c t i k : Str) (f : List Str) (sel : Select) (lay : List Item) (hl : (i, sel, lay) ∈ known mode)
    (hf : Selects sel f) (hs : IsSentence msg c t i f k) (ha : Admitted mode v u c t i k) (hcnt : CountsGiven f lay)
    (hw : ∀ (p : Nat) name kind text, (fields f lay 0)[p]? = some (name, kind) → f[p]? = some text →
      ∃ val, Denotes kind text val) :
    ∃ m, parse now msg mode v u = .ok (some m) ∧
      m.attrs.map Prod.fst = ((fields f lay 0).map Prod.fst).take f.length ∧
      ∀ (p : Nat) name kind text, (fields f lay 0)[p]? = some (name, kind) → f[p]? = some text →
        ∃ val, Denotes kind text val ∧
          lookup name m.attrs = some (oriented kind ((fields f lay 0)[p + 1]?.map Prod.snd) f[p + 1]? val) := by
  obtain ⟨d, h1, h2, h3, h4⟩ := read_definition hm hl f hf
  exact reading_mode now msg mode v u c t i k f lay d hs ha (h1 u) (h1 []) h2 (h4 t (talker_short hs)) h3 hcnt hw

/-- The same for variants, told apart by the number of their fields. -/
theorem C81_variants (now : Nat → DateTime) (msg : RawMsg) (mode : Int) (hm : mode = 1 ∨ mode = 2) (v : Nat) (u : UDefs)
    (c t i k : Str) (f : List Str) (conds : List When) (lay : List Item)
    (hl : (i, conds, lay) ∈ Commands.variants mode) (hf : f.length = lay.length)
    (hs : IsSentence msg c t i f k) (ha : Admitted mode v u c t i k) (hcnt : CountsGiven f lay)
    (hw : ∀ (p : Nat) name kind text, (fields f lay 0)[p]? = some (name, kind) → f[p]? = some text →
      ∃ val, Denotes kind text val) :
    ∃ m, parse now msg mode v u = .ok (some m) ∧ m.attrs.map Prod.fst = (fields f lay 0).map Prod.fst ∧
      ∀ (p : Nat) name kind text, (fields f lay 0)[p]? = some (name, kind) → f[p]? = some text →
        ∃ val, Denotes kind text val ∧
          lookup name m.attrs = some (oriented kind ((fields f lay 0)[p + 1]?.map Prod.snd) f[p + 1]? val) := by
  have hok := variantRows_ok hm _ hl
  have hm0 : mode.toNat ≠ 0 := by rcases hm with rfl | rfl <;> decide
  unfold variantRowOk at hok
  simp only at hok
  cases hd : lookup (variantKey mode.toNat i lay) (proprietaryDefs mode.toNat) with
  | none => rw [hd] at hok; cases hok
  | some d =>
    rw [hd] at hok
    simp only [Bool.and_eq_true, decide_eq_true_eq] at hok
    obtain ⟨⟨⟨⟨⟨⟨⟨⟨⟨⟨h1, h2⟩, h3⟩, h4⟩, h5⟩, h6⟩, h7⟩, h8⟩, h9⟩, h10⟩, h11⟩ := hok
    have hdef : ∀ u, definitionFor mode.toNat u i f = .ok (some d) := by
      intro u
      unfold definitionFor fullId
      rw [if_neg h5]
      simp only
      rw [if_neg h3, if_pos h4, h6]
      have hname : layoutName mode.toNat i f = .ok (variantKey mode.toNat i lay) := by
        unfold layoutName
        rw [if_neg (fun e => hm0 e.2), if_neg h10, hf]
        unfold variantKey
        cases hlk : layouts.lookup (mode.toNat, i, lay.length) with
        | some sfx => rfl
        | none =>
          simp only [Option.getD_none, List.append_nil]
          rw [if_neg (fun e => hm0 e.1)]
      rw [hname]
      simp only
      rw [hd]
    obtain ⟨m, m1, m2, m3⟩ := reading_mode now msg mode v u c t i k f lay d hs ha (hdef u) (hdef [])
      (tables_sane.2 _ _ (lookup_some_mem _ _ _ hd)) (texts_id f (talker_short hs) h8 h9) h1 hcnt hw
    refine ⟨m, m1, ?_, m3⟩
    have hlen : ∀ x ∈ Commands.variants mode, ∀ f, (fields f x.2.2 0).length = x.2.2.length := by
      have hfl : ∀ mode : Nat, ∀ x ∈ (if mode = 1 then commandVariants else queryVariants), flat x.2.2 = true := by
        intro mode
        split <;> decide +kernel
      intro x hx f
      have hx' : flat x.2.2 = true := by
        have := hfl mode.toNat x
        rcases hm with rfl | rfl
        · exact this hx
        · exact this hx
      have := congrArg List.length (fields_flat f x.2.2 0 hx')
      rw [List.length_map] at this
      rw [this]
      clear this hx
      generalize x.2.2 = l at hx'
      induction l with
      | nil => rfl
      | cons a l ih =>
        cases a with
        | one n k => simpa [baseNames] using ih (by simpa [flat] using hx')
        | times => cases hx'
        | many => cases hx'
        | counted => cases hx'
    rw [m2, List.take_of_length_le]
    rw [List.length_map, hlen _ hl f, hf]

/-! ## Examples -/

/-- Keywords for setting the mode of a Quectel receiver. -/
def setMode : List (Str × PyVal) := [(py!"rcvrmode", .int 2)]

theorem setMode_suitable : SuitableKeywords setMode [.one py!"status" .text, .one py!"rcvrmode" .whole] where
  suits := by
    intro name kind x hf hl
    have hm := lookup_some_mem _ _ _ hl
    simp only [setMode, List.mem_cons, Prod.mk.injEq, List.not_mem_nil, or_false] at hm
    obtain ⟨hn, rfl⟩ := hm
    cases hf with
    | one h =>
      subst hn
      simp only [List.mem_cons, Item.one.injEq, List.not_mem_nil, or_false] at h
      rcases h with ⟨h, _⟩ | ⟨_, rfl⟩
      · cases h
      · exact .whole 2 (by decide +kernel)
    | times _ h => simp at h
    | many _ h => simp at h
    | counted _ h => simp at h
  counts := by intro a b c d e h; simp at h
  indexed := by intro b h; simp at h

/-- The hypotheses of `C80_commands` are met. -/
example : ∃ m, mkMsg clock0 py!"P" py!"QTMCFGRCVRMODE" 1 false 3 [] none ⟨none, setMode⟩ = .ok m ∧
    m.payload = [py!"W", py!"2"] ∧ OnTheWire py!"P" py!"QTMCFGRCVRMODE" m := by
  obtain ⟨m, h1, h2, h3, h4⟩ := C80_commands clock0 py!"P" py!"QTMCFGRCVRMODE" 1 (.inl rfl) false 3 [] setMode .always
    [.one py!"status" .text, .one py!"rcvrmode" .whole] (by decide +kernel) trivial
    (fun _ => ⟨by decide +kernel, by decide +kernel⟩) (by decide +kernel) (fun n => by unfold clock0; decide) setMode_suitable
  refine ⟨m, h1, ?_, h4 (by intro k s hk; simp [setMode] at hk) (by decide +kernel) (by decide +kernel)⟩
  have : (mkMsg clock0 py!"P" py!"QTMCFGRCVRMODE" 1 false 3 [] none ⟨none, setMode⟩).map Msg.payload =
      .ok [py!"W", py!"2"] := by decide +kernel
  rw [h1] at this
  exact Except.ok.inj this

/-- Keywords for setting the speed of the current port of a Quectel receiver. -/
def setSpeed : List (Str × PyVal) := [(py!"baudrate", .int 115200)]

theorem setSpeed_suitable : SuitableKeywords setSpeed [.one py!"status" .text, .one py!"baudrate" .whole] where
  suits := by
    intro name kind x hf hl
    have hm := lookup_some_mem _ _ _ hl
    simp only [setSpeed, List.mem_cons, Prod.mk.injEq, List.not_mem_nil, or_false] at hm
    obtain ⟨hn, rfl⟩ := hm
    cases hf with
    | one h =>
      subst hn
      simp only [List.mem_cons, Item.one.injEq, List.not_mem_nil, or_false] at h
      rcases h with ⟨h, _⟩ | ⟨_, rfl⟩
      · cases h
      · exact .whole 115200 (by decide +kernel)
    | times _ h => simp at h
    | many _ h => simp at h
    | counted _ h => simp at h
  counts := by intro a b c d e h; simp at h
  indexed := by intro b h; simp at h

/-- The hypotheses of `C80_variants` are met. -/
example : ∃ m, mkMsg clock0 py!"P" py!"QTMCFGUART" 1 false 3 [] none ⟨none, setSpeed⟩ = .ok m ∧
    m.payload.head? = some py!"W" ∧ OnTheWire py!"P" py!"QTMCFGUART" m := by
  obtain ⟨m, h1, h2, h3, h4⟩ := C80_variants clock0 py!"P" py!"QTMCFGUART" 1 (.inl rfl) false 3 [] setSpeed
    [.absent py!"portid", .given py!"baudrate", .absent py!"databit"]
    [.one py!"status" .text, .one py!"baudrate" .whole] (by decide +kernel)
    (by simp [When.Met, Given, setSpeed])
    (fun _ => ⟨by decide +kernel, by decide +kernel⟩) (by decide +kernel) (fun n => by unfold clock0; decide) setSpeed_suitable
  exact ⟨m, h1, h3 rfl (by simp [Given, setSpeed]),
    h4 (by intro k s hk; simp [setSpeed] at hk) (by decide +kernel) (by decide +kernel)⟩

/-- The hypotheses of `C81_variants` are met: such a command is read by a simulated receiver. -/
example : ∃ m, parse clock0 (.bytes pb!"$PQTMCFGUART,W,115200*18\r\n") 1 3 [] = .ok (some m) ∧
    m.attrs.map Prod.fst = [py!"status", py!"baudrate"] := by
  obtain ⟨m, h1, h2, _⟩ := C81_variants clock0 (.bytes pb!"$PQTMCFGUART,W,115200*18\r\n") 1 (.inl rfl) 3 []
    py!"PQTMCFGUART,W,115200" py!"P" py!"QTMCFGUART" py!"18" [py!"W", py!"115200"]
    [.absent py!"portid", .given py!"baudrate", .absent py!"databit"]
    [.one py!"status" .text, .one py!"baudrate" .whole] (by decide +kernel) rfl
    ((getParts_sentence _ ⟨_, _, _, _, _⟩).1 (by decide +kernel))
    ⟨.inr (.inl rfl), fun _ => by decide +kernel, fun _ => ⟨by decide +kernel, by decide +kernel⟩⟩
    (by intro a b h; simp at h)
    (by
      intro p name kind text hp ht
      match p, hp, ht with
      | 0, hp, _ => obtain ⟨_, rfl⟩ : _ ∧ Kind.text = kind := by simpa [fields] using hp
                    exact ⟨_, .text _⟩
      | 1, hp, ht =>
        obtain ⟨_, rfl⟩ : _ ∧ Kind.whole = kind := by simpa [fields] using hp
        obtain rfl : py!"115200" = text := by simpa using ht
        exact ⟨_, Denotes.whole false py!"115200" (by decide) (by decide) (by decide)⟩)
  exact ⟨m, h1, h2⟩

/-- The hypotheses of `C81_reading` are met: a query. -/
example : ∃ m, parse clock0 (.bytes pb!"$PQTMCFGRCVRMODE,R*32\r\n") 2 3 [] = .ok (some m) ∧
    m.attrs.map Prod.fst = [py!"status"] := by
  obtain ⟨m, h1, h2, _⟩ := C81_reading clock0 (.bytes pb!"$PQTMCFGRCVRMODE,R*32\r\n") 2 (.inr rfl) 3 []
    py!"PQTMCFGRCVRMODE,R" py!"P" py!"QTMCFGRCVRMODE" py!"32" [py!"R"] .always [.one py!"status" .text] (by decide +kernel) trivial
    ((getParts_sentence _ ⟨_, _, _, _, _⟩).1 (by decide +kernel))
    ⟨.inr (.inr rfl), fun _ => by decide +kernel, fun _ => ⟨by decide +kernel, by decide +kernel⟩⟩
    (by intro a b h; simp at h)
    (by
      intro p name kind text hp ht
      match p, hp, ht with
      | 0, hp, _ => obtain ⟨_, rfl⟩ : _ ∧ Kind.text = kind := by simpa [fields] using hp
                    exact ⟨_, .text _⟩)
  exact ⟨m, h1, h2⟩

/-- 37.23345 and 115.81513 as floats. -/
theorem usage_numbers : PyFloat.ofMag false (3723345 / 100000) = .fin false (5240142235803687 / 2 ^ 47) ∧
    PyFloat.ofMag true (11581513 / 100000) = .fin true (8149765254872899 / 2 ^ 46) := by decide +kernel

/-- The keywords of the first and of the second message of `examples/pynmeagps_usage.py`: date and time as texts, and
as objects. -/
def usage (date time : PyVal) : List (Str × PyVal) := [(py!"lat", .float (.fin false (5240142235803687 / 2 ^ 47))),
  (py!"lon", .float (.fin true (8149765254872899 / 2 ^ 46))), (py!"date", date), (py!"time", time),
  (py!"rcvr_cmd", .str py!"D")]

theorem usage_suitable (date time : PyVal) (hd : Suits .date date) (ht : Suits .time time) :
    SuitableKeywords (usage date time) [.one py!"lat" .latitude, .one py!"NS" .north, .one py!"lon" .longitude,
      .one py!"EW" .east, .one py!"date" .date, .one py!"time" .time, .one py!"rcvr_cmd" .text] where
  suits := by
    intro name kind x hf hl
    cases hf with
    | one h =>
      simp only [List.mem_cons, Item.one.injEq, List.not_mem_nil, or_false] at h
      rcases h with ⟨rfl, rfl⟩ | ⟨rfl, rfl⟩ | ⟨rfl, rfl⟩ | ⟨rfl, rfl⟩ | ⟨rfl, rfl⟩ | ⟨rfl, rfl⟩ | ⟨rfl, rfl⟩
      · cases hl
        exact .latitude _ _ (.float _ _ ⟨5240142235803687, -47, by norm_num, by norm_num, by norm_num,
          by norm_num⟩) (by norm_num [abs_le])
      · cases hl
      · cases hl
        exact .longitude _ _ (.float _ _ ⟨8149765254872899, -46, by norm_num, by norm_num, by norm_num,
          by norm_num⟩) (by norm_num [abs_le])
      · cases hl
      · cases hl; exact hd
      · cases hl; exact ht
      · cases hl; exact .text _
    | times _ h => simp at h
    | many _ h => simp at h
    | counted _ h => simp at h
  counts := by intro a b c d e h; simp at h
  indexed := by intro b h; simp at h

/-- The messages of the usage example serialize as its comments say; `C80_commands` applies to both. -/
example : ((mkMsg clock0 py!"P" py!"GRMI" 1 false 3 [] none ⟨none, usage (.str py!"2025-09-12") (.str py!"12:15:34")⟩).bind
      Msg.serialize = .ok pb!"$PGRMI,3714.00700,N,11548.90780,W,120925,121534,D*04\r\n") ∧
    ((mkMsg clock0 py!"P" py!"GRMI" 1 false 3 [] none ⟨none, usage (.date ⟨2025, 9, 12⟩) (.time ⟨12, 15, 34, 0⟩)⟩).bind
      Msg.serialize = .ok pb!"$PGRMI,3714.00700,N,11548.90780,W,120925,121534.00,D*2A\r\n") := by decide +kernel

example : ∃ m, mkMsg clock0 py!"P" py!"GRMI" 1 false 3 [] none ⟨none, usage (.str py!"20250912") (.str py!"12:15:34.5")⟩ = .ok m ∧
    IsWritten false 1 clock0 (usage (.str py!"20250912") (.str py!"12:15:34.5"))
      [.one py!"lat" .latitude, .one py!"NS" .north, .one py!"lon" .longitude,
      .one py!"EW" .east, .one py!"date" .date, .one py!"time" .time, .one py!"rcvr_cmd" .text] m := by
  obtain ⟨m, h1, h2, _⟩ := C80_commands clock0 py!"P" py!"GRMI" 1 (.inl rfl) false 3 []
    (usage (.str py!"20250912") (.str py!"12:15:34.5")) .always
    [.one py!"lat" .latitude, .one py!"NS" .north, .one py!"lon" .longitude,
      .one py!"EW" .east, .one py!"date" .date, .one py!"time" .time, .one py!"rcvr_cmd" .text] (by decide +kernel) trivial
    (fun _ => ⟨by decide +kernel, by decide +kernel⟩) (by decide +kernel) (fun n => by unfold clock0; decide)
    (usage_suitable _ _ (.dateText .date false ⟨2025, 9, 12⟩ (.inl rfl) (by decide) (by decide) (by decide))
      (.timeText true 12 15 34 py!"5" (by decide) (by decide) (by decide) (by decide) (by decide)))
  exact ⟨m, h1, h2⟩

end Props.Commands
