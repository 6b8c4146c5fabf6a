import Verif.Props.Repr
import Verif.Props.Display
import Verif.Props.RoundTrip
/-!
# C66, C49: `repr` of a message that was made from keywords
-/
namespace Props
open Py Nmea Spec

/-- Evaluating `repr` of a message that a built-in definition made from keywords gives what reading the message back
gives (`C64_round_trip`): the same talker, id, mode, payload and checksum, hence the same bytes, and the attributes come
back as they would from the wire. -/
theorem C66_generated (now : Nat → DateTime) (t i : Str) (mode : Int) (hp : Bool) (v : Nat) (u : UDefs)
    (kw : List (Str × PyVal)) (m : Msg) (hkw : PlainKeywords i kw) (hb : IsStandard i ∨ IsProprietary i) (d : PDict)
    (hd : KwDefinition mode.toNat u i kw d) (hsane : SaneGen d) (hsane' : SaneNames d)
    (h : mkMsg now t i mode hp v u none ⟨none, kw⟩ = .ok m)
    (hplain : PlainStrings kw) (hhead : PlainText (t ++ i)) (hsplit : SplitsBack t i)
    (hread : Readable d) (hnat : NaturalKeywords d kw) (hnow : ClockOk now) (now' : Nat → DateTime)
    (hdef : definitionFor mode.toNat [] i m.payload = .ok (some d)) (hsnc : ¬ IsSnc t i m.payload) :
    ∃ m' slots, evalRepr now' m = .ok m' ∧ m'.talker = m.talker ∧ m'.msgID = m.msgID ∧ m'.mode = m.mode ∧
      m'.payload = m.payload ∧ m'.checksum = m.checksum ∧ m'.serialize = m.serialize ∧
      Expand mode.toNat m.payload d [] [] slots ∧ slots.length = m.payload.length ∧ CameBack hp slots m m' := by
  have hids : KnownIds 1 [] t i := fun hv => absurd hv (by decide)
  obtain ⟨raw, m1, slots, h1, h2, h3, h4, h5⟩ := C64_round_trip now t i mode hp v u kw m hkw d hd hsane hsane' h hplain hhead
    hsplit hread hnat hnow now' 1 [] hids hdef (fun hs => absurd hs hsnc)
  obtain ⟨raw', ck, k1, k2, k3, k4, -⟩ := C05_accepted now t i mode hp v u kw m hkw d hd hsane h hplain hhead hsplit
  rw [h1] at k1
  cases k1
  obtain ⟨hm, -⟩ := mkMsg_ok _ _ _ _ _ _ _ _ _ _ h
  obtain ⟨f1, f2, f3, -⟩ := made_fields _ _ _ _ _ _ _ _ _ _ h
  obtain ⟨g1, g2, g3, g4, g5⟩ := C50_getters _ _ _ _ _ _ _ _ _ _ _ k3 h2
  have hid : m1.identity ≠ .ok py!"PSSNSNC" := by
    intro e
    obtain ⟨id, hf, he⟩ := C50_identity _ _ _ _ _ _ _ _ _ _ _ k3 h2
    rw [he] at e
    simp only [Except.ok.injEq] at e
    split at e
    · rename_i hc
      apply hsnc
      rw [hc.1] at e hsnc ⊢
      have e' : id = py!"SSNSNC" := by simpa using e
      subst e'
      by_cases hpre : i ∈ NMEA_PREFIX_PROP
      · cases hpl : m.payload with
        | nil => rw [hpl] at hf; simp [fullId, hpre] at hf
        | cons f0 fs =>
          rw [hpl] at hf
          simp only [fullId, if_pos hpre] at hf
          have key : ∀ p ∈ NMEA_PREFIX_PROP, p ≠ py!"ASHR" → p <+: py!"SSNSNC" → p = py!"SSN" := by decide +kernel
          split at hf
          · rename_i hash
            rw [hash] at hf
            split at hf
            · split at hf <;> simp at hf
            · cases hf
          · rename_i hne
            simp only [Except.ok.injEq] at hf
            have := key i hpre hne ⟨f0, hf⟩
            rw [this] at hf ⊢
            refine .inr ⟨rfl, rfl, ?_⟩
            simpa using hf
      · simp only [fullId, if_neg hpre, Except.ok.injEq] at hf
        rw [hf]; exact .inl rfl
    · exact hsnc (.inl e)
  have g5 := g5 hid
  have hmm : m1.mode = m.mode := by omega
  obtain ⟨m', e1, e2, e3, e4, e5, e6, e7, e8⟩ := C66_rebuild now' now' (.bytes raw) mode 1 [] m1 h2 hid (by rw [g2]; exact hb) d
    (by rw [g2, g5]; exact hdef)
  have hc : m.checksum = some (calcChecksum (commaJoin ((t ++ i) :: m.payload))) := by
    have htext := C05_wire_text now t i mode hp v u kw m hkw d hd h
    rw [Msg.text, contentOf_eq, f1, f2, k2] at htext
    simp only [Option.getD_some] at htext
    rw [k2, Option.some.injEq]
    have e : py!"$" ++ commaJoin ((t ++ i) :: m.payload) ++ py!"*" ++ (ck ++ py!"\r\n") =
        py!"$" ++ commaJoin ((t ++ i) :: m.payload) ++ py!"*" ++ (calcChecksum (commaJoin ((t ++ i) :: m.payload)) ++ py!"\r\n") := by
      simpa using htext
    exact List.append_cancel_right (List.append_cancel_left e)
  have ec : m'.checksum = m.checksum := by rw [e8, g1, g2, g5, hc]
  refine ⟨m', slots, ?_, by rw [e2, g1, f1], by rw [e3, g2, f2], by rw [e4, hmm], by rw [e5, g5], ec, ?_, h3, h4, ?_⟩
  · unfold evalRepr
    rw [g1, g2, g5, hmm] at e1
    rw [f1, f2]
    exact e1
  · unfold Msg.serialize Msg.text
    rw [ec, e2, e3, e5, g1, g2, g5, f1, f2]
  · obtain ⟨c1, c2⟩ := h5
    exact ⟨by rw [e6]; exact c1, by rw [e6]; exact c2⟩

/-- Every standard sentence type (but the two with fields the library cannot read back, see C64). -/
theorem C66_generated_standard (now : Nat → DateTime) (t i : Str) (mode : Int) (hp : Bool) (v : Nat) (u : UDefs)
    (kw : List (Str × PyVal)) (m : Msg) (hkw : PlainKeywords i kw) (hi : IsStandard i) (hi1 : i ≠ py!"LR2")
    (hi2 : i ≠ py!"FOO") (d : PDict) (hd : KwDefinition mode.toNat u i kw d)
    (h : mkMsg now t i mode hp v u none ⟨none, kw⟩ = .ok m)
    (hplain : PlainStrings kw) (hhead : PlainText (t ++ i)) (hsplit : SplitsBack t i)
    (hnat : NaturalKeywords d kw) (hnow : ClockOk now) (now' : Nat → DateTime) :
    ∃ m' slots, evalRepr now' m = .ok m' ∧ m'.talker = m.talker ∧ m'.msgID = m.msgID ∧ m'.mode = m.mode ∧
      m'.payload = m.payload ∧ m'.checksum = m.checksum ∧ m'.serialize = m.serialize ∧
      Expand mode.toNat m.payload d [] [] slots ∧ slots.length = m.payload.length ∧ CameBack hp slots m m' := by
  obtain ⟨h1, h2⟩ := standard_definition mode.toNat u [] i hi kw d hd m.payload
  have hb : BuiltIn mode.toNat i d := .inl h2
  have hn := C47_names mode.toNat i d hb
  exact C66_generated now t i mode hp v u kw m hkw (.inl hi) d hd (tables_sane_gen.1 _ _ h2)
    (fun k hk => fun e => hn.2.1 k hk (by
      simp only [List.mem_cons, List.not_mem_nil, or_false] at e ⊢; tauto)) h hplain hhead hsplit
    (C64_readable _ i d hb hi1 hi2) hnat hnow now' h1 (standard_not_snc t i hi _)

/-- Every proprietary sentence type, with the exceptions of `C64_proprietary` and not `PSSNSNC` (whose square brackets
`repr` does not restore). -/
theorem C66_generated_proprietary (now : Nat → DateTime) (t i : Str) (mode : Int) (hp : Bool) (v : Nat) (u : UDefs)
    (kw : List (Str × PyVal)) (m : Msg) (hkw : PlainKeywords i kw) (hi : IsProprietary i) (hi' : ¬ IsStandard i)
    (hsub : i ∈ NMEA_PREFIX_PROP → ∃ s, lookup py!"msgId" kw = some (.str s) ∧ s ≠ [] ∧ fullId i [s] = .ok (i ++ s))
    (d : PDict) (hd : KwDefinition mode.toNat u i kw d)
    (h : mkMsg now t i mode hp v u none ⟨none, kw⟩ = .ok m)
    (hplain : PlainStrings kw) (hhead : PlainText (t ++ i)) (hsplit : SplitsBack t i)
    (hnat : NaturalKeywords d kw) (hnow : ClockOk now)
    (hack : mode = 0 → i.take 3 = py!"QTM" → m.payload ≠ [py!"OK"] ∧
      ¬ (m.payload.length = 2 ∧ m.payload.head? = some py!"ERROR"))
    (hsn : mode = 0 → i = py!"QTMSN" → ∃ f ∈ m.payload.head?, isNumeric f = false)
    (hsnc : ¬ IsSnc t i m.payload) (now' : Nat → DateTime) :
    ∃ m' slots, evalRepr now' m = .ok m' ∧ m'.talker = m.talker ∧ m'.msgID = m.msgID ∧ m'.mode = m.mode ∧
      m'.payload = m.payload ∧ m'.checksum = m.checksum ∧ m'.serialize = m.serialize ∧
      Expand mode.toNat m.payload d [] [] slots ∧ slots.length = m.payload.length ∧ CameBack hp slots m m' := by
  obtain ⟨name, hmem⟩ := proprietary_mem hi hi' hd
  have hb : BuiltIn mode.toNat name d := .inr hmem
  refine C66_generated now t i mode hp v u kw m hkw (.inr hi) d hd (tables_sane_gen.2 _ _ hmem)
    (builtin_saneNames _ _ _ hb) h hplain hhead hsplit
    (C64_readable _ _ d hb ?_ ?_) hnat hnow now'
    (proprietary_definition now t i mode hp v u kw m hkw hi hi' hsub d hd h hack hsn []) hsnc
  · intro e; rw [e] at hmem
    exact prop_not_lr2 _ _ hmem (.inl rfl)
  · intro e; rw [e] at hmem
    exact prop_not_lr2 _ _ hmem (.inr rfl)

/-- The hypotheses are met by the messages of `C64`: the `GLL` and `PUBX,04` keywords (their definitions and natural values
are shown there), and evaluating their `repr` gives the same payload and text. -/
example : madeWith (fun m => madeWith (fun m' => m'.payload == m.payload && m'.text == m.text && m'.attrs.length == 7)
      (evalRepr clock0 m)) (mkMsg clock0 py!"GN" py!"GLL" 0 false 1 [] none ⟨none, gllKw⟩) = true ∧
    madeWith (fun m => madeWith (fun m' => m'.payload == m.payload && m'.text == m.text) (evalRepr clock0 m))
      (mkMsg clock0 py!"P" py!"UBX" 0 false 1 [] none ⟨none, ubxKw⟩) = true ∧
    ¬ IsSnc py!"P" py!"UBX" [py!"04", py!"111111.00"] := by decide +kernel

end Props
