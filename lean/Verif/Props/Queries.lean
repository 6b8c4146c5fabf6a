import Verif.Props.Commands
/-!
# Standard queries (C83)
-/
namespace Props.Queries
open Py Nmea Spec Props

/-- Listeners that NMEA 0183 queries can be addressed to: receivers for Galileo, BeiDou, GLONASS, any system, GPS and
QZSS. -/
def listeners : List Str := [py!"GA", py!"GB", py!"GL", py!"GN", py!"GP", py!"GQ"]

/-- What is checked of each query: it is a standard type, with the field `msgId` as a query and no other meaning. -/
theorem listeners_ok : ∀ l ∈ listeners, lookup (upper (l ++ py!"Q")) (standardDefs 2) = some (.single py!"msgId" Nmea.ST .nil) ∧
    lookup (upper (l ++ py!"Q")) (standardDefs 0) = none ∧ lookup (upper (l ++ py!"Q")) (standardDefs 1) = none ∧
    IsStandard (l ++ py!"Q") ∧ l ++ py!"Q" ∉ NMEA_PREFIX_PROP ∧ l ++ py!"Q" ∉ variantIds ∧ PlainText (l ++ py!"Q") ∧
    (l ++ py!"Q").length = 3 := by decide +kernel

theorem query_kw (u : UDefs) {l : Str} (hl : l ∈ listeners) (kw : List (Str × PyVal)) :
    KwDefinition 2 u (l ++ py!"Q") kw (.single py!"msgId" Nmea.ST .nil) := by
  obtain ⟨h1, _, _, h4, h5, _⟩ := listeners_ok l hl
  refine ⟨l ++ py!"Q", by unfold kwFullId; rw [if_neg h5], ?_⟩
  rw [if_pos h4]
  exact h1

/-- The query that asks listener `l` for the sentence `s` on behalf of talker `t`: the constructor makes it from the
keyword `msgId`; its only field and attribute is `s`. -/
theorem C83_made (now : Nat → DateTime) (t l s : Str) (hp : Bool) (v : Nat) (u : UDefs) (hl : l ∈ listeners)
    (ht : ValMsgid v → t ∈ NMEA_TALKERS) :
    ∃ m, mkMsg now t (l ++ py!"Q") 2 hp v u none ⟨none, [(py!"msgId", .str s)]⟩ = .ok m ∧
      m.payload = [s] ∧ m.attrs = [(py!"msgId", .str s)] := by
  obtain ⟨h1, _, _, h4, h5, h6, _⟩ := listeners_ok l hl
  refine (C05_generate now t (l ++ py!"Q") 2 hp v u _ (.inr (.inr rfl)) (fun h => ⟨ht h, .inl h4⟩) ?_ _
    (query_kw u hl _) (tables_sane_gen.1 2 _ (lookup_some_mem _ _ _ h1)) _ _).2 ⟨[⟨py!"msgId", Nmea.ST, .str s, s⟩], ?_, rfl, rfl⟩
  · intro k hk
    simp only [List.map_cons, List.map_nil, List.mem_cons, List.not_mem_nil, or_false] at hk
    subst hk
    exact ⟨by decide, fun h => absurd h h6⟩
  · exact .single _ _ _ _ _ _ (.str s) s rfl rfl (.nil _ _)

/-- The query on the wire: `$`, the talker, the listener, `Q`, a comma, the name of the sentence, `*`, the checksum in
two hexadecimal digits and CR LF; and whoever parses it as a query gets the name of the sentence. -/
theorem C83_sent (now : Nat → DateTime) (t l s : Str) (hp : Bool) (v : Nat) (u : UDefs) (hl : l ∈ listeners)
    (ht : t ∈ NMEA_TALKERS) (hs : PlainText s) :
    ∃ m raw ck, mkMsg now t (l ++ py!"Q") 2 hp v u none ⟨none, [(py!"msgId", .str s)]⟩ = .ok m ∧
      IsHexText ck (xorAll (t ++ l ++ py!"Q," ++ s)) ∧
      utf8Encode (py!"$" ++ t ++ l ++ py!"Q," ++ s ++ py!"*" ++ ck ++ py!"\r\n") = .ok raw ∧ m.serialize = .ok raw ∧
      ∀ now' v' u', ∃ m', parse now' (.bytes raw) 2 v' u' = .ok (some m') ∧ m'.talker = t ∧ m'.msgID = l ++ py!"Q" ∧
        m'.attrs = [(py!"msgId", .str s)] := by
  obtain ⟨h1, _, _, h4, h5, h6, h7, h8⟩ := listeners_ok l hl
  obtain ⟨m, hm, hpay, hat⟩ := C83_made now t l s hp v u hl (fun _ => ht)
  have hkw : PlainKeywords (l ++ py!"Q") [(py!"msgId", .str s)] := by
    intro k hk
    simp only [List.map_cons, List.map_nil, List.mem_cons, List.not_mem_nil, or_false] at hk
    subst hk
    exact ⟨by decide, fun h => absurd h h6⟩
  have hsg := tables_sane_gen.1 2 _ (lookup_some_mem _ _ _ h1)
  have hplain : PlainStrings [(py!"msgId", .str s)] := by
    intro k x hk
    simp only [List.mem_cons, List.not_mem_nil, or_false, Prod.mk.injEq, PyVal.str.injEq] at hk
    rw [hk.2]; exact hs
  have htp : ∀ t ∈ NMEA_TALKERS, PlainText t := by decide +kernel
  have hhead : PlainText (t ++ (l ++ py!"Q")) := by
    intro c hc
    rcases List.mem_append.1 hc with hc | hc
    · exact htp t ht c hc
    · exact h7 c hc
  have htext := C05_wire_text now t (l ++ py!"Q") 2 hp v u _ m hkw _ (query_kw u hl _) hm
  obtain ⟨raw, ck, a1, a2, a3, a4, a5⟩ := C05_accepted now t (l ++ py!"Q") 2 hp v u _ m hkw _ (query_kw u hl _) hsg hm
    hplain hhead (C05_talkers_split t ht _)
  have hc : commaJoin ((t ++ (l ++ py!"Q")) :: m.payload) = t ++ l ++ py!"Q," ++ s := by
    rw [hpay]; simp [commaJoin, joinWith, List.append_assoc]
  refine ⟨m, raw, _, hm, C01_checksum_is_hex_of_xor _, ?_, a1, fun now' v' u' => ?_⟩
  · unfold Msg.serialize at a1
    rw [← a1, htext, hc]
    simp [List.append_assoc]
  · have hd : definitionFor 2 u' (l ++ py!"Q") m.payload = .ok (some (.single py!"msgId" Nmea.ST .nil)) := by
      unfold definitionFor fullId
      rw [if_neg h5]
      simp only [if_pos h4, h1]
    have hadm : Admitted 2 v' u' (commaJoin ((t ++ (l ++ py!"Q")) :: m.payload)) t (l ++ py!"Q") ck :=
      ⟨.inr (.inr rfl), fun _ => a4, fun _ => ⟨ht, .inl h4⟩⟩
    have hft : fieldTexts t (l ++ py!"Q") m.payload = m.payload := by
      apply fieldTexts_id
      have htl : ∀ t ∈ NMEA_TALKERS, t.length ≤ 2 := by decide +kernel
      rintro (h | ⟨_, h, _⟩)
      · have := congrArg List.length h
        rw [List.length_append, h8] at this
        have := htl t ht
        have e : (py!"PSSNSNC").length = 7 := by decide
        omega
      · exact h5 (by rw [h]; decide)
    have hex : ∃ m', parse now' (.bytes raw) 2 v' u' = .ok (some m') ∧ m'.attrs = [(py!"msgId", .str s)] := by
      refine (C16_layout now' _ 2 v' u' _ _ _ _ _ a3 hadm _ hd
        (tables_sane.1 2 _ (lookup_some_mem _ _ _ h1)) _).2 ⟨[(py!"msgId", Nmea.ST)], ?_, ?_⟩
      · rw [expand_static_iff _ _ _ (by rfl)]; rfl
      · rw [hft, hpay]; rfl
    obtain ⟨m', hm', hat'⟩ := hex
    refine ⟨m', hm', ?_, ?_, hat'⟩
    all_goals
      rw [a5 now' 2 v' u' (.inr (.inr rfl)) (fun _ => ⟨ht, .inl h4⟩) (.inl (by rw [show ((2 : Int).toNat) = 2 from rfl, hd]; simp))] at hm'
      cases hmk : mkMsg now' t (l ++ py!"Q") 2 false v' u' (some ck) ⟨some m.payload, []⟩ with
      | error e => rw [hmk] at hm'; cases hm'
      | ok m2 =>
        rw [hmk] at hm'
        simp only [Except.map, Except.ok.injEq, Option.some.injEq] at hm'
        subst hm'
        obtain ⟨e1, e2, _⟩ := made_fields _ _ _ _ _ _ _ _ _ _ hmk
        assumption

/-- A reader that expects data (GET) or commands (SET) and checks message ids rejects every query. -/
theorem C83_not_data (now : Nat → DateTime) (msg : RawMsg) (mode : Int) (hm : mode = 0 ∨ mode = 1) (v : Nat) (u : UDefs)
    (c t l k : Str) (f : List Str) (hl : l ∈ listeners) (hs : IsSentence msg c t (l ++ py!"Q") f k) (hv : ValMsgid v) :
    parse now msg mode v u = .error .nmeaParse := by
  obtain ⟨_, h2, h3, h4, h5, _⟩ := listeners_ok l hl
  refine C19_parse_rejects now msg mode v u c t _ k f hs hv (.inr (.inr ?_))
  unfold definitionFor fullId
  rw [if_neg h5]
  rcases hm with rfl | rfl
  · simp only [if_pos h4]; exact congrArg _ h2
  · simp only [if_pos h4]; exact congrArg _ h3

/-- No standard sentence is a command: with `VALMSGID`, mode SET and a standard id, `parse` raises `NMEAParseError`,
and the constructor makes nothing, from fields or from keywords. -/
theorem C83_no_commands (now : Nat → DateTime) (t i : Str) (v : Nat) (u : UDefs) (hi : IsStandard i) (hv : ValMsgid v) :
    (∀ msg c f k, IsSentence msg c t i f k → parse now msg 1 v u = .error .nmeaParse) ∧
    (∀ hp ck f, mkMsg now t i 1 hp v u ck ⟨some f, []⟩ = .error .nmeaMessage) ∧
    (∀ hp ck kw m, PlainKeywords i kw → mkMsg now t i 1 hp v u ck ⟨none, kw⟩ ≠ .ok m) := by
  have hpre : ∀ x ∈ NMEA_MSGIDS.map Prod.fst, x ∉ NMEA_PREFIX_PROP := by decide +kernel
  have hd : ∀ f, definitionFor 1 u i f = .ok none := by
    intro f
    unfold definitionFor fullId
    rw [if_neg (hpre i hi)]
    simp only [if_pos hi]
    rfl
  refine ⟨fun msg c f k hs => C19_parse_rejects now msg 1 v u c t i k f hs hv (.inr (.inr (hd f))),
    fun hp ck f => C19_constructor_undefined now t i 1 hp v u ck f hv (hd f), fun hp ck kw m hkw h => ?_⟩
  obtain ⟨_, _, d, id, _, h3⟩ := C19_constructor_known now t i 1 hp v u ck kw m hkw hv h
  rw [if_pos hi] at h3
  cases h3

/-- The hypotheses of `C83_sent` are met: `$EIGNQ,RMC*24`. -/
example : ∃ m, mkMsg clock0 py!"EI" py!"GNQ" 2 false 3 [] none ⟨none, [(py!"msgId", .str py!"RMC")]⟩ = .ok m ∧
    m.serialize = .ok pb!"$EIGNQ,RMC*24\r\n" := by
  obtain ⟨m, raw, ck, h1, h2, h3, h4, _⟩ := C83_sent clock0 py!"EI" py!"GN" py!"RMC" false 3 [] (by decide) (by decide +kernel)
    (by decide)
  refine ⟨m, h1, ?_⟩
  rw [h4, ← h3, C01_hex_text_unique ck _ _ h2 (C01_checksum_is_hex_of_xor _)]
  decide +kernel

/-- ... and those of the others. -/
example : IsStandard py!"RMC" ∧ ValMsgid 3 ∧ IsSentence (.bytes pb!"$EIGNQ,RMC*24\r\n") py!"EIGNQ,RMC" py!"EI" py!"GNQ" [py!"RMC"] py!"24" :=
  ⟨by decide +kernel, by decide, (getParts_sentence _ ⟨_, _, _, _, _⟩).1 (by decide +kernel)⟩

end Props.Queries
