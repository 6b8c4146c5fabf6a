import Verif.Props.AnyGroups
/-!
# C102: objects in the bracketed sentence, and in the sentences found by their first field
-/
namespace Props.AnyPayload
open Py Nmea Spec

theorem setItem_length (vs : List PyVal) : ∀ i v, (setItem vs i v).length = vs.length := by
  induction vs with
  | nil => intro i v; rfl
  | cons x r ih => intro i v; cases i <;> simp [setItem, ih]

theorem setItem_get (vs : List PyVal) : ∀ i v j, j ≠ i → (setItem vs i v)[j]? = vs[j]? := by
  induction vs with
  | nil => intro i v j _; rfl
  | cons x r ih =>
    intro i v j h
    cases i with
    | zero => cases j with
      | zero => exact absurd rfl h
      | succ j => rfl
    | succ i => cases j with
      | zero => rfl
      | succ j => simp only [setItem, List.getElem?_cons_succ]; exact ih i v j (by omega)

/-- From `st` to `st'`, up to `n` items were used, all of them texts; those that follow are untouched. -/
structure Adv (st st' : AnySt) (n : Nat) : Prop where
  len : st'.payload.length = st.payload.length
  idx : st'.pindex = min (st.pindex + n) st.payload.length
  texts : ∀ j, st.pindex ≤ j → j < st'.pindex → ∃ s, st.payload[j]? = some (.str s)
  rest : ∀ j, st'.pindex ≤ j → st'.payload[j]? = st.payload[j]?

theorem Adv.trans {a b c : AnySt} {n m : Nat} (h1 : Adv a b n) (h2 : Adv b c m) (ha : a.pindex ≤ a.payload.length) : Adv a c (n + m) := by
  have l1 := h1.len; have l2 := h2.len; have i1 := h1.idx; have i2 := h2.idx
  refine ⟨by omega, ?_, ?_, ?_⟩
  · rw [i2, i1, l1]; omega
  · intro j hj hj'
    by_cases h : j < b.pindex
    · exact h1.texts j hj h
    · obtain ⟨s, hs⟩ := h2.texts j (by omega) hj'
      exact ⟨s, by rw [← h1.rest j (by omega)]; exact hs⟩
  · intro j hj
    rw [h2.rest j hj, h1.rest j (by omega)]

theorem Adv.le {a b : AnySt} {n : Nat} (h : Adv a b n) : b.pindex ≤ b.payload.length := by
  rw [h.len, h.idx]; omega

theorem Adv.zero (a : AnySt) (ha : a.pindex ≤ a.payload.length) : Adv a a 0 :=
  ⟨rfl, by omega, fun j h h' => absurd h' (by omega), fun _ _ => rfl⟩

/-- The message id has been read: this is the bracketed sentence. -/
def Snc (st : AnySt) : Prop := lookup py!"msgId" st.attrs = some (.str py!"SNC")

theorem single_snc (c : Ctx) (hc : c.talker = py!"P" ∧ c.msgID = py!"SSN") (as : Bool) (k t : Str) (hk : k ≠ py!"msgId") (g : List Nat)
    (st st' : AnySt) (hst : Snc st) (hle : st.pindex ≤ st.payload.length) (h : setSingleAny c as k t g st = .ok st') :
    Snc st' ∧ Adv st st' 1 := by
  unfold setSingleAny at h
  rw [hc.1, hc.2, ident_some _ (by decide) _ _ hst] at h
  simp only [bind, Except.bind, unbracket] at h
  cases hp : st.payload[st.pindex]? with
  | none =>
    rw [hp] at h
    cases h
    refine ⟨hst, rfl, ?_, fun j h h' => absurd h' (by omega), fun _ _ => rfl⟩
    have := List.getElem?_eq_none_iff.1 hp
    omega
  | some raw =>
    have hlt := (List.getElem?_eq_some_iff.1 hp).1
    rw [hp] at h
    simp only at h
    rw [if_pos (by rfl)] at h
    cases raw with
    | str s =>
      cases as with
      | false => cases h
      | true =>
        simp only [if_true] at h
        split at h
        · cases h
        · cases hv : str2valAny (.str (stripBrackets s)) t with
          | error e => rw [hv] at h; cases h
          | ok w =>
            rw [hv] at h
            simp only at h
            cases ha : setAttr st.attrs (suffixed k g) w with
            | error e => rw [ha] at h; cases h
            | ok attrs =>
              rw [ha] at h
              cases h
              have hattrs : attrs = Py.insert (suffixed k g) w st.attrs := by
                unfold setAttr at ha
                split at ha
                · cases ha
                · cases ha; rfl
              refine ⟨?_, setItem_length _ _ _, ?_, ?_, ?_⟩
              · show lookup py!"msgId" (signOverride t w attrs) = _
                rw [signOverride_eq, hattrs, lookup_hemisphere _ _ _ _ (by decide) (by decide), lookup_insert, if_neg]
                · exact hst
                · intro e
                  exact hk (suffixed_plain k _ g e.symm (by decide))
              · show st.pindex + 1 = _; omega
              · intro j h1 h2
                have h2' : j < st.pindex + 1 := h2
                have : j = st.pindex := by omega
                subst this
                exact ⟨s, hp⟩
              · intro j h1
                have h1' : st.pindex + 1 ≤ j := h1
                exact setItem_get _ _ _ _ (by omega)
    | _ => cases h

theorem flat_snc (c : Ctx) (hc : c.talker = py!"P" ∧ c.msgID = py!"SSN") (as : Bool) (d : PDict) (hf : IsFlat d = true)
    (hd : py!"msgId" ∉ keysOf d) : ∀ (g : List Nat) (st st' : AnySt), Snc st → st.pindex ≤ st.payload.length →
    setPDictAny c as d g st = .ok st' → Snc st' ∧ Adv st st' (keysOf d).length := by
  induction d with
  | nil => intro g st st' hs hle h; cases h; exact ⟨hs, Adv.zero _ hle⟩
  | single k t r ih =>
    intro g st st' hs hle h
    simp only [keysOf, List.mem_cons, not_or] at hd
    simp only [setPDictAny, bind, Except.bind] at h
    cases h1 : setSingleAny c as k t g st with
    | error e => rw [h1] at h; cases h
    | ok st1 =>
      rw [h1] at h
      obtain ⟨a1, a2⟩ := single_snc c hc as k t (fun e => hd.1 e.symm) g st st1 hs hle h1
      obtain ⟨b1, b2⟩ := ih hf hd.2 g st1 st' a1 a2.le h
      have := a2.trans b2 hle
      rw [Nat.add_comm] at this
      exact ⟨b1, this⟩
  | group k rep b r _ _ => cases hf

theorem loop_snc (c : Ctx) (hc : c.talker = py!"P" ∧ c.msgID = py!"SSN") (as : Bool) (d : PDict) (hf : IsFlat d = true)
    (hd : py!"msgId" ∉ keysOf d) (g : List Nat) : ∀ (n j : Nat) (st st' : AnySt), Snc st → st.pindex ≤ st.payload.length →
    loopFrom (fun i st => setPDictAny c as d (g ++ [i]) st) n j st = .ok st' → Snc st' ∧ Adv st st' (n * (keysOf d).length) := by
  intro n
  induction n with
  | zero => intro j st st' hs hle h; cases h; rw [Nat.zero_mul]; exact ⟨hs, Adv.zero _ hle⟩
  | succ n ih =>
    intro j st st' hs hle h
    simp only [loopFrom, bind, Except.bind] at h
    cases h1 : setPDictAny c as d (g ++ [j]) st with
    | error e => rw [h1] at h; cases h
    | ok st1 =>
      rw [h1] at h
      obtain ⟨a1, a2⟩ := flat_snc c hc as d hf hd _ st st1 hs hle h1
      obtain ⟨b1, b2⟩ := ih (j + 1) st1 st' a1 a2.le h
      have := a2.trans b2 hle
      rw [show (keysOf d).length + n * (keysOf d).length = (n + 1) * (keysOf d).length by rw [Nat.succ_mul]; omega] at this
      exact ⟨b1, this⟩

/-- The group of the sentence `PSSN,SNC`. -/
def sncGroup : PDict := .single py!"cdidx" Nmea.ST <| .single py!"status" QS <| .single py!"errcode" Nmea.ST <| .single py!"info" Nmea.ST <| .nil

theorem snc_def : GET_PROP.SSNSNC = .single py!"msgId" Nmea.ST (.single py!"rev" CH (.single py!"tim" IN (.single py!"week" IN
    (.group py!"group" .indet sncGroup .nil)))) := rfl

theorem snc_lookup : lookup py!"SSNSNC" (propTable 0) = some GET_PROP.SSNSNC := by decide +kernel

/-- **C102, objects in the bracketed sentence.** If the sentence `PSSN,SNC` can be made of a list of items, all of them are texts,
up to the last complete group of four (the first four are not in a group). -/
theorem C102_bracketed_texts (hp : Bool) (v : Nat) (u : UDefs) (ck : Option Str) (vs : List PyVal) (m : AnyMsg)
    (h : mkMsgAny py!"P" py!"SSN" 0 hp v u ck (.list (.str py!"SNC" :: vs)) = .ok m) :
    ∀ j < 3 + (vs.length - 3) / 4 * 4, ∀ x, vs[j]? = some x → ∃ s, x = .str s := by
  have hr : ValMsgid v → py!"P" ∈ NMEA_TALKERS ∧ Recognised u py!"SSN" := by
    intro _
    refine ⟨by decide, ?_⟩
    exact .inr (.inl (by decide +kernel))
  rw [mkMsgAny_eq _ _ _ _ _ _ _ _ (.inl rfl) hr] at h
  unfold doAttributesAny at h
  have hget : getDictAny (ctxOf py!"P" py!"SSN" (0 : Int).toNat hp v u ⟨none, []⟩) (Payload.items (.list (.str py!"SNC" :: vs))) =
      .ok (some GET_PROP.SSNSNC) := by
    unfold getDictAny findDictAny
    have hs : sourceOf py!"SSN" u = .prop := by
      rw [sourceOf_eq, if_neg (by decide +kernel), if_pos (by decide +kernel)]
    have hb : baseKeyAny py!"SSN" (Payload.items (.list (.str py!"SNC" :: vs))) = .ok py!"SSNSNC" := rfl
    have hk : ∀ c : Ctx, propKeyAny c (Payload.items (.list (.str py!"SNC" :: vs))) (upper py!"SSNSNC") = .ok py!"SSNSNC" := by
      intro c; rfl
    simp only [ctxOf, hs, hb, bind, Except.bind, hk]
    have hl := snc_lookup
    simp only [Int.toNat_zero, pure, Except.pure, hl]
  rw [hget] at h
  simp only [bind, Except.bind] at h
  cases hst : setPDictAny (ctxOf py!"P" py!"SSN" (0 : Int).toNat hp v u ⟨none, []⟩) (Payload.assignable (.list (.str py!"SNC" :: vs)))
      GET_PROP.SSNSNC [] ⟨0, Payload.items (.list (.str py!"SNC" :: vs)), []⟩ with
  | error e => rw [hst] at h; simp only [wrapErr_error, Except.map] at h; cases h
  | ok st =>
    clear h hget
    simp only [Payload.items, Payload.assignable] at hst
    generalize hc : ctxOf py!"P" py!"SSN" (0 : Int).toNat hp v u ⟨none, []⟩ = c at hst
    have hcc : c.talker = py!"P" ∧ c.msgID = py!"SSN" := by rw [← hc]; exact ⟨rfl, rfl⟩
    rw [snc_def] at hst
    have h1 : setSingleAny c true py!"msgId" Nmea.ST [] ⟨0, .str py!"SNC" :: vs, []⟩ =
        .ok ⟨1, .str py!"SNC" :: vs, [(py!"msgId", .str py!"SNC")]⟩ := by
      unfold setSingleAny
      rw [hcc.1, hcc.2]
      rfl
    have s0 : Snc ⟨1, .str py!"SNC" :: vs, [(py!"msgId", .str py!"SNC")]⟩ := rfl
    have l0 : (⟨1, .str py!"SNC" :: vs, [(py!"msgId", .str py!"SNC")]⟩ : AnySt).pindex ≤
      (⟨1, .str py!"SNC" :: vs, [(py!"msgId", .str py!"SNC")]⟩ : AnySt).payload.length := by simp
    generalize hst0 : (⟨1, .str py!"SNC" :: vs, [(py!"msgId", .str py!"SNC")]⟩ : AnySt) = a0 at *
    simp only [setPDictAny, bind, Except.bind, h1] at hst
    cases e1 : setSingleAny c true py!"rev" CH [] a0 with
    | error e => rw [e1] at hst; cases hst
    | ok a1 =>
    rw [e1] at hst
    simp only at hst
    cases e2 : setSingleAny c true py!"tim" IN [] a1 with
    | error e => rw [e2] at hst; cases hst
    | ok a2 =>
    rw [e2] at hst
    simp only at hst
    cases e3 : setSingleAny c true py!"week" IN [] a2 with
    | error e => rw [e3] at hst; cases hst
    | ok a3 =>
    rw [e3] at hst
    simp only at hst
    obtain ⟨p1, q1⟩ := single_snc c hcc true _ _ (by decide) [] _ _ s0 l0 e1
    obtain ⟨p2, q2⟩ := single_snc c hcc true _ _ (by decide) [] _ _ p1 q1.le e2
    obtain ⟨p3, q3⟩ := single_snc c hcc true _ _ (by decide) [] _ _ p2 q2.le e3
    have q := (q1.trans q2 l0).trans q3 l0
    have hlen : sncGroup.len = 4 := rfl
    simp only [repCountAny, hlen, show ¬ (4 = 0) from by decide, if_false] at hst
    rw [show (((a3.payload.length - a3.pindex) / 4 : Nat) : Int).toNat = (a3.payload.length - a3.pindex) / 4 from Int.toNat_natCast _] at hst
    cases e4 : loopFrom (fun i st => setPDictAny c true sncGroup ([] ++ [i]) st) ((a3.payload.length - a3.pindex) / 4) 1 a3 with
    | error e => rw [e4] at hst; cases hst
    | ok a4 =>
    obtain ⟨_, q4⟩ := loop_snc c hcc true sncGroup rfl (by decide) [] _ _ _ _ p3 q3.le e4
    have q5 := q.trans q4 l0
    have hk4 : (keysOf sncGroup).length = 4 := rfl
    rw [hk4] at q5
    have hpi : a0.pindex = 1 := by rw [← hst0]
    have hpl : a0.payload = .str py!"SNC" :: vs := by rw [← hst0]
    intro j hj x hx
    have hjl := (List.getElem?_eq_some_iff.1 hx).1
    have hq := q.idx
    have hql := q.len
    have hq5 := q5.idx
    rw [hpl, hpi, List.length_cons] at hq hq5
    rw [hpl, List.length_cons] at hql
    obtain ⟨s, hs⟩ := q5.texts (j + 1) (by omega) (by
      rw [hq5]
      by_cases h3 : vs.length < 3
      · omega
      · have : a3.payload.length - a3.pindex = vs.length - 3 := by omega
        rw [this]; omega)
    rw [hpl, List.getElem?_cons_succ, hx] at hs
    cases hs
    exact ⟨s, rfl⟩

/-- It can be made, of eight texts and an object that falls on no field. -/
example : ((mkMsgAny py!"P" py!"SSN" 0 false 1 [] none (.list (.str py!"SNC" :: [.str py!"1", .str py!"5", .str py!"6", .str py!"[CD1", .str py!"3",
    .str py!"0", .str py!"x]", .int 7]))).map fun m => (m.payload, lookup py!"cdidx_01" m.attrs)) =
    .ok (.list [.str py!"SNC", .str py!"1", .str py!"5", .str py!"6", .str py!"CD1", .str py!"3", .str py!"0", .str py!"x", .int 7],
      some (.str py!"CD1")) := by
  decide +kernel

/-- **C102, objects where the layout is chosen.** A received `PQTMSN` is refused if its first item is not a text. The layout of
`PSTMDRSENMSG` is chosen by the text of its first item, whatever the item is. -/
theorem C102_chosen (t : Str) (mode : Int) (hp : Bool) (v : Nat) (u : UDefs) (ck : Option Str) (p : Payload) (x : PyVal)
    (hm : mode = 0 ∨ mode = 1 ∨ mode = 2) (hv : ValMsgid v → t ∈ NMEA_TALKERS) (hx : p.items.head? = some x) :
    ((∀ s, x ≠ .str s) → mkMsgAny t py!"QTMSN" 0 hp v u ck p = .error .nmeaType) ∧
    (∀ s d, x.toStr = .ok s → definitionFor mode.toNat u py!"STMDRSENMSG" (s :: (p.items.map asText).tail) = .ok (some d) → SaneNames d →
      ∀ slots attrs k, ExpandItems mode.toNat p.items d [] [] slots → ReadItems slots p.items [] attrs →
        ChecksumFor t py!"STMDRSENMSG" ck p.items k →
        ∃ m, mkMsgAny t py!"STMDRSENMSG" mode hp v u ck p = .ok m ∧ m.payload = p ∧ m.checksum = some k ∧ m.attrs = attrs) := by
  have hps : ∀ i ∈ [py!"QTMSN", py!"STMDRSENMSG"], sourceOf i u = .prop ∧ Recognised u i ∧ i ∉ NMEA_PREFIX_PROP := by
    intro i hi
    have h1 : ∀ i ∈ [py!"QTMSN", py!"STMDRSENMSG"], ¬ IsStandard i ∧ IsProprietary i ∧ i ∉ NMEA_PREFIX_PROP := by decide +kernel
    obtain ⟨a, b, c⟩ := h1 i hi
    refine ⟨?_, .inr (.inl b), c⟩
    rw [sourceOf_eq, if_neg a, if_pos b]
  constructor
  · intro hns
    obtain ⟨h1, h2, h3⟩ := hps py!"QTMSN" (by decide)
    rw [mkMsgAny_eq _ _ _ _ _ _ _ _ (.inl rfl) (fun h => ⟨hv h, h2⟩)]
    have hb : baseKeyAny py!"QTMSN" p.items = .ok py!"QTMSN" := by unfold baseKeyAny; rw [if_neg h3]
    have hk : ∀ c : Ctx, c.mode = 0 → propKeyAny c p.items (upper py!"QTMSN") = .error .attribute := by
      intro c hc
      unfold propKeyAny
      rw [if_pos (by decide), if_pos hc]
      cases hi : p.items with
      | nil => rw [hi] at hx; cases hx
      | cons y r =>
        rw [hi] at hx
        cases hx
        cases x with
        | str s => exact absurd rfl (hns s)
        | _ => rfl
    have hg : getDictAny (ctxOf t py!"QTMSN" (0 : Int).toNat hp v u ⟨none, []⟩) p.items = .error .attribute := by
      unfold getDictAny findDictAny
      simp only [show (ctxOf t py!"QTMSN" (0 : Int).toNat hp v u ⟨none, []⟩).msgID = py!"QTMSN" from rfl,
        show (ctxOf t py!"QTMSN" (0 : Int).toNat hp v u ⟨none, []⟩).defsource = .prop from h1, hb, bind, Except.bind,
        hk (ctxOf t py!"QTMSN" (0 : Int).toNat hp v u ⟨none, []⟩) rfl]
    unfold doAttributesAny
    rw [hg]
    rfl
  · intro s d hs hd hn
    obtain ⟨h1, h2, h3⟩ := hps py!"STMDRSENMSG" (by decide)
    have hget : getDictAny (ctxOf t py!"STMDRSENMSG" mode.toNat hp v u ⟨none, []⟩) p.items = .ok (some d) := by
      have h0 := getDictAny_texts (ctxOf t py!"STMDRSENMSG" mode.toNat hp v u ⟨some (s :: (p.items.map asText).tail), []⟩)
        (s :: (p.items.map asText).tail) rfl
      rw [getDict_eq _ (s :: (p.items.map asText).tail) (by show mode.toNat = 0 ∨ mode.toNat = 1 ∨ mode.toNat = 2; omega) rfl rfl rfl
        (fun _ => rfl)] at h0
      simp only [show (ctxOf t py!"STMDRSENMSG" mode.toNat hp v u ⟨some (s :: (p.items.map asText).tail), []⟩).mode = mode.toNat from rfl,
        show (ctxOf t py!"STMDRSENMSG" mode.toNat hp v u ⟨some (s :: (p.items.map asText).tail), []⟩).udefs = u from rfl,
        show (ctxOf t py!"STMDRSENMSG" mode.toNat hp v u ⟨some (s :: (p.items.map asText).tail), []⟩).msgID = py!"STMDRSENMSG" from rfl, hd] at h0
      rw [← h0]
      have hb : ∀ vs, baseKeyAny py!"STMDRSENMSG" vs = .ok py!"STMDRSENMSG" := by intro vs; unfold baseKeyAny; rw [if_neg h3]
      have hk : ∀ c : Ctx, propKeyAny c p.items (upper py!"STMDRSENMSG") =
          propKeyAny c ((s :: (p.items.map asText).tail).map .str) (upper py!"STMDRSENMSG") := by
        intro c
        cases hi : p.items with
        | nil => rw [hi] at hx; cases hx
        | cons y r =>
          rw [hi] at hx
          cases hx
          unfold propKeyAny
          rw [if_neg (by decide), if_pos (by decide), if_neg (by decide), if_pos (by decide)]
          simp only [List.map_cons, hs]
          rfl
      unfold getDictAny findDictAny
      simp only [Ctx.bare, ctxOf, hb, h1, bind, Except.bind, hk]
    have hproc : Processes (ctxOf t py!"STMDRSENMSG" mode.toNat hp v u ⟨none, []⟩) p.assignable p.items d := by
      refine processes_steady _ _ _ _ (fun _ => True) ⟨?_, fun _ _ _ _ _ _ _ => trivial⟩ trivial hn
      intro attrs _
      refine ⟨_, ident_plain t py!"STMDRSENMSG" (fun h => h3 h.2) attrs, ?_⟩
      intro h
      have := congrArg List.length h
      simp at this
    intro slots attrs k e1 e2 e3
    obtain ⟨m, a, _, _, b, c, e⟩ := (made_of_items t _ mode hp v u ck p hm (fun h => ⟨hv h, h2⟩) d hget hproc).1 slots attrs k e1 e2 e3
    exact ⟨m, a, b, c, e⟩

/-- The layout with time and three accelerations is chosen by the number 30 as by the text. -/
example : (mkMsgAny py!"P" py!"STMDRSENMSG" 0 false 1 [] none (.list [.int 30, .int 5, .int 1, .int 2, .int 3])).map (fun m => m.attrs.length) = .ok 5 ∧
    (mkMsgAny py!"P" py!"QTMSN" 0 false 1 [] none (.list [.int 1, .str py!"OK"])) = .error .nmeaType := by
  decide +kernel

end Props.AnyPayload
