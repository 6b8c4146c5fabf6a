import Verif.Spec.Generate
import Verif.Lemmas.Received
/-! # Generating: attribute processing without a `payload` keyword -/
namespace Nmea
open Py Spec

theorem attrsOf_snoc (ws : List Written) (w : Written) :
    attrsOf (ws ++ [w]) = Py.insert w.name w.val (attrsOf ws) := by
  unfold attrsOf; rw [List.foldl_append]; rfl

theorem lastValue_snoc (x : Str) (ws : List Written) (w : Written) :
    lastValue x (ws ++ [w]) = if w.name = x then some w.val else lastValue x ws := by
  unfold lastValue
  rw [List.filter_append]
  by_cases h : w.name = x
  · rw [if_pos h]; simp [h]
  · rw [if_neg h]; simp [h]

theorem snoc_ind {α} {P : List α → Prop} (h0 : P []) (h1 : ∀ l a, P l → P (l ++ [a])) (l : List α) : P l := by
  rw [← List.reverse_reverse l]
  induction l.reverse with
  | nil => exact h0
  | cons a r ih => rw [List.reverse_cons]; exact h1 _ _ ih

theorem lookup_attrsOf (x : Str) (ws : List Written) : lookup x (attrsOf ws) = lastValue x ws := by
  induction ws using snoc_ind with
  | h0 => rfl
  | h1 ws w ih =>
    rw [attrsOf_snoc, lastValue_snoc, lookup_insert, ih]
    by_cases h : w.name = x
    · rw [if_pos h, if_pos h.symm]
    · rw [if_neg h, if_neg (fun e => h e.symm)]

theorem lastValue_none (x : Str) (ws : List Written) : lastValue x ws = none ↔ ∀ w ∈ ws, w.name ≠ x := by
  unfold lastValue
  simp

theorem clockReads_snoc (ws : List Written) (w : Written) :
    clockReads (ws ++ [w]) = if usesClock w.ty then clockReads ws + 1 else clockReads ws := by
  have hu : usesClock w.ty = decide (w.ty ∈ [py!"TM", py!"DT", py!"DTL", py!"DM"]) := by
    rw [Bool.eq_iff_iff]
    unfold usesClock
    simp only [Bool.or_eq_true, beq_iff_eq, decide_eq_true_eq, List.mem_cons, List.not_mem_nil, or_false, TM, DT,
      DTL, DM, or_assoc]
  unfold clockReads
  rw [List.filter_append, hu]
  by_cases h : w.ty ∈ [py!"TM", py!"DT", py!"DTL", py!"DM"]
  · simp only [List.length_append, List.filter_cons, h, decide_true, if_true]; rfl
  · simp only [List.length_append, List.filter_cons, h, decide_false, Bool.false_eq_true, if_false]; rfl

/-- What generation needs to know about a definition. -/
structure GenPhase (c : Ctx) (d : PDict) : Prop where
  gen : c.streaming = false
  names : ∀ k t, (k, t) ∈ d.entries → ∀ g, suffixed k g ∉ propertyNames ∧ suffixed k g ≠ py!"val2str" ∧
    suffixed k g ≠ py!"nomval"

/-- The state after the attributes `ws` have been written. -/
structure GenInv (ws : List Written) (st : St) : Prop where
  idx : st.pindex = ws.length
  pay : st.payload = ws.map Written.text
  attrs : st.attrs = attrsOf ws
  tick : st.tick = clockReads ws
  names : ∀ w ∈ ws, w.name ∉ propertyNames ∧ w.name ≠ py!"val2str" ∧ w.name ≠ py!"nomval"

theorem GenInv.look {ws st} (h : GenInv ws st) (x : Str) : lookup x st.attrs = lastValue x ws := by
  rw [h.attrs, lookup_attrsOf]

theorem neg_eq (v : PyVal) : (v.isNum && v.ltZero) = IsNegative v := by
  cases v <;> simp [PyVal.isNum, PyVal.num?, PyVal.ltZero, IsNegative]

theorem genValue_eq (c : Ctx) (now : Nat → DateTime) (ty name : Str) (ws : List Written) (st : St)
    (hi : GenInv ws st) :
    genValue c now ty name st =
      (chosen c.kw.others c.mode now ws name ty).map (fun v => (v, if usesClock ty then st.tick + 1 else st.tick)) := by
  have hsh : shadowed st.attrs py!"nomval" = false := by
    have : lookup py!"nomval" st.attrs = none := by
      rw [hi.look, lastValue_none]; exact fun w hw => (hi.names w hw).2.2
    simp [shadowed, hasKey, this]
  unfold genValue chosen
  simp only [hsh, Bool.false_eq_true, if_false, bind, Except.bind, hi.tick]
  have hd : (match nomval ty c.mode (now (clockReads ws)) with
      | Except.error err => Except.error err
      | Except.ok v => pure (c.kw.get name v, if usesClock ty = true then clockReads ws + 1 else clockReads ws) : Except Err (PyVal × Nat)) =
      ((nomval ty c.mode (now (clockReads ws))).map (keywordOr c.kw.others name)).map
        (fun v => (v, if usesClock ty = true then clockReads ws + 1 else clockReads ws)) := by
    cases nomval ty c.mode (now (clockReads ws)) with
    | error e => rfl
    | ok v =>
      simp only [Except.map, pure, Except.pure, Kwargs.get, keywordOr]
      cases lookup name c.kw.others <;> rfl
  by_cases h1 : ty = LND
  · subst h1
    have hdir : directionOf LND = some (py!"lon", py!"W", py!"E") := by decide
    rw [if_pos rfl, hdir, hi.look]
    simp only
    cases hl : lastValue py!"lon" ws with
    | none => exact hd
    | some v =>
      simp only [neg_eq, Except.map]
      have : usesClock LND = false := by decide
      rw [this]; rfl
  · rw [if_neg h1]
    by_cases h2 : ty = LAD
    · subst h2
      have hdir : directionOf LAD = some (py!"lat", py!"S", py!"N") := by decide
      rw [if_pos rfl, hdir, hi.look]
      simp only
      cases hl : lastValue py!"lat" ws with
      | none => exact hd
      | some v =>
        simp only [neg_eq, Except.map]
        have : usesClock LAD = false := by decide
        rw [this]; rfl
    · rw [if_neg h2]
      have hdir : directionOf ty = none := by
        unfold directionOf; rw [if_neg h1, if_neg h2]
      rw [hdir]; simp only
      cases hq : nomval ty c.mode (now (clockReads ws)) with
      | error e => rfl
      | ok v => rw [hq] at hd; exact hd

/-- One attribute. -/
theorem setSingleGen_spec (c : Ctx) (now : Nat → DateTime) (d : PDict) (hp : GenPhase c d)
    (ws : List Written) (st : St) (hi : GenInv ws st) (k t : Str) (g : List Nat) (hm : (k, t) ∈ d.entries) :
    match chosen c.kw.others c.mode now ws (suffixed k g) t with
    | .error e => setSingleGen c now k t g st = .error e
    | .ok v => match val2str v t c.hp with
      | .error e => setSingleGen c now k t g st = .error e
      | .ok text => ∃ st', setSingleGen c now k t g st = .ok st' ∧
          GenInv (ws ++ [⟨suffixed k g, t, v, text⟩]) st' := by
  have hn := hp.names k t hm g
  have hsh : shadowed st.attrs py!"val2str" = false := by
    have : lookup py!"val2str" st.attrs = none := by
      rw [hi.look, lastValue_none]; exact fun w hw => (hi.names w hw).2.1
    simp [shadowed, hasKey, this]
  unfold setSingleGen
  simp only [genValue_eq c now t _ ws st hi]
  cases hc : chosen c.kw.others c.mode now ws (suffixed k g) t with
  | error e => rfl
  | ok v =>
    simp only [Except.map, bind, Except.bind, hsh, Bool.false_eq_true, if_false]
    cases hv : val2str v t c.hp with
    | error e => rfl
    | ok text =>
      simp only [setAttr, if_neg hn.1, pure, Except.pure]
      refine ⟨_, rfl, ?_, ?_, ?_, ?_, ?_⟩
      · simp [hi.idx]
      · simp [hi.pay]
      · rw [attrsOf_snoc, hi.attrs]
      · rw [clockReads_snoc, hi.tick]
      · intro w hw
        rcases List.mem_append.1 hw with h | h
        · exact hi.names w h
        · rw [List.mem_singleton.1 h]; exact hn

theorem genRepeats_iff (c : Ctx) (hs : c.streaming = false) (ws : List Written) (st : St) (hi : GenInv ws st)
    (rep : Rep) (b : PDict) (n : Nat) :
    (∃ z, repCount c rep b st = .ok z ∧ z.toNat = n) ↔ GenRepeats c.kw.others c.mode ws rep n := by
  cases rep with
  | fixed z =>
    simp only [repCount, Except.ok.injEq, exists_eq_left']
    constructor
    · rintro rfl; exact .fixed z
    · intro h; cases h; rfl
  | indet =>
    simp only [repCount, hs, Bool.false_eq_true, if_false]
    constructor
    · rintro ⟨z, h, rfl⟩; exact .indet z h
    · intro h; cases h with | indet z h => exact ⟨z, h, rfl⟩
  | named k =>
    simp only [repCount, getCount]
    by_cases hk : k = py!"msgmode"
    · rw [if_pos hk]
      subst hk
      constructor
      · rintro ⟨z, h, rfl⟩; cases h; exact .mode
      · intro h
        cases h with
        | named _ _ h _ => exact absurd rfl h
        | flag _ _ h _ => exact absurd rfl h
        | mode => exact ⟨_, rfl, rfl⟩
    · rw [if_neg hk]
      have hl := hi.look k
      by_cases hkp : k ∈ propertyNames
      · rw [if_pos hkp]
        have hno : lastValue k ws = none := by
          rw [lastValue_none]; rintro w hw rfl; exact (hi.names w hw).1 hkp
        constructor
        · rintro ⟨z, h, _⟩; cases h
        · intro h
          cases h with
          | named _ z _ h => rw [hno] at h; cases h
          | flag _ b _ h => rw [hno] at h; cases h
          | mode => exact absurd rfl hk
      · rw [if_neg hkp]
        rw [hl]
        constructor
        · rintro ⟨z, h, rfl⟩
          cases hv : lastValue k ws with
          | none => rw [hv] at h; cases h
          | some v =>
            rw [hv] at h
            cases v with
            | bool b =>
              cases h
              have := GenRepeats.flag (kw := c.kw.others) (mode := c.mode) k b hk hv
              cases b <;> exact this
            | int i => cases h; exact .named k _ hk hv
            | _ => cases h
        · intro h
          cases h with
          | named _ z _ h => rw [h]; exact ⟨z, rfl, rfl⟩
          | flag _ b _ h => rw [h]; exact ⟨_, rfl, by cases b <;> rfl⟩
          | mode => exact absurd rfl hk

theorem GenPhase.mono {c d d'} (h : GenPhase c d) (hs : ∀ x ∈ d'.entries, x ∈ d.entries) : GenPhase c d' :=
  ⟨h.gen, fun k t hm g => h.names k t (hs _ hm) g⟩

/-- Generation succeeds exactly when the specification can be carried out, with the same result. -/
theorem setPDict_emit (c : Ctx) (now : Nat → DateTime) (d : PDict) (hp : GenPhase c d) (g : List Nat) (sfx : Str)
    (hg : ∀ k, suffixed k g = k ++ sfx) (pre : List Written) (st : St) (hi : GenInv pre st) :
    (∀ st', setPDict c now d g st = .ok st' →
      ∃ post, Emit c.kw.others c.mode c.hp now d sfx pre post ∧ GenInv post st') ∧
    (∀ post, Emit c.kw.others c.mode c.hp now d sfx pre post →
      ∃ st', setPDict c now d g st = .ok st' ∧ GenInv post st') := by
  induction d generalizing g sfx pre st with
  | nil =>
    constructor
    · intro st' h; cases h; exact ⟨pre, .nil _ _, hi⟩
    · intro post h; cases h; exact ⟨st, rfl, hi⟩
  | single k t r ih =>
    have hone := setSingleGen_spec c now _ hp pre st hi k t g (by simp [PDict.entries])
    have hp' : GenPhase c r := hp.mono (fun x hx => by simp [PDict.entries, hx])
    simp only [setPDict, bind, Except.bind, setSingle_gen _ _ _ _ _ _ hp.gen]
    rw [hg] at hone
    constructor
    · intro st' h
      cases hc : chosen c.kw.others c.mode now pre (k ++ sfx) t with
      | error e => rw [hc] at hone; simp only at hone; rw [hone] at h; cases h
      | ok v =>
        rw [hc] at hone; simp only at hone
        cases hv : val2str v t c.hp with
        | error e => rw [hv] at hone; simp only at hone; rw [hone] at h; cases h
        | ok text =>
          rw [hv] at hone; simp only at hone
          obtain ⟨st1, h1, h2⟩ := hone
          rw [h1] at h
          obtain ⟨post, h3, h4⟩ := (ih hp' g sfx hg _ st1 h2).1 st' h
          exact ⟨post, .single _ _ _ _ _ _ _ _ hc hv h3, h4⟩
    · intro post h
      cases h with
      | single _ _ _ _ _ _ v text hc hv h =>
      rw [hc] at hone; simp only at hone
      rw [hv] at hone; simp only at hone
      obtain ⟨st1, h1, h2⟩ := hone
      rw [h1]
      exact (ih hp' g sfx hg _ st1 h2).2 post h
  | group k rep b r ihb ihr =>
    have hpb : GenPhase c b := hp.mono (fun x hx => by simp [PDict.entries, hx])
    have hpr : GenPhase c r := hp.mono (fun x hx => by simp [PDict.entries, hx])
    have hrep := fun n => genRepeats_iff c hp.gen pre st hi rep b n
    have hgi : ∀ i, ∀ k, suffixed k (g ++ [i + 1]) = k ++ (sfx ++ groupSuffix (i + 1)) := by
      intro i k; rw [suffixed_append _ _ _ (by omega), hg, List.append_assoc]
    have loop1 : ∀ n i pre1 st1 st2, GenInv pre1 st1 →
        loopFrom (fun i st => setPDict c now b (g ++ [i]) st) n (i + 1) st1 = .ok st2 →
        ∃ at_ : Nat → List Written, at_ 0 = pre1 ∧
          (∀ j < n, Emit c.kw.others c.mode c.hp now b (sfx ++ groupSuffix (i + j + 1)) (at_ j) (at_ (j + 1))) ∧
          GenInv (at_ n) st2 := by
      intro n
      induction n with
      | zero =>
        intro i pre1 st1 st2 hi1 h
        simp only [loopFrom] at h
        cases h
        exact ⟨fun _ => pre1, rfl, fun j hj => absurd hj (by omega), hi1⟩
      | succ n ihn =>
        intro i pre1 st1 st2 hi1 h
        simp only [loopFrom, bind, Except.bind] at h
        cases h1 : setPDict c now b (g ++ [i + 1]) st1 with
        | error e => rw [h1] at h; cases h
        | ok st' =>
          rw [h1] at h
          obtain ⟨mid, h2, h3⟩ := (ihb hpb _ _ (hgi i) pre1 st1 hi1).1 st' h1
          obtain ⟨at_, a0, a1, a2⟩ := ihn (i + 1) mid st' st2 h3 h
          refine ⟨fun j => match j with | 0 => pre1 | j + 1 => at_ j, rfl, ?_, a2⟩
          intro j hj
          cases j with
          | zero => simp only [a0]; exact h2
          | succ j =>
            have := a1 j (by omega)
            rw [show i + 1 + j + 1 = i + (j + 1) + 1 from by omega] at this
            exact this
    have loop2 : ∀ n i (at_ : Nat → List Written) st1, GenInv (at_ 0) st1 →
        (∀ j < n, Emit c.kw.others c.mode c.hp now b (sfx ++ groupSuffix (i + j + 1)) (at_ j) (at_ (j + 1))) →
        ∃ st2, loopFrom (fun i st => setPDict c now b (g ++ [i]) st) n (i + 1) st1 = .ok st2 ∧
          GenInv (at_ n) st2 := by
      intro n
      induction n with
      | zero => intro i at_ st1 hi1 _; exact ⟨st1, rfl, hi1⟩
      | succ n ihn =>
        intro i at_ st1 hi1 h
        obtain ⟨st', h1, h2⟩ := (ihb hpb _ _ (hgi i) (at_ 0) st1 hi1).2 (at_ 1) (h 0 (by omega))
        obtain ⟨st2, h3, h4⟩ := ihn (i + 1) (fun j => at_ (j + 1)) st' h2 (by
          intro j hj
          have := h (j + 1) (by omega)
          rw [show i + (j + 1) + 1 = i + 1 + j + 1 from by omega] at this
          exact this)
        refine ⟨st2, ?_, h4⟩
        simp only [loopFrom, bind, Except.bind, h1]; exact h3
    simp only [setPDict, bind, Except.bind]
    constructor
    · intro st' h
      cases hr : repCount c rep b st with
      | error e => rw [hr] at h; cases h
      | ok z =>
        rw [hr] at h
        simp only at h
        cases hl : loopFrom (fun i st => setPDict c now b (g ++ [i]) st) z.toNat 1 st with
        | error e => rw [hl] at h; cases h
        | ok st2 =>
          rw [hl] at h
          obtain ⟨at_, a0, a1, a2⟩ := loop1 z.toNat 0 pre st st2 hi hl
          obtain ⟨post, h3, h4⟩ := (ihr hpr g sfx hg _ st2 a2).1 st' h
          refine ⟨post, .group _ _ _ _ _ _ _ z.toNat at_ ((hrep _).1 ⟨z, hr, rfl⟩) a0 ?_ h3, h4⟩
          intro i hi'; have := a1 i hi'; simpa using this
    · intro post h
      cases h with
      | group _ _ _ _ _ _ _ n at_ hr h0 hb h =>
      obtain ⟨z, hz, rfl⟩ := (hrep n).2 hr
      rw [hz]
      obtain ⟨st2, h3, h4⟩ := loop2 z.toNat 0 at_ st (by rw [h0]; exact hi) (by simpa using hb)
      simp only
      rw [show (0 : Nat) + 1 = 1 from rfl] at h3
      rw [h3]
      exact (ihr hpr g sfx hg _ st2 h4).2 post h

theorem saneGen_names (d : PDict) (h : SaneGen d) :
    ∀ k t, (k, t) ∈ d.entries → ∀ g, suffixed k g ∉ propertyNames ∧ suffixed k g ≠ py!"val2str" ∧
      suffixed k g ≠ py!"nomval" := by
  intro k t hm g
  have hk := h k (entries_names d k t hm)
  have key : ∀ x, 95 ∉ x → x ∈ [py!"identity", py!"talker", py!"msgID", py!"msgmode", py!"payload",
      py!"checksum", py!"val2str", py!"nomval"] → suffixed k g ≠ x := by
    intro x h95 hx he
    have e : k = x := suffixed_plain k x g he h95
    exact hk (e ▸ hx)
  refine ⟨?_, key _ (by decide) (by simp), key _ (by decide) (by simp)⟩
  intro hin
  have h95 : ∀ x ∈ propertyNames, 95 ∉ x := by decide
  refine key _ (h95 _ hin) ?_ rfl
  revert hin
  simp only [propertyNames, List.mem_cons, List.not_mem_nil, or_false]
  intro hin
  rcases hin with h | h | h | h | h | h <;> simp [h]

theorem genInv_nil : GenInv [] (st0 []) := ⟨rfl, rfl, rfl, rfl, by simp⟩

/-- The constructor called with keywords only. -/
theorem generated (now : Nat → DateTime) (t i : Str) (mode : Nat) (hp : Bool) (v : Nat) (u : UDefs)
    (kw : List (Str × PyVal)) (d : PDict) (hd : SaneGen d) :
    (∀ st, setPDict (ctxOf t i mode hp v u ⟨none, kw⟩) now d [] (st0 []) = .ok st →
      ∃ ws, Emit kw mode hp now d [] [] ws ∧ GenInv ws st) ∧
    (∀ ws, Emit kw mode hp now d [] [] ws →
      ∃ st, setPDict (ctxOf t i mode hp v u ⟨none, kw⟩) now d [] (st0 []) = .ok st ∧ GenInv ws st) :=
  setPDict_emit (ctxOf t i mode hp v u ⟨none, kw⟩) now d ⟨rfl, saneGen_names d hd⟩ [] []
    (fun k => by simp [suffixed]) [] (st0 []) genInv_nil

end Nmea
