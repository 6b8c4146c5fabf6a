import Verif.Model.AnyPayload
import Verif.Props.Layout
import Verif.Spec.AnyPayload
/-!
# Lemmas about payloads of any kind
-/
namespace Nmea
open Py

/-- The object without the payload keyword. -/
def Ctx.bare (c : Ctx) : Ctx := { c with kw := ⟨none, []⟩ }

/-- A state with texts, as a state with any items. -/
def lift (st : St) : AnySt := ⟨st.pindex, st.payload.map .str, st.attrs⟩

theorem setItem_texts (l : List Str) (i : Nat) (s : Str) : setItem (l.map .str) i (.str s) = (setAt l i s).map .str := by
  induction l generalizing i with
  | nil => rfl
  | cons x r ih => cases i <;> simp [setItem, setAt, ih]

theorem setSingleAny_texts (c : Ctx) (hs : c.streaming = true) (now : Nat → DateTime) (key ty : Str) (g : List Nat) (st : St) :
    setSingleAny c.bare true key ty g (lift st) = (setSingle c now key ty g st).map lift := by
  unfold setSingle
  rw [if_pos hs]
  unfold setSingleAny setSingleStream
  show (identityOf c.talker c.msgID st.attrs >>= _) = Except.map lift (identityOf c.talker c.msgID st.attrs >>= _)
  cases identityOf c.talker c.msgID st.attrs with
  | error e => rfl
  | ok ident =>
    simp only [lift, List.getElem?_map, bind, Except.bind]
    cases st.payload[st.pindex]? with
    | none => rfl
    | some raw =>
      simp only [Option.map_some]
      unfold unbracket
      by_cases hi : ident = py!"PSSNSNC"
      · simp only [hi, if_true, setItem_texts]
        by_cases hsh : shadowed st.attrs py!"str2val" = true
        · simp only [hsh, if_true]; rfl
        · simp only [hsh, if_false, str2valAny]; rw [if_neg (by decide), if_neg (by decide)]
          cases str2val (stripBrackets raw) ty with
          | error e => rfl
          | ok v =>
            simp only
            cases setAttr st.attrs (suffixed key g) v <;> rfl
      · simp only [hi, if_false]
        by_cases hsh : shadowed st.attrs py!"str2val" = true
        · simp only [hsh, if_true]; rfl
        · simp only [hsh, if_false, str2valAny]; rw [if_neg (by decide), if_neg (by decide)]
          cases str2val raw ty with
          | error e => rfl
          | ok v =>
            simp only
            cases setAttr st.attrs (suffixed key g) v <;> rfl

theorem repCountAny_texts (c : Ctx) (hs : c.streaming = true) (rep : Rep) (body : PDict) (st : St) :
    repCountAny c.bare rep body (lift st) = repCount c rep body st := by
  cases rep with
  | fixed n => rfl
  | indet => simp [repCountAny, repCount, hs, lift]
  | named k => rfl

theorem loopFrom_map {σ τ ε} (h : σ → τ) (f : Nat → τ → Except ε τ) (g : Nat → σ → Except ε σ)
    (hfg : ∀ i s, f i (h s) = (g i s).map h) : ∀ n i s, loopFrom f n i (h s) = (loopFrom g n i s).map h := by
  intro n
  induction n with
  | zero => intro i s; rfl
  | succ n ih =>
    intro i s
    simp only [loopFrom, hfg]
    cases g i s with
    | error e => rfl
    | ok s' => exact ih (i + 1) s'

theorem setPDictAny_texts (c : Ctx) (hs : c.streaming = true) (now : Nat → DateTime) (d : PDict) : ∀ (g : List Nat) (st : St),
    setPDictAny c.bare true d g (lift st) = (setPDict c now d g st).map lift := by
  induction d with
  | nil => intro g st; rfl
  | single key ty rest ih =>
    intro g st
    simp only [setPDictAny, setPDict, setSingleAny_texts c hs now]
    cases setSingle c now key ty g st with
    | error e => rfl
    | ok st' => exact ih g st'
  | group key rep body rest ihb ihr =>
    intro g st
    simp only [setPDictAny, setPDict, repCountAny_texts c hs]
    cases repCount c rep body st with
    | error e => rfl
    | ok n =>
      show (loopFrom _ n.toNat 1 (lift st) >>= _) = Except.map lift (loopFrom _ n.toNat 1 st >>= _)
      rw [loopFrom_map lift _ _ (fun i s => ihb (g ++ [i]) s)]
      cases loopFrom (fun i st => setPDict c now body (g ++ [i]) st) n.toNat 1 st with
      | error e => rfl
      | ok st' => exact ihr g st'

theorem nominalAny_texts (ps : List Str) : ∀ i attrs, nominalAny i (ps.map .str) attrs = nominalFrom i ps attrs := by
  induction ps with
  | nil => intro i a; rfl
  | cons p r ih => intro i a; exact ih _ _

theorem textsOf_texts (ps : List Str) : textsOf (ps.map .str) = .ok ps := by
  induction ps with
  | nil => rfl
  | cons p r ih =>
    show (do let s ← PyVal.toStr (.str p); let t ← textsOf (r.map .str); pure (s :: t)) = _
    rw [ih]; rfl

theorem textOr_texts (ps : List Str) : (ps.map PyVal.str).map textOr = ps := by
  induction ps with
  | nil => rfl
  | cons p r ih => simp [textOr, ih]

theorem baseKeyAny_texts (c : Ctx) (ps : List Str) (hk : c.kw = ⟨some ps, []⟩) :
    baseKeyAny c.msgID (ps.map .str) = baseKey c := by
  unfold baseKeyAny baseKey
  have h1 : c.streaming = true := by simp [Ctx.streaming, hk]
  have h2 : c.payload0 = ps := by simp [Ctx.payload0, hk]
  simp only [h1, if_true]
  split
  · rw [h2]
    cases ps with
    | nil => simp only [List.map_nil]; split <;> rfl
    | cons f r =>
      simp only [List.map_cons]
      by_cases ha : c.msgID = py!"ASHR"
      · simp only [ha, if_true]
        match f with
        | [] => rfl
        | [_] => rfl
        | _ :: _ :: _ => rfl
      · simp only [ha, if_false]; rfl
  · rfl

theorem propKeyAny_texts (c : Ctx) (ps : List Str) (hk : c.kw = ⟨some ps, []⟩) (key : Str) :
    propKeyAny c.bare (ps.map .str) key = propKey c key := by
  have hc : { c.bare with kw := ⟨some ((ps.map PyVal.str).map textOr), []⟩ } = c := by
    rw [textOr_texts]
    cases c; simp only at hk; subst hk; rfl
  have h1 : c.streaming = true := by simp [Ctx.streaming, hk]
  have h2 : c.payload0 = ps := by simp [Ctx.payload0, hk]
  have h3 : ∀ n, c.kw.has n = false := by intro n; rw [hk]; rfl
  unfold propKeyAny
  by_cases ha : key = py!"QTMSN"
  · subst ha
    have : propKey c py!"QTMSN" = qtmSn c py!"QTMSN" := by
      unfold propKey
      simp only [h3, Bool.false_eq_true, if_false]
      rw [if_neg (by decide), if_neg (by decide), if_neg (by decide), if_neg (by decide), if_neg (by decide), if_pos trivial]
    rw [if_pos rfl, this]
    unfold qtmSn
    simp only [h1, h2, and_true]
    show (if c.mode = GET then _ else _) = _
    split
    · cases ps with
      | nil => rfl
      | cons f r => rfl
    · rfl
  · rw [if_neg ha]
    by_cases hb : key = py!"STMDRSENMSG"
    · subst hb
      have : propKey c py!"STMDRSENMSG" = stmDrSenMsg c py!"STMDRSENMSG" := by
        unfold propKey
        simp only [h3, Bool.false_eq_true, if_false]
        rw [if_neg (by decide), if_neg (by decide), if_neg (by decide), if_neg (by decide), if_neg (by decide), if_neg (by decide),
          if_pos trivial]
      rw [if_pos rfl, this]
      unfold stmDrSenMsg
      simp only [h1, h2, if_true]
      cases ps with
      | nil => rfl
      | cons f r => rfl
    · rw [if_neg hb, hc]

theorem findDictAny_texts (c : Ctx) (ps : List Str) (hk : c.kw = ⟨some ps, []⟩) :
    findDictAny c.bare (ps.map .str) = findDict c := by
  unfold findDictAny findDict
  rw [show c.bare.msgID = c.msgID from rfl, baseKeyAny_texts c ps hk]
  cases baseKey c with
  | error e => rfl
  | ok key =>
    have h := propKeyAny_texts c ps hk (upper key)
    simp only [bind, Except.bind, show c.bare.defsource = c.defsource from rfl, show c.bare.mode = c.mode from rfl, show c.bare.udefs = c.udefs from rfl, h]
    cases c.defsource <;> rfl

theorem getDictAny_texts (c : Ctx) (ps : List Str) (hk : c.kw = ⟨some ps, []⟩) :
    getDictAny c.bare (ps.map .str) = getDict c := by
  unfold getDictAny getDict
  rw [findDictAny_texts c ps hk]
  rfl

end Nmea

namespace Nmea
open Py Spec

/-- Reading slots against items. -/
def readItems : List Slot → List PyVal → Attrs → Except Err Attrs
  | [], _, attrs => .ok attrs
  | _ :: _, [], attrs => .ok attrs
  | (name, ty) :: ss, f :: fs, attrs =>
    match str2valAny f ty with
    | .error e => .error e
    | .ok v => readItems ss fs (hemisphere ty v (Py.insert name v attrs))

theorem readItems_append (a b : List Slot) (fs : List PyVal) (attrs : Attrs) :
    readItems (a ++ b) fs attrs = (readItems a fs attrs).bind (readItems b (fs.drop a.length)) := by
  induction a generalizing fs attrs with
  | nil => rfl
  | cons s a ih =>
    obtain ⟨n, t⟩ := s
    cases fs with
    | nil => cases b <;> simp [readItems, Except.bind]
    | cons f fs =>
      simp only [List.cons_append, readItems]
      cases str2valAny f t with
      | error e => rfl
      | ok v => simp [ih]

/-- Attributes among which no method is hidden. -/
def NoMeth (attrs : Attrs) : Prop := lookup py!"str2val" attrs = none

theorem NoMeth.step {attrs : Attrs} (h : NoMeth attrs) (t name : Str) (v : PyVal) (h2 : name ≠ py!"str2val") :
    NoMeth (hemisphere t v (Py.insert name v attrs)) := by
  unfold NoMeth
  rw [lookup_hemisphere _ _ _ _ (by decide) (by decide), lookup_insert, if_neg (fun e => h2 e.symm)]
  exact h

theorem readItems_noMeth (ss : List Slot) (hn : ∀ n t, (n, t) ∈ ss → n ≠ py!"str2val") : ∀ (fs : List PyVal) (attrs attrs' : Attrs),
    NoMeth attrs → readItems ss fs attrs = .ok attrs' → NoMeth attrs' := by
  induction ss with
  | nil => intro fs a a' h e; cases e; exact h
  | cons s ss ih =>
    obtain ⟨n, t⟩ := s
    intro fs a a' h e
    cases fs with
    | nil => cases e; exact h
    | cons f fs =>
      simp only [readItems] at e
      split at e
      · cases e
      · exact ih (fun n' t' hm => hn n' t' (by simp [hm])) fs _ a' (h.step _ _ _ (hn n t (by simp))) e

/-- The identity never is that of the bracketed sentences. -/
def Constant (c : Ctx) : Prop := ∃ s, (∀ attrs, identityOf c.talker c.msgID attrs = .ok s) ∧ s ≠ py!"PSSNSNC"

theorem setSingleAny_at (c : Ctx) (b : Bool) (k t : Str) (g : List Nat) (vs : List PyVal) (i : Nat) (hi : i ≤ vs.length)
    (attrs : Attrs) (hc : ∃ s, identityOf c.talker c.msgID attrs = .ok s ∧ s ≠ py!"PSSNSNC") (hm : NoMeth attrs)
    (hk : suffixed k g ∉ propertyNames) :
    setSingleAny c b k t g ⟨i, vs, attrs⟩ =
      (readItems [(suffixed k g, t)] (vs.drop i) attrs).map fun a => ⟨min (i + 1) vs.length, vs, a⟩ := by
  obtain ⟨s, hs, hne⟩ := hc
  unfold setSingleAny
  simp only [hs, bind, Except.bind, pure, Except.pure]
  by_cases hlt : i < vs.length
  · rw [List.getElem?_eq_getElem hlt, List.drop_eq_getElem_cons hlt]
    simp only [unbracket, hne, if_false, readItems]
    rw [if_neg (by simp [shadowed, hasKey, show lookup py!"str2val" attrs = none from hm])]
    cases str2valAny vs[i] t with
    | error e => rfl
    | ok v =>
      simp only [setAttr]
      rw [if_neg hk]
      simp only [signOverride_eq, Except.map]
      rw [Nat.min_eq_left (by omega)]
  · have : i = vs.length := by omega
    subst this
    simp [readItems, Except.map]

theorem setSingleAny_item (c : Ctx) (hc : Constant c) (b : Bool) (k t : Str) (g : List Nat) (vs : List PyVal) (i : Nat) (hi : i ≤ vs.length)
    (attrs : Attrs) (hm : NoMeth attrs) (hk : suffixed k g ∉ propertyNames) :
    setSingleAny c b k t g ⟨i, vs, attrs⟩ =
      (readItems [(suffixed k g, t)] (vs.drop i) attrs).map fun a => ⟨min (i + 1) vs.length, vs, a⟩ :=
  setSingleAny_at c b k t g vs i hi attrs (by obtain ⟨s, h1, h2⟩ := hc; exact ⟨s, h1 _, h2⟩) hm hk

theorem slotsOf_names (d : PDict) : ∀ (g : List Nat) (sfx : Str), (∀ k, suffixed k g = k ++ sfx) →
    ∀ n t, (n, t) ∈ slotsOf d sfx → ∃ k g', (k, t) ∈ d.entries ∧ n = suffixed k g' := by
  induction d with
  | nil => intro g sfx hg n t h; cases h
  | single k ty r ih =>
    intro g sfx hg n t h
    simp only [slotsOf, List.mem_cons, Prod.mk.injEq] at h
    rcases h with ⟨rfl, rfl⟩ | h
    · exact ⟨k, g, by simp [PDict.entries], (hg k).symm⟩
    · obtain ⟨k', s, h1, h2⟩ := ih g sfx hg _ _ h
      exact ⟨k', s, by simp [PDict.entries, h1], h2⟩
  | group k rep b r ihb ihr =>
    intro g sfx hg n t h
    simp only [slotsOf, List.mem_append, List.mem_flatMap] at h
    rcases h with ⟨j, _, h⟩ | h
    · obtain ⟨k', s, h1, h2⟩ := ihb (g ++ [j + 1]) _
        (fun k => by rw [suffixed_append _ _ _ (by omega), hg, List.append_assoc]) _ _ h
      exact ⟨k', s, by simp [PDict.entries, h1], h2⟩
    · obtain ⟨k', s, h1, h2⟩ := ihr g sfx hg _ _ h
      exact ⟨k', s, by simp [PDict.entries, h1], h2⟩

/-- Static definitions: attribute processing is reading the slots position by position. -/
theorem setPDictAny_static (c : Ctx) (hc : Constant c) (b : Bool) (d : PDict) (hd : IsStatic d = true)
    (hn : ∀ k t, (k, t) ∈ d.entries → ∀ g, suffixed k g ∉ propertyNames ∧ suffixed k g ≠ py!"str2val") (vs : List PyVal) :
    ∀ (g : List Nat) (sfx : Str), (∀ k, suffixed k g = k ++ sfx) → ∀ (i : Nat) (attrs : Attrs), i ≤ vs.length → NoMeth attrs →
    setPDictAny c b d g ⟨i, vs, attrs⟩ = (readItems (slotsOf d sfx) (vs.drop i) attrs).map
      fun a => ⟨min (i + (slotsOf d sfx).length) vs.length, vs, a⟩ := by
  induction d with
  | nil =>
    intro g sfx hg i attrs hi hm
    simp [setPDictAny, slotsOf, readItems, Except.map, Nat.min_eq_left hi]
  | single k t r ih =>
    intro g sfx hg i attrs hi hm
    have h1 := hn k t (by simp [PDict.entries]) g
    simp only [setPDictAny, setSingleAny_item c hc b k t g vs i hi attrs hm h1.1, slotsOf]
    rw [show (k ++ sfx, t) :: slotsOf r sfx = [(suffixed k g, t)] ++ slotsOf r sfx by rw [hg]; rfl, readItems_append]
    cases hr : readItems [(suffixed k g, t)] (vs.drop i) attrs with
    | error e => rfl
    | ok a =>
      have hm' : NoMeth a := readItems_noMeth _ (by
        intro n t' h'; simp at h'; rw [h'.1]; exact h1.2) _ _ _ hm hr
      simp only [Except.map, Except.bind, bind]
      rw [ih (by simpa [IsStatic] using hd) (fun k' t' h' => hn k' t' (by simp [PDict.entries, h'])) g sfx hg _ _ (by omega) hm']
      have e1 : vs.drop (min (i + 1) vs.length) = (vs.drop i).drop 1 := by
        rw [List.drop_drop]
        by_cases h : i + 1 ≤ vs.length
        · rw [Nat.min_eq_left h]
        · rw [Nat.min_eq_right (by omega), List.drop_length, List.drop_eq_nil_of_le (by omega)]
      rw [e1]
      simp only [List.length_singleton, Except.map, List.length_append]
      cases readItems (slotsOf r sfx) ((vs.drop i).drop 1) a with
      | error e => rfl
      | ok a' =>
        simp only [Except.ok.injEq, AnySt.mk.injEq, and_true]
        omega
  | group k rep bd r ihb ihr =>
    intro g sfx hg i attrs hi hm
    cases rep with
    | indet => simp [IsStatic] at hd
    | named x => simp [IsStatic] at hd
    | fixed z =>
      simp only [IsStatic, Bool.and_eq_true] at hd
      have hnb : ∀ k t, (k, t) ∈ bd.entries → ∀ g, suffixed k g ∉ propertyNames ∧ suffixed k g ≠ py!"str2val" :=
        fun k' t' h' => hn k' t' (by simp [PDict.entries, h'])
      have hgi : ∀ j k, suffixed k (g ++ [j + 1]) = k ++ (sfx ++ groupSuffix (j + 1)) := by
        intro j k; rw [suffixed_append _ _ _ (by omega), hg, List.append_assoc]
      have loop : ∀ n j i attrs, i ≤ vs.length → NoMeth attrs →
          loopFrom (fun i st => setPDictAny c b bd (g ++ [i]) st) n (j + 1) ⟨i, vs, attrs⟩ =
            (readItems ((List.range' j n).flatMap fun x => slotsOf bd (sfx ++ groupSuffix (x + 1))) (vs.drop i) attrs).map
              fun a => ⟨min (i + ((List.range' j n).flatMap fun x => slotsOf bd (sfx ++ groupSuffix (x + 1))).length) vs.length, vs, a⟩ := by
        intro n
        induction n with
        | zero =>
          intro j i attrs hi hm
          simp [loopFrom, readItems, Except.map, Nat.min_eq_left hi]
        | succ n ihn =>
          intro j i attrs hi hm
          simp only [loopFrom, List.range'_succ, List.flatMap_cons, ihb hd.1 hnb (g ++ [j + 1]) _ (hgi j) i attrs hi hm]
          rw [readItems_append]
          cases hr : readItems (slotsOf bd (sfx ++ groupSuffix (j + 1))) (vs.drop i) attrs with
          | error e => rfl
          | ok a =>
            have hm' : NoMeth a := readItems_noMeth _ (by
              intro n' t' h'
              obtain ⟨k', g', h1, h2⟩ := slotsOf_names bd _ _ (hgi j) _ _ h'
              rw [h2]; exact (hnb k' t' h1 g').2) _ _ _ hm hr
            simp only [Except.map, Except.bind, bind]
            rw [ihn (j + 1) _ a (by omega) hm']
            have e1 : vs.drop (min (i + (slotsOf bd (sfx ++ groupSuffix (j + 1))).length) vs.length)
                = (vs.drop i).drop (slotsOf bd (sfx ++ groupSuffix (j + 1))).length := by
              rw [List.drop_drop]
              by_cases h : i + (slotsOf bd (sfx ++ groupSuffix (j + 1))).length ≤ vs.length
              · rw [Nat.min_eq_left h]
              · rw [Nat.min_eq_right (by omega), List.drop_length, List.drop_eq_nil_of_le (by omega)]
            rw [e1]
            simp only [List.length_append]
            cases readItems ((List.range' (j + 1) n).flatMap fun x => slotsOf bd (sfx ++ groupSuffix (x + 1)))
              ((vs.drop i).drop (slotsOf bd (sfx ++ groupSuffix (j + 1))).length) a with
            | error e => rfl
            | ok a' =>
              simp only [Except.map, Except.ok.injEq, AnySt.mk.injEq, and_true]
              omega
      simp only [setPDictAny, repCountAny, slotsOf]
      rw [List.range_eq_range', readItems_append]
      have hl := loop z.toNat 0 i attrs hi hm
      simp only [Nat.zero_add] at hl
      simp only [bind, Except.bind]
      rw [hl]
      cases hr : readItems ((List.range' 0 z.toNat).flatMap fun x => slotsOf bd (sfx ++ groupSuffix (x + 1))) (vs.drop i) attrs with
      | error e => rfl
      | ok a =>
        have hm' : NoMeth a := readItems_noMeth _ (by
          intro n' t' h'
          simp only [List.mem_flatMap] at h'
          obtain ⟨j, _, h'⟩ := h'
          obtain ⟨k', g', h1, h2⟩ := slotsOf_names bd _ _ (hgi j) _ _ h'
          rw [h2]; exact (hnb k' t' h1 g').2) _ _ _ hm hr
        simp only [Except.map]
        rw [ihr hd.2 (fun k' t' h' => hn k' t' (by simp [PDict.entries, h'])) g sfx hg _ _ (by omega) hm']
        generalize ((List.range' 0 z.toNat).flatMap fun x => slotsOf bd (sfx ++ groupSuffix (x + 1))) = L
        have e1 : vs.drop (min (i + L.length) vs.length) = (vs.drop i).drop L.length := by
          rw [List.drop_drop]
          by_cases h : i + L.length ≤ vs.length
          · rw [Nat.min_eq_left h]
          · rw [Nat.min_eq_right (by omega), List.drop_length, List.drop_eq_nil_of_le (by omega)]
        rw [e1]
        simp only [List.length_append]
        cases readItems (slotsOf r sfx) ((vs.drop i).drop L.length) a with
        | error e => rfl
        | ok a' =>
          simp only [Except.map, Except.ok.injEq, AnySt.mk.injEq, and_true]
          omega

end Nmea
