import Verif.Model.ErrorText
import Verif.Lemmas.ReceivedFirst
import Verif.Lemmas.SetPDict
import Verif.Props.Reader
/-!
# Lemmas: exceptions with their texts
-/
namespace Nmea
open Py Spec

/-- Forget the texts. -/
def erase {α} : Except TExc α → Except Err α
  | .ok a => .ok a
  | .error x => .error x.1

theorem setSingleT_erase (c now key ty g st) : erase (setSingleT c now key ty g st) = setSingle c now key ty g st := by
  unfold setSingleT
  split <;> simp_all [erase, bare]

theorem mapError_bare {α} (r : Except Err α) : erase (r.mapError bare) = r := by cases r <;> rfl

theorem erase_bind {α β} (r : Except TExc α) (f : α → Except TExc β) : erase (r >>= f) = (erase r >>= fun a => erase (f a)) := by
  cases r <;> rfl

theorem loopFrom_erase {σ} (f : Nat → σ → Except TExc σ) (g : Nat → σ → Except Err σ) (h : ∀ i s, erase (f i s) = g i s)
    (n i : Nat) (s : σ) : erase (loopFrom f n i s) = loopFrom g n i s := by
  induction n generalizing i s with
  | zero => rfl
  | succ n ih =>
    simp only [loopFrom, erase_bind, h]
    congr 1
    funext s'
    exact ih _ _

theorem setPDictT_erase (c now) (d : PDict) (g : List Nat) (st : St) : erase (setPDictT c now d g st) = setPDict c now d g st := by
  induction d generalizing g st with
  | nil => rfl
  | single k t r ih =>
    simp only [setPDictT, setPDict, erase_bind, setSingleT_erase]
    congr 1; funext s; exact ih _ _
  | group k rep b r ihb ihr =>
    simp only [setPDictT, setPDict, erase_bind, mapError_bare]
    congr 1; funext n
    rw [loopFrom_erase _ (fun i st => setPDict c now b (g ++ [i]) st) (fun i s => ihb _ _)]
    congr 1; funext s; exact ihr _ _

/-- Forget texts and keys. -/
def eraseK {α} : Except (Str × TExc) α → Except Err α
  | .ok a => .ok a
  | .error x => .error x.2.1

theorem groupT_erase (c now) (rep : Rep) (b : PDict) (st : St) :
    erase (do
      let n ← (repCount c rep b st).mapError bare
      loopFrom (fun i st => setPDictT c now b [i] st) n.toNat 1 st) =
    (do
      let n ← repCount c rep b st
      loopFrom (fun i st => setPDict c now b [i] st) n.toNat 1 st) := by
  rw [erase_bind, mapError_bare]
  congr 1; funext n
  exact loopFrom_erase _ _ (fun i s => setPDictT_erase _ _ _ _ _) _ _ _

theorem entriesT_erase (c now) (d : PDict) (st : St) : eraseK (entriesT c now d st) = setPDict c now d [] st := by
  induction d generalizing st with
  | nil => rfl
  | single k t r ih =>
    simp only [entriesT, setPDict]
    rw [← setSingleT_erase]
    cases h : setSingleT c now k t [] st with
    | error x => rfl
    | ok s => exact ih s
  | group k rep b r _ ih =>
    simp only [entriesT, setPDict, List.nil_append]
    have e := groupT_erase c now rep b st
    generalize (do
      let n ← (repCount c rep b st).mapError bare
      loopFrom (fun i st => setPDictT c now b [i] st) n.toNat 1 st) = x at e ⊢
    have e2 : (do
        let n ← repCount c rep b st
        let st ← loopFrom (fun i st => setPDict c now b [i] st) n.toNat 1 st
        setPDict c now r [] st) = (erase x >>= fun st => setPDict c now r [] st) := by
      rw [e]
      cases repCount c rep b st <;> rfl
    rw [e2]
    cases x with
    | error x => rfl
    | ok s => exact ih s

theorem wrapT_erase (m k : Str) (x : TExc) {α} : (.error (wrapT m k x).1 : Except Err α) = wrapErr (.error x.1) := by
  obtain ⟨e, t⟩ := x
  cases e <;> rfl

theorem getDictT_erase (c : Ctx) : erase (getDictT c) = getDict c := by
  unfold getDictT getDict
  cases hb : baseKey c with
  | error e =>
    have : findDict c = .error e := by unfold findDict; rw [hb]; rfl
    rw [this]
    cases e <;> rfl
  | ok key =>
    simp only
    cases findDict c with
    | error e => rfl
    | ok d =>
      cases d with
      | some d => rfl
      | none =>
        simp only [bind, Except.bind]
        split <;> rfl

theorem doAttributesT_erase (c : Ctx) (now) (ck : Option Str) : erase (doAttributesT c now ck) = doAttributes c now ck := by
  unfold doAttributesT doAttributes
  rw [← getDictT_erase]
  cases hd : getDictT c with
  | error x =>
    simp only [erase, bind, Except.bind]
    exact wrapT_erase _ _ _
  | ok d =>
    cases d with
    | none => rfl
    | some d =>
      simp only [bind, Except.bind, show erase (Except.ok (some d) : Except TExc (Option PDict)) = .ok (some d) from rfl]
      by_cases hc : (c.kw.clash && d.len != 0) = true
      · rw [if_pos hc, if_pos hc]
        exact wrapT_erase _ _ _
      · rw [if_neg hc, if_neg hc, ← entriesT_erase]
        cases entriesT c now d { pindex := 0, payload := c.payload0, attrs := [], tick := 0 } with
        | error x => exact wrapT_erase _ _ _
        | ok st => rfl

theorem mkMsgT_erase (now talker msgID msgmode hp validate udefs checksum kw) :
    erase (mkMsgT now talker msgID msgmode hp validate udefs checksum kw) = mkMsg now talker msgID msgmode hp validate udefs checksum kw := by
  unfold mkMsgT mkMsg
  split
  · rfl
  split
  · rfl
  split
  · rfl
  simp only
  rw [← doAttributesT_erase]
  generalize doAttributesT _ now checksum = r
  cases r with
  | error x => rfl
  | ok a => rfl

theorem getPartsT_erase (msg : RawMsg) : erase (getPartsT msg) = getParts msg := by
  unfold getPartsT
  cases getParts msg <;> rfl

theorem parseT_erase (now msg mode v u) : erase (parseT now msg mode v u) = parse now msg mode v u := by
  unfold parseT parse
  split
  · rfl
  · simp only
    rw [← getPartsT_erase]
    cases hg : getPartsT msg with
    | error x =>
      obtain ⟨e, t⟩ := x
      simp only [erase, bind, Except.bind]
      cases e <;> (try rfl)
      simp only
      by_cases hv : valMsgid v = true
      · simp only [if_pos hv]
      · simp only [if_neg hv]
    | ok p =>
      simp only [bind, Except.bind, show erase (Except.ok p : Except TExc Parts) = .ok p from rfl]
      by_cases hc : (valCksum v && upper p.cksum != calcChecksum p.content) = true
      · rw [if_pos hc, if_pos hc]; rfl
      · rw [if_neg hc, if_neg hc, ← mkMsgT_erase]
        generalize mkMsgT now p.talker p.msgid mode false v u (some p.cksum) { payload := some p.payload, others := [] } = r
        cases r with
        | ok m => rfl
        | error x =>
          obtain ⟨e, t⟩ := x
          cases e <;> (try rfl)
          simp only [erase]
          by_cases hv : valMsgid v = true
          · simp only [if_pos hv]
          · simp only [if_neg hv]

end Nmea
