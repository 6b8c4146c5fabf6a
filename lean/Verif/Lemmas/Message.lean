import Verif.Lemmas.Parts
/-! # Lemmas: the constructor in a normal form -/
namespace Nmea
open Py Spec

/-- The context built by the constructor. -/
def ctxOf (talker msgID : Str) (mode : Nat) (hp : Bool) (v : Nat) (u : UDefs) (kw : Kwargs) : Ctx :=
  { talker := talker, msgID := msgID, mode := mode, hp := hp, validate := v, udefs := u,
    defsource := sourceOf msgID u, kw := kw }

/-- Attribute processing before the exception wrapper: `none` = no definition. -/
def rawOutcome (c : Ctx) (now : Nat → DateTime) : Except Err (Option St) :=
  match getDict c with
  | .error e => .error e
  | .ok none => .ok none
  | .ok (some d) =>
    if c.kw.clash = true ∧ d.len ≠ 0 then .error .type
    else (setPDict c now d [] { pindex := 0, payload := c.payload0, attrs := [], tick := 0 }).map some

def outcome (c : Ctx) (now : Nat → DateTime) : Except Err (Option St) := wrapErr (rawOutcome c now)

/-- Exception wrapper on values. -/
def wrapE (e : Err) : Err :=
  match e with
  | .attribute => .nmeaType
  | .overflow => .nmeaType
  | .type => .nmeaType
  | .value => .nmeaType
  | e => e

theorem wrapErr_ok {α} (a : α) : wrapErr (.ok a : Except Err α) = .ok a := rfl
theorem wrapErr_error {α} (e : Err) : wrapErr (.error e : Except Err α) = .error (wrapE e) := by
  cases e <;> rfl

/-- Result of the constructor for a given outcome. -/
def finish (c : Ctx) (checksum : Option Str) : Option St → Msg
  | none =>
    { talker := c.talker, msgID := c.msgID, mode := c.mode, hp := c.hp, validate := c.validate,
      udefs := c.udefs, defsource := c.defsource, payload := c.payload0, checksum := checksum,
      streaming := c.streaming, attrs := if c.streaming then nominalFrom 1 c.payload0 [] else [],
      immutable := true }
  | some st =>
    { talker := c.talker, msgID := c.msgID, mode := c.mode, hp := c.hp, validate := c.validate,
      udefs := c.udefs, defsource := c.defsource, payload := st.payload,
      checksum := some (checksum.getD (generateChecksum c.talker c.msgID st.payload)),
      streaming := c.streaming, attrs := st.attrs, immutable := true }

/-- The checks made before attribute processing. -/
def Rejected (talker msgID : Str) (v : Nat) (u : UDefs) : Prop :=
  (talker ∉ NMEA_TALKERS ∨ sourceOf msgID u = .unkn) ∧ valMsgid v = true

instance (t i : Str) (v : Nat) (u : UDefs) : Decidable (Rejected t i v u) := by
  unfold Rejected; infer_instance

theorem doAttributes_eq (c : Ctx) (now : Nat → DateTime) (ck : Option Str) :
    doAttributes c now ck =
      match outcome c now with
      | .error e => .error e
      | .ok o => .ok ((finish c ck o).payload, (finish c ck o).checksum, (finish c ck o).attrs) := by
  unfold doAttributes outcome rawOutcome
  simp only [bind, Except.bind]
  generalize getDict c = gd
  match gd with
  | .error e => simp only [wrapErr_error]
  | .ok none => simp only [wrapErr_ok, pure, Except.pure, finish]
  | .ok (some d) =>
    simp only
    by_cases h : c.kw.clash = true ∧ d.len ≠ 0
    · rw [if_pos h, if_pos (by simp [h.1, h.2])]; simp only [wrapErr_error]
    · rw [if_neg h, if_neg (by simp only [Bool.and_eq_true, bne_iff_ne]; exact h)]
      generalize setPDict c now d [] _ = r
      match r with
      | .error e => simp only [wrapErr_error, Except.map]
      | .ok st =>
        simp only [wrapErr_ok, Except.map, pure, Except.pure, finish]
        cases ck <;> rfl

theorem mkMsg_eq (now : Nat → DateTime) (t i : Str) (mode : Int) (hp : Bool) (v : Nat)
    (u : UDefs) (ck : Option Str) (kw : Kwargs) (hm : mode = 0 ∨ mode = 1 ∨ mode = 2) :
    mkMsg now t i mode hp v u ck kw =
      if Rejected t i v u then .error .nmeaMessage
      else (outcome (ctxOf t i mode.toNat hp v u kw) now).map
        (finish (ctxOf t i mode.toNat hp v u kw) ck) := by
  unfold mkMsg
  rw [if_neg (by simp only [Classical.not_not]; exact hm)]
  by_cases h1 : t ∉ NMEA_TALKERS ∧ valMsgid v = true
  · rw [if_pos h1, if_pos ⟨.inl h1.1, h1.2⟩]
  · rw [if_neg h1]
    by_cases h2 : sourceOf i u = .unkn ∧ valMsgid v = true
    · rw [if_pos h2, if_pos ⟨.inr h2.1, h2.2⟩]
    · rw [if_neg h2, if_neg]
      · simp only [bind, Except.bind]
        rw [doAttributes_eq]
        unfold ctxOf
        generalize outcome _ now = r
        match r with
        | .error e => rfl
        | .ok none => rfl
        | .ok (some st) => rfl
      · rintro ⟨h | h, hv⟩
        · exact h1 ⟨h, hv⟩
        · exact h2 ⟨h, hv⟩

theorem mkMsg_mode (now : Nat → DateTime) (t i : Str) (mode : Int) (hp : Bool) (v : Nat)
    (u : UDefs) (ck : Option Str) (kw : Kwargs) (hm : ¬ (mode = 0 ∨ mode = 1 ∨ mode = 2)) :
    mkMsg now t i mode hp v u ck kw = .error .nmeaMessage := by
  unfold mkMsg; rw [if_pos hm]

/-- What a constructed message tells us. -/
theorem mkMsg_ok (now : Nat → DateTime) (t i : Str) (mode : Int) (hp : Bool) (v : Nat)
    (u : UDefs) (ck : Option Str) (kw : Kwargs) (m : Msg) (h : mkMsg now t i mode hp v u ck kw = .ok m) :
    (mode = 0 ∨ mode = 1 ∨ mode = 2) ∧ ¬ Rejected t i v u ∧
      ∃ o, outcome (ctxOf t i mode.toNat hp v u kw) now = .ok o ∧
        m = finish (ctxOf t i mode.toNat hp v u kw) ck o := by
  by_cases hm : mode = 0 ∨ mode = 1 ∨ mode = 2
  · refine ⟨hm, ?_⟩
    rw [mkMsg_eq _ _ _ _ _ _ _ _ _ hm] at h
    split at h
    · cases h
    · refine ⟨‹_›, ?_⟩
      cases ho : outcome (ctxOf t i mode.toNat hp v u kw) now with
      | error e => rw [ho] at h; cases h
      | ok o => rw [ho] at h; simp only [Except.map, Except.ok.injEq] at h; exact ⟨o, rfl, h.symm⟩
  · rw [mkMsg_mode _ _ _ _ _ _ _ _ _ hm] at h; cases h

end Nmea
