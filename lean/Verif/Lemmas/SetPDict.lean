import Verif.Lemmas.Message
/-! # Induction principles for attribute processing -/
namespace Nmea
open Py Spec

/-- All (name, type) entries of a definition, at every depth. -/
def PDict.entries : PDict → List (Str × Str)
  | .nil => []
  | .single k t r => (k, t) :: r.entries
  | .group _ _ b r => b.entries ++ r.entries

/-- All groups (repeat count, body) of a definition, at every depth. -/
def PDict.groups : PDict → List (Rep × PDict)
  | .nil => []
  | .single _ _ r => r.groups
  | .group _ rep b r => (rep, b) :: (b.groups ++ r.groups)

/-- Result predicate. -/
def ResP {α} (I : α → Prop) (E : Err → Prop) : Except Err α → Prop
  | .ok a => I a
  | .error e => E e

theorem loopFrom_inv {σ} (f : Nat → σ → Except Err σ) (I : σ → Prop) (E : Err → Prop)
    (h : ∀ i s, I s → ResP I E (f i s)) (n i : Nat) (s : σ) (hs : I s) :
    ResP I E (loopFrom f n i s) := by
  induction n generalizing i s with
  | zero => exact hs
  | succ n ih =>
    simp only [loopFrom, bind, Except.bind]
    have := h i s hs
    generalize f i s = r at this ⊢
    match r with
    | .error e => exact this
    | .ok s' => exact ih (i + 1) s' this

theorem setPDict_inv (c : Ctx) (now : Nat → DateTime) (I : St → Prop) (E : Err → Prop) (d : PDict)
    (h1 : ∀ k t g st, (k, t) ∈ d.entries → I st → ResP I E (setSingle c now k t g st))
    (h2 : ∀ rep b st e, (rep, b) ∈ d.groups → I st → repCount c rep b st = .error e → E e)
    (g : List Nat) (st : St) (hs : I st) : ResP I E (setPDict c now d g st) := by
  induction d generalizing g st with
  | nil => exact hs
  | single k t r ih =>
    simp only [setPDict, bind, Except.bind]
    have h := h1 k t g st (by simp [PDict.entries]) hs
    generalize setSingle c now k t g st = res at h ⊢
    match res with
    | .error e => exact h
    | .ok st' =>
      exact ih (fun k t g st hm => h1 k t g st (by simp [PDict.entries, hm]))
        (fun rep b st e hm => h2 rep b st e (by simpa [PDict.groups] using hm)) g st' h
  | group k rep b r ihb ihr =>
    simp only [setPDict, bind, Except.bind]
    cases hr : repCount c rep b st with
    | error e => exact h2 rep b st e (by simp [PDict.groups]) hs hr
    | ok n =>
      simp only
      have hl := loopFrom_inv (fun i st => setPDict c now b (g ++ [i]) st) I E
        (fun i s hs => ihb (fun k t g st hm => h1 k t g st (by simp [PDict.entries, hm]))
          (fun rep b st e hm => h2 rep b st e (by simp [PDict.groups, hm])) (g ++ [i]) s hs)
        n.toNat 1 st hs
      generalize loopFrom _ n.toNat 1 st = res at hl ⊢
      match res with
      | .error e => exact hl
      | .ok st' =>
        exact ihr (fun k t g st hm => h1 k t g st (by simp [PDict.entries, hm]))
          (fun rep b st e hm => h2 rep b st e (by simp [PDict.groups, hm])) g st' hl

/-- Two contexts (and clocks) that agree step by step give the same result. -/
theorem loopFrom_congr {σ ε} (f f' : Nat → σ → Except ε σ) (h : ∀ i s, f i s = f' i s) (n i : Nat) (s : σ) :
    loopFrom f n i s = loopFrom f' n i s := by
  have : f = f' := by funext i s; exact h i s
  rw [this]

theorem setPDict_congr (c c' : Ctx) (now now' : Nat → DateTime)
    (h1 : ∀ k t g st, setSingle c now k t g st = setSingle c' now' k t g st)
    (h2 : ∀ rep b st, repCount c rep b st = repCount c' rep b st) (d : PDict) (g : List Nat) (st : St) :
    setPDict c now d g st = setPDict c' now' d g st := by
  induction d generalizing g st with
  | nil => rfl
  | single k t r ih =>
    simp only [setPDict, bind, Except.bind, h1]
    split
    · rfl
    · exact ih g _
  | group k rep b r ihb ihr =>
    simp only [setPDict, bind, Except.bind, h2]
    split
    · rfl
    · rename_i n _
      have e := loopFrom_congr (fun i st => setPDict c now b (g ++ [i]) st)
        (fun i st => setPDict c' now' b (g ++ [i]) st) (fun i s => ihb (g ++ [i]) s) n.toNat 1 st
      rw [e]
      generalize loopFrom _ n.toNat 1 st = r
      match r with
      | .error e => rfl
      | .ok st' => exact ihr g st'

/-! ## Streaming ignores the clock and the other keywords -/

theorem setSingle_stream (c : Ctx) (now : Nat → DateTime) (k t : Str) (g : List Nat) (st : St)
    (hs : c.streaming = true) : setSingle c now k t g st = setSingleStream c k t g st := by
  unfold setSingle; rw [if_pos hs]

theorem setSingle_gen (c : Ctx) (now : Nat → DateTime) (k t : Str) (g : List Nat) (st : St)
    (hs : c.streaming = false) : setSingle c now k t g st = setSingleGen c now k t g st := by
  unfold setSingle; rw [if_neg (by simp [hs])]

/-- Contexts that streaming processing cannot tell apart. -/
structure StreamEq (c c' : Ctx) : Prop where
  talker : c.talker = c'.talker
  msgID : c.msgID = c'.msgID
  mode : c.mode = c'.mode
  s1 : c.streaming = true
  s2 : c'.streaming = true

theorem setPDict_stream_congr (c c' : Ctx) (now now' : Nat → DateTime) (h : StreamEq c c') (d : PDict)
    (g : List Nat) (st : St) : setPDict c now d g st = setPDict c' now' d g st := by
  apply setPDict_congr
  · intro k t g st
    rw [setSingle_stream _ _ _ _ _ _ h.s1, setSingle_stream _ _ _ _ _ _ h.s2]
    unfold setSingleStream
    rw [h.talker, h.msgID]
  · intro rep b st
    unfold repCount
    rw [h.s1, h.s2]
    cases rep with
    | fixed n => rfl
    | indet => rfl
    | named k => simp only [getCount, h.mode]

theorem outcome_now (c : Ctx) (now now' : Nat → DateTime) (hs : c.streaming = true) :
    outcome c now = outcome c now' := by
  unfold outcome rawOutcome
  congr 1
  split
  · rfl
  · rfl
  · rw [setPDict_stream_congr c c now now' ⟨rfl, rfl, rfl, hs, hs⟩]

theorem mkMsg_now (now now' : Nat → DateTime) (t i : Str) (mode : Int) (hp : Bool) (v : Nat)
    (u : UDefs) (ck : Option Str) (p : List Str) (o : List (Str × PyVal)) :
    mkMsg now t i mode hp v u ck ⟨some p, o⟩ = mkMsg now' t i mode hp v u ck ⟨some p, o⟩ := by
  by_cases hm : mode = 0 ∨ mode = 1 ∨ mode = 2
  · rw [mkMsg_eq _ _ _ _ _ _ _ _ _ hm, mkMsg_eq _ _ _ _ _ _ _ _ _ hm,
      outcome_now _ now now' rfl]
  · rw [mkMsg_mode _ _ _ _ _ _ _ _ _ hm, mkMsg_mode _ _ _ _ _ _ _ _ _ hm]

theorem parse_now (now now' : Nat → DateTime) (msg : RawMsg) (mode : Int) (v : Nat) (u : UDefs) :
    parse now msg mode v u = parse now' msg mode v u := by
  by_cases hm : mode = 0 ∨ mode = 1 ∨ mode = 2
  · rw [parse_eq _ _ _ _ _ hm, parse_eq _ _ _ _ _ hm]
    generalize getParts msg = r
    match r with
    | .error e => rfl
    | .ok p => simp only [mkMsg_now now now']
  · rw [parse_mode _ _ _ _ _ hm, parse_mode _ _ _ _ _ hm]

end Nmea
