import Verif.Props.MadeErrors
/-!
# What the constructor says about keywords with the names of its own parameters (C101)
-/
namespace Props
open Py Nmea Spec

theorem findDict_plain (c : Ctx) (hs : c.defsource = sourceOf c.msgID c.udefs) (hm : c.mode = 0 ∨ c.mode = 1 ∨ c.mode = 2)
    (hnp : ¬ IsProprietary c.msgID) (d : PDict) (hd : definitionFor c.mode c.udefs c.msgID [] = .ok (some d)) :
    baseKey c = .ok c.msgID ∧ findDict c = .ok (some d) := by
  have hb : ∀ c' : Ctx, c'.msgID = c.msgID → baseKey c' = .ok c.msgID := by
    intro c' h; unfold baseKey; rw [h, if_neg (fun h => hnp (.inr h))]
  have h0 := getDict_eq { c with kw := ⟨some [], []⟩ } [] hm hs rfl rfl (fun _ => rfl)
  simp only [hd] at h0
  have hso : c.defsource ≠ .prop := by
    rw [hs, sourceOf_eq]
    split
    · simp
    · split <;> simp
  have he : findDict { c with kw := ⟨some [], []⟩ } = findDict c := by
    unfold findDict
    rw [hb { c with kw := ⟨some [], []⟩ } rfl, hb c rfl]
    simp only [bind, Except.bind]
    cases h : c.defsource with
    | prop => exact absurd h hso
    | _ => rfl
  refine ⟨hb c rfl, ?_⟩
  unfold getDict at h0
  rw [he] at h0
  cases hf : findDict c with
  | error e => rw [hf] at h0; cases h0
  | ok o =>
    rw [hf] at h0
    cases o with
    | some d' => cases h0; rfl
    | none =>
      simp only [bind, Except.bind] at h0
      split at h0 <;> cases h0

/-- **C101, names that clash.** If a keyword has the name of a parameter inside the constructor, the exception names the first entry of
the definition of the sentence, whether there is a payload or not. -/
theorem C101_clash (now : Nat → DateTime) (t i : Str) (mode : Int) (hp : Bool) (v : Nat) (u : UDefs) (ck : Option Str)
    (payload : Option (List Str)) (others : List (Str × PyVal))
    (hm : mode = 0 ∨ mode = 1 ∨ mode = 2) (hr : ValMsgid v → t ∈ NMEA_TALKERS ∧ Recognised u i)
    (hnp : ¬ IsProprietary i) (d : PDict) (hd : definitionFor mode.toNat u i [] = .ok (some d)) (first : Str) (rest : List Str)
    (hkeys : keysOf d = first :: rest)
    (k : Str) (hk : k ∈ [py!"pindex", py!"pdict", py!"key", py!"gindex", py!"att"]) (hin : k ∈ others.map Prod.fst) :
    mkMsgT now t i mode hp v u ck ⟨payload, others⟩ =
      .error (.nmeaType, some (py!"Incorrect type for attribute " ++ first ++ py!" in msgID " ++ i ++ py!".")) := by
  obtain ⟨h1, h2⟩ := findDict_plain (ctxOf t i mode.toNat hp v u ⟨payload, others⟩) rfl
    (by show mode.toNat = 0 ∨ mode.toNat = 1 ∨ mode.toNat = 2; omega) hnp d hd
  have hcl : (ctxOf t i mode.toNat hp v u ⟨payload, others⟩).kw.clash = true := by
    show Kwargs.clash ⟨payload, others⟩ = true
    unfold Kwargs.clash
    rw [List.any_eq_true]
    refine ⟨k, hk, ?_⟩
    have := (hasKey_mem k others).2 hin
    simp [Kwargs.has, this]
  have hlen : (d.len != 0) = true ∧ firstKey d = first := by
    cases d with
    | nil => cases hkeys
    | single _ _ r => simp only [keysOf, List.cons.injEq] at hkeys; exact ⟨by simp [PDict.len], hkeys.1⟩
    | group _ _ _ r => simp only [keysOf, List.cons.injEq] at hkeys; exact ⟨by simp [PDict.len], hkeys.1⟩
  have hda : doAttributesT (ctxOf t i mode.toNat hp v u ⟨payload, others⟩) now ck =
      .error (.nmeaType, some (py!"Incorrect type for attribute " ++ first ++ py!" in msgID " ++ i ++ py!".")) := by
    unfold doAttributesT getDictT
    rw [h1, h2]
    simp only [hcl, hlen.1, Bool.and_self, if_true, hlen.2]
    rfl
  unfold mkMsgT
  rw [if_neg (not_not_intro hm), if_neg (fun h => h.1 (hr ((valMsgid_iff v).1 h.2)).1),
    if_neg (fun h => (sourceOf_unkn _ _).1 h.1 (hr ((valMsgid_iff v).1 h.2)).2)]
  show (match doAttributesT (ctxOf t i mode.toNat hp v u ⟨payload, others⟩) now ck with | .error x => _ | .ok (p, k, a) => _) = _
  rw [hda]

/-- Non-vacuity: a definition that begins with a group, and VTG. -/
example : mkMsgT clock0 py!"GN" py!"ABC" 0 false 1 [(py!"ABC", .group py!"sats" (.named py!"n") (.single py!"x" py!"ST" .nil) .nil)] none
      ⟨some [py!"1"], [(py!"att", .int 5)]⟩ =
    .error (.nmeaType, some py!"Incorrect type for attribute sats in msgID ABC.") :=
  C101_clash clock0 py!"GN" py!"ABC" 0 false 1 [(py!"ABC", .group py!"sats" (.named py!"n") (.single py!"x" py!"ST" .nil) .nil)] none
    (some [py!"1"]) [(py!"att", .int 5)] (by decide) (fun _ => by decide) (by decide) _ rfl py!"sats" _ rfl py!"att" (by decide) (by decide)

example : mkMsgT clock0 py!"GN" py!"VTG" 0 false 1 [] none ⟨none, [(py!"key", .int 5)]⟩ =
    .error (.nmeaType, some py!"Incorrect type for attribute cogt in msgID VTG.") :=
  C101_clash clock0 py!"GN" py!"VTG" 0 false 1 [] none none [(py!"key", .int 5)]
    (by decide) (fun _ => by decide) (by decide) _ rfl py!"cogt" _ rfl py!"key" (by decide) (by decide)

end Props
