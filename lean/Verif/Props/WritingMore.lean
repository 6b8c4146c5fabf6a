import Verif.Props.Writing
import Verif.Props.StandardMore
/-!
# The other sentences are written as they are laid out (C76, continued)
-/
namespace Props
open Py Nmea Spec Spec.Nmea0183

theorem others_determinate : ∀ x ∈ others,
    (match lookup (upper x.1) (standardDefs 0) with | some d => Determinate d | none => true) = true := by decide +kernel

/-- `C76_writing` for the rest of the standard sentences. -/
theorem C76_others (now : Nat → DateTime) (t i : Str) (hp : Bool) (v : Nat) (u : UDefs) (kw : List (Str × PyVal))
    (lay : List Item) (hl : (i, lay) ∈ others) (hids : KnownIds v u t i) (hkw : PlainKeywords i kw)
    (hnow : ClockOk now) (hs : SuitableKeywords kw lay) :
    ∃ m, mkMsg now t i 0 hp v u none ⟨none, kw⟩ = .ok m ∧ IsWritten hp 0 now kw lay m ∧
      (PlainStrings kw → PlainText (t ++ i) → SplitsBack t i → OnTheWire t i m) := by
  have h := others_ok _ hl
  unfold otherOk at h
  cases hd : lookup (upper i) (standardDefs 0) with
  | none => rw [hd] at h; cases h
  | some d =>
    rw [hd] at h
    simp only [Bool.and_eq_true, decide_eq_true_eq] at h
    obtain ⟨⟨⟨hok, hstd⟩, hpre⟩, hlen⟩ := h
    have hdet := others_determinate _ hl
    simp only [hd] at hdet
    have hmem : (upper i, d) ∈ standardDefs 0 := lookup_some_mem _ _ _ hd
    refine writing_made now t i 0 (.inl rfl) hp v u kw hids hkw d ?_ (tables_sane_gen.1 0 _ hmem) hnow lay hok hdet hs
    refine ⟨i, by unfold kwFullId; rw [if_neg hpre], ?_⟩
    rw [if_pos hstd]
    exact hd

/-- Keywords for a list of one alert. -/
def writeAlc : List (Str × PyVal) := [(py!"numAlerts", .int 1), (py!"alertid_01", .str py!"3008")]

theorem writeAlc_suitable : SuitableKeywords writeAlc alcLayout where
  suits := by
    intro name kind x hf hl
    have hm := lookup_some_mem _ _ _ hl
    clear hl
    cases hf with
    | one h =>
      simp only [alcLayout, List.mem_cons, Item.one.injEq, List.not_mem_nil, or_false, reduceCtorEq] at h
      rcases h with ⟨rfl, rfl⟩ | ⟨rfl, rfl⟩ | ⟨rfl, rfl⟩ | ⟨rfl, rfl⟩ <;>
        simp only [writeAlc, List.mem_cons, Prod.mk.injEq, List.not_mem_nil, or_false, List.cons.injEq,
          Nat.reduceEqDiff, false_and, true_and, and_false, and_self, reduceCtorEq, List.cons_ne_nil] at hm
      rw [hm]; exact .whole 1 (by decide +kernel)
    | times _ h => simp [alcLayout] at h
    | many _ h => simp [alcLayout] at h
    | counted j h hb =>
      simp only [alcLayout, List.mem_cons, reduceCtorEq, false_or, List.not_mem_nil, or_false,
        Item.counted.injEq] at h
      obtain ⟨_, rfl⟩ := h
      simp only [List.mem_cons, Prod.mk.injEq, List.not_mem_nil, or_false] at hb
      rcases hb with ⟨rfl, rfl⟩ | ⟨rfl, rfl⟩ | ⟨rfl, rfl⟩ <;>
        simp only [writeAlc, List.mem_cons, Prod.mk.injEq, List.not_mem_nil, or_false, List.cons.injEq,
          List.cons_append, Nat.reduceEqDiff, false_and, true_and, false_or] at hm
      rw [hm.2]; exact .text _
  counts := by
    intro a b name kind x h1 h2 h3
    simp only [alcLayout, List.mem_cons, reduceCtorEq, false_or, List.not_mem_nil, or_false,
      Item.counted.injEq] at h1
    obtain ⟨rfl, _⟩ := h1
    simp only [alcLayout, List.getElem?_cons_succ, List.getElem?_cons_zero, Option.some.injEq,
      Item.one.injEq] at h2
    obtain ⟨rfl, rfl⟩ := h2
    cases h3
    exact ⟨1, rfl⟩
  indexed := by intro b h; simp [alcLayout] at h

/-- The hypotheses of `C76_others` are met: one alert is written. -/
example : ∃ m, mkMsg clock0 py!"VR" py!"ALC" 0 false 3 [] none ⟨none, writeAlc⟩ = .ok m ∧
    IsWritten false 0 clock0 writeAlc alcLayout m ∧
    m.payload = [py!"0", py!"0", py!"0", py!"1", [], py!"3008", []] := by
  obtain ⟨m, h1, h2, _⟩ := C76_others clock0 py!"VR" py!"ALC" false 3 [] writeAlc alcLayout
    (by decide +kernel) (fun _ => ⟨by decide +kernel, by decide +kernel⟩) (by decide +kernel)
    (fun n => by unfold clock0; decide) writeAlc_suitable
  refine ⟨m, h1, h2, ?_⟩
  have : (mkMsg clock0 py!"VR" py!"ALC" 0 false 3 [] none ⟨none, writeAlc⟩).map Msg.payload =
      .ok [py!"0", py!"0", py!"0", py!"1", [], py!"3008", []] := by decide +kernel
  rw [h1] at this
  exact Except.ok.inj this

end Props
