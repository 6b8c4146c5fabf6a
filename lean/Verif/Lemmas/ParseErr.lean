import Verif.Lemmas.Keys
import Verif.Lemmas.Frame
/-! # Lemmas: exceptions of `parse`; identity of a received sentence -/
namespace Nmea
open Py Spec

theorem floatOfStr_error (s : Str) (e : Err) (h : floatOfStr s = .error e) : e = .value := by
  unfold floatOfStr at h
  split at h
  · cases h; rfl
  · simp only at h
    split at h
    · cases h
    · cases h; rfl

theorem intOfStr_error (s : Str) (e : Err) (h : intOfStr s = .error e) : e = .value := by
  unfold intOfStr at h
  simp only at h
  split at h
  · split at h
    · cases h; rfl
    · cases h
  · cases h; rfl

theorem div60_ok (m : PyFloat) : ∃ q, PyFloat.div m (.fin false 60) = .ok q := by
  unfold PyFloat.div
  cases m <;> simp <;> first | exact ⟨_, rfl⟩ | (split <;> exact ⟨_, rfl⟩)

theorem roundTo_error (x : PyFloat) (n : Int) (e : Err) (h : PyFloat.roundTo x n = .error e) : e = .overflow := by
  unfold PyFloat.roundTo at h
  split at h
  · split at h
    · cases h
    · split at h
      · cases h
      · split at h
        · cases h
        · cases h; rfl
  · cases h

/-- The computation inside `dmm2ddd`. -/
def dmmCore (s : Str) : Except Err PyFloat :=
  match findChar 46 s with
  | none => .error .value
  | some dp =>
    if dp < 4 then .error .value
    else do
      let d ← floatOfStr (s.take (dp - 2))
      let m ← floatOfStr (s.drop (dp - 2))
      let q ← PyFloat.div m (.fin false 60)
      PyFloat.roundTo (PyFloat.add d.abs q) 10

theorem dmm2ddd_eq (s : Str) : dmm2ddd s =
    match dmmCore s with
    | .ok x => .ok (.float x)
    | .error .value => .ok (.str [])
    | .error .type => .ok (.str [])
    | .error e => .error e := rfl

theorem dmmCore_error (s : Str) (e : Err) (h : dmmCore s = .error e) : e = .value ∨ e = .overflow := by
  unfold dmmCore at h
  split at h
  · cases h; exact .inl rfl
  · split at h
    · cases h; exact .inl rfl
    · simp only [bind, Except.bind] at h
      split at h
      · rename_i h1; cases h; exact .inl (floatOfStr_error _ _ h1)
      · split at h
        · rename_i h1; cases h; exact .inl (floatOfStr_error _ _ h1)
        · rename_i m _
          obtain ⟨q, hq⟩ := div60_ok m
          rw [hq] at h
          exact .inr (roundTo_error _ _ _ h)

theorem dmm2ddd_error (s : Str) (e : Err) (h : dmm2ddd s = .error e) : e = .overflow := by
  rw [dmm2ddd_eq] at h
  cases hr : dmmCore s with
  | ok x => rw [hr] at h; cases h
  | error e' =>
    rw [hr] at h
    rcases dmmCore_error s e' hr with rfl | rfl
    · cases h
    · cases h; rfl

theorem str2val_error (f t : Str) (e : Err) (h : str2val f t = .error e) : wrapE e = .nmeaType := by
  unfold str2val at h
  split at h
  · cases h
  split at h
  · cases h
  split at h
  · split at h
    · cases hf : floatOfStr f with
      | error e' => rw [hf] at h; cases h; rw [floatOfStr_error _ _ hf]; rfl
      | ok x => rw [hf] at h; cases h
    · cases h
  split at h
  · cases h
  split at h
  · split at h
    · cases hf : intOfStr f with
      | error e' => rw [hf] at h; cases h; rw [intOfStr_error _ _ hf]; rfl
      | ok x => rw [hf] at h; cases h
    · cases h
  split at h
  · rw [dmm2ddd_error _ _ h]; rfl
  split at h
  · cases h
  · cases h; rfl

theorem identityOf_error (t m : Str) (a : Attrs) (e : Err) (h : identityOf t m a = .error e) : e = .type := by
  unfold identityOf at h
  split at h
  · split at h
    · cases h
    · cases h; rfl
    · cases h
  · cases h

theorem setAttr_error (a : Attrs) (k : Str) (v : PyVal) (e : Err) (h : setAttr a k v = .error e) :
    e = .attribute := by
  unfold setAttr at h
  split at h
  · cases h; rfl
  · cases h

theorem setSingleStream_error (c : Ctx) (k t : Str) (g : List Nat) (st : St) (e : Err)
    (h : setSingleStream c k t g st = .error e) : wrapE e = .nmeaType := by
  unfold setSingleStream at h
  simp only [bind, Except.bind] at h
  split at h
  · rename_i h1; cases h; rw [identityOf_error _ _ _ _ h1]; rfl
  · split at h
    · cases h
    · split at h
      · cases h; rfl
      · split at h
        · rename_i h1; cases h; exact str2val_error _ _ _ h1
        · split at h
          · rename_i h1; cases h; rw [setAttr_error _ _ _ _ h1]; rfl
          · cases h

theorem repCount_error (c : Ctx) (hs : c.streaming = true) (rep : Rep) (b : PDict) (st : St) (e : Err)
    (h : repCount c rep b st = .error e) :
    wrapE e = .nmeaType ∨ (e = .zeroDivision ∧ rep = .indet ∧ b.len = 0) := by
  unfold repCount at h
  split at h
  · cases h
  · rw [if_pos hs] at h
    split at h
    · cases h; exact .inr ⟨rfl, rfl, ‹_›⟩
    · cases h
  · left
    unfold getCount at h
    split at h
    · cases h
    · split at h
      · cases h; rfl
      · split at h
        · cases h; rfl
        · cases h
        · cases h
        · cases h; rfl

theorem emptyGroup_eq (d : PDict) :
    EmptyGroup d = d.groups.any fun rb => rb.1 == .indet && rb.2.len == 0 := by
  induction d with
  | nil => rfl
  | single k t r ih => exact ih
  | group k rep b r ihb ihr =>
    simp only [EmptyGroup, PDict.groups, List.any_cons, List.any_append, ihb, ihr, keysOf_nil]

theorem setPDict_error (c : Ctx) (now : Nat → DateTime) (hs : c.streaming = true) (d : PDict)
    (g : List Nat) (st : St) (e : Err) (h : setPDict c now d g st = .error e) :
    wrapE e = .nmeaType ∨ (e = .zeroDivision ∧ EmptyGroup d = true) := by
  have := setPDict_inv c now (fun _ => True)
    (fun e => wrapE e = .nmeaType ∨ (e = .zeroDivision ∧ EmptyGroup d = true)) d
    (fun k t g st _ _ => by
      rw [setSingle_stream _ _ _ _ _ _ hs]
      cases hr : setSingleStream c k t g st with
      | ok s => exact trivial
      | error e => exact .inl (setSingleStream_error _ _ _ _ _ _ hr))
    (fun rep b st e hm _ he => by
      rcases repCount_error c hs rep b st e he with h | ⟨h1, h2, h3⟩
      · exact .inl h
      · refine .inr ⟨h1, ?_⟩
        rw [emptyGroup_eq, List.any_eq_true]
        exact ⟨(rep, b), hm, by simp [h2, h3]⟩) g st trivial
  rw [h] at this
  exact this

theorem tables_noEmptyGroup : (∀ mode, ∀ kd ∈ standardDefs mode, EmptyGroup kd.2 = false) ∧
    (∀ mode, ∀ kd ∈ proprietaryDefs mode, EmptyGroup kd.2 = false) := by
  constructor
  · intro mode
    unfold standardDefs
    split <;> decide +kernel
  · intro mode
    unfold proprietaryDefs
    split <;> decide +kernel

/-! ## When the definition lookup fails -/

theorem upperMulti_ne : ∀ x ∈ Uni.upperMulti, x.2 ≠ [] := by decide +kernel

theorem upperChar_ne_nil (c : Nat) : upperChar c ≠ [] := by
  unfold upperChar
  split
  · split <;> simp
  · split
    · rename_i m h
      have : (c, m) ∈ Uni.upperMulti := by
        revert h
        generalize Uni.upperMulti = l
        intro h
        induction l with
        | nil => simp at h
        | cons x xs ih =>
          obtain ⟨a, b⟩ := x
          rw [List.lookup_cons] at h
          split at h
          · rename_i he; simp at he h; simp [he, h]
          · exact List.mem_cons_of_mem _ (ih h)
      exact upperMulti_ne _ this
    · split <;> simp

theorem upper_append (a b : Str) : upper (a ++ b) = upper a ++ upper b := by
  unfold upper; exact List.flatMap_append

theorem upper_eq_nil (s : Str) (h : upper s = []) : s = [] := by
  cases s with
  | nil => rfl
  | cons c cs =>
    unfold upper at h
    rw [List.flatMap_cons] at h
    exact absurd (List.append_eq_nil_iff.1 h).1 (upperChar_ne_nil c)

theorem upper_prop_ids : ∀ m ∈ NMEA_MSGIDS_PROP.map Prod.fst, upper m = m ∨
    (upper m ≠ py!"QTMSN" ∧ upper m ≠ py!"STMDRSENMSG") := by decide +kernel

theorem definitionFor_index (mode : Nat) (u : UDefs) (i : Str) (p : List Str) :
    definitionFor mode u i p = .error .index ↔ IndexEscape mode i p := by
  unfold IndexEscape
  by_cases hpre : i ∈ NMEA_PREFIX_PROP
  · obtain ⟨hns, hpr⟩ := prefix_source i hpre
    have hnq : i ≠ py!"QTMSN" ∧ i ≠ py!"STMDRSENMSG" := by
      have : ∀ m ∈ NMEA_PREFIX_PROP, m ≠ py!"QTMSN" ∧ m ≠ py!"STMDRSENMSG" := by decide
      exact this i hpre
    unfold definitionFor fullId
    rw [if_pos hpre]
    cases p with
    | nil => simp [hpre]
    | cons f r =>
      simp only [hnq.1, hnq.2, or_false, List.cons.injEq, reduceCtorEq, and_false, false_or]
      have hlay : ∀ key, layoutName mode key (f :: r) ≠ .error .index := by
        intro key h
        unfold layoutName at h
        split at h
        · cases h
        · split at h
          · cases h
          · split at h <;> cases h
      have hrest : ∀ id : Str, (if IsStandard i then
            (.ok (lookup (upper id) (standardDefs mode)) : Except Err (Option PDict))
          else if IsProprietary i then
            match layoutName mode (upper id) (f :: r) with
            | .error e => .error e
            | .ok name => .ok (lookup name (proprietaryDefs mode))
          else if IsUserDefined u i then .ok (lookup (upper id) u)
          else .ok (lookup (upper id) (standardDefs mode))) ≠ .error .index := by
        intro id
        rw [if_neg hns, if_pos hpr]
        cases hl : layoutName mode (upper id) (f :: r) with
        | error e => intro h; cases h; exact hlay _ hl
        | ok n => simp
      by_cases ha : i = py!"ASHR"
      · rw [if_pos ha]
        match f with
        | [] => simp [ha]
        | [x] => simp [ha]
        | x :: y :: z =>
          have e : ∀ b : Bool, (if b = true then i else i ++ x :: y :: z) = i ∨
              (if b = true then i else i ++ x :: y :: z) = i ++ x :: y :: z := by
            intro b; cases b <;> simp
          simp only
          constructor
          · intro h; exact absurd h (hrest _)
          · rintro ⟨_, f', r', ⟨rfl, _⟩, hl⟩
            simp at hl
            omega
      · rw [if_neg ha]
        simp only [ha, false_and, iff_false]
        exact hrest _
  · have na : i ≠ py!"ASHR" := by rintro rfl; exact hpre (by decide)
    simp only [hpre, na, false_and, false_or]
    unfold definitionFor fullId
    rw [if_neg hpre]
    simp only
    by_cases hst : IsStandard i
    · rw [if_pos hst]
      have : i ≠ py!"QTMSN" ∧ i ≠ py!"STMDRSENMSG" := by
        constructor <;> (rintro rfl; revert hst; decide +kernel)
      simp [this.1, this.2]
    · rw [if_neg hst]
      by_cases hp : IsProprietary i
      · rw [if_pos hp]
        have hmem : i ∈ NMEA_MSGIDS_PROP.map Prod.fst := hp.resolve_right hpre
        rcases upper_prop_ids i hmem with hu | ⟨hu1, hu2⟩
        · rw [hu]
          by_cases hq : i = py!"QTMSN"
          · subst hq
            by_cases hm : mode = 0
            · subst hm
              cases p with
              | nil => simp [layoutName]
              | cons f r => simp [layoutName]
            · cases p with
              | nil =>
                have : layouts.lookup (mode, py!"QTMSN", 0) = none := lay_none _ _ _ []
                  (fun p hp _ he => absurd he ((by decide : ∀ p ∈ layouts, p.1.2.1 ≠ py!"QTMSN") p hp)) (by simp)
                simp [layoutName, hm, this]
              | cons f r =>
                have : layouts.lookup (mode, py!"QTMSN", r.length + 1) = none := lay_none _ _ _ []
                  (fun p hp _ he => absurd he ((by decide : ∀ p ∈ layouts, p.1.2.1 ≠ py!"QTMSN") p hp)) (by simp)
                simp [layoutName, hm, this]
          · by_cases hs : i = py!"STMDRSENMSG"
            · subst hs
              cases p with
              | nil => simp [layoutName]
              | cons f r => simp [layoutName]
            · simp only [hq, hs, false_and, or_false, iff_false]
              rw [layoutName_plain _ _ _ hq hs]
              split <;> simp_all <;> (split at * <;> simp_all)
        · have hne : i ≠ py!"QTMSN" ∧ i ≠ py!"STMDRSENMSG" := by
            constructor <;> rintro rfl
            · exact hu1 (by decide +kernel)
            · exact hu2 (by decide +kernel)
          simp only [hne.1, hne.2, false_and, or_false, iff_false]
          rw [layoutName_plain _ _ _ hu1 hu2]
          split <;> simp_all <;> (split at * <;> simp_all)
      · rw [if_neg hp]
        have hne : i ≠ py!"QTMSN" ∧ i ≠ py!"STMDRSENMSG" := by
          constructor <;> rintro rfl
          · exact hp (by decide +kernel)
          · exact hp (by decide +kernel)
        simp only [hne.1, hne.2, false_and, or_false, iff_false]
        split <;> simp

end Nmea
