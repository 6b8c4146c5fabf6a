import Verif.Props.Errors
/-!
# The getters of a message cannot be shadowed by its attributes (C50)
-/
namespace Props
open Py Nmea Spec

private theorem setAttr_keeps (attrs attrs' : Attrs) (name : Str) (v : PyVal) (n : Str) (hn : n ∈ propertyNames)
    (h : lookup n attrs = none) (hs : setAttr attrs name v = .ok attrs') : lookup n attrs' = none := by
  unfold setAttr at hs
  split at hs
  · cases hs
  · cases hs
    rw [lookup_insert, if_neg, h]
    rintro rfl
    contradiction

private theorem signOverride_keeps (ty : Str) (v : PyVal) (attrs : Attrs) (n : Str) (hn : n ∈ propertyNames)
    (h : lookup n attrs = none) : lookup n (signOverride ty v attrs) = none := by
  have h1 : n ≠ py!"lon" := by rintro rfl; revert hn; decide
  have h2 : n ≠ py!"lat" := by rintro rfl; revert hn; decide
  unfold signOverride
  split
  · split
    · split
      · rw [lookup_insert, if_neg h1, h]
      · exact h
    · exact h
  · split
    · split
      · split
        · rw [lookup_insert, if_neg h2, h]
        · exact h
      · exact h
    · exact h

private theorem setSingle_keeps (c : Ctx) (now : Nat → DateTime) (k t : Str) (g : List Nat) (st : St) (n : Str)
    (hn : n ∈ propertyNames) (h : lookup n st.attrs = none) :
    ResP (fun st => lookup n st.attrs = none) (fun _ => True) (setSingle c now k t g st) := by
  cases hr : setSingle c now k t g st with
  | error e => trivial
  | ok st' =>
    show lookup n st'.attrs = none
    unfold setSingle at hr
    split at hr
    · unfold setSingleStream at hr
      simp only [bind, Except.bind, pure, Except.pure] at hr
      repeat' split at hr
      all_goals first | cases hr; done | (cases hr; exact h) | skip
      all_goals
        cases hr
        exact signOverride_keeps _ _ _ _ hn (setAttr_keeps _ _ _ _ _ hn h (by assumption))
    · unfold setSingleGen at hr
      simp only [bind, Except.bind, pure, Except.pure] at hr
      repeat' split at hr
      all_goals first | cases hr; done | skip
      all_goals
        rename_i hs
        cases hr
        exact setAttr_keeps _ _ _ _ _ hn h hs

private theorem nominal_keeps (i : Nat) (fs : List Str) (attrs : Attrs) (n : Str) (hn : n ∈ propertyNames)
    (h : lookup n attrs = none) : lookup n (nominalFrom i fs attrs) = none := by
  induction fs generalizing i attrs with
  | nil => exact h
  | cons f fs ih =>
    refine ih _ _ ?_
    rw [lookup_insert, if_neg, h]
    intro he
    have h95 : ∀ x ∈ propertyNames, 95 ∉ x := by decide
    exact h95 n hn (by rw [he]; simp)

/-- No attribute of a message, received or generated, with built-in or any user-defined definitions, bears the name of
a getter. -/
theorem C50_not_shadowed (now : Nat → DateTime) (t i : Str) (mode : Int) (hp : Bool) (v : Nat) (u : UDefs)
    (ck : Option Str) (kw : Kwargs) (m : Msg) (h : mkMsg now t i mode hp v u ck kw = .ok m) (n : Str)
    (hn : n ∈ [py!"identity", py!"talker", py!"msgID", py!"msgmode", py!"payload", py!"checksum"]) :
    hasKey n m.attrs = false := by
  have hn : n ∈ propertyNames := hn
  have key : lookup n m.attrs = none := by
    obtain ⟨_, _, o, ho, rfl⟩ := mkMsg_ok _ _ _ _ _ _ _ _ _ _ h
    cases o with
    | none =>
      simp only [finish]
      split
      · exact nominal_keeps _ _ _ _ hn rfl
      · rfl
    | some st =>
      show lookup n st.attrs = none
      cases hraw : rawOutcome (ctxOf t i mode.toNat hp v u kw) now with
      | error e => unfold outcome at ho; rw [hraw, wrapErr_error] at ho; cases ho
      | ok o' =>
        unfold outcome at ho
        rw [hraw, wrapErr_ok] at ho
        cases ho
        unfold rawOutcome at hraw
        split at hraw
        · cases hraw
        · cases hraw
        · rename_i d _
          split at hraw
          · cases hraw
          · have hinv := setPDict_inv (ctxOf t i mode.toNat hp v u kw) now (fun st => lookup n st.attrs = none)
              (fun _ => True) d (fun k ty g st _ hst => setSingle_keeps _ now k ty g st n hn hst)
              (fun _ _ _ _ _ _ _ => trivial) [] ⟨0, (ctxOf t i mode.toNat hp v u kw).payload0, [], 0⟩ rfl
            cases hset : setPDict (ctxOf t i mode.toNat hp v u kw) now d []
                ⟨0, (ctxOf t i mode.toNat hp v u kw).payload0, [], 0⟩ with
            | error e => rw [hset] at hraw; cases hraw
            | ok st' => rw [hset] at hraw hinv; cases hraw; exact hinv
  unfold hasKey
  simp [key]

/-- So a definition with such a name can never be used: for example a user-defined sentence with a field named
`checksum` is rejected. -/
theorem C50_not_shadowed_example :
    parse clock0 (.str py!"$GPABC,1*4A\r\n") 0 1 [(py!"ABC", .single py!"checksum" py!"ST" .nil)] = .error .nmeaType ∧
    acceptedWith (fun m => hasKey py!"check" m.attrs)
      (parse clock0 (.str py!"$GPABC,1*4A\r\n") 0 1 [(py!"ABC", .single py!"check" py!"ST" .nil)]) = true := by
  decide +kernel

end Props
