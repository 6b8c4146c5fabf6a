import Verif.Props.Shadow
import Verif.Lemmas.Slots
/-!
# The methods that convert values can be hidden only by the last attribute (C50)
-/
namespace Props
open Py Nmea Spec

private theorem keys_insert (k : Str) (v : PyVal) (d : Attrs) (n : Str) (h : n ∉ d.map Prod.fst) :
    n ∉ ((Py.insert k v d).map Prod.fst).dropLast := by
  by_cases hk : k ∈ d.map Prod.fst
  · rw [insert_keys_of_mem k v d hk]
    exact fun hm => h (List.dropLast_subset _ hm)
  · rw [insert_not_mem k v d hk]
    simp only [List.map_append, List.map_cons, List.map_nil, List.dropLast_concat]
    exact h

private theorem setAttr_last (attrs attrs' : Attrs) (name : Str) (v : PyVal) (n : Str) (h : n ∉ attrs.map Prod.fst)
    (hs : setAttr attrs name v = .ok attrs') : n ∉ (attrs'.map Prod.fst).dropLast := by
  unfold setAttr at hs
  split at hs
  · cases hs
  · cases hs
    exact keys_insert _ _ _ _ h

private theorem signOverride_names (ty : Str) (v : PyVal) (attrs : Attrs) :
    (signOverride ty v attrs).map Prod.fst = attrs.map Prod.fst := by
  have hin : ∀ (k : Str) (x w : PyVal), lookup k attrs = some x → (Py.insert k w attrs).map Prod.fst = attrs.map Prod.fst := by
    intro k x w h
    refine insert_keys_of_mem k w attrs ?_
    rw [← hasKey_mem]
    simp [hasKey, h]
  unfold signOverride
  split
  · split
    · split
      · exact hin _ _ _ (by assumption)
      · rfl
    · rfl
  · split
    · split
      · split
        · exact hin _ _ _ (by assumption)
        · rfl
      · rfl
    · rfl

private theorem not_shadowed_names {attrs : Attrs} {n : Str} (h : ¬ shadowed attrs n = true) : n ∉ attrs.map Prod.fst := by
  rw [← hasKey_mem]
  exact h

private theorem setSingle_last (c : Ctx) (now : Nat → DateTime) (k t : Str) (g : List Nat) (st : St) (n : Str)
    (hn : n = if c.streaming then py!"str2val" else py!"val2str") (h : n ∉ (st.attrs.map Prod.fst).dropLast) :
    ResP (fun st => n ∉ (st.attrs.map Prod.fst).dropLast) (fun _ => True) (setSingle c now k t g st) := by
  cases hr : setSingle c now k t g st with
  | error e => trivial
  | ok st' =>
    show n ∉ (st'.attrs.map Prod.fst).dropLast
    unfold setSingle at hr
    by_cases hs : c.streaming = true
    · rw [if_pos hs] at hr hn
      subst hn
      unfold setSingleStream at hr
      simp only [bind, Except.bind, pure, Except.pure] at hr
      cases hi : identityOf c.talker c.msgID st.attrs with
      | error e => rw [hi] at hr; cases hr
      | ok ident =>
        rw [hi] at hr
        simp only at hr
        cases hp : st.payload[st.pindex]? with
        | none => rw [hp] at hr; cases hr; exact h
        | some raw =>
          rw [hp] at hr
          simp only at hr
          by_cases hsh : shadowed st.attrs py!"str2val" = true
          · rw [if_pos hsh] at hr; cases hr
          · rw [if_neg hsh] at hr
            repeat' split at hr
            all_goals first | cases hr; done | skip
            all_goals
              cases hr
              simp only [signOverride_names]
              exact setAttr_last _ _ _ _ _ (not_shadowed_names hsh) (by assumption)
    · rw [if_neg hs] at hr hn
      subst hn
      unfold setSingleGen at hr
      simp only [bind, Except.bind, pure, Except.pure] at hr
      by_cases hsh : shadowed st.attrs py!"val2str" = true
      · simp only [hsh, if_true] at hr
        split at hr <;> cases hr
      · simp only [hsh, if_false, Bool.false_eq_true] at hr
        repeat' split at hr
        all_goals first | cases hr; done | skip
        all_goals
          cases hr
          exact setAttr_last _ _ _ _ _ (not_shadowed_names hsh) (by assumption)

private theorem nominal_last (i : Nat) (fs : List Str) (attrs : Attrs) (n : Str) (hn : 95 ∉ n)
    (h : n ∉ attrs.map Prod.fst) : n ∉ (nominalFrom i fs attrs).map Prod.fst := by
  induction fs generalizing i attrs with
  | nil => exact h
  | cons f fs ih =>
    refine ih _ _ ?_
    rw [← hasKey_mem] at h ⊢
    unfold hasKey at h ⊢
    rw [lookup_insert, if_neg]
    · exact h
    · intro he
      exact hn (by rw [he]; simp)

/-- **C50, conversion methods.** Whatever the definitions, an attribute named like the method that reads fields (`str2val`) can only
be the last one of a received message, and one named like the method that writes them (`val2str`) the last one of a generated
message: if anything follows, the message is refused. -/
theorem C50_methods (now : Nat → DateTime) (t i : Str) (mode : Int) (hp : Bool) (v : Nat) (u : UDefs)
    (ck : Option Str) (kw : Kwargs) (m : Msg) (h : mkMsg now t i mode hp v u ck kw = .ok m) :
    (kw.payload.isSome → py!"str2val" ∉ (m.attrs.map Prod.fst).dropLast) ∧
    (kw.payload = none → py!"val2str" ∉ (m.attrs.map Prod.fst).dropLast) := by
  have key : ∀ n, (n = if (ctxOf t i mode.toNat hp v u kw).streaming then py!"str2val" else py!"val2str") →
      n ∉ (m.attrs.map Prod.fst).dropLast := by
    intro n hn
    have h95 : 95 ∉ n := by rw [hn]; split <;> decide
    obtain ⟨_, _, o, ho, rfl⟩ := mkMsg_ok _ _ _ _ _ _ _ _ _ _ h
    cases o with
    | none =>
      simp only [finish]
      split
      · exact fun hm => nominal_last _ _ _ _ h95 (by simp) (List.dropLast_subset _ hm)
      · simp
    | some st =>
      show n ∉ (st.attrs.map Prod.fst).dropLast
      cases hraw : rawOutcome (ctxOf t i mode.toNat hp v u kw) now with
      | error e => unfold outcome at ho; rw [hraw, wrapErr_error] at ho; cases ho
      | ok o' =>
        unfold outcome at ho
        rw [hraw, wrapErr_ok] at ho
        cases ho
        unfold rawOutcome at hraw
        split at hraw
        · cases hraw
        · cases hraw
        · rename_i d _
          split at hraw
          · cases hraw
          · have hinv := setPDict_inv (ctxOf t i mode.toNat hp v u kw) now (fun st => n ∉ (st.attrs.map Prod.fst).dropLast)
              (fun _ => True) d (fun k ty g st _ hst => setSingle_last _ now k ty g st n hn hst)
              (fun _ _ _ _ _ _ _ => trivial) [] ⟨0, (ctxOf t i mode.toNat hp v u kw).payload0, [], 0⟩ (by simp)
            cases hset : setPDict (ctxOf t i mode.toNat hp v u kw) now d []
                ⟨0, (ctxOf t i mode.toNat hp v u kw).payload0, [], 0⟩ with
            | error e => rw [hset] at hraw; cases hraw
            | ok st' => rw [hset] at hraw hinv; cases hraw; exact hinv
  constructor
  · intro hpay
    exact key _ (by rw [show (ctxOf t i mode.toNat hp v u kw).streaming = kw.payload.isSome from rfl, hpay]; rfl)
  · intro hpay
    exact key _ (by rw [show (ctxOf t i mode.toNat hp v u kw).streaming = kw.payload.isSome from rfl, hpay]; rfl)

/-- Both happen: a user-defined sentence with a field `str2val` is accepted as long as the payload ends there. -/
theorem C50_methods_example :
    let u : UDefs := [(py!"ABC", .single py!"str2val" py!"ST" (.single py!"x" py!"ST" .nil))]
    (mkMsg clock0 py!"GP" py!"ABC" 0 false 1 u none ⟨some [py!"1"], []⟩).map Msg.attrs = .ok [(py!"str2val", .str py!"1")] ∧
    mkMsg clock0 py!"GP" py!"ABC" 0 false 1 u none ⟨some [py!"1", py!"2"], []⟩ = .error .nmeaType ∧
    (mkMsg clock0 py!"GP" py!"ABC" 0 false 1 u none ⟨none, [(py!"x", .str py!"2")]⟩).map Msg.payload = .ok [[], py!"2"] := by
  decide +kernel

end Props
