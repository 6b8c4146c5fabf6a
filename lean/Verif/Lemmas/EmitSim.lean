import Verif.Lemmas.Gen
import Verif.Spec.Invariance
/-! # Lemmas: simulation between two generations of a message -/
namespace Nmea
open Py Spec

theorem emit_prefix {kw mode hp now d sfx pre post} (he : Emit kw mode hp now d sfx pre post) : pre <+: post := by
  induction he with
  | nil => exact List.prefix_rfl
  | single k t rest sfx pre post v text _ _ _ ih => exact (List.prefix_append _ _).trans ih
  | group k rep body rest sfx pre post n at_ hr h0 _ _ ihb ihr =>
    have key : ∀ i, i ≤ n → pre <+: at_ i := by
      intro i
      induction i with
      | zero => intro _; rw [h0]; exact List.prefix_rfl
      | succ i ih => intro hi; exact (ih (by omega)).trans (ihb i (by omega))
    exact (key n (Nat.le_refl n)).trans ihr

/-- If every step of one generation can be followed by a step of another, so can the whole. -/
theorem emit_sim {kw kw' : List (Str × PyVal)} {mode mode' : Nat} {hp hp' : Bool} {now now' : Nat → DateTime}
    (R : List Written → List Written → Prop) (Q : List Written → Prop)
    (hQ : ∀ a b, a <+: b → Q b → Q a) (d0 : PDict)
    (hstep : ∀ pre pre' k t sfx v text, (k, t) ∈ d0.entries → GroupSfx sfx → R pre pre' →
      Q (pre ++ [⟨k ++ sfx, t, v, text⟩]) → chosen kw mode now pre (k ++ sfx) t = .ok v →
      val2str v t hp = .ok text →
      ∃ v' text', chosen kw' mode' now' pre' (k ++ sfx) t = .ok v' ∧ val2str v' t hp' = .ok text' ∧
        R (pre ++ [⟨k ++ sfx, t, v, text⟩]) (pre' ++ [⟨k ++ sfx, t, v', text'⟩]))
    (hrep : ∀ pre pre' rep b n, (rep, b) ∈ d0.groups → R pre pre' → GenRepeats kw mode pre rep n →
      GenRepeats kw' mode' pre' rep n)
    {d : PDict} {sfx : Str} {pre post : List Written} (he : Emit kw mode hp now d sfx pre post)
    (hd : ∀ x ∈ d.entries, x ∈ d0.entries) (hg : ∀ x ∈ d.groups, x ∈ d0.groups)
    (hs : GroupSfx sfx) (hq : Q post) (pre' : List Written) (hr : R pre pre') :
    ∃ post', Emit kw' mode' hp' now' d sfx pre' post' ∧ R post post' := by
  induction he generalizing pre' with
  | nil => exact ⟨pre', .nil _ _, hr⟩
  | single k t rest sfx pre post v text hc hv he ih =>
    obtain ⟨v', text', c1, c2, c3⟩ := hstep pre pre' k t sfx v text (hd _ (by simp [PDict.entries])) hs hr
      (hQ _ _ (emit_prefix he) hq) hc hv
    obtain ⟨post', e, r⟩ := ih (fun x hx => hd x (by simp [PDict.entries, hx]))
      (fun x hx => hg x (by simpa [PDict.groups] using hx)) hs hq _ c3
    exact ⟨post', .single _ _ _ _ _ _ _ _ c1 c2 e, r⟩
  | group k rep body rest sfx pre post n at_ hrp h0 hb hrest ihb ihr =>
    have hpre : ∀ i j, i ≤ j → j ≤ n → at_ i <+: at_ j := by
      intro i j hij hj
      obtain ⟨m, rfl⟩ := Nat.exists_eq_add_of_le hij
      clear hij
      induction m with
      | zero => exact List.prefix_rfl
      | succ m ih => exact (ih (by omega)).trans (emit_prefix (hb (i + m) (by omega)))
    have key : ∀ j, j ≤ n → ∃ at' : Nat → List Written, at' 0 = pre' ∧
        (∀ i < j, Emit kw' mode' hp' now' body (sfx ++ groupSuffix (i + 1)) (at' i) (at' (i + 1))) ∧
        R (at_ j) (at' j) := by
      intro j
      induction j with
      | zero => intro _; exact ⟨fun _ => pre', rfl, by simp, by rw [h0]; exact hr⟩
      | succ j ih =>
        intro hj
        obtain ⟨at', a1, a2, a3⟩ := ih (by omega)
        obtain ⟨p, e, r⟩ := ihb j (by omega)
          (fun x hx => hd x (by simp [PDict.entries, hx])) (fun x hx => hg x (by simp [PDict.groups, hx]))
          (.snoc _ _ hs) (hQ _ _ ((hpre (j + 1) n hj (Nat.le_refl n)).trans (emit_prefix hrest)) hq) _ a3
        refine ⟨fun i => if i ≤ j then at' i else p, by simp [a1], ?_, by
          show R (at_ (j + 1)) (if j + 1 ≤ j then at' (j + 1) else p)
          rw [if_neg (by omega)]; exact r⟩
        intro i hi
        by_cases hij : i = j
        · subst hij
          show Emit kw' mode' hp' now' body _ (if i ≤ i then at' i else p) (if i + 1 ≤ i then at' (i + 1) else p)
          rw [if_pos (Nat.le_refl i), if_neg (by omega)]; exact e
        · have h1 : i < j := by omega
          have := a2 i h1
          simpa [show i ≤ j by omega, show i + 1 ≤ j by omega] using this
    obtain ⟨at', a1, a2, a3⟩ := key n (Nat.le_refl n)
    obtain ⟨post', e, r⟩ := ihr (fun x hx => hd x (by simp [PDict.entries, hx]))
      (fun x hx => hg x (by simp [PDict.groups, hx])) hs hq _ a3
    exact ⟨post', .group _ _ _ _ _ _ _ n at'
      (hrep _ _ _ body _ (hg _ (by simp [PDict.groups])) hr hrp) a1 a2 e, r⟩

end Nmea
