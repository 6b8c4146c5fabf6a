import Verif.Lemmas.EmitSim
import Verif.Props.Generate
/-! # Lemmas: reading back the fields of a generated message -/
namespace Props
open Py Nmea Spec

/-- Slots of a generated message. -/
def slotsW (ws : List Written) : List Slot := ws.map fun w => (w.name, w.ty)

/-- `w` is a direction that decides the sign of the attribute `name`. -/
def directs (name : Str) (w : Written) : Bool :=
  match directionOf w.ty with
  | some (a, _, _) => decide (a = name)
  | none => false

/-- Final value of attribute `w`, read as `f w`, if `b` is written after it. -/
def finalValue (f : Written → PyVal) (b : List Written) (w : Written) : PyVal :=
  if b.any (directs w.name) then resign (IsNegative w.val) (f w) else f w

theorem resign_resign (x y : Bool) (v : PyVal) : resign x (resign y v) = resign x v := by
  cases v with
  | int i => cases x <;> cases y <;> simp [resign]
  | float q => cases x <;> cases y <;> cases q <;> rfl
  | bool b => cases x <;> cases y <;> cases b <;> rfl
  | _ => rfl

theorem directionOf_governs (ty a n o : Str) : directionOf ty = some (a, n, o) → Governs ty a n ∧ o ≠ n := by
  unfold directionOf
  split
  · rename_i h; subst h
    intro h; simp only [Option.some.injEq, Prod.mk.injEq] at h
    obtain ⟨rfl, rfl, rfl⟩ := h
    exact ⟨.lon, by decide⟩
  · split
    · rename_i h; subst h
      intro h; simp only [Option.some.injEq, Prod.mk.injEq] at h
      obtain ⟨rfl, rfl, rfl⟩ := h
      exact ⟨.lat, by decide⟩
    · intro h; cases h

theorem hemisphere_none (ty : Str) (h : directionOf ty = none) (v : PyVal) (attrs : Attrs) :
    hemisphere ty v attrs = attrs := by
  unfold directionOf at h
  unfold hemisphere
  split at h
  · cases h
  · split at h
    · cases h
    · rename_i h1 h2; rw [if_neg h1, if_neg h2]

theorem governs_other {ty a n} (hg : Governs ty a n) (x : Str) (hx : x ≠ a) (v : PyVal) (attrs : Attrs) :
    lookup x (hemisphere ty v attrs) = lookup x attrs := by
  cases hg with
  | lon => unfold hemisphere; rw [if_pos rfl]; exact withSign_other _ _ _ _ hx
  | lat => unfold hemisphere; rw [if_neg (by decide), if_pos rfl]; exact withSign_other _ _ _ _ hx

theorem governs_text {ty a n} (hg : Governs ty a n) (s : Str) : str2val s ty = .ok (.str s) := by
  cases hg <;> rfl

theorem attrsOf_snoc (ws : List Written) (w : Written) : attrsOf (ws ++ [w]) = Py.insert w.name w.val (attrsOf ws) := by
  unfold attrsOf; rw [List.foldl_append]; rfl

theorem lastValue_split (a b : List Written) (w : Written) (hb : ∀ x ∈ b, x.name ≠ w.name) :
    lastValue w.name (a ++ w :: b) = some w.val := by
  unfold lastValue
  have : b.filter (fun x => decide (x.name = w.name)) = [] := by
    rw [List.filter_eq_nil_iff]; intro x hx; simpa using hb x hx
  rw [List.filter_append, List.filter_cons, if_pos (by simp), this]
  simp

theorem read_back (f : Written → PyVal) (ws : List Written)
    (hf : ∀ w ∈ ws, str2val w.text w.ty = .ok (f w))
    (hdir : ∀ (q : Nat) (w : Written) (axis neg other : Str) (val : PyVal), ws[q]? = some w →
      directionOf w.ty = some (axis, neg, other) → lastValue axis (ws.take q) = some val →
      f w = .str (if IsNegative val then neg else other)) :
    ∀ fs, ws.map Written.text <+: fs → ∃ attrs, readSlots (slotsW ws) fs [] = .ok attrs ∧
      attrs.map Prod.fst = (attrsOf ws).map Prod.fst ∧
      ∀ a w b, ws = a ++ w :: b → (∀ x ∈ b, x.name ≠ w.name) →
        lookup w.name attrs = some (finalValue f b w) := by
  induction ws using snoc_ind with
  | h0 => exact fun fs _ => ⟨[], rfl, rfl, fun a w b h => by simp at h⟩
  | h1 ws x ih =>
    intro fs hfs
    obtain ⟨attrs, h1, h2, h3⟩ := ih (fun w hw => hf w (by simp [hw]))
      (by
        intro q w axis neg other val hq hd hl
        have hlt := (List.getElem?_eq_some_iff.1 hq).1
        refine hdir q w axis neg other val ?_ hd ?_
        · rw [List.getElem?_append_left hlt]; exact hq
        · rw [List.take_append_of_le_length (by omega)]; exact hl)
      fs ((by simp : ws.map Written.text <+: (ws ++ [x]).map Written.text).trans hfs)
    have hx : fs[(slotsW ws).length]? = some x.text := by
      obtain ⟨r, rfl⟩ := hfs
      simp [slotsW]
    have hfx := hf x (by simp)
    refine ⟨hemisphere x.ty (f x) (Py.insert x.name (f x) attrs), ?_, ?_, ?_⟩
    · have : slotsW (ws ++ [x]) = slotsW ws ++ [(x.name, x.ty)] := by simp [slotsW]
      rw [this, readSlots_snoc _ _ _ _ _ _ h1, hx]
      simp only [hfx]
    · rw [hemisphere_keys, attrsOf_snoc]
      rw [insert_keys, insert_keys, h2]
    · intro a w b he hb
      rcases List.eq_nil_or_concat b with rfl | ⟨b', y, rfl⟩
      · obtain ⟨rfl, he2⟩ := List.append_inj' he rfl
        simp only [List.cons.injEq, and_true] at he2
        subst he2
        cases hd : directionOf x.ty with
        | none => rw [hemisphere_none _ hd, lookup_insert, if_pos rfl]; rfl
        | some q =>
          obtain ⟨ax, n, o⟩ := q
          obtain ⟨hg, _⟩ := directionOf_governs _ _ _ _ hd
          by_cases hxa : x.name = ax
          · subst hxa
            rw [hemisphere_governs hg, lookup_insert, if_pos rfl]
            have hs : f x = .str x.text := by
              rw [governs_text hg] at hfx
              exact (Except.ok.inj hfx).symm
            simp [finalValue, hs, resign]
          · rw [governs_other hg _ hxa, lookup_insert, if_pos rfl]; rfl
      · rw [List.concat_eq_append, ← List.cons_append, ← List.append_assoc] at he
        obtain ⟨he1, he2⟩ := List.append_inj' he rfl
        simp only [List.cons.injEq, and_true] at he2
        subst he2
        have hne : w.name ≠ x.name := fun e => hb x (by simp) e.symm
        have hold := h3 a w b' he1 (fun z hz => hb z (by simp [hz]))
        cases hd : directionOf x.ty with
        | none =>
          rw [hemisphere_none _ hd, lookup_insert, if_neg hne, hold]
          simp [finalValue, directs, hd]
        | some q =>
          obtain ⟨ax, n, o⟩ := q
          obtain ⟨hg, hon⟩ := directionOf_governs _ _ _ _ hd
          by_cases hwa : w.name = ax
          · subst hwa
            rw [hemisphere_governs hg, lookup_insert, if_neg hne, hold]
            have hval := hdir ws.length x _ _ _ w.val (by simp) hd
              (by rw [List.take_left', he1]; exact lastValue_split a b' w (fun z hz => hb z (by simp [hz])); rfl)
            have hdec : decide (f x = .str n) = IsNegative w.val := by
              rw [hval]
              cases IsNegative w.val <;> simp [hon]
            rw [hdec]
            simp only [Option.map_some, finalValue, List.concat_eq_append, List.any_append, List.any_cons, directs, hd, decide_true,
              List.any_nil, Bool.or_false, Bool.or_true, if_true]
            split
            · rw [resign_resign]
            · rfl
          · rw [governs_other hg _ hwa, lookup_insert, if_neg hne, hold]
            have : decide (ax = w.name) = false := by simpa using fun e => hwa e.symm
            simp [finalValue, directs, hd, this]

end Props
