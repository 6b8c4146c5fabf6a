import Verif.Lemmas.Gen
import Verif.Lemmas.IntText
/-! # Characters occurring in generated fields -/
namespace Nmea
open Py Spec

/-- Characters of numbers, dates and times: space, `+`, `-`, `.`, `:`, digits and letters. -/
def OkC (c : Nat) : Prop := c = 32 ∨ c = 43 ∨ (45 ≤ c ∧ c ≤ 122)

def OkS (s : Str) : Prop := ∀ c ∈ s, OkC c

theorem OkS.nil : OkS [] := by intro c h; cases h
theorem OkS.cons {c : Nat} {s : Str} (h : OkC c) (hs : OkS s) : OkS (c :: s) := by
  intro x hx; rcases List.mem_cons.1 hx with rfl | hx
  · exact h
  · exact hs x hx
theorem OkS.append {a b : Str} (ha : OkS a) (hb : OkS b) : OkS (a ++ b) := by
  intro x hx; rcases List.mem_append.1 hx with hx | hx
  · exact ha x hx
  · exact hb x hx
theorem OkS.rep (n : Nat) : OkS (List.replicate n 48) := by
  intro x hx; rw [List.eq_of_mem_replicate hx]; unfold OkC; omega

theorem okS_digits (ds : List Nat) (h : ∀ d ∈ ds, d < 10) : OkS (ds.map digitUpper) := by
  intro x hx
  obtain ⟨d, hd, rfl⟩ := List.mem_map.1 hx
  have := h d hd
  unfold digitUpper OkC; split <;> omega

theorem okS_natDec (n : Nat) : OkS (natDec n) := okS_digits _ (digits_lt 10 n (by omega))
theorem okS_padZero (w : Nat) (s : Str) (h : OkS s) : OkS (padZero w s) := (OkS.rep _).append h
theorem okS_dec (w n : Nat) : OkS (dec w n) := okS_padZero _ _ (okS_natDec n)

theorem OkS.sub {s t : Str} (h : OkS t) (hs : ∀ c ∈ s, c ∈ t) : OkS s := fun c hc => h c (hs c hc)

theorem okS_zfill (w : Nat) (s : Str) (h : OkS s) : OkS (zfill w s) := by
  cases s with
  | nil => exact okS_padZero _ _ .nil
  | cons c cs =>
    unfold zfill
    simp only
    split
    · exact .cons (h c (by simp)) (okS_padZero _ _ (fun x hx => h x (by simp [hx])))
    · exact okS_padZero _ _ h

theorem okS_reprDigits (ds : List Nat) (p : Int) (h : ∀ d ∈ ds, d < 10) : OkS (reprDigits ds p) := by
  have hc := okS_digits ds h
  unfold reprDigits
  simp only
  split
  · apply OkS.append
    · match ds, hc with
      | [], _ => exact .nil
      | [a], hc => exact hc
      | a :: b :: r, hc =>
        simp only [List.map_cons] at hc ⊢
        exact .cons (hc _ (by simp)) (.cons (by unfold OkC; omega) (fun x hx => hc x (List.mem_cons_of_mem _ hx)))
    · refine .cons (by unfold OkC; omega) (.cons ?_ (okS_padZero _ _ (okS_natDec _)))
      split <;> unfold OkC <;> omega
  · split
    · exact .cons (by unfold OkC; omega) (.cons (by unfold OkC; omega) (OkS.append (.rep _) hc))
    · split
      · exact OkS.append (OkS.append hc (.rep _)) (.cons (by unfold OkC; omega) (.cons (by unfold OkC; omega) .nil))
      · exact OkS.append (hc.sub fun c h => List.mem_of_mem_take h)
          (.cons (by unfold OkC; omega) (hc.sub fun c h => List.mem_of_mem_drop h))

theorem okS_lit (s : Str) (h : s.all (fun c => c == 32 || c == 43 || (decide (45 ≤ c) && decide (c ≤ 122))) = true) :
    OkS s := by
  intro c hc
  have := List.all_eq_true.1 h c hc
  simp only [Bool.or_eq_true, beq_iff_eq, Bool.and_eq_true, decide_eq_true_eq] at this
  unfold OkC; omega

theorem okS_reprFloat (x : PyFloat) : OkS (reprFloat x) := by
  cases x with
  | nan => exact okS_lit _ (by decide)
  | inf s => cases s <;> exact okS_lit _ (by decide)
  | fin s m =>
    have hb : OkS (if m = 0 then py!"0.0" else
        let (d, e) := shortest m
        let ds := digits 10 d
        reprDigits (stripZeros ds) ((ds.length : Int) + e)) := by
      split
      · exact okS_lit _ (by decide)
      · apply okS_reprDigits
        intro d hd
        apply digits_lt 10 (shortest m).1 (by omega)
        unfold stripZeros at hd
        rw [List.mem_reverse] at hd
        have := List.dropWhile_sublist (fun x => x == 0) (l := (digits 10 (shortest m).1).reverse)
        exact List.mem_reverse.1 (this.subset hd)
    unfold reprFloat
    cases s
    · exact hb
    · exact .cons (by unfold OkC; omega) hb

theorem okS_fmtFixed (n : Nat) (x : PyFloat) : OkS (fmtFixed n x) := by
  cases x with
  | nan => exact okS_lit py!"nan" (by decide)
  | inf s => cases s with
    | false => exact okS_lit py!"inf" (by decide)
    | true => exact okS_lit py!"-inf" (by decide)
  | fin s m =>
    have hb : OkS (fixedDigits n (roundHalfEven (m * ((10 ^ n : Nat) : Rat))).toNat) := by
      unfold fixedDigits
      exact OkS.append (okS_natDec _) (.cons (by unfold OkC; omega) (okS_padZero _ _ (okS_natDec _)))
    unfold fmtFixed
    cases s
    · exact hb
    · exact .cons (by unfold OkC; omega) hb

theorem okS_date (d : Date) : OkS d.str := by
  unfold Date.str
  exact OkS.append (OkS.append (okS_dec _ _) (.cons (by unfold OkC; omega) (okS_dec _ _)))
    (.cons (by unfold OkC; omega) (okS_dec _ _))

theorem okS_time (t : Time) : OkS t.str := by
  unfold Time.str
  refine OkS.append (OkS.append (OkS.append (okS_dec _ _) (.cons (by unfold OkC; omega) (okS_dec _ _)))
    (.cons (by unfold OkC; omega) (okS_dec _ _))) ?_
  split
  · exact .nil
  · exact .cons (by unfold OkC; omega) (okS_dec _ _)

theorem okS_hmsf (t : Time) : OkS t.hmsf := by
  unfold Time.hmsf
  exact OkS.append (OkS.append (OkS.append (okS_dec _ _) (okS_dec _ _)) (okS_dec _ _))
    (.cons (by unfold OkC; omega) (okS_dec _ _))

theorem okS_strOfInt (i : Int) (s : Str) (h : strOfInt i = .ok s) : OkS s := by
  unfold strOfInt at h
  simp only at h
  split at h
  · cases h
  · cases h
    split
    · exact .cons (by unfold OkC; omega) (okS_natDec _)
    · exact okS_natDec _

/-- Every character of the text comes from a string value or is an ordinary character. -/
def CharsFrom (v : PyVal) (s : Str) : Prop := OkS s ∨ ∃ t, v = .str t ∧ ∀ c ∈ s, c ∈ t

theorem toStr_chars (v : PyVal) (s : Str) (h : v.toStr = .ok s) : CharsFrom v s := by
  cases v with
  | none => cases h; exact .inl (okS_lit _ (by decide))
  | bool b => cases h; exact .inl (by cases b <;> exact okS_lit _ (by decide))
  | int i => exact .inl (okS_strOfInt i s h)
  | float x => cases h; exact .inl (okS_reprFloat x)
  | str t => exact .inr ⟨t, rfl, by cases h; exact fun _ h => h⟩
  | date d =>
    simp only [PyVal.toStr, Except.ok.injEq] at h
    rw [← h]
    exact .inl (okS_date d)
  | time t =>
    simp only [PyVal.toStr, Except.ok.injEq] at h
    rw [← h]
    exact .inl (okS_time t)
  | datetime t =>
    simp only [PyVal.toStr, Except.ok.injEq] at h
    rw [← h]
    exact .inl (OkS.append (okS_date t.date) (.cons (by unfold OkC; omega) (okS_time t.time)))

theorem okS_date2str (v : PyVal) (f : Str) : OkS (date2str v f) := by
  have hg : ∀ d : Date, OkS (if f = DM then d.mdy else if f = DTL then d.dmY else d.dmy) := by
    intro d
    split
    · exact OkS.append (OkS.append (okS_dec _ _) (okS_dec _ _)) (okS_dec _ _)
    · split
      · exact OkS.append (OkS.append (okS_dec _ _) (okS_dec _ _)) (okS_natDec _)
      · exact OkS.append (OkS.append (okS_dec _ _) (okS_dec _ _)) (okS_dec _ _)
  unfold date2str
  simp only
  split
  · exact hg _
  · exact hg _
  · exact hg _
  · exact .nil

theorem okS_time2str (v : PyVal) : OkS (time2str v) := by
  unfold time2str
  split
  · exact (okS_hmsf _).sub fun c h => List.mem_of_mem_take h
  · exact (okS_hmsf _).sub fun c h => List.mem_of_mem_take h
  · exact (okS_hmsf _).sub fun c h => List.mem_of_mem_take h
  · exact .nil

theorem okS_catchTV (r : Except Err Str) (s : Str) (h : catchTV r = .ok s) (hr : r = .ok s → OkS s) : OkS s := by
  cases r with
  | ok x => cases h; exact hr rfl
  | error e => cases e <;> cases h <;> exact .nil

theorem okS_ddd2dmm (v : PyVal) (a : Str) (hp : Bool) (s : Str) (h : ddd2dmm v a hp = .ok s) : OkS s := by
  unfold ddd2dmm at h
  refine okS_catchTV _ s h ?_
  clear h
  intro h
  simp only [bind, Except.bind] at h
  repeat' split at h
  all_goals first
    | (cases h; done)
    | (simp only [pure, Except.pure, Except.ok.injEq] at h
       rw [← h]
       exact okS_zfill _ _ (okS_fmtFixed _ _))

theorem mem_slice {a b c : Nat} {s : Str} (h : c ∈ slice s a b) : c ∈ s :=
  List.mem_of_mem_drop (List.mem_of_mem_take h)

theorem mem_removeChar {c x : Nat} {s : Str} (h : x ∈ removeChar c s) : x ∈ s := (List.mem_filter.1 h).1

theorem val2str_chars (v : PyVal) (ty : Str) (hp : Bool) (s : Str) (h : val2str v ty hp = .ok s) :
    CharsFrom v s := by
  have three : ∀ t : Str, ∀ a b c d e f : Nat, ∀ x ∈ slice (removeChar 45 t) a b ++ slice (removeChar 45 t) c d ++
      slice (removeChar 45 t) e f, x ∈ t := by
    intro t a b c d e f x hx
    simp only [List.mem_append] at hx
    rcases hx with (hx | hx) | hx <;> exact mem_removeChar (mem_slice hx)
  unfold val2str at h
  split at h
  · exact toStr_chars v s h
  split at h
  · exact toStr_chars v s h
  split at h
  · exact toStr_chars v s h
  split at h
  · exact toStr_chars v s h
  split at h
  · exact .inl (okS_ddd2dmm v _ hp s h)
  split at h
  · split at h
    · rename_i t
      cases h; exact .inr ⟨t, rfl, fun c hc => mem_removeChar hc⟩
    · cases h; exact .inl (okS_time2str _)
  split at h
  · split at h
    · rename_i t
      cases h; exact .inr ⟨t, rfl, three t _ _ _ _ _ _⟩
    · cases h; exact .inl (okS_date2str _ _)
  split at h
  · split at h
    · rename_i t
      cases h; exact .inr ⟨t, rfl, three t _ _ _ _ _ _⟩
    · cases h; exact .inl (okS_date2str _ _)
  split at h
  · split at h
    · rename_i t
      cases h; exact .inr ⟨t, rfl, three t _ _ _ _ _ _⟩
    · cases h; exact .inl (okS_date2str _ _)
  · cases h

theorem nomval_chars (ty : Str) (mode : Nat) (now : DateTime) (v : PyVal) (h : nomval ty mode now = .ok v)
    (s : Str) (hs : v = .str s) : OkS s := by
  subst hs
  unfold nomval at h
  split at h
  · cases h; exact .nil
  split at h
  · cases h; exact okS_lit _ (by decide)
  split at h
  · cases h; exact okS_lit _ (by decide)
  split at h
  · cases h; exact okS_lit _ (by decide)
  split at h
  · cases h
  split at h
  · cases h
  split at h
  · cases h
  split at h
  · cases h
  split at h
  · simp only [Except.ok.injEq, PyVal.str.injEq] at h
    rw [← h]
    split
    · exact okS_lit _ (by decide)
    · split <;> exact okS_lit _ (by decide)
  · cases h

theorem chosen_chars (kw : List (Str × PyVal)) (mode : Nat) (now : Nat → DateTime) (pre : List Written)
    (name ty : Str) (v : PyVal) (h : chosen kw mode now pre name ty = .ok v) (s : Str) (hs : v = .str s) :
    OkS s ∨ (name, .str s) ∈ kw := by
  have hk : (nomval ty mode (now (clockReads pre))).map (keywordOr kw name) = .ok v →
      OkS s ∨ (name, .str s) ∈ kw := by
    intro h
    cases hn : nomval ty mode (now (clockReads pre)) with
    | error e => rw [hn] at h; cases h
    | ok nv =>
      rw [hn] at h
      simp only [Except.map, Except.ok.injEq, keywordOr] at h
      split at h
      · rename_i w hw
        right; rw [← hs, ← h]; exact lookup_some_mem _ _ _ hw
      · left; exact nomval_chars ty mode _ nv hn s (by rw [h, hs])
  unfold chosen at h
  simp only at h
  split at h
  · exact hk h
  · split at h
    · exact hk h
    · rename_i hd _ _ _
      simp only [Except.ok.injEq] at h
      rw [← h] at hs
      simp only [PyVal.str.injEq] at hs
      rw [← hs]
      left
      rename_i axis neg oth hd _ _ _
      unfold directionOf at hd
      split at hd
      · cases hd; split <;> exact okS_lit _ (by decide)
      · split at hd
        · cases hd; split <;> exact okS_lit _ (by decide)
        · cases hd

/-- Every attribute written was chosen and formatted. -/
theorem emit_forall {kw mode hp now} (P : Written → Prop)
    (h : ∀ pre name ty v text, chosen kw mode now pre name ty = .ok v → val2str v ty hp = .ok text →
      P ⟨name, ty, v, text⟩) :
    ∀ {d sfx pre post}, Emit kw mode hp now d sfx pre post → (∀ w ∈ pre, P w) → ∀ w ∈ post, P w := by
  intro d sfx pre post he
  induction he with
  | nil => exact fun h => h
  | single k t rest sfx pre post v text hc hv _ ih =>
    intro hpre
    apply ih
    intro w hw
    rcases List.mem_append.1 hw with hw | hw
    · exact hpre w hw
    · rw [List.mem_singleton.1 hw]; exact h _ _ _ _ _ hc hv
  | group k rep body rest sfx pre post n at_ hr h0 _ _ ihb ihr =>
    intro hpre
    apply ihr
    have key : ∀ i, i ≤ n → ∀ w ∈ at_ i, P w := by
      intro i
      induction i with
      | zero => intro _; rw [h0]; exact hpre
      | succ i ih => intro hi; exact ihb i (by omega) (ih (by omega))
    exact key n (Nat.le_refl n)

/-- Fields of a generated message consist of ordinary characters and characters of string keywords. -/
theorem emit_chars {kw mode hp now d sfx ws} (he : Emit kw mode hp now d sfx [] ws) (w : Written) (hw : w ∈ ws) :
    OkS w.text ∨ ∃ t, (w.name, .str t) ∈ kw ∧ ∀ c ∈ w.text, c ∈ t := by
  refine emit_forall (fun w => OkS w.text ∨ ∃ t, (w.name, .str t) ∈ kw ∧ ∀ c ∈ w.text, c ∈ t) ?_ he (by simp) w hw
  intro pre name ty v text hc hv
  rcases val2str_chars v ty hp text hv with h | ⟨t, rfl, h⟩
  · exact .inl h
  · rcases chosen_chars kw mode now pre name ty _ hc t rfl with h' | h'
    · exact .inl (h'.sub h)
    · exact .inr ⟨t, h', h⟩

end Nmea
