import Verif.Lemmas.ExpandOf
import Verif.Props.Values
import Verif.Props.Degrees
import Verif.Props.DateTime
import Verif.Spec.Invariance
import Verif.Props.Layout
import Verif.Props.Lookup
/-!
# Values survive the trip from one program to another (C64)
-/
set_option linter.unusedSimpArgs false
namespace Props
open Py Nmea Spec

/-- A suitable value can be written, and what is read back is what the specification says. -/
theorem C64_value (ty : Str) (v : PyVal) (hp : Bool) (h : Natural ty v) :
    ∃ text w, val2str v ty hp = .ok text ∧ str2val text ty = .ok w ∧ Survives hp ty v w := by
  have hwire : ∀ w, overTheWire v ty hp = .ok w → ∃ text, val2str v ty hp = .ok text ∧ str2val text ty = .ok w := by
    intro w hw
    unfold overTheWire at hw
    split at hw
    · rename_i s hs; exact ⟨s, hs, hw⟩
    · cases hw
  cases h with
  | blank ty hty =>
    clear hwire
    refine ⟨[], .str [], ?_, ?_, .blank ty hty⟩
    · cases hp <;> (revert ty; decide +kernel)
    · clear hp; revert ty; decide +kernel
  | text ty s hty =>
    obtain ⟨t, h1, h2⟩ := hwire (.str s) (C06_text ty hty s hp)
    exact ⟨t, _, h1, h2, .text ty s hty⟩
  | int i hi =>
    obtain ⟨t, h1, h2⟩ := hwire (.int i) (C06_int i hi hp)
    exact ⟨t, _, h1, h2, .int i⟩
  | decimal x hx =>
    obtain ⟨t, h1, h2⟩ := hwire (.float x) (C06_decimal x hx hp)
    exact ⟨t, _, h1, h2, .decimal x⟩
  | date ty d hty hd h0 h1 =>
    obtain ⟨s, e1, e2, e3⟩ := C10_field d hd hp ty hty
    rw [C10_round_trip d hd h0 h1 ty hty] at e3
    exact ⟨s, _, e1, e3, .date ty d hty⟩
  | dateText ty d hty hd h0 h1 =>
    obtain ⟨s, e1, e2, e3⟩ := C10_field d hd hp ty hty
    rw [C10_round_trip d hd h0 h1 ty hty] at e3
    exact ⟨s, _, e2, e3, .dateText ty d hty⟩
  | time t ht =>
    exact ⟨time2str (.time t), _, rfl, congrArg Except.ok (C11_round_trip t ht), .time t⟩
  | timeText t ht =>
    obtain ⟨s, e1, e2⟩ := C11_text t ht hp
    exact ⟨s, _, e1, e2, .timeText t⟩
  | degrees ty neg a hty hx ha =>
    obtain ⟨t, r, e1, e2, -, e3⟩ := C07_round_trip neg a hx ha ty hp
    rcases hty with rfl | rfl
    · exact ⟨t, _, e1, e2, .degrees _ neg a r (.inl rfl) hx.wf.1.nonneg e3⟩
    · exact ⟨t, _, e1, e2, .degrees _ neg a r (.inr rfl) hx.wf.1.nonneg e3⟩
  | wholeDegrees ty i hty hi =>
    obtain ⟨t, e1, e2⟩ := C07_int i hi ty hp
    rcases hty with rfl | rfl
    · exact ⟨t, _, e1, e2, .wholeDegrees _ i (.inl rfl)⟩
    · exact ⟨t, _, e1, e2, .wholeDegrees _ i (.inr rfl)⟩

theorem nominal_natural (ty : Str) (hty : ty ∈ wireTypes) (mode : Nat) (now : Nat → DateTime) (hnow : ClockOk now)
    (n : Nat) (v : PyVal) (h : nomval ty mode (now n) = .ok v) : Natural ty v := by
  obtain ⟨h1, h2, h3, h4⟩ := hnow n
  simp only [wireTypes, textTypes, List.cons_append, List.nil_append, List.mem_cons, List.not_mem_nil, or_false] at hty
  rcases hty with rfl | rfl | rfl | rfl | rfl | rfl | rfl | rfl | rfl | rfl | rfl | rfl | rfl <;>
    cases (Except.ok.inj h)
  · exact .text _ _ (by decide)
  · exact .text _ _ (by decide)
  · exact .text _ _ (by decide)
  · exact .text _ _ (by decide)
  · exact .text _ _ (by decide)
  · exact .text _ _ (by decide)
  · exact .decimal _ ⟨0, 0, by norm_num, by norm_num, by norm_num, by norm_num⟩
  · exact .int 0 (by norm_num)
  · exact .blank _ (by decide)
  · exact .blank _ (by decide)
  · exact .time _ h2
  · exact .date _ _ (.inl rfl) h1 h3 h4
  · exact .date _ _ (.inr rfl) h1 h3 h4

theorem chosen_natural (kw : List (Str × PyVal)) (mode : Nat) (now : Nat → DateTime) (hnow : ClockOk now) (d : PDict)
    (hty : ∀ e ∈ d.entries, e.2 ∈ wireTypes) (hnat : NaturalKeywords d kw) (pre : List Written) (k ty sfx : Str)
    (v : PyVal) (hm : (k, ty) ∈ d.entries) (hs : GroupSfx sfx) (hc : chosen kw mode now pre (k ++ sfx) ty = .ok v) :
    Natural ty v := by
  have hkey : ∀ v, (nomval ty mode (now (clockReads pre))).map (keywordOr kw (k ++ sfx)) = .ok v → Natural ty v := by
    intro v hv
    cases hn : nomval ty mode (now (clockReads pre)) with
    | error e => rw [hn] at hv; cases hv
    | ok x =>
      rw [hn] at hv
      cases (Except.ok.inj hv)
      unfold keywordOr
      split
      · rename_i y hy; exact hnat k ty hm sfx hs y hy
      · exact nominal_natural ty (hty _ hm) mode now hnow _ x hn
  unfold chosen at hc
  simp only at hc
  split at hc
  · exact hkey v hc
  · rename_i axis ng ot hd
    split at hc
    · exact hkey v hc
    · cases (Except.ok.inj hc)
      refine .text _ _ ?_
      obtain ⟨hg, _⟩ := directionOf_governs _ _ _ _ hd
      cases hg <;> decide

/-- What is known of each attribute of a generated message. -/
structure GoodW (d : PDict) (w : Written) : Prop where
  natural : Natural w.ty w.val
  named : ∃ k sfx, (k, w.ty) ∈ d.entries ∧ GroupSfx sfx ∧ w.name = k ++ sfx

theorem emit_good {kw mode hp now} (hnow : ClockOk now) (d : PDict)
    (hty : ∀ e ∈ d.entries, e.2 ∈ wireTypes) (hnat : NaturalKeywords d kw) {ws}
    (he : Emit kw mode hp now d [] [] ws) : ∀ w ∈ ws, GoodW d w := by
  obtain ⟨post', _, h1, h2⟩ := emit_sim (kw' := kw) (mode' := mode) (hp' := hp) (now' := now)
    (fun a b => b = a ∧ ∀ w ∈ a, GoodW d w) (fun _ => True) (fun _ _ _ _ => trivial) d
    (by
      intro pre pre' k t sfx v text hmem hsfx hr _ hc hv
      obtain ⟨rfl, hr⟩ := hr
      refine ⟨v, text, hc, hv, rfl, ?_⟩
      intro w hw
      rcases List.mem_append.1 hw with hw | hw
      · exact hr w hw
      · simp only [List.mem_singleton] at hw
        subst hw
        exact ⟨chosen_natural kw mode now hnow d hty hnat _ k t sfx v hmem hsfx hc, k, sfx, hmem, hsfx, rfl⟩)
    (by
      intro pre pre' rep b n hmem hr hg
      obtain ⟨rfl, hr⟩ := hr
      exact hg)
    he (fun x hx => hx) (fun x hx => hx) .nil trivial [] ⟨rfl, by simp⟩
  exact h2

theorem lastValue_some (x : Str) (ws : List Written) (v : PyVal) (h : lastValue x ws = some v) :
    ∃ a w b, ws = a ++ w :: b ∧ w.name = x ∧ w.val = v ∧ ∀ y ∈ b, y.name ≠ x := by
  induction ws using snoc_ind with
  | h0 => cases h
  | h1 ws w ih =>
    rw [lastValue_snoc] at h
    split at h
    · rename_i hw
      cases h
      exact ⟨ws, w, [], rfl, hw, rfl, by simp⟩
    · rename_i hw
      obtain ⟨a, w', b, e, h1, h2, h3⟩ := ih h
      refine ⟨a, w', b ++ [w], by rw [e]; simp, h1, h2, ?_⟩
      intro y hy
      rcases List.mem_append.1 hy with hy | hy
      · exact h3 y hy
      · simp only [List.mem_singleton] at hy; subst hy; exact hw

/-- The value read from a field. -/
def readW (w : Written) : PyVal := match str2val w.text w.ty with | .ok v => v | .error _ => w.val

theorem readW_spec {d : PDict} {hp : Bool} (w : Written) (hg : GoodW d w) (ht : val2str w.val w.ty hp = .ok w.text) :
    str2val w.text w.ty = .ok (readW w) ∧ Survives hp w.ty w.val (readW w) := by
  obtain ⟨text, r, h1, h2, h3⟩ := C64_value w.ty w.val hp hg.natural
  rw [h1] at ht
  cases ht
  have : readW w = r := by unfold readW; rw [h2]
  rw [this]
  exact ⟨h2, h3⟩

theorem prefix_each {kw mode hp now} {a b : List Written} (h : a <+: b) (he : EachChosen kw mode hp now b) :
    EachChosen kw mode hp now a := by
  obtain ⟨c, rfl⟩ := h
  intro q w hq
  have hlt := (List.getElem?_eq_some_iff.1 hq).1
  have := he q w (by rw [List.getElem?_append_left hlt]; exact hq)
  rw [List.take_append_of_le_length (by omega)] at this
  exact this

theorem read_emitted {kw mode hp now} {d : PDict} (ws : List Written) (hg : ∀ w ∈ ws, GoodW d w)
    (he : EachChosen kw mode hp now ws) (fs : List Str) (hfs : ws.map Written.text <+: fs) :
    ∃ attrs, readSlots (slotsW ws) fs [] = .ok attrs ∧
      attrs.map Prod.fst = (attrsOf ws).map Prod.fst ∧
      ∀ a w b, ws = a ++ w :: b → (∀ x ∈ b, x.name ≠ w.name) →
        lookup w.name attrs = some (finalValue readW b w) := by
  have htext : ∀ w ∈ ws, val2str w.val w.ty hp = .ok w.text := by
    intro w hw
    obtain ⟨q, hq⟩ := List.mem_iff_getElem?.1 hw
    exact (he q w hq).2
  refine read_back readW ws (fun w hw => (readW_spec w (hg w hw) (htext w hw)).1) ?_ fs hfs
  intro q w axis neg other val hq hd hl
  obtain ⟨h1, h2⟩ := he q w hq
  unfold chosen at h1
  simp only [hd, hl, Except.ok.injEq] at h1
  obtain ⟨hgv, _⟩ := directionOf_governs _ _ _ _ hd
  have hread := (readW_spec w (hg w (List.mem_of_getElem? hq)) h2).1
  rw [governs_text hgv] at hread
  have htx : val2str w.val w.ty hp = w.val.toStr := by
    rw [← h1]
    revert hgv
    generalize w.ty = ty
    intro hgv
    cases hgv <;> rfl
  rw [htx, ← h1] at h2
  have h3 : (if IsNegative val then neg else other) = w.text := Except.ok.inj h2
  rw [← Except.ok.inj hread, h3]

theorem natural_not_bool (ty : Str) (b : Bool) : ¬ Natural ty (.bool b) := by
  intro h; cases h

theorem lookup_attrsOf (a b : List Written) (w : Written) (hb : ∀ x ∈ b, x.name ≠ w.name) :
    lookup w.name (attrsOf (a ++ w :: b)) = some w.val := by
  rw [show a ++ w :: b = (a ++ [w]) ++ b by simp]
  clear * - hb
  induction b using snoc_ind with
  | h0 => rw [List.append_nil, attrsOf_snoc, lookup_insert, if_pos rfl]
  | h1 b x ih =>
    rw [← List.append_assoc, attrsOf_snoc, lookup_insert, if_neg (fun e => hb x (by simp) e.symm),
      ih (fun y hy => hb y (by simp [hy]))]

theorem fieldTexts_plain (t i : Str) (f : List Str) (h : ¬ IsSnc t i f) : fieldTexts t i f = f := by
  unfold IsSnc at h
  unfold fieldTexts
  rw [if_neg (fun e => h (.inl e)), if_neg (fun e => h (.inr e))]

theorem fieldTexts_unbracketed (t i : Str) (f : List Str)
    (h : IsSnc t i f → ∀ x ∈ f, (91 : Nat) ∉ x ∧ (93 : Nat) ∉ x) : fieldTexts t i f = f := by
  by_cases hs : IsSnc t i f
  · have hb := h hs
    have hn : ∀ x : Str, (91 : Nat) ∉ x → (93 : Nat) ∉ x → noBrackets x = x := by
      intro x h1 h2
      unfold noBrackets
      rw [List.filter_eq_self]
      intro c hc
      have e1 : c ≠ 91 := fun e => h1 (e ▸ hc)
      have e2 : c ≠ 93 := fun e => h2 (e ▸ hc)
      simp [e1, e2]
    have hm : ∀ l : List Str, (∀ x ∈ l, x ∈ f) → l.map noBrackets = l := by
      intro l hl
      induction l with
      | nil => rfl
      | cons a l ih =>
        rw [List.map_cons, ih (fun x hx => hl x (by simp [hx])),
          hn a (hb a (hl a (by simp))).1 (hb a (hl a (by simp))).2]
    unfold fieldTexts
    split
    · exact hm f (fun _ h => h)
    · split
      · rename_i h2
        cases f with
        | nil => exact absurd h2.2.2 (by simp)
        | cons a f =>
          have : a = py!"SNC" := by simpa using h2.2.2
          rw [List.tail_cons, hm f (fun x hx => by simp [hx]), this]
      · rfl
  · exact fieldTexts_plain t i f hs

/-- A message generated from suitable keyword values, serialized and parsed again (with the same
definition), has the same attributes, in the same order, and every value comes back: unchanged for
texts, integers, decimals and dates, with times cut to hundredths of a second, and coordinates within
the precision of the format; with its sign if a direction field for it follows. -/
theorem C64_round_trip (now : Nat → DateTime) (t i : Str) (mode : Int) (hp : Bool) (v : Nat) (u : UDefs)
    (kw : List (Str × PyVal)) (m : Msg) (hkw : PlainKeywords i kw) (d : PDict)
    (hd : KwDefinition mode.toNat u i kw d) (hsane : SaneGen d) (hsane' : SaneNames d)
    (h : mkMsg now t i mode hp v u none ⟨none, kw⟩ = .ok m)
    (hplain : PlainStrings kw) (hhead : PlainText (t ++ i)) (hsplit : SplitsBack t i)
    (hread : Readable d) (hnat : NaturalKeywords d kw) (hnow : ClockOk now)
    (now' : Nat → DateTime) (v' : Nat) (u' : UDefs) (hids : KnownIds v' u' t i)
    (hdef : definitionFor mode.toNat u' i m.payload = .ok (some d))
    (hsnc : IsSnc t i m.payload → ∀ f ∈ m.payload, (91 : Nat) ∉ f ∧ (93 : Nat) ∉ f) :
    ∃ raw m' slots, m.serialize = .ok raw ∧ parse now' (.bytes raw) mode v' u' = .ok (some m') ∧
      Expand mode.toNat m.payload d [] [] slots ∧ slots.length = m.payload.length ∧
      CameBack hp slots m m' := by
  obtain ⟨hm, hrej, _⟩ := mkMsg_ok _ _ _ _ _ _ _ _ _ _ h
  obtain ⟨raw, ck, hraw, -, hsent, hck, -⟩ :=
    C05_accepted now t i mode hp v u kw m hkw d hd hsane h hplain hhead hsplit
  obtain ⟨ws, he, hpay, hattrs⟩ := (C05_generate now t i mode hp v u kw hm ((not_rejected _ _ _ _).1 hrej) hkw d hd
    hsane _ _).1 ⟨m, h, rfl, rfl⟩
  have hgood := emit_good hnow d hread.1 hnat he
  have heach := emit_each he (by intro q w hq; simp at hq)
  have htext : ∀ w ∈ ws, val2str w.val w.ty hp = .ok w.text := by
    intro w hw
    obtain ⟨q, hq⟩ := List.mem_iff_getElem?.1 hw
    exact (heach q w hq).2
  have hexp : Expand mode.toNat m.payload d [] (slotsW []) (slotsW ws) := by
    refine expand_of_emit d ws m.payload (by rw [hpay]; simp) ?_ ?_ he (fun x hx => hx) hread.2.1 rfl
    · intro k b z pre hgr hpre hl
      have hpre' := hpre
      obtain ⟨a, w, c, hpre2, hwn, hwv, hlast⟩ := lastValue_some k pre _ hl
      have hsub : ∀ x ∈ pre, x ∈ ws := fun x hx => hpre.subset hx
      obtain ⟨attrs, r1, -, r3⟩ := read_emitted pre (fun x hx => hgood x (hsub x hx)) (prefix_each hpre heach)
        m.payload (by rw [hpay]; exact hpre.map _)
      refine ⟨attrs, r1, ?_⟩
      have hw : w ∈ ws := hsub w (by rw [hpre2]; simp)
      obtain ⟨k', sfx, hk1, -, hk2⟩ := (hgood w hw).named
      have hty := hread.2.2 _ hgr k (by simp) _ hk1 ⟨sfx, by rw [← hk2, hwn]⟩
      have hsv := (readW_spec w (hgood w hw) (htext w hw)).2
      simp only at hty
      rw [hty, hwv] at hsv
      have hrw : readW w = .int z := by
        generalize readW w = r at hsv
        cases hsv with
        | int => rfl
        | wholeDegrees _ _ hh => rcases hh with hh | hh <;> exact absurd hh (by decide)
      rw [← hwn, r3 a w c hpre2 (by rw [hwn]; exact hlast)]
      unfold finalValue
      rw [hrw, hwv]
      simp only [resign, IsNegative]
      split
      · congr 2
        by_cases hz : z < 0
        · simp only [hz, decide_true, if_true]; omega
        · simp only [hz, decide_false, Bool.false_eq_true, if_false]; omega
      · rfl
    · intro k b pre hpre hl
      obtain ⟨a, w, c, hpre2, hwn, hwv, hlast⟩ := lastValue_some k pre _ hl
      have := (hgood w (hpre.subset (by rw [hpre2]; simp))).natural
      rw [hwv] at this
      exact natural_not_bool _ _ this
  obtain ⟨attrs, r1, r2, r3⟩ := read_emitted ws hgood heach m.payload (by rw [hpay])
  have hft := fieldTexts_unbracketed t i m.payload hsnc
  have hadm : Admitted mode v' u' (commaJoin ((t ++ i) :: m.payload)) t i ck :=
    ⟨hm, fun _ => hck, hids⟩
  obtain ⟨m', hp', ha'⟩ := (C16_layout now' _ mode v' u' _ t i ck m.payload hsent hadm d hdef hsane' attrs).2
    ⟨slotsW ws, by rw [hft]; exact hexp, by rw [hft]; exact r1⟩
  refine ⟨raw, m', slotsW ws, hraw, hp', hexp, by rw [hpay]; simp [slotsW], by rw [ha', hattrs, r2], ?_⟩
  intro p name ty hslot hlast
  obtain ⟨w, hw, hwe⟩ : ∃ w, ws[p]? = some w ∧ (w.name, w.ty) = (name, ty) := by
    simp only [slotsW, List.getElem?_map, Option.map_eq_some_iff] at hslot
    exact hslot
  simp only [Prod.mk.injEq] at hwe
  obtain ⟨rfl, rfl⟩ := hwe
  obtain ⟨hlt, hget⟩ := List.getElem?_eq_some_iff.1 hw
  have hsp : ws = ws.take p ++ w :: ws.drop (p + 1) := by
    rw [← hget, ← List.drop_eq_getElem_cons hlt, List.take_append_drop]
  have hafter : ∀ x ∈ ws.drop (p + 1), x.name ≠ w.name := by
    intro x hx
    obtain ⟨q, hq⟩ := List.mem_iff_getElem?.1 hx
    rw [List.getElem?_drop] at hq
    exact hlast (p + 1 + q) (x.name, x.ty) (by omega) (by simp [slotsW, hq])
  have hcarried : SignCarried (slotsW ws) p w.name ↔ (ws.drop (p + 1)).any (directs w.name) = true := by
    rw [List.any_eq_true]
    constructor
    · rintro ⟨q, dname, dty, letter, hpq, hq, hg⟩
      simp only [slotsW, List.getElem?_map, Option.map_eq_some_iff, Prod.mk.injEq] at hq
      obtain ⟨x, hx, rfl, rfl⟩ := hq
      refine ⟨x, List.mem_iff_getElem?.2 ⟨q - (p + 1), by
        rw [List.getElem?_drop, show p + 1 + (q - (p + 1)) = q by omega]; exact hx⟩, ?_⟩
      unfold directs
      revert hg
      generalize x.ty = ty
      generalize w.name = nm
      intro hg
      cases hg <;> rfl
    · rintro ⟨x, hx, hd⟩
      obtain ⟨q, hq⟩ := List.mem_iff_getElem?.1 hx
      rw [List.getElem?_drop] at hq
      unfold directs at hd
      split at hd
      · rename_i a n o hdo
        have := (directionOf_governs _ _ _ _ hdo).1
        simp only [decide_eq_true_eq] at hd
        subst hd
        exact ⟨p + 1 + q, x.name, x.ty, n, by omega, by simp [slotsW, hq], this⟩
      · cases hd
  have hv1 := r3 _ w _ hsp hafter
  refine ⟨w.val, readW w, _, ?_, by rw [ha']; exact hv1, (readW_spec w (hgood w (List.mem_of_getElem? hw))
    (htext w (List.mem_of_getElem? hw))).2, ?_, ?_⟩
  · rw [hattrs, hsp]; exact lookup_attrsOf _ _ _ hafter
  · intro hc; unfold finalValue; rw [if_pos (hcarried.1 hc)]
  · intro hc; unfold finalValue; rw [if_neg (fun e => hc (hcarried.2 e))]


/-- All built-in definitions can be read from the wire, except `LR2` (long date) and the dummy `FOO`. -/
theorem C64_readable (mode : Nat) (name : Str) (d : PDict) (h : BuiltIn mode name d) (h1 : name ≠ py!"LR2")
    (h2 : name ≠ py!"FOO") : Readable d := by
  have := builtin_all (fun name d => name == py!"LR2" || name == py!"FOO" || decide (Readable d))
    (by decide +kernel) (by decide +kernel) (by decide +kernel)
    (by decide +kernel) (by decide +kernel) (by decide +kernel) mode name d h
  simpa [h1, h2] using this

/-- The value of a coordinate. -/
def degreesOf : PyVal → Option ℚ
  | .float (.fin s r) => some (if s then -r else r)
  | .int i => some i
  | _ => none

/-- The sign is restored: a coordinate whose sign is carried comes back within the precision of the
format, as a signed number. -/
theorem C64_coordinate (hp : Bool) (ty : Str) (x w : PyVal) (q : ℚ) (hty : ty = py!"LA" ∨ ty = py!"LN")
    (hx : degreesOf x = some q) (hs : Survives hp ty x w) :
    ∃ r, degreesOf (resign (IsNegative x) w) = some r ∧ |r - q| < (if hp then 1 / 10 ^ 9 else 1 / 10 ^ 7) := by
  have hpos : (0 : ℚ) < (if hp then 1 / 10 ^ 9 else 1 / 10 ^ 7) := by split <;> norm_num
  cases hs with
  | blank => cases hx
  | text => cases hx
  | int i => rcases hty with h | h <;> exact absurd h (by decide)
  | decimal i => rcases hty with h | h <;> exact absurd h (by decide)
  | date => cases hx
  | dateText => cases hx
  | time => cases hx
  | timeText => cases hx
  | degrees _ neg a r _ ha hr =>
    simp only [degreesOf, Option.some.injEq] at hx
    subst hx
    by_cases hn : neg = true ∧ a ≠ 0
    · refine ⟨-r, ?_, ?_⟩
      · simp [IsNegative, PyFloat.ltZero, hn.1, lt_of_le_of_ne ha (Ne.symm hn.2), resign, PyFloat.abs, PyFloat.neg, degreesOf]
      · rw [hn.1, if_pos rfl, show -r - -a = -(r - a) by ring, abs_neg]; exact hr
    · refine ⟨r, ?_, ?_⟩
      · have : IsNegative (.float (.fin neg a)) = false := by
          simp only [not_and, ne_eq, not_not] at hn
          cases neg with
          | false => rfl
          | true => rw [hn rfl]; rfl
        rw [this]
        simp [resign, PyFloat.abs, degreesOf]
      · simp only [not_and, ne_eq, not_not] at hn
        cases neg with
        | false => simpa using hr
        | true => rw [hn rfl] at hr ⊢; simpa using hr
  | wholeDegrees _ i _ =>
    simp only [degreesOf, Option.some.injEq] at hx
    subst hx
    refine ⟨i, ?_, by simpa using hpos⟩
    by_cases hi : i < 0
    · have : IsNegative (.int i) = true := by simp [IsNegative, hi]
      rw [this]
      simp only [resign, PyFloat.abs, PyFloat.neg, degreesOf, if_true, Option.some.injEq]
      have : (i.natAbs : ℤ) = -i := by omega
      have h2 : (i.natAbs : ℚ) = -(i : ℚ) := by
        rw [show (i.natAbs : ℚ) = ((i.natAbs : ℤ) : ℚ) from rfl, this]; push_cast; rfl
      rw [h2]; simp
    · have : IsNegative (.int i) = false := by simp [IsNegative, hi]
      rw [this]
      simp only [resign, PyFloat.abs, degreesOf]
      have : (i.natAbs : ℤ) = i := by omega
      have h2 : (i.natAbs : ℚ) = (i : ℚ) := by
        rw [show (i.natAbs : ℚ) = ((i.natAbs : ℤ) : ℚ) from rfl, this]
      rw [h2]; simp


theorem standard_ids : ∀ i ∈ NMEA_MSGIDS.map Prod.fst, i ∉ NMEA_PREFIX_PROP ∧ upper i = i ∧ ¬ i <:+ py!"PSSNSNC" ∧
    i ≠ py!"SSN" := by decide +kernel

theorem standard_definition (mode : Nat) (u u' : UDefs) (i : Str) (hi : IsStandard i) (kw : List (Str × PyVal)) (d : PDict)
    (h : KwDefinition mode u i kw d) (f : List Str) :
    definitionFor mode u' i f = .ok (some d) ∧ (i, d) ∈ standardDefs mode := by
  obtain ⟨h1, h2, -⟩ := standard_ids i hi
  obtain ⟨id, hid, h⟩ := h
  unfold kwFullId at hid
  rw [if_neg h1] at hid
  cases hid
  rw [if_pos hi] at h
  unfold definitionFor fullId
  rw [if_neg h1]
  simp only [if_pos hi, h]
  rw [h2] at h
  exact ⟨trivial, lookup_some_mem _ _ _ h⟩

theorem standard_not_snc (t i : Str) (hi : IsStandard i) (f : List Str) : ¬ IsSnc t i f := by
  obtain ⟨-, -, h3, h4⟩ := standard_ids i hi
  rintro (h | ⟨-, h, -⟩)
  · exact h3 ⟨t, h⟩
  · exact h4 h

/-- For every standard sentence type except `LR2` (and the dummy `FOO`), in every mode. -/
theorem C64_standard (now : Nat → DateTime) (t i : Str) (mode : Int) (hp : Bool) (v : Nat) (u : UDefs)
    (kw : List (Str × PyVal)) (m : Msg) (hkw : PlainKeywords i kw) (hi : IsStandard i) (hi1 : i ≠ py!"LR2")
    (hi2 : i ≠ py!"FOO") (d : PDict) (hd : KwDefinition mode.toNat u i kw d)
    (h : mkMsg now t i mode hp v u none ⟨none, kw⟩ = .ok m)
    (hplain : PlainStrings kw) (hhead : PlainText (t ++ i)) (hsplit : SplitsBack t i)
    (hnat : NaturalKeywords d kw) (hnow : ClockOk now)
    (now' : Nat → DateTime) (v' : Nat) (u' : UDefs) (hids : KnownIds v' u' t i) :
    ∃ raw m' slots, m.serialize = .ok raw ∧ parse now' (.bytes raw) mode v' u' = .ok (some m') ∧
      Expand mode.toNat m.payload d [] [] slots ∧ slots.length = m.payload.length ∧
      CameBack hp slots m m' := by
  obtain ⟨h1, h2⟩ := standard_definition mode.toNat u u' i hi kw d hd m.payload
  have hb : BuiltIn mode.toNat i d := .inl h2
  have hn := C47_names mode.toNat i d hb
  exact C64_round_trip now t i mode hp v u kw m hkw d hd (tables_sane_gen.1 _ _ h2)
    (fun k hk => fun e => hn.2.1 k hk (by
      simp only [List.mem_cons, List.not_mem_nil, or_false] at e ⊢; tauto)) h hplain hhead hsplit
    (C64_readable _ i d hb hi1 hi2) hnat hnow now' v' u' hids h1
    (fun h => absurd h (standard_not_snc t i hi _))


theorem naturalKeywords_of (d : PDict) (kw : List (Str × PyVal))
    (h : ∀ kv ∈ kw, ∀ e ∈ d.entries, e.1 <+: kv.1 → Natural e.2 kv.2) : NaturalKeywords d kw := by
  intro k ty hm sfx _ v hv
  exact h _ (lookup_some_mem _ _ _ hv) _ hm ⟨sfx, rfl⟩

/-- The hypotheses are met by the GLL example. -/
theorem gllKw_natural (d : PDict) (hd : lookup py!"GLL" NMEA_PAYLOADS_GET = some d) : NaturalKeywords d gllKw := by
  apply naturalKeywords_of
  have he : (lookup py!"GLL" NMEA_PAYLOADS_GET).map PDict.entries = some
      [(py!"lat", py!"LA"), (py!"NS", py!"LAD"), (py!"lon", py!"LN"), (py!"EW", py!"LND"), (py!"time", py!"TM"),
       (py!"status", py!"ST"), (py!"posMode", py!"ST")] := by decide +kernel
  rw [hd] at he
  simp only [Option.map_some, Option.some.injEq] at he
  rw [he]
  have h1 : Natural py!"LA" (.float (.fin true (107/2))) :=
    .degrees _ _ _ (.inl rfl) ⟨107, -1, by norm_num, by norm_num, by norm_num, by norm_num⟩ (by norm_num)
  have h2 : Natural py!"LN" (.float (.fin false (9/4))) :=
    .degrees _ _ _ (.inr rfl) ⟨9, -2, by norm_num, by norm_num, by norm_num, by norm_num⟩ (by norm_num)
  have h3 : Natural py!"LAD" (.str py!"N") := .text _ _ (by decide)
  have h4 : Natural py!"ST" (.str py!"A") := .text _ _ (by decide)
  simp only [gllKw, List.forall_mem_cons, List.not_mem_nil, false_implies, implies_true, and_true]
  refine ⟨⟨fun _ => h1, ?_⟩, ⟨?_, fun _ => h3, ?_⟩, ⟨?_, ?_, fun _ => h2, ?_⟩, ⟨?_, ?_, ?_, ?_, ?_, fun _ => h4, ?_⟩,
    ⟨?_, ?_, ?_, ?_, ?_, ?_, fun _ => h4⟩⟩
  all_goals (repeat' constructor) <;> (intro h; exact absurd h (by decide))

example : ∃ d, KwDefinition 0 [] py!"GLL" gllKw d ∧ NaturalKeywords d gllKw ∧ IsStandard py!"GLL" ∧ ClockOk clock0 := by
  have h : (lookup py!"GLL" NMEA_PAYLOADS_GET).isSome = true := by decide +kernel
  obtain ⟨d, hd⟩ := Option.isSome_iff_exists.1 h
  exact ⟨d, ⟨py!"GLL", by decide +kernel, by rw [if_pos (by decide +kernel)]; exact hd⟩, gllKw_natural d hd,
    by decide +kernel, fun n => by unfold clock0; decide⟩


/-! Proprietary sentence types -/

theorem qtm_keys (kw : List (Str × PyVal)) (mode : Nat) (key sfx : Str) (h : KwSuffix kw mode key sfx)
    (h1 : key.take 3 ≠ py!"QTM") (h2 : key ≠ py!"STMDRSENMSG") : False := by
  cases h <;> first | exact h1 (by decide) | exact h2 rfl

theorem layouts_keys : ∀ x ∈ layouts, x.1.2.1.take 3 = py!"QTM" := by decide +kernel

theorem layoutName_plain (mode : Nat) (key : Str) (f : List Str) (h1 : key.take 3 ≠ py!"QTM")
    (h2 : key ≠ py!"STMDRSENMSG") : layoutName mode key f = .ok key := by
  unfold layoutName
  rw [if_neg (by rintro ⟨rfl, -⟩; exact h1 (by decide)), if_neg h2]
  have : layouts.lookup (mode, key, f.length) = none := by
    rw [List.lookup_eq_none_iff]
    intro x hx
    have := layouts_keys x hx
    simp only [beq_eq_false_iff_ne, ne_eq, Bool.not_eq_true, bne_iff_ne]
    intro e
    rw [← e] at this
    exact h1 this
  rw [this]
  simp only [h1, false_and, and_false, if_false]

theorem prop_not_lr2 (mode : Nat) (kd : Str × PDict) (h : kd ∈ proprietaryDefs mode) :
    ¬ (kd.1 = py!"LR2" ∨ kd.1 = py!"FOO") := by
  revert kd
  unfold proprietaryDefs
  split <;> decide +kernel

theorem upperMulti_ne : ∀ p ∈ Uni.upperMulti, p.2 ≠ [] := by decide +kernel

theorem upperChar_ne_nil (c : Nat) : upperChar c ≠ [] := by
  unfold upperChar
  split
  · split <;> exact List.cons_ne_nil _ _
  · split
    · rename_i m hm
      have : (c, m) ∈ Uni.upperMulti := by
        obtain ⟨l1, l2, e, -⟩ := List.lookup_eq_some_iff.1 hm
        rw [e]; simp
      exact upperMulti_ne _ this
    · split <;> exact List.cons_ne_nil _ _

theorem upper_ne_nil (s : Str) (h : s ≠ []) : upper s ≠ [] := by
  cases s with
  | nil => exact absurd rfl h
  | cons c r =>
    intro e
    have : upperChar c ++ upper r = [] := e
    exact upperChar_ne_nil c (List.append_eq_nil_iff.1 this).1

/-- The first field generated is the keyword `msgId` when the definition begins with it. -/
theorem first_field {kw : List (Str × PyVal)} {mode : Nat} {hp : Bool} {now : Nat → DateTime} {r : PDict}
    {ws : List Written} {s : Str} (h1 : lookup py!"msgId" kw = some (.str s))
    (he : Emit kw mode hp now (.single py!"msgId" py!"ST" r) [] [] ws) :
    ∃ c, ws.map Written.text = s :: c := by
  generalize hd : PDict.single py!"msgId" py!"ST" r = d at he
  generalize hs : ([] : Str) = sfx at he
  generalize hp : ([] : List Written) = pre at he
  cases he with
  | nil => cases hd
  | group => cases hd
  | single k t rest sfx pre post v text hc hv hrest =>
    obtain ⟨rfl, rfl, rfl⟩ := PDict.single.inj hd
    subst hs
    subst hp
    have hv1 : v = .str s := by
      unfold chosen at hc
      rw [show directionOf py!"ST" = none from rfl] at hc
      have : (nomval py!"ST" mode (now (clockReads []))).map (keywordOr kw py!"msgId") = .ok v := hc
      have h2 : nomval py!"ST" mode (now (clockReads [])) = .ok (.str []) := rfl
      rw [h2] at this
      have h3 : keywordOr kw py!"msgId" (.str []) = v := Except.ok.inj this
      rw [← h3]
      unfold keywordOr
      rw [h1]
    subst hv1
    have hv2 : text = s := (Except.ok.inj hv).symm
    subst hv2
    obtain ⟨c, hc⟩ := emit_prefix hrest
    exact ⟨c.map Written.text, by rw [← hc]; simp⟩

theorem fullId_cons (i s : Str) (c : List Str) : fullId i (s :: c) = fullId i [s] := rfl

/-- Definitions whose id extends a prefix begin with the sub-id. -/
theorem prefixed_first (mode : Nat) (name : Str) (d : PDict) (h : (name, d) ∈ proprietaryDefs mode) (i : Str)
    (hi : i ∈ NMEA_PREFIX_PROP) (hp : i <+: name) (hne : name ≠ i) :
    ∃ r, d = .single py!"msgId" py!"ST" r := by
  have key : ∀ mode, ∀ kd ∈ proprietaryDefs mode, ∀ i ∈ NMEA_PREFIX_PROP, i <+: kd.1 → kd.1 ≠ i →
      (match kd.2 with | .single k t _ => k == py!"msgId" && t == py!"ST" | _ => false) = true := by
    intro mode
    unfold proprietaryDefs
    split <;> decide +kernel
  have := key mode _ h i hi hp hne
  cases d with
  | nil => cases this
  | single k t r =>
    simp only [Bool.and_eq_true, beq_iff_eq] at this
    obtain ⟨rfl, rfl⟩ := this
    exact ⟨r, rfl⟩
  | group => cases this

theorem builtin_saneNames (mode : Nat) (name : Str) (d : PDict) (hb : BuiltIn mode name d) : SaneNames d := by
  intro k hk e
  refine (C47_names mode name d hb).2.1 k hk ?_
  simp only [List.mem_cons, List.not_mem_nil, or_false] at e ⊢
  tauto

theorem full_of_emit {kw : List (Str × PyVal)} {mode : Nat} {hp : Bool} {now : Nat → DateTime} {d : PDict}
    {ws : List Written} {i id : Str} (hid : kwFullId i kw = .ok id)
    (hmem : (upper id, d) ∈ proprietaryDefs mode)
    (hsub : i ∈ NMEA_PREFIX_PROP → ∃ s, lookup py!"msgId" kw = some (.str s) ∧ s ≠ [] ∧ fullId i [s] = .ok (i ++ s))
    (he : Emit kw mode hp now d [] [] ws) : fullId i (ws.map Written.text) = .ok id := by
  by_cases hpre : i ∈ NMEA_PREFIX_PROP
  · obtain ⟨s, h1, h2, h3⟩ := hsub hpre
    have hide : id = i ++ s := by
      unfold kwFullId at hid
      rw [if_pos hpre, h1] at hid
      exact (Except.ok.inj hid).symm
    have hup : ∀ i ∈ NMEA_PREFIX_PROP, upper i = i := by decide +kernel
    have hui : upper id = i ++ upper s := by
      rw [hide]
      have : upper (i ++ s) = upper i ++ upper s := by simp [upper]
      rw [this, hup i hpre]
    obtain ⟨r, rfl⟩ := prefixed_first _ _ _ hmem i hpre (by rw [hui]; exact List.prefix_append _ _) (by
      rw [hui]
      intro e
      have : upper s = [] := by simpa using e
      exact upper_ne_nil s h2 this)
    obtain ⟨c, hc⟩ := first_field h1 he
    rw [hc, hide, ← h3]
    exact fullId_cons _ _ _
  · unfold kwFullId at hid
    rw [if_neg hpre] at hid
    unfold fullId
    rw [if_neg hpre]
    exact hid

/-- The layouts that keywords can select, of the types with several layouts told apart by the number of fields. -/
def kwLayouts : List (Nat × Str × Str) :=
  [(1, py!"QTMCFGUART", py!"_CURRBAUD"), (1, py!"QTMCFGUART", py!"_BAUD"), (1, py!"QTMCFGUART", py!"_CURR"),
   (2, py!"QTMCFGUART", py!"_CURR"),
   (0, py!"QTMCFGMSGRATE", py!"_NOVER"), (1, py!"QTMCFGMSGRATE", py!"_NOVER"), (2, py!"QTMCFGMSGRATE", py!"_NOVER"),
   (0, py!"QTMCFGMSGRATE", py!"_INTFNOVER"), (1, py!"QTMCFGMSGRATE", py!"_INTFNOVER"), (2, py!"QTMCFGMSGRATE", py!"_INTFNOVER"),
   (0, py!"QTMCFGMSGRATE", py!"_INTF"), (1, py!"QTMCFGMSGRATE", py!"_INTF"), (2, py!"QTMCFGMSGRATE", py!"_INTF"),
   (1, py!"QTMCFGPPS", py!"_DIS"), (0, py!"QTMCFGSAT", py!"_LOW"), (1, py!"QTMCFGSAT", py!"_LOW"),
   (0, py!"QTMCFGGEOFENCE", py!"_POLY"), (1, py!"QTMCFGGEOFENCE", py!"_POLY"), (1, py!"QTMCFGGEOFENCE", py!"_DIS")]

/-- Every layout that keywords can select has a number of fields from which it is recognised. -/
theorem kwLayouts_back : ∀ x ∈ kwLayouts, ∀ d ∈ lookup (x.2.1 ++ x.2.2) (proprietaryDefs x.1),
    IsStatic d = true ∧ layouts.lookup (x.1, x.2.1, (slotsOf d []).length) = some x.2.2 := by decide +kernel

/-- The general layouts of these types have other numbers of fields than the special ones. -/
theorem general_back : ∀ mode ∈ [0, 1, 2], ∀ x ∈ layouts, ∀ d ∈ lookup x.1.2.1 (proprietaryDefs mode),
    IsStatic d = true ∧ layouts.lookup (mode, x.1.2.1, (slotsOf d []).length) = none := by decide +kernel

theorem drsen_layouts (mode : Nat) (nd : Str × PDict) (h : nd ∈ proprietaryDefs mode) (s : Str)
    (hs : nd.1 = py!"STMDRSENMSG_" ++ s) : s ≠ [] ∧ ∃ r, nd.2 = .single py!"msgtype" IN r := by
  have key : ∀ mode, ∀ kd ∈ proprietaryDefs mode, py!"STMDRSENMSG_" <+: kd.1 → kd.1 ≠ py!"STMDRSENMSG_" ∧
      (match kd.2 with | .single k t _ => k == py!"msgtype" && t == IN | _ => false) = true := by
    intro mode
    unfold proprietaryDefs
    split <;> decide +kernel
  obtain ⟨k1, k2⟩ := key mode _ h ⟨s, hs.symm⟩
  refine ⟨fun e => k1 (by rw [hs, e]; rfl), ?_⟩
  generalize nd.2 = d at k2
  cases d with
  | nil => cases k2
  | single k t r =>
    simp only [Bool.and_eq_true, beq_iff_eq] at k2
    obtain ⟨rfl, rfl⟩ := k2
    exact ⟨r, rfl⟩
  | group => cases k2

/-- The first field generated is the text of the keyword when the definition begins with an integer of that name. -/
theorem first_int {kw : List (Str × PyVal)} {mode : Nat} {hp : Bool} {now : Nat → DateTime} {r : PDict} {name : Str}
    {ws : List Written} {x : PyVal} {s : Str} (h1 : lookup name kw = some x) (hx : x.toStr = .ok s)
    (he : Emit kw mode hp now (.single name IN r) [] [] ws) : ∃ c, ws.map Written.text = s :: c := by
  generalize hd : PDict.single name IN r = d at he
  generalize hs : ([] : Str) = sfx at he
  generalize hp : ([] : List Written) = pre at he
  cases he with
  | nil => cases hd
  | group => cases hd
  | single k t rest sfx pre post v text hc hv hrest =>
    obtain ⟨rfl, rfl, rfl⟩ := PDict.single.inj hd
    subst hs
    subst hp
    rw [List.append_nil] at hc hrest
    have hv1 : v = x := by
      unfold chosen at hc
      rw [show directionOf IN = none from rfl] at hc
      have : (nomval IN mode (now (clockReads []))).map (keywordOr kw name) = .ok v := hc
      have h2 : nomval IN mode (now (clockReads [])) = .ok (.int 0) := rfl
      rw [h2] at this
      have h3 : keywordOr kw name (.int 0) = v := Except.ok.inj this
      rw [← h3]
      unfold keywordOr
      rw [h1]
    subst hv1
    have hv2 : text = s := by
      have : v.toStr = .ok text := hv
      rw [hx] at this
      exact (Except.ok.inj this).symm
    subst hv2
    obtain ⟨c, hc⟩ := emit_prefix hrest
    rw [← hc]
    exact ⟨_, rfl⟩

/-- A Quectel or `STMDRSENMSG` layout selected by keywords is selected again by the fields written. -/
theorem layout_back {kw : List (Str × PyVal)} {mode : Nat} {hp : Bool} {now : Nat → DateTime} {d : PDict}
    {ws : List Written} {i : Str} (hm : mode = 0 ∨ mode = 1 ∨ mode = 2)
    (hd : (∃ sfx, KwSuffix kw mode i sfx ∧ lookup (i ++ sfx) (proprietaryDefs mode) = some d) ∨
       ((∀ sfx, ¬ KwSuffix kw mode i sfx) ∧ i ≠ py!"STMDRSENMSG" ∧ lookup i (proprietaryDefs mode) = some d))
    (he : Emit kw mode hp now d [] [] ws)
    (hack : mode = 0 → i.take 3 = py!"QTM" → ws.map Written.text ≠ [py!"OK"] ∧
      ¬ (ws.length = 2 ∧ (ws.map Written.text).head? = some py!"ERROR"))
    (hsn : mode = 0 → i = py!"QTMSN" → ∃ f ∈ (ws.map Written.text).head?, isNumeric f = false) :
    ∃ name, layoutName mode i (ws.map Written.text) = .ok name ∧ lookup name (proprietaryDefs mode) = some d := by
  have hlen : IsStatic d = true → ws.length = (slotsOf d []).length := by
    intro hst
    have := congrArg List.length (emit_static he hst)
    simpa using this
  have hspecial : ∀ sfx, (mode, i, sfx) ∈ kwLayouts → lookup (i ++ sfx) (proprietaryDefs mode) = some d →
      i ≠ py!"QTMSN" → i ≠ py!"STMDRSENMSG" →
      ∃ name, layoutName mode i (ws.map Written.text) = .ok name ∧ lookup name (proprietaryDefs mode) = some d := by
    intro sfx hmem hl h1 h2
    obtain ⟨b1, b2⟩ := kwLayouts_back _ hmem d hl
    refine ⟨i ++ sfx, ?_, hl⟩
    unfold layoutName
    rw [if_neg (fun h => h1 h.1), if_neg h2, List.length_map, hlen b1, b2]
  rcases hd with ⟨sfx, hs, hl⟩ | ⟨hs, hst, hl⟩
  · cases hs with
    | uartCurrBaud => exact hspecial _ (by decide) hl (by decide) (by decide)
    | uartBaud => exact hspecial _ (by decide) hl (by decide) (by decide)
    | uartCurr => exact hspecial _ (by decide) hl (by decide) (by decide)
    | uartPoll => exact hspecial _ (by decide) hl (by decide) (by decide)
    | rateNoVer => rcases hm with rfl | rfl | rfl <;> exact hspecial _ (by decide) hl (by decide) (by decide)
    | rateIntfNoVer => rcases hm with rfl | rfl | rfl <;> exact hspecial _ (by decide) hl (by decide) (by decide)
    | rateIntf => rcases hm with rfl | rfl | rfl <;> exact hspecial _ (by decide) hl (by decide) (by decide)
    | pps => exact hspecial _ (by decide) hl (by decide) (by decide)
    | sat _ hm => rcases hm with rfl | rfl <;> exact hspecial _ (by decide) hl (by decide) (by decide)
    | poly _ hm => rcases hm with rfl | rfl <;> exact hspecial _ (by decide) hl (by decide) (by decide)
    | dis => exact hspecial _ (by decide) hl (by decide) (by decide)
    | drsen _ v s hv hs =>
      obtain ⟨h1, r, rfl⟩ := drsen_layouts mode _ (lookup_some_mem _ _ _ hl) s (by simp)
      obtain ⟨c, hc⟩ := first_int hv hs he
      refine ⟨_, ?_, hl⟩
      unfold layoutName
      rw [if_neg (fun h => absurd h.1 (by decide)), if_pos rfl, hc]
      simp
    | drsenNone =>
      exact absurd rfl (drsen_layouts mode _ (lookup_some_mem _ _ _ hl) [] rfl).1
  · refine ⟨i, ?_, hl⟩
    unfold layoutName
    split
    · rename_i h
      obtain ⟨f, hf, hnum⟩ := hsn h.2 h.1
      cases e : ws.map Written.text with
      | nil => rw [e] at hf; simp at hf
      | cons a r =>
        rw [e] at hf
        have : a = f := by simpa using hf
        subst this
        simp [hnum, h.1]
    · have : layouts.lookup (mode, i, (ws.map Written.text).length) = none := by
        by_cases hk : ∃ x ∈ layouts, x.1.2.1 = i
        · obtain ⟨x, hx, rfl⟩ := hk
          obtain ⟨b1, b2⟩ := general_back mode (by rcases hm with rfl | rfl | rfl <;> simp) x hx d hl
          rw [List.length_map, hlen b1, b2]
        · rw [List.lookup_eq_none_iff]
          intro x hx
          simp only [beq_eq_false_iff_ne, ne_eq, Bool.not_eq_true, bne_iff_ne]
          intro e
          exact hk ⟨x, hx, by rw [← e]⟩
      rw [this]
      simp only
      split
      · rename_i h
        obtain ⟨a1, a2⟩ := hack h.1 h.2.1
        unfold ackName
        rw [if_neg a1, if_neg (by rw [List.length_map]; exact a2)]
      · rfl

theorem proprietary_mem {mode : Nat} {u : UDefs} {i : Str} {kw : List (Str × PyVal)} {d : PDict}
    (hi : IsProprietary i) (hi' : ¬ IsStandard i) (hd : KwDefinition mode u i kw d) :
    ∃ name, (name, d) ∈ proprietaryDefs mode := by
  obtain ⟨id, hid, hd⟩ := hd
  rw [if_neg hi', if_pos hi] at hd
  rcases hd with ⟨sfx, -, h⟩ | ⟨-, -, h⟩ <;> exact ⟨_, lookup_some_mem _ _ _ h⟩

/-- The definition selected by keywords is selected again by the fields written. -/
theorem proprietary_definition (now : Nat → DateTime) (t i : Str) (mode : Int) (hp : Bool) (v : Nat) (u : UDefs)
    (kw : List (Str × PyVal)) (m : Msg) (hkw : PlainKeywords i kw) (hi : IsProprietary i) (hi' : ¬ IsStandard i)
    (hsub : i ∈ NMEA_PREFIX_PROP → ∃ s, lookup py!"msgId" kw = some (.str s) ∧ s ≠ [] ∧ fullId i [s] = .ok (i ++ s))
    (d : PDict) (hd : KwDefinition mode.toNat u i kw d)
    (h : mkMsg now t i mode hp v u none ⟨none, kw⟩ = .ok m)
    (hack : mode = 0 → i.take 3 = py!"QTM" → m.payload ≠ [py!"OK"] ∧
      ¬ (m.payload.length = 2 ∧ m.payload.head? = some py!"ERROR"))
    (hsn : mode = 0 → i = py!"QTMSN" → ∃ f ∈ m.payload.head?, isNumeric f = false) (u' : UDefs) :
    definitionFor mode.toNat u' i m.payload = .ok (some d) := by
  obtain ⟨name, hmem⟩ := proprietary_mem hi hi' hd
  have hsg := tables_sane_gen.2 _ _ hmem
  have hd0 := hd
  obtain ⟨id, hid, hd⟩ := hd
  rw [if_neg hi', if_pos hi] at hd
  obtain ⟨hm, hrej, _⟩ := mkMsg_ok _ _ _ _ _ _ _ _ _ _ h
  obtain ⟨ws, he, hpay, hattrs⟩ := (C05_generate now t i mode hp v u kw hm ((not_rejected _ _ _ _).1 hrej) hkw d hd0
    hsg _ _).1 ⟨m, h, rfl, rfl⟩
  by_cases hq : (upper id).take 3 = py!"QTM" ∨ upper id = py!"STMDRSENMSG"
  · have hpre : i ∉ NMEA_PREFIX_PROP := by
      intro hpre
      obtain ⟨s, h1, -⟩ := hsub hpre
      have hide : id = i ++ s := by
        unfold kwFullId at hid
        rw [if_pos hpre, h1] at hid
        exact (Except.ok.inj hid).symm
      have hup : ∀ i ∈ NMEA_PREFIX_PROP, upper i = i ∧ i.take 3 ≠ py!"QTM" ∧ 3 ≤ i.length ∧
        ¬ i <+: py!"STMDRSENMSG" := by decide +kernel
      obtain ⟨u1, u2, u3, u4⟩ := hup i hpre
      have hui : upper id = i ++ upper s := by
        rw [hide]
        have : upper (i ++ s) = upper i ++ upper s := by simp [upper]
        rw [this, u1]
      rw [hui, List.take_append_of_le_length u3] at hq
      rcases hq with e | e
      · exact u2 e
      · exact u4 ⟨_, e⟩
    have hidi : id = i := by
      unfold kwFullId at hid
      rw [if_neg hpre] at hid
      exact (Except.ok.inj hid).symm
    have hui : upper i = i := by
      have hup : ∀ i ∈ NMEA_MSGIDS_PROP.map Prod.fst,
          (upper i).take 3 = py!"QTM" ∨ upper i = py!"STMDRSENMSG" → upper i = i := by decide +kernel
      exact hup i (hi.resolve_right hpre) (by rw [← hidi]; exact hq)
    rw [hidi, hui] at hd
    rw [hpay] at hack hsn
    obtain ⟨nm, h1, h2⟩ := layout_back (by omega) hd he (fun a b => by
      have := hack (by omega) b; rwa [List.length_map] at this) (fun a b => hsn (by omega) b)
    unfold definitionFor fullId
    rw [if_neg hpre]
    simp only [if_neg hi', if_pos hi, hui, hpay, h1, h2]
  · obtain ⟨hq, hq'⟩ := not_or.1 hq
    have hlook : lookup (upper id) (proprietaryDefs mode.toNat) = some d := by
      rcases hd with ⟨sfx, hs, -⟩ | ⟨-, -, h⟩
      · exact (qtm_keys _ _ _ _ hs hq hq').elim
      · exact h
    have hfull : fullId i m.payload = .ok id := by
      rw [hpay]
      exact full_of_emit hid (lookup_some_mem _ _ _ hlook) hsub he
    unfold definitionFor
    rw [hfull]
    simp only [if_neg hi', if_pos hi, layoutName_plain _ _ _ hq hq', hlook]

/-- The same for every proprietary sentence type. The sub-id of types that have one is the keyword
`msgId`; it must be readable as such. Excepted are messages that look like something else: a Quectel message in GET mode
with the fields of a generic acknowledgement `OK` or `ERROR,code`, a `QTMSN` message in GET mode with a numeric first
field, and a `PSSNSNC` message with square brackets in a field. -/
theorem C64_proprietary (now : Nat → DateTime) (t i : Str) (mode : Int) (hp : Bool) (v : Nat) (u : UDefs)
    (kw : List (Str × PyVal)) (m : Msg) (hkw : PlainKeywords i kw) (hi : IsProprietary i) (hi' : ¬ IsStandard i)
    (hsub : i ∈ NMEA_PREFIX_PROP → ∃ s, lookup py!"msgId" kw = some (.str s) ∧ s ≠ [] ∧ fullId i [s] = .ok (i ++ s))
    (d : PDict) (hd : KwDefinition mode.toNat u i kw d)
    (h : mkMsg now t i mode hp v u none ⟨none, kw⟩ = .ok m)
    (hplain : PlainStrings kw) (hhead : PlainText (t ++ i)) (hsplit : SplitsBack t i)
    (hnat : NaturalKeywords d kw) (hnow : ClockOk now)
    (hack : mode = 0 → i.take 3 = py!"QTM" → m.payload ≠ [py!"OK"] ∧
      ¬ (m.payload.length = 2 ∧ m.payload.head? = some py!"ERROR"))
    (hsn : mode = 0 → i = py!"QTMSN" → ∃ f ∈ m.payload.head?, isNumeric f = false)
    (hss : IsSnc t i m.payload → ∀ f ∈ m.payload, (91 : Nat) ∉ f ∧ (93 : Nat) ∉ f)
    (now' : Nat → DateTime) (v' : Nat) (u' : UDefs) (hids : KnownIds v' u' t i) :
    ∃ raw m' slots, m.serialize = .ok raw ∧ parse now' (.bytes raw) mode v' u' = .ok (some m') ∧
      Expand mode.toNat m.payload d [] [] slots ∧ slots.length = m.payload.length ∧
      CameBack hp slots m m' := by
  obtain ⟨name, hmem⟩ := proprietary_mem hi hi' hd
  have hb : BuiltIn mode.toNat name d := .inr hmem
  refine C64_round_trip now t i mode hp v u kw m hkw d hd (tables_sane_gen.2 _ _ hmem)
    (builtin_saneNames _ _ _ hb) h hplain hhead hsplit
    (C64_readable _ _ d hb ?_ ?_) hnat hnow now' v' u' hids
    (proprietary_definition now t i mode hp v u kw m hkw hi hi' hsub d hd h hack hsn u') hss
  · intro e; rw [e] at hmem
    exact prop_not_lr2 _ _ hmem (.inl rfl)
  · intro e; rw [e] at hmem
    exact prop_not_lr2 _ _ hmem (.inr rfl)

/-- Keywords of a `PUBX,04` (time of day) message. -/
def ubxKw : List (Str × PyVal) := [(py!"msgId", .str py!"04"), (py!"utcTow", .str py!"111111.00")]

theorem ubxKw_definition : KwDefinition 0 [] py!"UBX" ubxKw GET_PROP.UBX04 := by
  refine ⟨py!"UBX04", by decide +kernel, ?_⟩
  rw [if_neg (by decide +kernel), if_pos (by decide +kernel)]
  refine .inr ⟨?_, by decide +kernel, by decide +kernel⟩
  intro sfx h
  exact qtm_keys _ _ _ _ h (by decide +kernel) (by decide +kernel)

theorem ubxKw_natural : NaturalKeywords GET_PROP.UBX04 ubxKw := by
  apply naturalKeywords_of
  have h : ∀ kv ∈ ubxKw, ∀ e ∈ GET_PROP.UBX04.entries, e.1 <+: kv.1 →
      e.2 = py!"ST" ∧ ∃ s ∈ [py!"04", py!"111111.00"], kv.2 = .str s := by decide +kernel
  intro kv hkv e he hp
  obtain ⟨h1, s, -, h2⟩ := h kv hkv e he hp
  rw [h1, h2]
  exact .text _ _ (by decide)

/-- The hypotheses are met by it, and it does read back with its attributes. -/
example : (∃ d, KwDefinition 0 [] py!"UBX" ubxKw d ∧ NaturalKeywords d ubxKw) ∧ PlainKeywords py!"UBX" ubxKw ∧
    IsProprietary py!"UBX" ∧ ¬ IsStandard py!"UBX" ∧
    fullId py!"UBX" [py!"04"] = .ok (py!"UBX" ++ py!"04") ∧ PlainText py!"PUBX" ∧ SplitsBack py!"P" py!"UBX" ∧
    madeWith (fun m => acceptedWith
        (fun m' => m'.payload == m.payload && (lookup py!"utcTow" m'.attrs == some (.str py!"111111.00")))
        (parse clock0 (.str m.text) 0 1 []))
      (mkMsg clock0 py!"P" py!"UBX" 0 false 1 [] none ⟨none, ubxKw⟩) = true :=
  ⟨⟨_, ubxKw_definition, ubxKw_natural⟩, by decide +kernel, by decide +kernel, by decide +kernel, by decide +kernel,
    by decide +kernel, by decide +kernel, by decide +kernel⟩

/-- Keywords of a `PQTMCFGUART` command with the layout `_BAUD`, and of a `PSTMDRSENMSG,30` message. -/
def uartKw : List (Str × PyVal) :=
  [(py!"status", .str py!"W"), (py!"portid", .int 1), (py!"baudrate", .int 115200)]

def drsenKw : List (Str × PyVal) :=
  [(py!"msgtype", .int 30), (py!"timestamp", .int 7), (py!"xacc", .float (.fin true (3/2)))]

example : madeWith (fun m => m.payload == [py!"W", py!"1", py!"115200"] && acceptedWith
        (fun m' => m'.payload == m.payload && (lookup py!"baudrate" m'.attrs == some (.int 115200)))
        (parse clock0 (.str m.text) 1 1 []))
      (mkMsg clock0 py!"P" py!"QTMCFGUART" 1 false 1 [] none ⟨none, uartKw⟩) = true ∧
    madeWith (fun m => m.payload.length == 5 && acceptedWith
        (fun m' => m'.payload == m.payload && (lookup py!"xacc" m'.attrs == some (.float (.fin true (3/2)))))
        (parse clock0 (.str m.text) 0 1 []))
      (mkMsg clock0 py!"P" py!"STMDRSENMSG" 0 false 1 [] none ⟨none, drsenKw⟩) = true := by decide +kernel

example : KwDefinition 1 [] py!"QTMCFGUART" uartKw SET_PROP.QTMCFGUART_BAUD ∧
    PlainKeywords py!"QTMCFGUART" uartKw ∧ IsProprietary py!"QTMCFGUART" ∧ ¬ IsStandard py!"QTMCFGUART" := by
  refine ⟨⟨py!"QTMCFGUART", by decide +kernel, ?_⟩, by decide +kernel, by decide +kernel, by decide +kernel⟩
  rw [if_neg (by decide +kernel), if_pos (by decide +kernel)]
  refine .inl ⟨py!"_BAUD", ?_, by decide +kernel⟩
  rw [show upper py!"QTMCFGUART" = py!"QTMCFGUART" by decide +kernel]
  exact .uartBaud (by decide) (by decide) (by decide)

/-- The exceptions are exceptions: a `PQTMSN` response whose first field is numeric is read with the other layout, and a
`PQTMCFGWN` response with status `ERROR` as an error report. -/
theorem C64_misread :
    madeWith (fun m => acceptedWith (fun m' => m'.payload == m.payload && m'.attrs.map Prod.fst != m.attrs.map Prod.fst)
        (parse clock0 (.str m.text) 0 1 []))
      (mkMsg clock0 py!"P" py!"QTMCFGWN" 0 false 1 [] none ⟨none, [(py!"status", .str py!"ERROR")]⟩) = true ∧
    madeWith (fun m => acceptedWith (fun m' => m'.payload == m.payload && m'.attrs.map Prod.fst != m.attrs.map Prod.fst)
        (parse clock0 (.str m.text) 0 1 []))
      (mkMsg clock0 py!"P" py!"QTMSN" 0 false 1 [] none ⟨none, [(py!"status", .str py!"7")]⟩) = true := by
  decide +kernel

end Props
