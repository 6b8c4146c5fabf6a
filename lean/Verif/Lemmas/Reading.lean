import Verif.Lemmas.Nmea0183
/-!
# Lemmas: reading a sentence according to a layout (C68, C74)
-/
namespace Props
open Py Nmea Spec Spec.Nmea0183

/-- The kinds occurring in a layout. -/
def kindsIn : List Item → List Kind
  | [] => []
  | .one _ k :: r => k :: kindsIn r
  | .times _ b :: r | .many b :: r | .counted _ b :: r => b.map Prod.snd ++ kindsIn r

/-- Latitudes are called `lat`, longitudes `lon`; something else with such a name occurs only if no letter
for the hemisphere does; none occurs in a group. -/
def coordsOk (ks : List Kind) : List Item → Bool
  | [] => true
  | .one n k :: r =>
    decide (k = .latitude → n = py!"lat") && decide (k = .longitude → n = py!"lon") &&
      decide (n = py!"lat" → k = .latitude ∨ (k ≠ .latitude ∧ Kind.north ∉ ks)) &&
      decide (n = py!"lon" → k = .longitude ∨ (k ≠ .longitude ∧ Kind.east ∉ ks)) && coordsOk ks r
  | .times _ b :: r | .many b :: r | .counted _ b :: r =>
    b.all (fun x => decide (x.2 ≠ .latitude) && decide (x.2 ≠ .longitude)) && coordsOk ks r

/-- What `coordsOk` says about each field. -/
def CoordField (ks : List Kind) (x : Str × Kind) : Prop :=
  (x.2 = .latitude → x.1 = py!"lat") ∧ (x.2 = .longitude → x.1 = py!"lon") ∧
    (x.1 = py!"lat" → x.2 = .latitude ∨ (x.2 ≠ .latitude ∧ Kind.north ∉ ks)) ∧
    (x.1 = py!"lon" → x.2 = .longitude ∨ (x.2 ≠ .longitude ∧ Kind.east ∉ ks))

theorem repeated_coords (ks : List Kind) (n : Nat) (b : List (Str × Kind))
    (h : ∀ x ∈ b, x.2 ≠ .latitude ∧ x.2 ≠ .longitude) : ∀ x ∈ repeated n b, CoordField ks x := by
  intro x hx
  simp only [repeated, List.mem_map, List.mem_flatMap, List.mem_range] at hx
  obtain ⟨j, _, z, hz, rfl⟩ := hx
  have h0 : ∀ y : Str, 95 ∉ y → z.1 ++ groupSuffix (j + 1) ≠ y := by
    rintro y hy rfl
    apply hy
    simp [groupSuffix]
  exact ⟨fun e => absurd e (h z hz).1, fun e => absurd e (h z hz).2, fun e => absurd e (h0 _ (by decide)),
    fun e => absurd e (h0 _ (by decide))⟩

theorem fields_coords' (ks : List Kind) (f : List Str) (lay : List Item) (pos : Nat) (h : coordsOk ks lay = true) :
    ∀ x ∈ fields f lay pos, CoordField ks x := by
  have hb : ∀ b : List (Str × Kind), b.all (fun x => decide (x.2 ≠ .latitude) && decide (x.2 ≠ .longitude)) = true →
      ∀ x ∈ b, x.2 ≠ .latitude ∧ x.2 ≠ .longitude := by
    intro b hb x hx
    have := List.all_eq_true.1 hb x hx
    simpa using this
  induction lay generalizing pos with
  | nil => simp [fields]
  | cons i r ih =>
    cases i with
    | one n k =>
      simp only [coordsOk, Bool.and_eq_true, decide_eq_true_eq] at h
      obtain ⟨⟨⟨⟨h1, h2⟩, h3⟩, h4⟩, h5⟩ := h
      intro x hx
      simp only [fields, List.mem_cons] at hx
      rcases hx with rfl | hx
      · exact ⟨h1, h2, h3, h4⟩
      · exact ih _ h5 x hx
    | times n b | many b | counted n b =>
      simp only [coordsOk, Bool.and_eq_true] at h
      intro x hx
      simp only [fields, List.mem_append] at hx
      rcases hx with hx | hx
      · exact repeated_coords ks _ b (hb b h.1) x hx
      · exact ih _ h.2 x hx

theorem fields_kinds (f : List Str) (lay : List Item) (pos : Nat) :
    ∀ x ∈ fields f lay pos, x.2 ∈ kindsIn lay := by
  induction lay generalizing pos with
  | nil => simp [fields]
  | cons i r ih =>
    cases i with
    | one n k =>
      intro x hx
      simp only [fields, List.mem_cons] at hx
      simp only [kindsIn, List.mem_cons]
      rcases hx with rfl | hx
      · exact .inl rfl
      · exact .inr (ih _ x hx)
    | times n b | many b | counted n b =>
      intro x hx
      simp only [fields, List.mem_append] at hx
      simp only [kindsIn, List.mem_append]
      rcases hx with hx | hx
      · left
        simp only [repeated, List.mem_map, List.mem_flatMap, List.mem_range] at hx
        obtain ⟨j, _, z, hz, rfl⟩ := hx
        exact List.mem_map.2 ⟨z, hz, rfl⟩
      · exact .inr (ih _ x hx)

theorem fields_coords (f : List Str) (lay : List Item) (pos : Nat) (h : coordsOk (kindsIn lay) lay = true) :
    ∀ x ∈ fields f lay pos, (x.2 = .latitude → x.1 = py!"lat") ∧ (x.2 = .longitude → x.1 = py!"lon") ∧
      (x.1 = py!"lat" → x.2 = .latitude ∨ (x.2 ≠ .latitude ∧ ∀ y ∈ fields f lay pos, y.2 ≠ .north)) ∧
      (x.1 = py!"lon" → x.2 = .longitude ∨ (x.2 ≠ .longitude ∧ ∀ y ∈ fields f lay pos, y.2 ≠ .east)) := by
  intro x hx
  obtain ⟨h1, h2, h3, h4⟩ := fields_coords' _ f lay pos h x hx
  refine ⟨h1, h2, fun e => (h3 e).imp id (fun h => ⟨h.1, fun y hy e => h.2 ?_⟩),
    fun e => (h4 e).imp id (fun h => ⟨h.1, fun y hy e => h.2 ?_⟩)⟩
  · rw [← e]; exact fields_kinds f lay pos y hy
  · rw [← e]; exact fields_kinds f lay pos y hy

/-- What is checked of a definition and a layout. -/
def layoutOk (d : PDict) (lay : List Item) : Bool :=
  layoutMatches (some []) d lay && decide (baseNames lay).Nodup &&
    (flat lay || (baseNames lay).all (fun n => stem n == n)) &&
    (IsStatic d || decide ((baseNames lay).all (fun n => stem n == n) ∧
      py!"lat" ∉ baseNames lay ∧ py!"lon" ∉ baseNames lay)) && coordsOk (kindsIn lay) lay

/-- The sign given to a coordinate. -/
theorem resign_negated {k : Kind} {text : Str} {v : PyVal} (hk : k = .latitude ∨ k = .longitude)
    (h : Denotes k text v) (b : Bool) : resign b v = if b then negated v else v := by
  have : v = .str [] ∨ ∃ r, v = .float (.fin false r) := by
    rcases hk with rfl | rfl <;> cases h
    all_goals first | exact .inl rfl | exact .inr ⟨_, rfl⟩
  rcases this with rfl | ⟨r, rfl⟩ <;> cases b <;> rfl

/-- `parse` reads a sentence whose definition agrees with a layout as the layout says; `f` are the texts of the fields
that are converted. Each attribute is the conversion of its text. -/
theorem reading_exact (now : Nat → DateTime) (msg : RawMsg) (mode : Int) (v : Nat) (u : UDefs) (c t i k : Str)
    (f0 f : List Str) (lay : List Item) (d : PDict) (hs : IsSentence msg c t i f0 k) (ha : Admitted mode v u c t i k)
    (hdef : definitionFor mode.toNat u i f0 = .ok (some d)) (hdef0 : definitionFor mode.toNat [] i f0 = .ok (some d))
    (hsane : SaneNames d) (hft : fieldTexts t i f0 = f) (hok : layoutOk d lay = true) (hcnt : CountsGiven f lay)
    (hw : ∀ (p : Nat) name kind text, (fields f lay 0)[p]? = some (name, kind) → f[p]? = some text →
      ∃ val, Denotes kind text val) :
    ∃ m, parse now msg mode v u = .ok (some m) ∧
      m.attrs.map Prod.fst = ((fields f lay 0).map Prod.fst).take f.length ∧
      ∀ (p : Nat) name kind text, (fields f lay 0)[p]? = some (name, kind) → f[p]? = some text →
        ∃ val, Denotes kind text val ∧ (∃ ty, kindOf ty = some kind ∧ str2val text ty = .ok val) ∧
          lookup name m.attrs = some (oriented kind ((fields f lay 0)[p + 1]?.map Prod.snd) f[p + 1]? val) := by
  have hun : (baseNames lay).all (fun n => stem n == n) = true → ∀ x ∈ baseNames lay, stem x = x := by
    intro h x hx
    have := List.all_eq_true.1 h x hx
    simpa using this
  simp only [layoutOk, Bool.and_eq_true, Bool.or_eq_true, decide_eq_true_eq] at hok
  obtain ⟨⟨⟨⟨hmatch, hnd⟩, hflat⟩, hcoord⟩, hco⟩ := hok
  have hfn0 : ((fields f lay 0).map Prod.fst).Nodup := by
    rcases hflat with h | h
    · rw [fields_flat f lay 0 h]; exact hnd
    · exact fields_nodup _ _ _ hnd (hun h)
  replace hcoord : IsStatic d = true ∨ ((∀ x ∈ baseNames lay, stem x = x) ∧ py!"lat" ∉ baseNames lay ∧
      py!"lon" ∉ baseNames lay) := hcoord.imp id (fun h => ⟨hun h.1, h.2⟩)
  obtain ⟨S, hx, hag⟩ := layout_expand mode.toNat f d lay (some []) hmatch [] hcnt
    (fun a ha => by cases ha; exact ⟨rfl, by simp⟩) (by simpa using hw)
  simp only [List.nil_append, List.length_nil] at hx hag
  have hS : ∀ (p : Nat) name ty, S[p]? = some (name, ty) →
      ∃ kind, kindOf ty = some kind ∧ (fields f lay 0)[p]? = some (name, kind) := by
    intro p name ty hp
    have := congrArg (fun l => l[p]?) hag
    simp only [List.getElem?_map, hp, Option.map_some] at this
    cases hq : (fields f lay 0)[p]? with
    | none => rw [hq] at this; cases this
    | some x =>
      rw [hq] at this
      simp only [Option.map_some, Option.some.injEq, Prod.mk.injEq] at this
      exact ⟨x.2, this.2, by rw [this.1]⟩
  have hS' : ∀ (p : Nat) name kind, (fields f lay 0)[p]? = some (name, kind) →
      ∃ ty, kindOf ty = some kind ∧ S[p]? = some (name, ty) := by
    intro p name kind hp
    have := congrArg (fun l => l[p]?) hag
    simp only [List.getElem?_map, hp, Option.map_some] at this
    cases hq : S[p]? with
    | none => rw [hq] at this; cases this
    | some x =>
      rw [hq] at this
      simp only [Option.map_some, Option.some.injEq, Prod.mk.injEq] at this
      exact ⟨x.2, this.2, by rw [← this.1]⟩
  have hnames : S.map Prod.fst = (fields f lay 0).map Prod.fst := by
    have := congrArg (List.map Prod.fst) hag
    simpa [List.map_map, Function.comp_def] using this
  have hSnd : (S.map Prod.fst).Nodup := by rw [hnames]; exact hfn0
  -- the fields can be read
  have hread : ∃ attrs, readSlots S f [] = .ok attrs := by
    cases h : readSlots S f [] with
    | ok a => exact ⟨a, rfl⟩
    | error e =>
      obtain ⟨n, name, ty, text, h1, h2, h3⟩ := readSlots_error _ _ _ _ h
      obtain ⟨kind, hk, hf⟩ := hS n name ty h1
      obtain ⟨w, hw'⟩ := hw n name kind text hf h2
      obtain ⟨_, h4, _⟩ := str2val_denotes hk hw'
      rw [h3] at h4; cases h4
  obtain ⟨attrs, hread⟩ := hread
  obtain ⟨m, hm, hattrs⟩ := (C16_layout now msg mode v u c t i k f0 hs ha d hdef hsane attrs).2
    ⟨S, by rw [hft]; exact hx, by rw [hft]; exact hread⟩
  refine ⟨m, hm, ?_, ?_⟩
  · rw [hattrs, readSlots_keys _ _ _ _ hread hSnd (by simp), hnames]; rfl
  intro p name kind text hp ht
  obtain ⟨ty, hk, hSp⟩ := hS' p name kind hp
  obtain ⟨w, hw'⟩ := hw p name kind text hp ht
  obtain ⟨val, hv, hden, _⟩ := str2val_denotes hk hw'
  refine ⟨val, hden, ⟨ty, hk, hv⟩, ?_⟩
  rw [hattrs]
  have hcf := fields_coords f lay 0 hco (name, kind) (List.mem_of_getElem? hp)
  simp only at hcf
  by_cases hll : name = py!"lat" ∨ name = py!"lon"
  · -- a coordinate
    obtain ⟨dty, letter, dk, hg, hdk, hcase⟩ : ∃ dty letter dk, Governs dty name letter ∧ kindOf dty = some dk ∧
        (((kind = .latitude ∨ kind = .longitude) ∧ ∀ next l, oriented kind next l val =
            if next = some dk ∧ l = some letter then negated val else val) ∨
          ((∀ x ∈ fields f lay 0, x.2 ≠ dk) ∧ ∀ next l, oriented kind next l val = val)) := by
      rcases hll with rfl | rfl
      · refine ⟨_, _, .north, .lat, by decide, ?_⟩
        rcases hcf.2.2.1 rfl with rfl | h
        · exact .inl ⟨.inl rfl, fun next l => by simp [oriented]⟩
        · refine .inr ⟨h.2, fun next l => ?_⟩
          unfold oriented
          rw [if_neg]
          rintro (⟨h', _⟩ | ⟨h', _⟩)
          · exact h.1 h'
          · exact absurd (hcf.2.1 h') (by decide)
      · refine ⟨_, _, .east, .lon, by decide, ?_⟩
        rcases hcf.2.2.2 rfl with rfl | h
        · exact .inl ⟨.inr rfl, fun next l => by simp [oriented]⟩
        · refine .inr ⟨h.2, fun next l => ?_⟩
          unfold oriented
          rw [if_neg]
          rintro (⟨h', _⟩ | ⟨h', _⟩)
          · exact absurd (hcf.1 h') (by decide)
          · exact h.1 h'
    have hin : name ∈ (fields f lay 0).map Prod.fst := List.mem_map_of_mem (List.mem_of_getElem? hp)
    have hstatic : IsStatic d = true := by
      rcases hcoord with h | ⟨hu, h1, h2⟩
      · exact h
      · have h3 := stem_mem f lay 0 hu name hin
        cases hg with
        | lon => exact absurd h3 (by rw [show stem py!"lon" = py!"lon" by decide]; exact h2)
        | lat => exact absurd h3 (by rw [show stem py!"lat" = py!"lat" by decide]; exact h1)
    have hSeq := (expand_static_iff mode.toNat f d hstatic S).1 hx
    have hpc : p ∈ coordAt name (slotsOf d []) := by
      rw [← hSeq]
      refine List.mem_filter.2 ⟨List.mem_range.2 (List.getElem?_eq_some_iff.1 hSp).1, ?_⟩
      rw [hSp]; simp
    obtain ⟨_, hc1, hc2⟩ := C08_builtin mode.toNat i f0 d hdef0 dty name letter hg p hpc
    rw [← hSeq] at hc1 hc2
    have hname : ∀ (j : Nat) s, S[j]? = some s → j ≠ p → s.1 ≠ name := by
      intro j s hj hne he
      have : j ∈ coordAt name S :=
        List.mem_filter.2 ⟨List.mem_range.2 (List.getElem?_eq_some_iff.1 hj).1, by rw [hj]; simp [he]⟩
      rw [hc1] at this
      exact hne (List.mem_singleton.1 this)
    have hdir : ∀ (j : Nat) s, S[j]? = some s → s.2 = dty → dirAt dty S = [p + 1] ∧ j = p + 1 := by
      intro j s hj he
      have : j ∈ dirAt dty S :=
        List.mem_filter.2 ⟨List.mem_range.2 (List.getElem?_eq_some_iff.1 hj).1, by rw [hj]; simp [he]⟩
      rcases hc2 with h | h
      · rw [h] at this; exact ⟨h, List.mem_singleton.1 this⟩
      · rw [h] at this; cases this
    have htyd : ty ≠ dty := by
      intro he
      have := (hdir p _ hSp he).2
      omega
    by_cases hnext : ∃ dname, S[p + 1]? = some (dname, dty)
    · obtain ⟨dname, hn⟩ := hnext
      have hfn : (fields f lay 0)[p + 1]?.map Prod.snd = some dk := by
        obtain ⟨kd, h1, h2⟩ := hS _ _ _ hn
        rw [hdk] at h1; cases h1
        rw [h2]; rfl
      obtain ⟨hk2, hori⟩ : (kind = .latitude ∨ kind = .longitude) ∧ ∀ next l, oriented kind next l val =
            if next = some dk ∧ l = some letter then negated val else val := by
        rcases hcase with h | ⟨h, _⟩
        · exact h
        · exfalso
          cases hq : (fields f lay 0)[p + 1]? with
          | none => rw [hq] at hfn; cases hfn
          | some x =>
            rw [hq] at hfn
            simp only [Option.map_some, Option.some.injEq] at hfn
            exact h x (List.mem_of_getElem? hq) hfn
      rw [hori]
      cases hl1 : f[p + 1]? with
      | none =>
        obtain ⟨val', e1, e2⟩ := readSlots_last hg S f [] attrs hread p ty text hSp ht htyd (by
          intro j s hj hs' hjl
          have := List.getElem?_eq_none_iff.1 hl1
          omega)
        rw [hv] at e1; cases e1
        rw [e2]; simp
      | some dtext =>
        obtain ⟨val', e1, e2⟩ := C08_sign now msg mode v u m c t i k f0 hs d hdef hsane hm S
          (by rw [hft]; exact hx) dty name letter hg p (p + 1) ty dname text dtext (by omega) hSp hn
          (by rw [hft]; exact ht) (by rw [hft]; exact hl1) htyd (hname (p + 1) _ hn (by omega)) (by
            intro j s hj hj' hs'
            refine ⟨hname j s hs' (by omega), fun he => hj' (hdir j s hs' he).2⟩)
        rw [hv] at e1; cases e1
        rw [← hattrs, e2, resign_negated hk2 hden, hfn]
        by_cases hdt : dtext = letter <;> simp [hdt]
    · have hno : ∀ (j : Nat) s, p < j → S[j]? = some s → s.1 ≠ name ∧ s.2 ≠ dty := by
        intro j s hj hs'
        refine ⟨hname j s hs' (by omega), fun he => ?_⟩
        obtain ⟨_, rfl⟩ := hdir j s hs' he
        exact hnext ⟨s.1, by rw [hs', ← he]⟩
      obtain ⟨val', e1, e2⟩ := readSlots_last hg S f [] attrs hread p ty text hSp ht htyd
        (fun j s hj hs' _ => hno j s hj hs')
      rw [hv] at e1; cases e1
      rcases hcase with ⟨_, hori⟩ | ⟨_, hori⟩
      swap
      · rw [hori, e2]
      rw [hori, e2, if_neg]
      rintro ⟨h1, _⟩
      cases hq : (fields f lay 0)[p + 1]? with
      | none => rw [hq] at h1; cases h1
      | some x =>
        rw [hq] at h1
        simp only [Option.map_some, Option.some.injEq] at h1
        obtain ⟨dty', h2, h3⟩ := hS' (p + 1) x.1 x.2 hq
        apply hnext
        refine ⟨x.1, ?_⟩
        rw [h3]
        congr 2
        rw [h1, ← hdk] at h2
        cases hg with
        | lon => exact kindOf_east h2
        | lat => exact kindOf_north h2
  · -- anything else
    rw [not_or] at hll
    have hori : ∀ next l, oriented kind next l val = val := by
      intro next l
      unfold oriented
      rw [if_neg]
      rintro (⟨h, _⟩ | ⟨h, _⟩)
      · exact hll.1 (hcf.1 h)
      · exact hll.2 (hcf.2.1 h)
    rw [hori]
    obtain ⟨val', e1, e2⟩ := readSlots_value _ _ _ _ hread hSnd p name ty text hSp ht hll.2 hll.1
    rw [hv] at e1; cases e1
    exact e2

/-- `parse` reads a sentence whose definition agrees with a layout as the layout says; `f` are the texts of the fields
that are converted. -/
theorem reading_texts (now : Nat → DateTime) (msg : RawMsg) (mode : Int) (v : Nat) (u : UDefs) (c t i k : Str)
    (f0 f : List Str) (lay : List Item) (d : PDict) (hs : IsSentence msg c t i f0 k) (ha : Admitted mode v u c t i k)
    (hdef : definitionFor mode.toNat u i f0 = .ok (some d)) (hdef0 : definitionFor mode.toNat [] i f0 = .ok (some d))
    (hsane : SaneNames d) (hft : fieldTexts t i f0 = f) (hok : layoutOk d lay = true) (hcnt : CountsGiven f lay)
    (hw : ∀ (p : Nat) name kind text, (fields f lay 0)[p]? = some (name, kind) → f[p]? = some text →
      ∃ val, Denotes kind text val) :
    ∃ m, parse now msg mode v u = .ok (some m) ∧
      m.attrs.map Prod.fst = ((fields f lay 0).map Prod.fst).take f.length ∧
      ∀ (p : Nat) name kind text, (fields f lay 0)[p]? = some (name, kind) → f[p]? = some text →
        ∃ val, Denotes kind text val ∧
          lookup name m.attrs = some (oriented kind ((fields f lay 0)[p + 1]?.map Prod.snd) f[p + 1]? val) := by
  obtain ⟨m, h1, h2, h3⟩ := reading_exact now msg mode v u c t i k f0 f lay d hs ha hdef hdef0 hsane hft hok hcnt hw
  refine ⟨m, h1, h2, fun p name kind text hp ht => ?_⟩
  obtain ⟨val, h4, _, h5⟩ := h3 p name kind text hp ht
  exact ⟨val, h4, h5⟩

/-- `parse` reads a sentence whose definition agrees with a layout as the layout says. -/
theorem reading_mode (now : Nat → DateTime) (msg : RawMsg) (mode : Int) (v : Nat) (u : UDefs) (c t i k : Str) (f : List Str)
    (lay : List Item) (d : PDict) (hs : IsSentence msg c t i f k) (ha : Admitted mode v u c t i k)
    (hdef : definitionFor mode.toNat u i f = .ok (some d)) (hdef0 : definitionFor mode.toNat [] i f = .ok (some d))
    (hsane : SaneNames d) (hft : fieldTexts t i f = f) (hok : layoutOk d lay = true) (hcnt : CountsGiven f lay)
    (hw : ∀ (p : Nat) name kind text, (fields f lay 0)[p]? = some (name, kind) → f[p]? = some text →
      ∃ val, Denotes kind text val) :
    ∃ m, parse now msg mode v u = .ok (some m) ∧
      m.attrs.map Prod.fst = ((fields f lay 0).map Prod.fst).take f.length ∧
      ∀ (p : Nat) name kind text, (fields f lay 0)[p]? = some (name, kind) → f[p]? = some text →
        ∃ val, Denotes kind text val ∧
          lookup name m.attrs = some (oriented kind ((fields f lay 0)[p + 1]?.map Prod.snd) f[p + 1]? val) :=
  reading_texts now msg mode v u c t i k f f lay d hs ha hdef hdef0 hsane hft hok hcnt hw

/-- The same for sentences read as output of a receiver. -/
theorem reading_core (now : Nat → DateTime) (msg : RawMsg) (v : Nat) (u : UDefs) (c t i k : Str) (f : List Str)
    (lay : List Item) (d : PDict) (hs : IsSentence msg c t i f k) (ha : Admitted 0 v u c t i k)
    (hdef : definitionFor 0 u i f = .ok (some d)) (hdef0 : definitionFor 0 [] i f = .ok (some d))
    (hsane : SaneNames d) (hft : fieldTexts t i f = f) (hok : layoutOk d lay = true) (hcnt : CountsGiven f lay)
    (hw : ∀ (p : Nat) name kind text, (fields f lay 0)[p]? = some (name, kind) → f[p]? = some text →
      ∃ val, Denotes kind text val) :
    ∃ m, parse now msg 0 v u = .ok (some m) ∧
      m.attrs.map Prod.fst = ((fields f lay 0).map Prod.fst).take f.length ∧
      ∀ (p : Nat) name kind text, (fields f lay 0)[p]? = some (name, kind) → f[p]? = some text →
        ∃ val, Denotes kind text val ∧
          lookup name m.attrs = some (oriented kind ((fields f lay 0)[p + 1]?.map Prod.snd) f[p + 1]? val) :=
  reading_mode now msg 0 v u c t i k f lay d hs ha hdef hdef0 hsane hft hok hcnt hw

end Props
