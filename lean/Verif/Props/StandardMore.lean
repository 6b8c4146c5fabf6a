import Verif.Props.Standard
import Verif.Spec.Nmea0183More
/-!
# All standard sentences are read as they are laid out (C68, continued)
-/
namespace Props
open Py Nmea Spec Spec.Nmea0183

/-- What is checked of each of the other sentences. -/
def otherOk (x : Str × List Item) : Bool :=
  match lookup (upper x.1) (standardDefs 0) with
  | none => false
  | some d =>
    layoutOk d x.2 && decide (IsStandard x.1) && decide (x.1 ∉ NMEA_PREFIX_PROP) && decide (x.1.length ≤ 4)

theorem others_ok : ∀ x ∈ others, otherOk x = true := by decide +kernel

/-- The same with coordinates of other names: every name is fixed, and none is `lat` or `lon`. -/
def unsignedOk (x : Str × List Item) : Bool :=
  match lookup (upper x.1) (standardDefs 0) with
  | none => false
  | some d =>
    layoutMatches (some []) d x.2 && decide (baseNames x.2).Nodup && flat x.2 &&
      decide (py!"lat" ∉ baseNames x.2 ∧ py!"lon" ∉ baseNames x.2) &&
      decide (IsStandard x.1) && decide (x.1 ∉ NMEA_PREFIX_PROP) && decide (x.1.length ≤ 4)

theorem unsigned_ok : ∀ x ∈ unsigned, unsignedOk x = true := by decide +kernel

/-- The texts of the fields of a standard sentence are converted as they are. -/
theorem standard_texts {msg : RawMsg} {c t i k : Str} {f : List Str} (hs : IsSentence msg c t i f k)
    (hpre : i ∉ NMEA_PREFIX_PROP) (hlen : i.length ≤ 4) : fieldTexts t i f = f := by
  apply fieldTexts_id
  have htl : t.length ≤ 2 := by
    obtain ⟨_, _, _, _, _, h⟩ := hs
    rcases h with rfl | ⟨_, h | h⟩
    · decide
    · omega
    · omega
  rintro (h | ⟨_, h, _⟩)
  · have := congrArg List.length h
    rw [List.length_append] at this
    have e : (py!"PSSNSNC").length = 7 := by decide
    omega
  · subst h
    exact hpre (by decide)

/-- `parse` reads each of the other standard sentences as it is laid out: `C68_reading` for the second table. The
groups of `ALC` are read as often as its fourth field says, which has to be given. -/
theorem C68_others (now : Nat → DateTime) (msg : RawMsg) (v : Nat) (u : UDefs) (c t i k : Str) (f : List Str)
    (lay : List Item) (hl : (i, lay) ∈ others) (hs : IsSentence msg c t i f k) (ha : Admitted 0 v u c t i k)
    (hcnt : CountsGiven f lay)
    (hw : ∀ (p : Nat) name kind text, (fields f lay 0)[p]? = some (name, kind) → f[p]? = some text →
      ∃ val, Denotes kind text val) :
    ∃ m, parse now msg 0 v u = .ok (some m) ∧
      m.attrs.map Prod.fst = ((fields f lay 0).map Prod.fst).take f.length ∧
      ∀ (p : Nat) name kind text, (fields f lay 0)[p]? = some (name, kind) → f[p]? = some text →
        ∃ val, Denotes kind text val ∧
          lookup name m.attrs =
            some (oriented kind ((fields f lay 0)[p + 1]?.map Prod.snd) f[p + 1]? val) := by
  have h := others_ok _ hl
  unfold otherOk at h
  cases hd : lookup (upper i) (standardDefs 0) with
  | none => rw [hd] at h; cases h
  | some d =>
    rw [hd] at h
    simp only [Bool.and_eq_true, decide_eq_true_eq] at h
    obtain ⟨⟨⟨hok, hstd⟩, hpre⟩, hlen⟩ := h
    exact reading_core now msg v u c t i k f lay d hs ha (layout_definition hd hstd hpre u f)
      (layout_definition hd hstd hpre [] f) (tables_sane.1 0 _ (lookup_some_mem _ _ _ hd))
      (standard_texts hs hpre hlen) hok hcnt hw

/-- The sentences with coordinates under other names are accepted likewise, but every coordinate is read without a sign:
its value is the one its own text denotes, whatever letter follows. -/
theorem C68_unsigned (now : Nat → DateTime) (msg : RawMsg) (v : Nat) (u : UDefs) (c t i k : Str) (f : List Str)
    (lay : List Item) (hl : (i, lay) ∈ unsigned) (hs : IsSentence msg c t i f k) (ha : Admitted 0 v u c t i k)
    (hw : ∀ (p : Nat) name kind text, (fields f lay 0)[p]? = some (name, kind) → f[p]? = some text →
      ∃ val, Denotes kind text val) :
    ∃ m, parse now msg 0 v u = .ok (some m) ∧
      m.attrs.map Prod.fst = ((fields f lay 0).map Prod.fst).take f.length ∧
      ∀ (p : Nat) name kind text, (fields f lay 0)[p]? = some (name, kind) → f[p]? = some text →
        ∃ val, Denotes kind text val ∧ lookup name m.attrs = some val := by
  have h := unsigned_ok _ hl
  unfold unsignedOk at h
  cases hd : lookup (upper i) (standardDefs 0) with
  | none => rw [hd] at h; cases h
  | some d =>
  rw [hd] at h
  simp only [Bool.and_eq_true, decide_eq_true_eq] at h
  obtain ⟨⟨⟨⟨⟨⟨hmatch, hnd⟩, hflat⟩, hlat, hlon⟩, hstd⟩, hpre⟩, hlen⟩ := h
  have hft := standard_texts hs hpre hlen
  have hcnt : CountsGiven f lay := by
    intro p b hm
    have : ∀ l : List Item, flat l = true → Item.counted p b ∉ l := by
      intro l
      induction l with
      | nil => simp
      | cons x r ih => cases x <;> simp_all [flat]
    exact absurd hm (this lay hflat)
  have hnm := fields_flat f lay 0 hflat
  obtain ⟨S, hx, hag⟩ := layout_expand 0 f d lay (some []) hmatch [] hcnt
    (fun a ha => by cases ha; exact ⟨rfl, by simp⟩) (by simpa using hw)
  simp only [List.nil_append, List.length_nil] at hx hag
  have hnames : S.map Prod.fst = (fields f lay 0).map Prod.fst := by
    have := congrArg (List.map Prod.fst) hag
    simpa [List.map_map, Function.comp_def] using this
  have hSnd : (S.map Prod.fst).Nodup := by rw [hnames, hnm]; exact hnd
  have hS : ∀ (p : Nat) name ty, S[p]? = some (name, ty) →
      ∃ kind, kindOf ty = some kind ∧ (fields f lay 0)[p]? = some (name, kind) := by
    intro p name ty hp
    have := congrArg (fun l => l[p]?) hag
    simp only [List.getElem?_map, hp, Option.map_some] at this
    cases hq : (fields f lay 0)[p]? with
    | none => rw [hq] at this; cases this
    | some x =>
      rw [hq] at this
      simp only [Option.map_some, Option.some.injEq, Prod.mk.injEq] at this
      exact ⟨x.2, this.2, by rw [this.1]⟩
  have hS' : ∀ (p : Nat) name kind, (fields f lay 0)[p]? = some (name, kind) →
      ∃ ty, kindOf ty = some kind ∧ S[p]? = some (name, ty) := by
    intro p name kind hp
    have := congrArg (fun l => l[p]?) hag
    simp only [List.getElem?_map, hp, Option.map_some] at this
    cases hq : S[p]? with
    | none => rw [hq] at this; cases this
    | some x =>
      rw [hq] at this
      simp only [Option.map_some, Option.some.injEq, Prod.mk.injEq] at this
      exact ⟨x.2, this.2, by rw [← this.1]⟩
  obtain ⟨attrs, hread⟩ : ∃ attrs, readSlots S f [] = .ok attrs := by
    cases h : readSlots S f [] with
    | ok a => exact ⟨a, rfl⟩
    | error e =>
      obtain ⟨n, name, ty, text, h1, h2, h3⟩ := readSlots_error _ _ _ _ h
      obtain ⟨kind, hk, hf⟩ := hS n name ty h1
      obtain ⟨w, hw'⟩ := hw n name kind text hf h2
      obtain ⟨_, h4, _⟩ := str2val_denotes hk hw'
      rw [h3] at h4; cases h4
  obtain ⟨m, hm, hattrs⟩ := (C16_layout now msg 0 v u c t i k f hs ha d (layout_definition hd hstd hpre u f)
    (tables_sane.1 0 _ (lookup_some_mem _ _ _ hd)) attrs).2 ⟨S, by rw [hft]; exact hx, by rw [hft]; exact hread⟩
  refine ⟨m, hm, ?_, ?_⟩
  · rw [hattrs, readSlots_keys _ _ _ _ hread hSnd (by simp), hnames]; rfl
  intro p name kind text hp ht
  obtain ⟨ty, hk, hSp⟩ := hS' p name kind hp
  obtain ⟨w, hw'⟩ := hw p name kind text hp ht
  obtain ⟨val, hv, hden, _⟩ := str2val_denotes hk hw'
  have hin : name ∈ baseNames lay := by
    rw [← hnm]; exact List.mem_map_of_mem (List.mem_of_getElem? hp)
  obtain ⟨val', e1, e2⟩ := readSlots_value _ _ _ _ hread hSnd p name ty text hSp ht
    (by rintro rfl; exact hlon hin) (by rintro rfl; exact hlat hin)
  rw [hv] at e1; cases e1
  exact ⟨val, hden, by rw [hattrs]; exact e2⟩

/-- With these three tables, nothing but `LR2`, whose date the library cannot read, and the test type `FOO` is left
out. -/
theorem C68_complete (i : Str) (d : PDict) (h : (i, d) ∈ standardDefs 0) :
    (∃ lay, (i, lay) ∈ sentences ∨ (i, lay) ∈ others ∨ (i, lay) ∈ unsigned) ∨ i = py!"LR2" ∨ i = py!"FOO" := by
  have key : ∀ x ∈ standardDefs 0, ((sentences ++ others ++ unsigned).map Prod.fst).contains x.1 = true ∨
      x.1 = py!"LR2" ∨ x.1 = py!"FOO" := by decide +kernel
  rcases key _ h with hi | hi
  · left
    clear h key
    simp only [List.contains_iff_mem, List.mem_map] at hi
    obtain ⟨⟨a, lay⟩, hm, rfl⟩ := hi
    rcases List.mem_append.1 hm with hm | h
    · rcases List.mem_append.1 hm with h | h
      · exact ⟨lay, .inl h⟩
      · exact ⟨lay, .inr (.inl h)⟩
    · exact ⟨lay, .inr (.inr h)⟩
  · exact .inr hi

/-- A target south of the equator and west of Greenwich. -/
def tllLine : RawMsg := .bytes pb!"$RATLL,07,5327.04,S,00214.41,W,BUOY,223232.00,T,R*74\r\n"

def tllFields : List Str :=
  [py!"07", py!"5327.04", py!"S", py!"00214.41", py!"W", py!"BUOY", py!"223232.00", py!"T", py!"R"]

theorem tll_sentence : IsSentence tllLine py!"RATLL,07,5327.04,S,00214.41,W,BUOY,223232.00,T,R" py!"RA" py!"TLL" tllFields py!"74" :=
  (getParts_sentence _ ⟨_, _, _, _, _⟩).1 (by decide +kernel)

def tllLayout : List Item :=
  [.one py!"targetnum" .whole, .one py!"targetlat" .latitude, .one py!"targetlatNS" .north,
   .one py!"targetlon" .longitude, .one py!"targetlonEW" .east, .one py!"targetname" .text,
   .one py!"time" .time, .one py!"status" .text, .one py!"reftarget" .text]

theorem tll_fields_ok : ∀ (p : Nat) name kind text, (fields tllFields tllLayout 0)[p]? = some (name, kind) →
    tllFields[p]? = some text → ∃ val, Denotes kind text val := by
  intro p name kind text h1 h2
  match p with
  | 0 =>
    simp only [fields, tllLayout, tllFields, List.getElem?_cons_zero, Option.some.injEq, Prod.mk.injEq] at h1 h2
    obtain ⟨_, rfl⟩ := h1; subst h2
    exact ⟨_, Denotes.whole false py!"07" (by decide) (by decide) (by decide)⟩
  | 1 =>
    simp only [fields, tllLayout, tllFields, List.getElem?_cons_succ, List.getElem?_cons_zero, Option.some.injEq,
      Prod.mk.injEq] at h1 h2
    obtain ⟨_, rfl⟩ := h1; subst h2
    exact ⟨_, Denotes.latitude py!"53" py!"27" py!"04" _ (by decide) (by decide) (by decide) rfl rfl
      (by rw [sub_self, abs_zero]; norm_num)⟩
  | 2 =>
    simp only [fields, tllLayout, List.getElem?_cons_succ, List.getElem?_cons_zero, Option.some.injEq,
      Prod.mk.injEq] at h1
    obtain ⟨_, rfl⟩ := h1; exact ⟨_, .north _⟩
  | 3 =>
    simp only [fields, tllLayout, tllFields, List.getElem?_cons_succ, List.getElem?_cons_zero, Option.some.injEq,
      Prod.mk.injEq] at h1 h2
    obtain ⟨_, rfl⟩ := h1; subst h2
    exact ⟨_, Denotes.longitude py!"002" py!"14" py!"41" _ (by decide) (by decide) (by decide) rfl rfl
      (by rw [sub_self, abs_zero]; norm_num)⟩
  | 4 =>
    simp only [fields, tllLayout, List.getElem?_cons_succ, List.getElem?_cons_zero, Option.some.injEq,
      Prod.mk.injEq] at h1
    obtain ⟨_, rfl⟩ := h1; exact ⟨_, .east _⟩
  | 5 =>
    simp only [fields, tllLayout, List.getElem?_cons_succ, List.getElem?_cons_zero, Option.some.injEq,
      Prod.mk.injEq] at h1
    obtain ⟨_, rfl⟩ := h1; exact ⟨_, .text _⟩
  | 6 =>
    simp only [fields, tllLayout, tllFields, List.getElem?_cons_succ, List.getElem?_cons_zero, Option.some.injEq,
      Prod.mk.injEq] at h1 h2
    obtain ⟨_, rfl⟩ := h1; subst h2
    exact ⟨_, Denotes.fraction 22 32 32 py!"00" (by omega) (by omega) (by omega) (by decide) (by decide) (by decide)⟩
  | 7 =>
    simp only [fields, tllLayout, List.getElem?_cons_succ, List.getElem?_cons_zero, Option.some.injEq,
      Prod.mk.injEq] at h1
    obtain ⟨_, rfl⟩ := h1; exact ⟨_, .text _⟩
  | 8 =>
    simp only [fields, tllLayout, List.getElem?_cons_succ, List.getElem?_cons_zero, Option.some.injEq,
      Prod.mk.injEq] at h1
    obtain ⟨_, rfl⟩ := h1; exact ⟨_, .text _⟩
  | p + 9 => simp [fields, tllLayout] at h1

/-- The hypotheses of `C68_unsigned` are met; the southern latitude is positive. -/
example : ∃ m x, parse clock0 tllLine 0 1 [] = .ok (some m) ∧ lookup py!"targetlat" m.attrs = some (.float (.fin false x)) ∧
    lookup py!"targetlatNS" m.attrs = some (.str py!"S") := by
  obtain ⟨m, h1, _, h2⟩ := C68_unsigned clock0 tllLine 1 [] _ _ _ _ _ tllLayout (by decide +kernel) tll_sentence
    ⟨.inl rfl, fun _ => by decide +kernel, fun _ => ⟨by decide +kernel, by decide +kernel⟩⟩ tll_fields_ok
  obtain ⟨v, d, e⟩ := h2 1 py!"targetlat" .latitude py!"5327.04" rfl rfl
  obtain ⟨w, d', e'⟩ := h2 2 py!"targetlatNS" .north py!"S" rfl rfl
  have := C68_unambiguous _ _ _ _ d' (.north _) (by decide) (by decide)
  subst this
  have pos : ∀ s w, Denotes .latitude s w → s ≠ [] → ∃ x, w = .float (.fin false x) := by
    rintro s w h hne
    cases h with
    | empty => exact absurd rfl hne
    | latitude => exact ⟨_, rfl⟩
  obtain ⟨x, rfl⟩ := pos _ _ d (by decide)
  exact ⟨m, x, h1, e, e'⟩

/-- A list of two alerts. -/
def alcLine : RawMsg := .bytes pb!"$VRALC,01,01,00,2,FEC,3008,1,,3009,2*3A\r\n"

def alcFields : List Str :=
  [py!"01", py!"01", py!"00", py!"2", py!"FEC", py!"3008", py!"1", py!"", py!"3009", py!"2"]

theorem alc_sentence : IsSentence alcLine py!"VRALC,01,01,00,2,FEC,3008,1,,3009,2" py!"VR" py!"ALC" alcFields py!"3A" :=
  (getParts_sentence _ ⟨_, _, _, _, _⟩).1 (by decide +kernel)

def alcLayout : List Item :=
  [.one py!"numSen" .whole, .one py!"senNum" .whole, .one py!"seqmid" .whole, .one py!"numAlerts" .whole,
   .counted 3 [(py!"mfrcode", .text), (py!"alertid", .text), (py!"revisionctr", .text)]]

/-- The hypotheses of `C68_others` are met by it, with a group read twice. -/
example : ∃ m, parse clock0 alcLine 0 1 [] = .ok (some m) ∧
    m.attrs.map Prod.fst = [py!"numSen", py!"senNum", py!"seqmid", py!"numAlerts", py!"mfrcode_01", py!"alertid_01",
      py!"revisionctr_01", py!"mfrcode_02", py!"alertid_02", py!"revisionctr_02"] ∧
    lookup py!"alertid_02" m.attrs = some (.str py!"3009") := by
  have hf : fields alcFields alcLayout 0 = [(py!"numSen", .whole), (py!"senNum", .whole), (py!"seqmid", .whole),
      (py!"numAlerts", .whole), (py!"mfrcode_01", .text), (py!"alertid_01", .text), (py!"revisionctr_01", .text),
      (py!"mfrcode_02", .text), (py!"alertid_02", .text), (py!"revisionctr_02", .text)] := by decide +kernel
  obtain ⟨m, h1, h3, h2⟩ := C68_others clock0 alcLine 1 [] _ _ _ _ _ alcLayout (by decide +kernel) alc_sentence
    ⟨.inl rfl, fun _ => by decide +kernel, fun _ => ⟨by decide +kernel, by decide +kernel⟩⟩
    (by
      intro p b h
      simp only [alcLayout, List.mem_cons, reduceCtorEq, Item.counted.injEq, List.not_mem_nil, or_false, false_or] at h
      obtain ⟨rfl, rfl⟩ := h
      exact ⟨py!"2", rfl, by decide, by decide⟩)
    (by
      intro p name kind text h1 h2
      rw [hf] at h1
      have hw : ∀ s : Str, s ≠ [] → IsDigits s → s.length ≤ 4300 → ∃ val, Denotes .whole s val :=
        fun s a b c => ⟨_, Denotes.whole false s a b c⟩
      match p with
      | 0 | 1 | 2 | 3 =>
        simp only [alcFields, List.getElem?_cons_succ, List.getElem?_cons_zero, Option.some.injEq, Prod.mk.injEq] at h1 h2
        obtain ⟨_, rfl⟩ := h1; subst h2
        exact hw _ (by decide) (by decide) (by decide)
      | 4 | 5 | 6 | 7 | 8 | 9 =>
        simp only [List.getElem?_cons_succ, List.getElem?_cons_zero, Option.some.injEq, Prod.mk.injEq] at h1
        obtain ⟨_, rfl⟩ := h1; exact ⟨_, .text _⟩
      | p + 10 => simp at h1)
  rw [hf] at h3 h2
  obtain ⟨v, d, e⟩ := h2 8 _ _ py!"3009" rfl rfl
  have := C68_unambiguous _ _ _ _ d (.text _) (by decide) (by decide)
  subst this
  exact ⟨m, h1, h3, e⟩

end Props
