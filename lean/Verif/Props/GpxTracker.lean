import Verif.Spec.GpxTracker
import Verif.Props.Standard
import Verif.Props.Reader
import Verif.Props.Errors
/-!
# The example program gpxtracker.py (C84)
-/
namespace Props.Gpx
open Py Nmea Spec Spec.Gpx Props

theorem attr_ok (m : Msg) (n : Str) (v : PyVal) : m.attr n = .ok v ↔ lookup n m.attrs = some v := by
  unfold Msg.attr
  cases lookup n m.attrs <;> simp

theorem attr_err {m : Msg} {n : Str} {e : Err} (h : m.attr n = .error e) : e = .attribute := by
  unfold Msg.attr at h
  cases hl : lookup n m.attrs <;> rw [hl] at h <;> simp at h
  exact h.symm

theorem bind_ok {α β : Type} (x : Except Err α) (f : α → Except Err β) (b : β) :
    (x >>= f) = .ok b ↔ ∃ a, x = .ok a ∧ f a = .ok b := by
  cases x <;> simp [bind, Except.bind]

theorem trackPoint_ok (now : DateTime) (m : Msg) (s : Str) : trackPoint now m = .ok s ↔ IsPoint now m s := by
  unfold trackPoint IsPoint
  simp only [bind_ok, attr_ok]
  constructor
  · rintro ⟨tv, h1, t, h2, q, h3, la, h4, lo, h5, al, h6, hd, h7, tla, h8, tlo, h9, tal, h10, thd, h11, h12⟩
    have : tv = .time t := by
      cases tv <;> simp [timeOf] at h2
      rw [h2]
    subst this
    refine ⟨t, q, la, lo, al, hd, tla, tlo, tal, thd, h1, h3, h4, h5, h6, h7, h8, h9, h10, h11, ?_⟩
    simp only [pure, Except.pure, Except.ok.injEq] at h12
    rw [← h12]
    simp [gpxPoint, isoformat, List.append_assoc]
  · rintro ⟨t, q, la, lo, al, hd, tla, tlo, tal, thd, h1, h3, h4, h5, h6, h7, h8, h9, h10, h11, h12⟩
    refine ⟨_, h1, t, rfl, q, h3, la, h4, lo, h5, al, h6, hd, h7, tla, h8, tlo, h9, tal, h10, thd, h11, ?_⟩
    simp only [pure, Except.pure, Except.ok.injEq]
    rw [h12]
    simp [gpxPoint, isoformat, List.append_assoc]

theorem bind_err {α β : Type} {x : Except Err α} {f : α → Except Err β} {e : Err} (h : (x >>= f) = .error e) :
    x = .error e ∨ ∃ a, x = .ok a ∧ f a = .error e := by
  cases x <;> simp_all [bind, Except.bind]

theorem toStr_err {v : PyVal} {e : Err} (h : v.toStr = .error e) : e = .value := by
  cases v <;> simp [PyVal.toStr] at h
  unfold strOfInt at h
  simp only at h
  split at h
  · cases h; rfl
  · cases h

theorem timeOf_err {v : PyVal} {e : Err} (h : timeOf v = .error e) : e = .attribute := by
  cases v <;> simp [timeOf] at h <;> exact h.symm

theorem trackPoint_err {now : DateTime} {m : Msg} {e : Err} (h : trackPoint now m = .error e) :
    e = .attribute ∨ e = .value := by
  unfold trackPoint at h
  rcases bind_err h with h | ⟨_, _, h⟩
  · exact .inl (attr_err h)
  rcases bind_err h with h | ⟨_, _, h⟩
  · exact .inl (timeOf_err h)
  rcases bind_err h with h | ⟨_, _, h⟩
  · exact .inl (attr_err h)
  rcases bind_err h with h | ⟨_, _, h⟩
  · exact .inl (attr_err h)
  rcases bind_err h with h | ⟨_, _, h⟩
  · exact .inl (attr_err h)
  rcases bind_err h with h | ⟨_, _, h⟩
  · exact .inl (attr_err h)
  rcases bind_err h with h | ⟨_, _, h⟩
  · exact .inl (attr_err h)
  rcases bind_err h with h | ⟨_, _, h⟩
  · exact .inr (toStr_err h)
  rcases bind_err h with h | ⟨_, _, h⟩
  · exact .inr (toStr_err h)
  rcases bind_err h with h | ⟨_, _, h⟩
  · exact .inr (toStr_err h)
  rcases bind_err h with h | ⟨_, _, h⟩
  · exact .inr (toStr_err h)
  cases h

theorem track_ok (clock : Nat → DateTime) (items : List (Bytes × Option Msg)) :
    ∀ k body, track clock k items = (body, none) ↔ ∃ points, Points clock k items points ∧ body = points.flatten := by
  induction items with
  | nil =>
    intro k body
    simp only [track, Prod.mk.injEq, and_true]
    constructor
    · rintro rfl; exact ⟨[], .nil k, rfl⟩
    · rintro ⟨_, h, rfl⟩; cases h; rfl
  | cons x items ih =>
    intro k body
    obtain ⟨raw, mo⟩ := x
    cases mo with
    | none =>
      simp only [track, Prod.mk.injEq, reduceCtorEq, and_false, false_iff]
      rintro ⟨_, h, _⟩; cases h
    | some m =>
      simp only [track]
      by_cases hg : m.msgID = py!"GGA"
      · rw [if_pos hg]
        cases ht : trackPoint (clock k) m with
        | ok s =>
          have hp := (trackPoint_ok _ _ _).1 ht
          simp only [Prod.mk.injEq]
          constructor
          · rintro ⟨rfl, h2⟩
            obtain ⟨ps, h3, h4⟩ := (ih (k + 1) (track clock (k + 1) items).1).1 (Prod.ext rfl h2)
            exact ⟨s :: ps, .point _ _ _ _ _ _ hg hp h3, by simp [h4]⟩
          · rintro ⟨ps, h, rfl⟩
            cases h with
            | other _ _ _ _ _ h' _ => exact absurd hg h'
            | point _ _ _ s' _ ps' _ h2 h3 =>
              have : s' = s := by
                have := (trackPoint_ok _ _ _).2 h2
                rw [ht] at this; simpa using this.symm
              subst this
              have h4 := (ih (k + 1) ps'.flatten).2 ⟨ps', h3, rfl⟩
              rw [h4]
              simp
        | error e =>
          have hn : ∀ s, ¬ IsPoint (clock k) m s := by
            intro s h
            rw [← trackPoint_ok, ht] at h; cases h
          have : ¬ ∃ points, Points clock k ((raw, some m) :: items) points ∧ body = points.flatten := by
            rintro ⟨ps, h, _⟩
            cases h with
            | other _ _ _ _ _ h' _ => exact h' hg
            | point _ _ _ s' _ ps' _ h2 h3 => exact hn _ h2
          rcases trackPoint_err ht with rfl | rfl <;> simp [this]
      · rw [if_neg hg, ih]
        constructor
        · rintro ⟨ps, h, rfl⟩; exact ⟨ps, .other _ _ _ _ _ hg h, rfl⟩
        · rintro ⟨ps, h, rfl⟩
          cases h with
          | other _ _ _ _ _ _ h' => exact ⟨ps, h', rfl⟩
          | point _ _ _ _ _ _ h' => exact absurd h' hg

/-- The program finishes, having written `text`, exactly if the reader finishes, everything it returned are messages,
every GGA message among them has a track point, and `text` is the header, these points in order, and the trailer. -/
theorem C84_track (now clock : Nat → DateTime) (log : Bytes) (text : Str) :
    gpxTracker now clock log = (text, none) ↔
      ∃ items errors points, readAll now fileStream trackerCfg log = (items, errors, none) ∧
        Points clock 1 items points ∧ text = gpxHeader (clock 0) ++ points.flatten ++ gpxTrailer := by
  unfold gpxTracker
  obtain ⟨items, errors, fin⟩ := readAll now fileStream trackerCfg log
  simp only
  cases ht : track clock 1 items with
  | mk body e =>
    cases e with
    | some e =>
      simp only [Prod.mk.injEq, reduceCtorEq, and_false, false_iff]
      rintro ⟨_, _, ps, ⟨rfl, rfl, rfl⟩, h2, _⟩
      rw [(track_ok clock items 1 ps.flatten).2 ⟨ps, h2, rfl⟩] at ht
      cases ht
    | none =>
      obtain ⟨ps, h1, rfl⟩ := (track_ok clock items 1 body).1 ht
      cases fin with
      | some e => simp
      | none =>
        simp only [Prod.mk.injEq, and_true]
        constructor
        · rintro rfl; exact ⟨items, errors, ps, ⟨rfl, rfl⟩, h1, rfl⟩
        · rintro ⟨_, _, ps', ⟨rfl, rfl⟩, h2, rfl⟩
          have := (track_ok clock items 1 ps'.flatten).2 ⟨ps', h2, rfl⟩
          rw [ht] at this
          simp only [Prod.mk.injEq, and_true] at this
          rw [this]

theorem track_append (clock : Nat → DateTime) (before : List (Bytes × Option Msg)) (rest : List (Bytes × Option Msg)) :
    ∀ k points, Points clock k before points →
      track clock k (before ++ rest) =
        (points.flatten ++ (track clock (k + points.length) rest).1, (track clock (k + points.length) rest).2) := by
  intro k points h
  induction h with
  | nil k => simp
  | other k raw m items points hg _ ih => simp only [List.cons_append, track, if_neg hg, ih]
  | point k raw m s items points hg hp _ ih =>
    have := (trackPoint_ok _ _ _).2 hp
    simp only [List.cons_append, track, if_pos hg, this, ih, List.length_cons, List.flatten_cons, List.append_assoc]
    rw [show k + 1 + points.length = k + (points.length + 1) by omega]

/-- A file that does not end with the trailer. -/
theorem unfinished (d : DateTime) (points : List Str) (clock : Nat → DateTime) (k : Nat) (items : List (Bytes × Option Msg))
    (h : Points clock k items points) : ¬ gpxTrailer <:+ gpxHeader d ++ points.flatten := by
  have hend : ∀ (s : Str), py!"</trkpt>" <:+ s ∨ py!"<trkseg>" <:+ s → ¬ gpxTrailer <:+ s := by
    intro s hs ht
    rcases hs with hs | hs
    · have := List.suffix_of_suffix_length_le hs ht (by decide)
      revert this; decide
    · have := List.suffix_of_suffix_length_le hs ht (by decide)
      revert this; decide
  apply hend
  rcases List.eq_nil_or_concat points with rfl | ⟨ps, p, rfl⟩
  · right
    refine ⟨gpxOpen ++ isoformat d ++ py!"Z" ++ py!"</time></metadata><trk><name>GPX track from NMEA datalog</name>", ?_⟩
    unfold gpxHeader
    simp [List.append_assoc]
  · left
    have : py!"</trkpt>" <:+ p := by
      have key : ∀ k items points, Points clock k items points → ∀ p ∈ points, py!"</trkpt>" <:+ p := by
        intro k items points h
        induction h with
        | nil => simp
        | other _ _ _ _ _ _ _ ih => exact ih
        | point _ _ _ s _ _ _ hs _ ih =>
          intro p hp
          rcases List.mem_cons.1 hp with rfl | hp
          · obtain ⟨_, _, _, _, _, _, _, _, _, _, _, _, _, _, _, _, _, _, _, _, rfl⟩ := hs
            rw [show py!"</hdop></trkpt>" = py!"</hdop>" ++ py!"</trkpt>" from rfl, ← List.append_assoc]
            exact List.suffix_append _ _
          · exact ih p hp
      exact key _ _ _ h p (by simp)
    obtain ⟨a, ha⟩ := this
    refine ⟨gpxHeader d ++ ps.flatten ++ a, ?_⟩
    rw [List.append_assoc, ha]
    simp

/-- The program fails with `AttributeError` at the first item that is not a message (see C14) or is a GGA message without
a time; it has then written the header and the points before it, and no trailer. -/
theorem C84_failure (now clock : Nat → DateTime) (log : Bytes) (before rest : List (Bytes × Option Msg)) (raw : Bytes)
    (mo : Option Msg) (errors : List Err) (fin : Option Err) (points : List Str)
    (hread : readAll now fileStream trackerCfg log = (before ++ (raw, mo) :: rest, errors, fin))
    (hp : Points clock 1 before points)
    (hbad : ∀ m, mo = some m → m.msgID = py!"GGA" ∧ ∀ t, lookup py!"time" m.attrs ≠ some (.time t)) :
    gpxTracker now clock log = (gpxHeader (clock 0) ++ points.flatten, some .attribute) ∧
      ¬ gpxTrailer <:+ gpxHeader (clock 0) ++ points.flatten := by
  refine ⟨?_, unfinished _ _ _ _ _ hp⟩
  unfold gpxTracker
  rw [hread]
  simp only
  rw [track_append clock before _ 1 points hp]
  have : track clock (1 + points.length) ((raw, mo) :: rest) = ([], some .attribute) := by
    cases mo with
    | none => rfl
    | some m =>
      obtain ⟨h1, h2⟩ := hbad m rfl
      have ht : trackPoint (clock (1 + points.length)) m = .error .attribute := by
        unfold trackPoint Msg.attr
        cases hl : lookup py!"time" m.attrs with
        | none => rfl
        | some v =>
          cases v <;> first | rfl | exact absurd hl (h2 _)
      simp only [track, if_pos h1, ht]
  rw [this]
  simp

/-- The definition of a GGA sentence. -/
theorem gga_static : IsStatic GET.GGA = true ∧ ((slotsOf GET.GGA []).map Prod.fst).Nodup ∧
    slotsOf GET.GGA [] = [(py!"time", TM), (py!"lat", LA), (py!"NS", LAD), (py!"lon", LN), (py!"EW", LND), (py!"quality", IN),
      (py!"numSV", IN), (py!"HDOP", DE), (py!"alt", DE), (py!"altUnit", CH), (py!"sep", DE), (py!"sepUnit", CH),
      (py!"diffAge", DE), (py!"diffStation", IN)] ∧
    lookup (upper py!"GGA") (standardDefs 0) = some GET.GGA ∧ IsStandard py!"GGA" ∧ py!"GGA" ∉ NMEA_PREFIX_PROP := by
  decide +kernel

/-- A float or the empty text. -/
def Printable : PyVal → Prop
  | .float _ => True
  | .str s => s = []
  | _ => False

theorem Printable.toStr {v : PyVal} (h : Printable v) : ∃ s, v.toStr = .ok s := by
  cases v <;> simp [Printable] at h <;> exact ⟨_, rfl⟩

theorem printable_value {text ty : Str} {v : PyVal} (hty : ty ∈ [LA, LN, DE]) (h : str2val text ty = .ok v) : Printable v := by
  have hd : ∀ r, dmm2ddd text = .ok r → Printable r := by
    intro r h
    unfold dmm2ddd at h
    simp only at h
    split at h <;> first | (cases h; trivial) | cases h
  simp only [List.mem_cons, List.not_mem_nil, or_false] at hty
  rcases hty with rfl | rfl | rfl
  · exact hd v h
  · exact hd v h
  · have h' : (if text ≠ [] then (floatOfStr text).map PyVal.float else .ok (.str text)) = .ok v := h
    split at h'
    · cases hf : floatOfStr text with
      | error e => rw [hf] at h'; cases h'
      | ok x => rw [hf] at h'; cases h'; trivial
    · rename_i hne; cases h'; exact Classical.not_not.1 hne

/-- The attributes named below are floats or empty texts. -/
def PrintableAttrs (attrs : Attrs) : Prop :=
  ∀ n ∈ [py!"lat", py!"lon", py!"alt", py!"HDOP"], ∀ v, lookup n attrs = some v → Printable v

theorem printable_insert {attrs : Attrs} (h : PrintableAttrs attrs) (k : Str) (v : PyVal)
    (hv : k ∈ [py!"lat", py!"lon", py!"alt", py!"HDOP"] → Printable v) : PrintableAttrs (Py.insert k v attrs) := by
  intro n hn x hx
  by_cases e : n = k
  · subst e
    rw [lookup_insert, if_pos rfl] at hx
    cases hx
    exact hv hn
  · rw [lookup_insert, if_neg e] at hx
    exact h n hn x hx

theorem printable_sign {attrs : Attrs} (h : PrintableAttrs attrs) (n : Str) (hn : n ∈ [py!"lat", py!"lon", py!"alt", py!"HDOP"])
    (b : Bool) : PrintableAttrs (withSign n b attrs) := by
  unfold withSign
  split
  · rename_i i hl; exact absurd (h n hn _ hl) (by simp [Printable])
  · exact printable_insert h _ _ (fun _ => trivial)
  · rename_i i hl; exact absurd (h n hn _ hl) (by simp [Printable])
  · exact h

theorem printable_read (slots : List Slot) : ∀ (f : List Str) (attrs attrs' : Attrs), readSlots slots f attrs = .ok attrs' →
    (∀ s ∈ slots, s.1 ∈ [py!"lat", py!"lon", py!"alt", py!"HDOP"] → s.2 ∈ [LA, LN, DE]) → PrintableAttrs attrs →
    PrintableAttrs attrs' := by
  induction slots with
  | nil => intro f attrs attrs' h _ hp; simp only [readSlots, Except.ok.injEq] at h; rw [← h]; exact hp
  | cons s ss ih =>
    obtain ⟨n, ty⟩ := s
    intro f attrs attrs' h ht hp
    cases f with
    | nil => simp only [readSlots, Except.ok.injEq] at h; rw [← h]; exact hp
    | cons x f =>
      simp only [readSlots] at h
      cases hv : str2val x ty with
      | error e => rw [hv] at h; cases h
      | ok v =>
        rw [hv] at h
        refine ih f _ attrs' h (fun s hs => ht s (List.mem_cons_of_mem _ hs)) ?_
        have h1 : PrintableAttrs (Py.insert n v attrs) :=
          printable_insert hp n v (fun hn => printable_value (ht (n, ty) (by simp) hn) hv)
        unfold hemisphere
        split
        · exact printable_sign h1 _ (by decide) _
        · split
          · exact printable_sign h1 _ (by decide) _
          · exact h1

/-- Which accepted GGA sentences have a track point: those with at least nine fields, of which the first is a
time (of any form `time2utc` knows). -/
theorem C84_has_point (now : Nat → DateTime) (msg : RawMsg) (v : Nat) (u : UDefs) (c t k : Str) (f : List Str) (m : Msg)
    (today : DateTime) (hs : IsSentence msg c t py!"GGA" f k) (h : parse now msg 0 v u = .ok (some m)) :
    m.msgID = py!"GGA" ∧
    ((∃ s, IsPoint today m s) ↔ 9 ≤ f.length ∧ ∃ text time, f[0]? = some text ∧ time2utc text = .time time) ∧
    ((∀ x, lookup py!"time" m.attrs ≠ some (.time x)) ↔ ∀ text time, f[0]? = some text → time2utc text ≠ .time time) := by
  obtain ⟨hst, hnd, hsl, hd, hstd, hpre⟩ := gga_static
  have hmem : (upper py!"GGA", GET.GGA) ∈ standardDefs 0 := lookup_some_mem _ _ _ hd
  have hid : m.msgID = py!"GGA" := by
    obtain ⟨_, p, hp, _, _, hcase⟩ := parse_accepted _ _ _ _ _ _ h
    have e := sentence_getParts _ _ _ _ _ _ hs
    rw [hp] at e
    cases e
    rcases hcase with ⟨_, _, rfl⟩ | ⟨d, st, _, _, rfl⟩ <;> rfl
  refine ⟨hid, ?_⟩
  have hft : fieldTexts t py!"GGA" f = f := by
    apply fieldTexts_id
    have htl : t.length ≤ 2 := by
      obtain ⟨_, _, _, _, _, h⟩ := hs
      rcases h with rfl | ⟨_, h | h⟩
      · decide
      · omega
      · omega
    rintro (h | ⟨_, h, _⟩)
    · have := congrArg List.length h
      rw [List.length_append] at this
      have e : (py!"PSSNSNC").length = 7 := by decide
      have e' : (py!"GGA").length = 3 := by decide
      omega
    · revert h; decide
  have ha := admitted_of_accept _ _ _ _ _ _ _ _ _ _ hs _ h
  obtain ⟨slots, hx, hr⟩ := (C16_layout now msg 0 v u c t _ k f hs ha _ (layout_definition hd hstd hpre u f)
    (tables_sane.1 0 _ hmem) m.attrs).1 ⟨m, h, rfl⟩
  rw [hft] at hx hr
  rw [expand_static_iff _ _ _ hst] at hx
  subst hx
  have hkeys := readSlots_keys _ _ _ _ hr hnd (by simp)
  simp only [List.map_nil, List.nil_append] at hkeys
  have hsome : ∀ n, n ∈ m.attrs.map Prod.fst → ∃ x, lookup n m.attrs = some x := by
    intro n hn
    cases hl : lookup n m.attrs with
    | none => exact absurd hn ((lookup_none_iff _ _).1 hl)
    | some x => exact ⟨x, rfl⟩
  have htime : ∀ text, f[0]? = some text → lookup py!"time" m.attrs = some (time2utc text) := by
    intro text hf
    obtain ⟨val, h1, h2⟩ := readSlots_value _ _ _ _ hr hnd 0 py!"time" TM text (by rw [hsl]; rfl) hf (by decide) (by decide)
    have : str2val text TM = .ok (time2utc text) := rfl
    rw [this] at h1
    cases h1
    exact h2
  have hpr : PrintableAttrs m.attrs := printable_read _ _ _ _ hr (by rw [hsl]; decide) (by intro n _ x hx; cases hx)
  refine ⟨⟨?_, ?_⟩, ?_⟩
  · rintro ⟨s, time, quality, lat, lon, alt, hdop, _, _, _, _, h1, h2, h3, h4, h5, _⟩
    have hal : py!"alt" ∈ m.attrs.map Prod.fst := List.mem_map.2 ⟨_, lookup_some_mem _ _ _ h5, rfl⟩
    have hlen : 9 ≤ f.length := by
      by_contra hlt
      rw [hkeys, hsl] at hal
      have : ∀ n < 9, py!"alt" ∉ List.take n [py!"time", py!"lat", py!"NS", py!"lon", py!"EW", py!"quality", py!"numSV", py!"HDOP",
        py!"alt", py!"altUnit", py!"sep", py!"sepUnit", py!"diffAge", py!"diffStation"] := by decide
      exact this f.length (by omega) hal
    refine ⟨hlen, f[0]'(by omega), time, by simp, ?_⟩
    have := htime (f[0]'(by omega)) (by simp)
    rw [h1] at this
    simpa using this.symm
  · rintro ⟨hlen, text, time, hf, ht⟩
    have hk : ∀ n ∈ [py!"quality", py!"lat", py!"lon", py!"alt", py!"HDOP"], ∃ x, lookup n m.attrs = some x := by
      intro n hn
      apply hsome
      rw [hkeys, hsl]
      apply List.mem_of_mem_take (i := 9)
      rw [List.take_take, Nat.min_eq_left hlen]
      revert n
      decide
    obtain ⟨q, hq⟩ := hk py!"quality" (by decide)
    obtain ⟨la, hla⟩ := hk py!"lat" (by decide)
    obtain ⟨lo, hlo⟩ := hk py!"lon" (by decide)
    obtain ⟨al, hal⟩ := hk py!"alt" (by decide)
    obtain ⟨hd', hhd⟩ := hk py!"HDOP" (by decide)
    obtain ⟨s1, e1⟩ := (hpr _ (by decide) _ hla).toStr
    obtain ⟨s2, e2⟩ := (hpr _ (by decide) _ hlo).toStr
    obtain ⟨s3, e3⟩ := (hpr _ (by decide) _ hal).toStr
    obtain ⟨s4, e4⟩ := (hpr _ (by decide) _ hhd).toStr
    exact ⟨_, time, q, la, lo, al, hd', s1, s2, s3, s4, by rw [htime text hf, ht], hq, hla, hlo, hal, hhd, e1, e2, e3, e4, rfl⟩
  · constructor
    · intro hn text time hf ht
      exact hn time (by rw [htime text hf, ht])
    · intro hn x hx
      have hti : py!"time" ∈ m.attrs.map Prod.fst := List.mem_map.2 ⟨_, lookup_some_mem _ _ _ hx, rfl⟩
      cases f with
      | nil => rw [hkeys] at hti; simp at hti
      | cons y f =>
        have := htime y rfl
        rw [hx] at this
        exact hn y x rfl (by simpa using this.symm)

/-- The fields of a GGA sentence. -/
def ggaFields : List Nmea0183.Item := [.one py!"time" .time, .one py!"lat" .latitude, .one py!"NS" .north,
  .one py!"lon" .longitude, .one py!"EW" .east, .one py!"quality" .whole, .one py!"numSV" .whole, .one py!"HDOP" .decimal,
  .one py!"alt" .decimal, .one py!"altUnit" .text, .one py!"sep" .decimal, .one py!"sepUnit" .text,
  .one py!"diffAge" .decimal, .one py!"diffStation" .whole]

theorem whole_number {text : Str} {v : PyVal} (h : Nmea0183.Denotes .whole text v) (n : Int) :
    v.isNumber n = true ↔ v = .int n := by
  cases h <;> simp [PyVal.isNumber]

theorem denotes_printable {kind : Nmea0183.Kind} {text : Str} {v : PyVal} (h : Nmea0183.Denotes kind text v)
    (hk : kind ∈ [Nmea0183.Kind.latitude, .longitude, .decimal]) : Printable v ∧ Printable (Nmea0183.negated v) := by
  cases h <;> first | exact ⟨trivial, trivial⟩ | exact ⟨rfl, rfl⟩ | (exfalso; revert hk; decide) | skip
  all_goals
    refine ⟨trivial, ?_⟩
    unfold Nmea0183.negated
    split <;> trivial

/-- What a track point says: the values of the fields of its sentence. -/
theorem C84_position (now : Nat → DateTime) (msg : RawMsg) (v : Nat) (u : UDefs) (c t k : Str) (f : List Str)
    (today : DateTime) (time : Time) (quality hdop alt : PyVal)
    (hs : IsSentence msg c t py!"GGA" f k) (ha : Admitted 0 v u c t py!"GGA" k)
    (hw : ∀ (p : Nat) name kind text, (Nmea0183.fields f ggaFields 0)[p]? = some (name, kind) → f[p]? = some text →
      ∃ val, Nmea0183.Denotes kind text val)
    (h0 : ∃ s ∈ f[0]?, Nmea0183.Denotes .time s (.time time))
    (h5 : ∃ s ∈ f[5]?, Nmea0183.Denotes .whole s quality) (h7 : ∃ s ∈ f[7]?, Nmea0183.Denotes .decimal s hdop)
    (h8 : ∃ s ∈ f[8]?, Nmea0183.Denotes .decimal s alt) :
    ∃ m lat lon tlat tlon talt thdop, parse now msg 0 v u = .ok (some m) ∧
      (∃ s ∈ f[1]?, Nmea0183.Denotes .latitude s lat) ∧ (∃ s ∈ f[3]?, Nmea0183.Denotes .longitude s lon) ∧
      PyVal.toStr (if f[2]? = some py!"S" then Nmea0183.negated lat else lat) = .ok tlat ∧
      PyVal.toStr (if f[4]? = some py!"W" then Nmea0183.negated lon else lon) = .ok tlon ∧
      alt.toStr = .ok talt ∧ hdop.toStr = .ok thdop ∧
      IsPoint today m (gpxPoint tlat tlon talt
        (today.date.str ++ py!"T" ++ (⟨time.hour, time.minute, time.second, today.time.micro⟩ : Time).str ++ py!"Z")
        (if quality = .int 1 then py!"3d" else if quality = .int 2 then py!"2d" else py!"none") thdop) := by
  obtain ⟨m, hm, _, hval⟩ := C68_reading now msg v u c t _ k f ggaFields (by decide +kernel) hs ha hw
  have hf : Nmea0183.fields f ggaFields 0 = [(py!"time", .time), (py!"lat", .latitude), (py!"NS", .north),
    (py!"lon", .longitude), (py!"EW", .east), (py!"quality", .whole), (py!"numSV", .whole), (py!"HDOP", .decimal),
    (py!"alt", .decimal), (py!"altUnit", .text), (py!"sep", .decimal), (py!"sepUnit", .text),
    (py!"diffAge", .decimal), (py!"diffStation", .whole)] := rfl
  rw [hf] at hval
  obtain ⟨s0, e0, d0⟩ := h0
  obtain ⟨s5, e5, d5⟩ := h5
  obtain ⟨s7, e7, d7⟩ := h7
  obtain ⟨s8, e8, d8⟩ := h8
  simp only [Option.mem_def] at e0 e5 e7 e8
  have hlen : 8 < f.length := (List.getElem?_eq_some_iff.1 e8).1
  obtain ⟨v0, b0, l0⟩ := hval 0 _ _ s0 rfl e0
  obtain ⟨v1, b1, l1⟩ := hval 1 _ _ (f[1]'(by omega)) rfl (by simp)
  obtain ⟨v3, b3, l3⟩ := hval 3 _ _ (f[3]'(by omega)) rfl (by simp)
  obtain ⟨v5, b5, l5⟩ := hval 5 _ _ s5 rfl e5
  obtain ⟨v7, b7, l7⟩ := hval 7 _ _ s7 rfl e7
  obtain ⟨v8, b8, l8⟩ := hval 8 _ _ s8 rfl e8
  have u0 := C68_unambiguous _ _ _ _ b0 d0 (by decide) (by decide)
  have u5 := C68_unambiguous _ _ _ _ b5 d5 (by decide) (by decide)
  have u7 := C68_unambiguous _ _ _ _ b7 d7 (by decide) (by decide)
  have u8 := C68_unambiguous _ _ _ _ b8 d8 (by decide) (by decide)
  subst u0 u5 u7 u8
  simp only [Nmea0183.oriented, reduceCtorEq, false_and, or_self, if_false, true_and, or_false, false_or,
    List.getElem?_cons_succ, List.getElem?_cons_zero, Option.map_some, Nat.reduceAdd] at l0 l1 l3 l5 l7 l8
  have p1 : ∃ x, PyVal.toStr (if f[2]? = some py!"S" then Nmea0183.negated v1 else v1) = .ok x := by
    have := denotes_printable b1 (by decide)
    split
    · exact this.2.toStr
    · exact this.1.toStr
  have p3 : ∃ x, PyVal.toStr (if f[4]? = some py!"W" then Nmea0183.negated v3 else v3) = .ok x := by
    have := denotes_printable b3 (by decide)
    split
    · exact this.2.toStr
    · exact this.1.toStr
  obtain ⟨tlat, q1⟩ := p1
  obtain ⟨tlon, q3⟩ := p3
  obtain ⟨thdop, q7⟩ := (denotes_printable b7 (by decide)).1.toStr
  obtain ⟨talt, q8⟩ := (denotes_printable b8 (by decide)).1.toStr
  refine ⟨m, v1, v3, tlat, tlon, talt, thdop, hm, ⟨_, by simp [Option.mem_def], b1⟩, ⟨_, by simp [Option.mem_def], b3⟩,
    q1, q3, q8, q7, ?_⟩
  refine ⟨time, v5, _, _, v8, v7, tlat, tlon, talt, thdop, l0, l5, l1, l3, l8, l7, q1, q3, q8, q7, ?_⟩
  simp only [whole_number b5]
  simp [gpxPoint, List.append_assoc]

/-- A log of acceptable sentences, with anything in between that has no `$`, gives their track. -/
theorem C84_log (now clock : Nat → DateTime) (items : List (Bytes × Bytes × Option Msg)) (tail : Bytes) (points : List Str)
    (hjunk : ∀ x ∈ items, (36 : UInt8) ∉ x.1) (htail : (36 : UInt8) ∉ tail) (hline : ∀ x ∈ items, CompleteLine x.2.1)
    (hok : ∀ x ∈ items, parse now (.bytes x.2.1) 0 0 [] = .ok x.2.2)
    (hp : Points clock 1 (items.map Prod.snd) points) :
    gpxTracker now clock (items.flatMap (fun x => x.1 ++ x.2.1) ++ tail) =
      (gpxHeader (clock 0) ++ points.flatten ++ gpxTrailer, none) :=
  (C84_track _ _ _ _).2 ⟨_, _, _, C23_sentences_in_order now trackerCfg items tail hjunk htail hline hok, hp, rfl⟩

/-- The program does not survive a line that begins like a sentence and is none, nor a GGA sentence whose
first field is not a time (it is empty until the receiver knows the time): it fails with `AttributeError`
there, whatever follows in the log, and the file has no trailer. -/
theorem C84_stops (now clock : Nat → DateTime) (items : List (Bytes × Bytes × Option Msg)) (junk bad rest : Bytes)
    (points : List Str)
    (hjunk : ∀ x ∈ items, (36 : UInt8) ∉ x.1) (hline : ∀ x ∈ items, CompleteLine x.2.1)
    (hok : ∀ x ∈ items, parse now (.bytes x.2.1) 0 0 [] = .ok x.2.2)
    (hp : Points clock 1 (items.map Prod.snd) points) (hj : (36 : UInt8) ∉ junk) (hb : CompleteLine bad)
    (h : (¬ ∃ c t i f k, IsSentence (.bytes bad) c t i f k) ∨
      ∃ c t f k m, IsSentence (.bytes bad) c t py!"GGA" f k ∧ parse now (.bytes bad) 0 0 [] = .ok (some m) ∧
        ∀ text time, f[0]? = some text → time2utc text ≠ .time time) :
    gpxTracker now clock (items.flatMap (fun x => x.1 ++ x.2.1) ++ (junk ++ bad) ++ rest) =
        (gpxHeader (clock 0) ++ points.flatten, some .attribute) ∧
      ¬ gpxTrailer <:+ gpxHeader (clock 0) ++ points.flatten := by
  have hbad : ∃ mo, parse now (.bytes bad) 0 0 [] = .ok mo ∧
      ∀ m, mo = some m → m.msgID = py!"GGA" ∧ ∀ t, lookup py!"time" m.attrs ≠ some (.time t) := by
    rcases h with h | ⟨c, t, f, k, m, h1, h2, h3⟩
    · exact ⟨none, (C14_none_iff _ _ _ _ _).2 ⟨by decide, by decide, h⟩, by simp⟩
    · have := C84_has_point now _ _ _ _ _ _ _ _ (clock 0) h1 h2
      refine ⟨some m, h2, ?_⟩
      rintro _ ⟨⟩
      exact ⟨this.1, this.2.2.2 h3⟩
  obtain ⟨mo, hm, hbad⟩ := hbad
  have := C23_prefix now trackerCfg (items ++ [(junk, bad, mo)]) rest
    (by intro x hx
        rcases List.mem_append.1 hx with hx | hx
        · exact hjunk x hx
        · simp only [List.mem_singleton] at hx; subst hx; exact hj)
    (by intro x hx
        rcases List.mem_append.1 hx with hx | hx
        · exact hline x hx
        · simp only [List.mem_singleton] at hx; subst hx; exact hb)
    (by intro x hx
        rcases List.mem_append.1 hx with hx | hx
        · exact hok x hx
        · simp only [List.mem_singleton] at hx; subst hx; exact hm)
  rw [List.flatMap_append] at this
  simp only [List.flatMap_cons, List.flatMap_nil, List.append_nil, List.map_append, List.map_cons, List.map_nil] at this
  refine C84_failure now clock _ (items.map Prod.snd) (readAll now fileStream trackerCfg rest).1 bad mo
    (readAll now fileStream trackerCfg rest).2.1 (readAll now fileStream trackerCfg rest).2.2 points ?_ hp hbad
  rw [this]
  simp only [List.append_assoc, List.cons_append, List.nil_append]

/-! ### Concrete logs -/

/-- The fields of a sentence. -/
def fixFields : List Str := [py!"223232.00", py!"5327.04319", py!"S", py!"00214.41396", py!"E", py!"1", py!"05", py!"1.33", py!"32.9",
  py!"M", py!"48.5", py!"M", [], []]

theorem fix_fields_ok : ∀ (p : Nat) name kind text, (Nmea0183.fields fixFields ggaFields 0)[p]? = some (name, kind) →
    fixFields[p]? = some text → ∃ val, Nmea0183.Denotes kind text val := by
  have all : ∀ x ∈ (Nmea0183.fields fixFields ggaFields 0).zip fixFields, ∃ val, Nmea0183.Denotes x.1.2 x.2 val := by
    have e : (Nmea0183.fields fixFields ggaFields 0).zip fixFields = [((py!"time", .time), py!"223232.00"),
      ((py!"lat", .latitude), py!"5327.04319"), ((py!"NS", .north), py!"S"), ((py!"lon", .longitude), py!"00214.41396"),
      ((py!"EW", .east), py!"E"), ((py!"quality", .whole), py!"1"), ((py!"numSV", .whole), py!"05"),
      ((py!"HDOP", .decimal), py!"1.33"), ((py!"alt", .decimal), py!"32.9"), ((py!"altUnit", .text), py!"M"),
      ((py!"sep", .decimal), py!"48.5"), ((py!"sepUnit", .text), py!"M"), ((py!"diffAge", .decimal), []),
      ((py!"diffStation", .whole), [])] := rfl
    rw [e]
    simp only [List.forall_mem_cons]
    refine ⟨⟨_, .fraction 22 32 32 py!"00" (by omega) (by omega) (by omega) (by decide) (by decide) (by decide)⟩,
      ⟨_, .latitude py!"53" py!"27" py!"04319" _ (by decide) (by decide) (by decide) rfl rfl
        (by rw [sub_self, abs_zero]; norm_num)⟩, ⟨_, .north _⟩,
      ⟨_, .longitude py!"002" py!"14" py!"41396" _ (by decide) (by decide) (by decide) rfl rfl
        (by rw [sub_self, abs_zero]; norm_num)⟩, ⟨_, .east _⟩, ⟨_, .whole false py!"1" (by decide) (by decide) (by decide)⟩,
      ⟨_, .whole false py!"05" (by decide) (by decide) (by decide)⟩,
      ⟨_, .decimal false py!"1" py!"33" (by decide) (by decide) (by decide)⟩,
      ⟨_, .decimal false py!"32" py!"9" (by decide) (by decide) (by decide)⟩, ⟨_, .text _⟩,
      ⟨_, .decimal false py!"48" py!"5" (by decide) (by decide) (by decide)⟩, ⟨_, .text _⟩, ⟨_, .empty _⟩, ⟨_, .empty _⟩, by simp⟩
  intro p name kind text h1 h2
  refine all ((name, kind), text) (List.mem_of_getElem? (i := p) ?_)
  rw [List.getElem?_zip_eq_some]
  exact ⟨h1, h2⟩

/-- A position in the southern hemisphere is written with a negative latitude. -/
example (today : DateTime) : ∃ m lat lon tlat tlon talt thdop,
    parse clock0 (.bytes pb!"$GNGGA,223232.00,5327.04319,S,00214.41396,E,1,05,1.33,32.9,M,48.5,M,,*6A\r\n") 0 0 [] =
      .ok (some m) ∧
    (∃ s ∈ fixFields[1]?, Nmea0183.Denotes .latitude s lat) ∧ (∃ s ∈ fixFields[3]?, Nmea0183.Denotes .longitude s lon) ∧
    PyVal.toStr (Nmea0183.negated lat) = .ok tlat ∧ PyVal.toStr lon = .ok tlon ∧
    PyVal.toStr (.float (PyFloat.ofMag false ((329 : ℚ) / 10))) = .ok talt ∧
    PyVal.toStr (.float (PyFloat.ofMag false ((133 : ℚ) / 100))) = .ok thdop ∧
    IsPoint today m (gpxPoint tlat tlon talt
      (today.date.str ++ py!"T" ++ (⟨22, 32, 32, today.time.micro⟩ : Time).str ++ py!"Z") py!"3d" thdop) :=
  C84_position clock0 _ 0 [] py!"GNGGA,223232.00,5327.04319,S,00214.41396,E,1,05,1.33,32.9,M,48.5,M,," py!"GN" py!"6A" fixFields
    today ⟨22, 32, 32, 0⟩ (.int 1) _ _ ((getParts_sentence _ ⟨_, _, _, _, _⟩).1 (by decide +kernel))
    ⟨.inl rfl, fun h => absurd h (by decide), fun h => absurd h (by decide)⟩ fix_fields_ok
    ⟨_, rfl, .fraction 22 32 32 py!"00" (by omega) (by omega) (by omega) (by decide) (by decide) (by decide)⟩
    ⟨_, rfl, .whole false py!"1" (by decide) (by decide) (by decide)⟩
    ⟨_, rfl, .decimal false py!"1" py!"33" (by decide) (by decide) (by decide)⟩
    ⟨_, rfl, .decimal false py!"32" py!"9" (by decide) (by decide) (by decide)⟩

/-- A receiver that has not found its position yet. -/
def coldStart : Bytes := pb!"$GNGGA,,,,,,0,00,99.99,,,,,,*56\r\n"

/-- A log that begins there gives an unfinished file, whatever follows. -/
example (clock : Nat → DateTime) (rest : Bytes) :
    gpxTracker clock0 clock (coldStart ++ rest) = (gpxHeader (clock 0), some .attribute) := by
  have := C84_stops clock0 clock [] [] coldStart rest [] (by simp) (by simp) (by simp) (.nil 1) (by simp)
    ⟨71, pb!"NGGA,,,,,,0,00,99.99,,,,,,*56\r", by decide +kernel, by decide, by decide⟩
    (.inr ⟨_, _, _, _, (parse clock0 (.bytes coldStart) 0 0 []).toOption.join.get (by decide +kernel),
      (getParts_sentence _ ⟨py!"GNGGA,,,,,,0,00,99.99,,,,,,", py!"GN", py!"GGA",
        [[], [], [], [], [], py!"0", py!"00", py!"99.99", [], [], [], [], [], []], py!"56"⟩).1 (by decide +kernel),
      by decide +kernel, by
        intro text time h
        simp only [List.getElem?_cons_zero, Option.some.injEq] at h
        subst h
        rw [show time2utc [] = .str [] from by decide +kernel]
        simp⟩)
  simpa using this.1

/-- A line cut short in the middle of a log: nothing after it is looked at. -/
example (clock : Nat → DateTime) (rest : Bytes) :
    gpxTracker clock0 clock (pb!"$GNGGA,2232\n" ++ rest) = (gpxHeader (clock 0), some .attribute) := by
  have := C84_stops clock0 clock [] [] pb!"$GNGGA,2232\n" rest [] (by simp) (by simp) (by simp) (.nil 1) (by simp)
    ⟨71, pb!"NGGA,2232", by decide +kernel, by decide, by decide⟩
    (.inl (by
      rintro ⟨c, t, i, f, k, hs⟩
      have := sentence_getParts _ _ _ _ _ _ hs
      have h' : (getParts (.bytes pb!"$GNGGA,2232\n")).toOption = none := by decide +kernel
      rw [this] at h'
      cases h'))
  simpa using this.1

/-- A log of one sentence gives a track of one point. -/
example (clock : Nat → DateTime) (h1 : clock 1 = ⟨⟨2024, 5, 6⟩, ⟨1, 2, 3, 456⟩⟩) :
    gpxTracker clock0 clock pb!"$GNGGA,223232.00,5327.04319,S,00214.41396,E,1,05,1.33,32.9,M,48.5,M,,*6A\r\n" =
      (gpxHeader (clock 0) ++ py!"<trkpt lat=\"-53.4507198333\" lon=\"2.2402326667\"><ele>32.9</ele><time>2024-05-06T22:32:32.000456Z</time><fix>3d</fix><hdop>1.33</hdop></trkpt>" ++
        gpxTrailer, none) := by
  have h := C84_log clock0 clock [([], pb!"$GNGGA,223232.00,5327.04319,S,00214.41396,E,1,05,1.33,32.9,M,48.5,M,,*6A\r\n",
      (parse clock0 (.bytes pb!"$GNGGA,223232.00,5327.04319,S,00214.41396,E,1,05,1.33,32.9,M,48.5,M,,*6A\r\n") 0 0 []).toOption.join)]
    [] [py!"<trkpt lat=\"-53.4507198333\" lon=\"2.2402326667\"><ele>32.9</ele><time>2024-05-06T22:32:32.000456Z</time><fix>3d</fix><hdop>1.33</hdop></trkpt>"]
    (by simp) (by simp)
    (by
      intro x hx
      simp only [List.mem_singleton] at hx
      subst hx
      exact ⟨71, pb!"NGGA,223232.00,5327.04319,S,00214.41396,E,1,05,1.33,32.9,M,48.5,M,,*6A\r", by decide +kernel, by decide,
        by decide⟩)
    (by
      intro x hx
      simp only [List.mem_singleton] at hx
      subst hx
      decide +kernel)
    (by
      simp only [List.map_cons, List.map_nil]
      rw [← Option.some_get (x := (parse clock0 (.bytes pb!"$GNGGA,223232.00,5327.04319,S,00214.41396,E,1,05,1.33,32.9,M,48.5,M,,*6A\r\n") 0 0
        []).toOption.join) (by decide +kernel)]
      refine .point _ _ _ _ _ _ (by decide +kernel) ?_ (.nil _)
      rw [← trackPoint_ok, h1]
      decide +kernel)
  simpa using h

end Props.Gpx
