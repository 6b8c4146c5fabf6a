import Verif.Spec.Xml
import Verif.Props.GpxTracker
import Verif.Props.Listing
/-!
# C84: the finished track file is well-formed XML
-/
namespace Props.Gpx
open Py Nmea Spec Spec.Gpx Spec.Xml Props

/-! ## Characters of numbers -/

theorem text_nil : IsText [] := by intro c h; cases h
theorem text_cons {c : Nat} {s : Str} (h : c ≠ 34 ∧ c ≠ 38 ∧ c ≠ 60 ∧ c ≠ 62) (hs : IsText s) : IsText (c :: s) := by
  intro x hx; rcases List.mem_cons.1 hx with rfl | hx
  · exact h
  · exact hs x hx
theorem text_append {a b : Str} (ha : IsText a) (hb : IsText b) : IsText (a ++ b) := by
  intro x hx; rcases List.mem_append.1 hx with hx | hx
  · exact ha x hx
  · exact hb x hx
theorem text_sub {s t : Str} (h : IsText t) (hs : ∀ c ∈ s, c ∈ t) : IsText s := fun c hc => h c (hs c hc)
theorem text_rep (n : Nat) : IsText (List.replicate n 48) := by
  intro x hx; rw [List.eq_of_mem_replicate hx]; omega
theorem text_digits (ds : List Nat) (h : ∀ d ∈ ds, d < 10) : IsText (ds.map digitUpper) := by
  intro x hx
  obtain ⟨d, hd, rfl⟩ := List.mem_map.1 hx
  have := h d hd
  unfold digitUpper; split <;> omega
theorem text_natDec (n : Nat) : IsText (natDec n) := text_digits _ (digits_lt 10 n (by omega))
theorem text_padZero (w : Nat) (s : Str) (h : IsText s) : IsText (padZero w s) := text_append (text_rep _) h
theorem text_dec (w n : Nat) : IsText (dec w n) := text_padZero _ _ (text_natDec n)

instance (s : Str) : Decidable (IsText s) := by unfold IsText; infer_instance
instance (s : Str) : Decidable (IsName s) := by unfold IsName; infer_instance
instance (l : List (Str × Str)) : Decidable (AreAttributes l) := by unfold AreAttributes; infer_instance

theorem text_reprDigits (ds : List Nat) (p : Int) (h : ∀ d ∈ ds, d < 10) : IsText (reprDigits ds p) := by
  have hc := text_digits ds h
  unfold reprDigits
  simp only
  split
  · apply text_append
    · match ds, hc with
      | [], _ => exact text_nil
      | [a], hc => exact hc
      | a :: b :: r, hc =>
        simp only [List.map_cons] at hc ⊢
        exact text_cons (hc _ (by simp)) (text_cons (by omega) (fun x hx => hc x (List.mem_cons_of_mem _ hx)))
    · refine text_cons (by omega) (text_cons ?_ (text_padZero _ _ (text_natDec _)))
      split <;> omega
  · split
    · exact text_cons (by omega) (text_cons (by omega) (text_append (text_rep _) hc))
    · split
      · exact text_append (text_append hc (text_rep _)) (text_cons (by omega) (text_cons (by omega) text_nil))
      · exact text_append (text_sub hc fun c h => List.mem_of_mem_take h)
          (text_cons (by omega) (text_sub hc fun c h => List.mem_of_mem_drop h))

theorem text_reprFloat (x : PyFloat) : IsText (reprFloat x) := by
  cases x with
  | nan => exact (by decide : IsText py!"nan")
  | inf s => cases s <;> decide
  | fin s m =>
    have hb : IsText (if m = 0 then py!"0.0" else
        let (d, e) := shortest m
        let ds := digits 10 d
        reprDigits (stripZeros ds) ((ds.length : Int) + e)) := by
      split
      · decide
      · apply text_reprDigits
        intro d hd
        apply digits_lt 10 (shortest m).1 (by omega)
        unfold stripZeros at hd
        rw [List.mem_reverse] at hd
        have := List.dropWhile_sublist (fun x => x == 0) (l := (digits 10 (shortest m).1).reverse)
        exact List.mem_reverse.1 (this.subset hd)
    unfold reprFloat
    cases s
    · exact hb
    · exact text_cons (by omega) hb

theorem text_date (d : Date) : IsText d.str := by
  unfold Date.str
  exact text_append (text_append (text_dec _ _) (text_cons (by omega) (text_dec _ _))) (text_cons (by omega) (text_dec _ _))

theorem text_time (t : Time) : IsText t.str := by
  unfold Time.str
  refine text_append (text_append (text_append (text_dec _ _) (text_cons (by omega) (text_dec _ _)))
    (text_cons (by omega) (text_dec _ _))) ?_
  split
  · exact text_nil
  · exact text_cons (by omega) (text_dec _ _)

theorem text_printable {v : PyVal} (h : Printable v) {s : Str} (hs : v.toStr = .ok s) : IsText s := by
  cases v <;> simp only [Printable] at h
  · cases hs; exact text_reprFloat _
  · cases hs; rw [h]; exact text_nil

/-! ## Elements -/

theorem content_append {a b : Str} (ha : Content a) (hb : Content b) : Content (a ++ b) := by
  induction ha with
  | nil => exact hb
  | text s r hs _ ih => rw [List.append_assoc]; exact .text s _ hs ih
  | element name attrs body r hn hat hbody _ _ ih =>
    have := Content.element name attrs body (r ++ b) hn hat hbody ih
    simpa only [List.append_assoc] using this

theorem content_flatten (l : List Str) (h : ∀ s ∈ l, Content s) : Content l.flatten := by
  induction l with
  | nil => exact .nil
  | cons s l ih => exact content_append (h s (by simp)) (ih fun x hx => h x (by simp [hx]))

theorem content_text {s : Str} (h : IsText s) : Content s := by
  have := Content.text s [] h .nil
  simpa using this

/-- One element. -/
theorem content_el (name : Str) (attrs : List (Str × Str)) (body : Str) (hn : IsName name) (ha : AreAttributes attrs) (hb : Content body) :
    Content (py!"<" ++ name ++ attributes attrs ++ py!">" ++ body ++ py!"</" ++ name ++ py!">") := by
  have := Content.element name attrs body [] hn ha hb .nil
  simpa using this

/-- The messages returned are those `parse` makes of the lines. -/
theorem items_parsed (now : Nat → DateTime) (log : Bytes) (items errors fin) (h : readAll now fileStream trackerCfg log = (items, errors, fin)) :
    ∀ raw m, (raw, some m) ∈ items → parse now (.bytes raw) 0 0 [] = .ok (some m) := by
  obtain ⟨ps, hp⟩ := pieces_exists log
  have hr := Listing.readAll_run (cfg := trackerCfg) (by decide) (step_file_run now trackerCfg log ps hp)
  rw [h] at hr
  have key : ∀ ps : List Piece, ∀ raw m, (raw, some m) ∈ (Listing.loopEvents trackerCfg.quitonerror (ps.map (eventOf now trackerCfg))).1 →
      parse now (.bytes raw) 0 0 [] = .ok (some m) := by
    intro ps
    induction ps with
    | nil => intro raw m hm; cases hm
    | cons p ps ih =>
      intro raw m hm
      cases p with
      | junk x => exact ih raw m hm
      | foreign x =>
        have : eventOf now trackerCfg (.foreign x) = .skip := by simp [eventOf, trackerCfg]
        rw [List.map_cons, this] at hm
        exact ih raw m hm
      | cut x => exact ih raw m hm
      | line x =>
        rw [List.map_cons] at hm
        have hx : eventOf now trackerCfg (.line x) = match parse now (.bytes x) 0 0 [] with
            | .ok m => .msg x m
            | .error e => if LibraryError e then .err e else .crash e := rfl
        rw [hx] at hm
        cases hpx : parse now (.bytes x) 0 0 [] with
        | ok mo =>
          rw [hpx] at hm
          simp only [Listing.loopEvents, List.mem_cons, Prod.mk.injEq] at hm
          rcases hm with ⟨rfl, rfl⟩ | hm
          · exact hpx
          · exact ih raw m hm
        | error e =>
          rw [hpx] at hm
          simp only at hm
          split at hm
          · exact ih raw m hm
          · cases hm
  intro raw m hm
  refine key ps raw m ?_
  rw [← hr]
  exact hm

/-- The values of the attributes written are floats or empty texts. -/
theorem gga_printable (now : Nat → DateTime) (msg : RawMsg) (v : Nat) (u : UDefs) (m : Msg)
    (h : parse now msg 0 v u = .ok (some m)) (hid : m.msgID = py!"GGA") : PrintableAttrs m.attrs := by
  obtain ⟨_, p, hp, _, _, hcase⟩ := parse_accepted _ _ _ _ _ _ h
  have hpi : p.msgid = py!"GGA" := by
    rcases hcase with ⟨_, _, rfl⟩ | ⟨d, st, _, _, rfl⟩ <;> exact hid
  have hs := (getParts_sentence msg p).1 hp
  obtain ⟨c, t, i, f, k⟩ := p
  simp only at hpi
  subst hpi
  simp only at hs
  obtain ⟨hst, hnd, hsl, hd, hstd, hpre⟩ := gga_static
  have hmem : (upper py!"GGA", GET.GGA) ∈ standardDefs 0 := lookup_some_mem _ _ _ hd
  have hft : fieldTexts t py!"GGA" f = f := by
    apply fieldTexts_id
    have htl : t.length ≤ 2 := by
      obtain ⟨_, _, _, _, _, h⟩ := hs
      rcases h with rfl | ⟨_, h | h⟩
      · decide
      · omega
      · omega
    rintro (h | ⟨_, h, _⟩)
    · have := congrArg List.length h
      rw [List.length_append] at this
      have e : (py!"PSSNSNC").length = 7 := by decide
      have e' : (py!"GGA").length = 3 := by decide
      omega
    · revert h; decide
  have ha := admitted_of_accept _ _ _ _ _ _ _ _ _ _ hs _ h
  obtain ⟨slots, hx, hr⟩ := (C16_layout now msg 0 v u c t _ k f hs ha _ (layout_definition hd hstd hpre u f)
    (tables_sane.1 0 _ hmem) m.attrs).1 ⟨m, h, rfl⟩
  rw [hft] at hx hr
  rw [expand_static_iff _ _ _ hst] at hx
  subst hx
  exact printable_read _ _ _ _ hr (by rw [hsl]; decide) (by intro n _ x hx; cases hx)

theorem point_content {today : DateTime} {m : Msg} {s : Str} (hp : PrintableAttrs m.attrs) (h : IsPoint today m s) : Content s := by
  obtain ⟨time, q, lat, lon, alt, hdop, tlat, tlon, talt, thdop, _, _, h3, h4, h5, h6, e3, e4, e5, e6, rfl⟩ := h
  have x3 := text_printable (hp _ (by decide) _ h3) e3
  have x4 := text_printable (hp _ (by decide) _ h4) e4
  have x5 := text_printable (hp _ (by decide) _ h5) e5
  have x6 := text_printable (hp _ (by decide) _ h6) e6
  generalize hf : (if q.isNumber 1 then py!"3d" else if q.isNumber 2 then py!"2d" else py!"none") = fix
  have xf : IsText fix := by
    rw [← hf]
    split
    · decide
    · split <;> decide
  have xt : IsText (today.date.str ++ py!"T" ++ (⟨time.hour, time.minute, time.second, today.time.micro⟩ : Time).str ++ py!"Z") :=
    text_append (text_append (text_append (text_date _) (by decide)) (text_time _)) (by decide)
  have c1 := content_el py!"ele" [] talt (by decide) (by decide) (content_text x5)
  have c2 := content_el py!"time" [] _ (by decide) (by decide) (content_text xt)
  have c3 := content_el py!"fix" [] fix (by decide) (by decide) (content_text xf)
  have c4 := content_el py!"hdop" [] thdop (by decide) (by decide) (content_text x6)
  have c5 := content_append c1 (content_append c2 (content_append c3 c4))
  have ha : AreAttributes [(py!"lat", tlat), (py!"lon", tlon)] := by
    refine ⟨(by decide : ([py!"lat", py!"lon"] : List Str).Nodup), ?_⟩
    intro a ha
    simp only [List.mem_cons, List.not_mem_nil, or_false] at ha
    rcases ha with rfl | rfl
    · exact ⟨(by decide : IsName py!"lat"), x3⟩
    · exact ⟨(by decide : IsName py!"lon"), x4⟩
  have := content_el py!"trkpt" [(py!"lat", tlat), (py!"lon", tlon)] _ (by decide) ha c5
  simp [attributes, List.append_assoc] at this
  simp [List.append_assoc]
  exact this

theorem points_content {now clock : Nat → DateTime} {items : List (Bytes × Option Msg)} {k : Nat} {points : List Str}
    (hi : ∀ raw m, (raw, some m) ∈ items → parse now (.bytes raw) 0 0 [] = .ok (some m)) (h : Points clock k items points) :
    ∀ s ∈ points, Content s := by
  induction h with
  | nil => intro s hs; cases hs
  | other k raw m items points _ _ ih => exact ih fun r m' hm => hi r m' (by simp [hm])
  | point k raw m s items points hg hp _ ih =>
    intro x hx
    rcases List.mem_cons.1 hx with rfl | hx
    · exact point_content (gga_printable now _ 0 [] m (hi raw m (by simp)) hg) hp
    · exact ih (fun r m' hm => hi r m' (by simp [hm])) x hx

set_option maxRecDepth 20000 in
/-- Whatever is in the log: a file that the program finishes is well-formed XML, an element `gpx` holding the metadata and a track
with one segment, and in the segment the points. -/
theorem C84_well_formed (now clock : Nat → DateTime) (log : Bytes) (text : Str) (h : gpxTracker now clock log = (text, none)) :
    Document text := by
  obtain ⟨items, errors, points, hr, hp, rfl⟩ := (C84_track now clock log text).1 h
  have hc := content_flatten points (points_content (items_parsed now log items errors none hr) hp)
  have xt : IsText (isoformat (clock 0) ++ py!"Z") :=
    text_append (text_append (text_date _) (text_cons (by omega) (text_time _))) (by decide)
  have c1 := content_el py!"text" [] py!"pynmeagps" (by decide) (by decide) (content_text (by decide))
  have c2 := content_el py!"link" [(py!"href", py!"https://github.com/semuconsulting/pynmeagps")] _ (by decide) (by decide) c1
  have c3 := content_el py!"time" [] _ (by decide) (by decide) (content_text xt)
  have c4 := content_el py!"metadata" [] _ (by decide) (by decide) (content_append c2 c3)
  have c5 := content_el py!"name" [] py!"GPX track from NMEA datalog" (by decide) (by decide) (content_text (by decide))
  have c6 := content_el py!"trkseg" [] _ (by decide) (by decide) hc
  have c7 := content_el py!"trk" [] _ (by decide) (by decide) (content_append c5 c6)
  refine ⟨py!"gpx", [(py!"xmlns", py!"http://www.topografix.com/GPX/1/1"), (py!"creator", py!"pynmeagps"), (py!"version", py!"1.1"),
    (py!"xmlns:xsi", py!"http://www.w3.org/2001/XMLSchema-instance"),
    (py!"xsi:schemaLocation", py!"http://www.topografix.com/GPX/1/1 http://www.topografix.com/GPX/1/1/gpx.xsd")],
    _, by decide, by decide, content_append c4 c7, ?_⟩
  simp [gpxHeader, gpxOpen, gpxTrailer, attributes, List.append_assoc]

end Props.Gpx
