import Verif.Spec.Listing
import Verif.Spec.Handover
import Verif.Props.SocketAny
import Verif.Props.Errors
import Verif.Props.Display
/-!
# C95: the programs nmeafile.py and nmeasocket.py
-/
namespace Props.Listing
open Py Nmea Spec

/-- What a `for` loop makes of the events, errors not being raised. -/
def loopEvents (q : Nat) : List Event → List (Bytes × Option Msg) × List Err × Option Err
  | [] => ([], [], none)
  | .skip :: es => loopEvents q es
  | .eof :: es => loopEvents q es
  | .msg raw m :: es => ((raw, m) :: (loopEvents q es).1, (loopEvents q es).2)
  | .crash e :: _ => ([], [], some e)
  | .err e :: es => ((loopEvents q es).1, (if q = 1 then [e] else []) ++ (loopEvents q es).2.1, (loopEvents q es).2.2)

theorem loop_sess (q : Nat) (hq : q ≠ 2) (evs : List Event) : ∀ log, loopOver (sess q log evs) =
    ((loopEvents q evs).1, log ++ (loopEvents q evs).2.1, (loopEvents q evs).2.2) := by
  induction evs with
  | nil => intro log; simp [sess, loopOver, loopEvents]
  | cons ev evs ih =>
    intro log
    cases ev with
    | skip => simp only [sess, loopEvents]; exact ih log
    | eof => simp only [sess, loopEvents]; exact ih log
    | msg raw m => simp only [sess, loopOver, loopEvents]; rw [ih]; simp
    | crash e => simp [sess, loopOver, loopEvents]
    | err e =>
      simp only [sess, loopEvents, if_neg hq]
      rw [ih]
      split <;> simp

theorem readAll_run {σ} {now : Nat → DateTime} {ops : StreamOps σ} {cfg : RCfg} {s : σ} {evs : List Event}
    (hq : cfg.quitonerror ≠ 2) (h : Run now ops cfg s evs) : readAll now ops cfg s = loopEvents cfg.quitonerror evs := by
  rw [readAll_session (session_of_run h), loop_sess _ hq]
  simp

/-- The three ways a line is taken. -/
theorem line_cases (now : Nat → DateTime) (raw : Bytes) :
    (∃ m s, parse now (.bytes raw) 0 1 [] = .ok (some m) ∧ m.str = .ok s) ∨
      (parse now (.bytes raw) 0 1 [] = .ok none ∧ ¬ ∃ c t i fs k, IsSentence (.bytes raw) c t i fs k) ∨
      (∃ e, parse now (.bytes raw) 0 1 [] = .error e ∧ (e = .nmeaParse ∨ e = .nmeaType)) ∨
      parse now (.bytes raw) 0 1 [] = .error .index := by
  cases h : parse now (.bytes raw) 0 1 [] with
  | ok m =>
    cases m with
    | none => exact .inr (.inl ⟨rfl, ((C14_none_iff now (.bytes raw) 0 1 []).1 h).2.2⟩)
    | some m =>
      obtain ⟨s, hs⟩ := (C52_total now (.bytes raw) 0 1 [] m (by intro kd hkd; cases hkd) h).2
      exact .inl ⟨m, s, rfl, hs⟩
  | error e =>
    rcases C13_exceptions now (.bytes raw) 0 1 [] e h with rfl | rfl | ⟨rfl, _⟩ | ⟨rfl, c, t, i, f, k, d, _, _, _, ⟨key, hk⟩, _⟩
    · exact .inr (.inr (.inl ⟨_, rfl, .inl rfl⟩))
    · exact .inr (.inr (.inl ⟨_, rfl, .inr rfl⟩))
    · exact .inr (.inr (.inr rfl))
    · cases hk

/-- Every stream has exactly one listing. -/
theorem listed_exists (now : Nat → DateTime) (ps : List Piece) : ∃ ts es f, Listed now ps ts es f := by
  induction ps with
  | nil => exact ⟨_, _, _, .nil⟩
  | cons p ps ih =>
    obtain ⟨ts, es, f, ih⟩ := ih
    cases p with
    | junk x => exact ⟨_, _, _, .junk x ps ts es f ih⟩
    | foreign x => exact ⟨_, _, _, .foreign x ps ts es f ih⟩
    | cut x => exact ⟨_, _, _, .cut x ps ts es f ih⟩
    | line raw =>
      rcases line_cases now raw with ⟨m, s, h1, h2⟩ | ⟨_, h⟩ | ⟨e, h1, h2⟩ | h
      · exact ⟨_, _, _, .message raw m s ps ts es f h1 h2 ih⟩
      · exact ⟨_, _, _, .noSentence raw ps ts es f h ih⟩
      · exact ⟨_, _, _, .rejected raw e ps ts es f h1 h2 ih⟩
      · exact ⟨_, _, _, .fatal raw ps h⟩

/-- The loop of the programs against the specification. -/
theorem printed_listed (now : Nat → DateTime) (cfg : RCfg) (hm : cfg.mode = 0) (hv : cfg.validate = 1) (hn : cfg.nmeaonly = false)
    (hu : cfg.udefs = []) (ps ts es f) (h : Listed now ps ts es f) :
    printAll (loopEvents cfg.quitonerror (ps.map (eventOf now cfg))).2.2
        (loopEvents cfg.quitonerror (ps.map (eventOf now cfg))).1 = (textLines ts, ts.length, f) ∧
      (loopEvents cfg.quitonerror (ps.map (eventOf now cfg))).2.1 = (if cfg.quitonerror = 1 then es else []) := by
  induction h with
  | nil => exact ⟨rfl, by simp [loopEvents]⟩
  | message raw m s ps ts es f h1 h2 _ ih =>
    have he : eventOf now cfg (.line raw) = .msg raw (some m) := by simp [eventOf, hm, hv, hu, h1]
    simp only [List.map_cons, he, loopEvents, printAll]
    have hp : printed (some m) = .ok (s ++ [10]) := by simp only [printed, h2]; rfl
    rw [hp]
    simp only [ih.1, ih.2, textLines, List.flatMap_cons, List.length_cons]
    exact ⟨trivial, trivial⟩
  | noSentence raw ps ts es f h1 _ ih =>
    have hnone : parse now (.bytes raw) 0 1 [] = .ok none :=
      (C14_none_iff now (.bytes raw) 0 1 []).2 ⟨.inl rfl, by decide, h1⟩
    have he : eventOf now cfg (.line raw) = .msg raw none := by simp [eventOf, hm, hv, hu, hnone]
    simp only [List.map_cons, he, loopEvents, printAll, printed]
    simp only [ih.1, ih.2, textLines, List.flatMap_cons, List.length_cons]
    exact ⟨rfl, trivial⟩
  | rejected raw e ps ts es f h1 h2 _ ih =>
    have hle : LibraryError e := by rcases h2 with rfl | rfl <;> simp [LibraryError]
    have he : eventOf now cfg (.line raw) = .err e := by simp [eventOf, hm, hv, hu, h1, hle]
    simp only [List.map_cons, he, loopEvents]
    refine ⟨ih.1, ?_⟩
    rw [ih.2]; split <;> rfl
  | fatal raw ps h1 =>
    have he : eventOf now cfg (.line raw) = .crash .index := by simp [eventOf, hm, hv, hu, h1, LibraryError]
    simp only [List.map_cons, he, loopEvents]
    exact ⟨rfl, by split <;> rfl⟩
  | cut raw ps ts es f _ ih =>
    simp only [List.map_cons, eventOf, loopEvents]
    refine ⟨ih.1, ?_⟩
    rw [ih.2]; split <;> rfl
  | junk x ps ts es f _ ih => simpa only [List.map_cons, eventOf, loopEvents] using ih
  | foreign x ps ts es f _ ih =>
    have he : eventOf now cfg (.foreign x) = .skip := by simp [eventOf, hn]
    simpa only [List.map_cons, he, loopEvents] using ih

/-- **C95, every stream has exactly one listing.** -/
theorem C95_listing (now : Nat → DateTime) (ps : List Piece) :
    ∃ ts es f, Listed now ps ts es f ∧ ∀ ts' es' f', Listed now ps ts' es' f' → ts' = ts ∧ es' = es ∧ f' = f := by
  obtain ⟨ts, es, f, h⟩ := listed_exists now ps
  refine ⟨ts, es, f, h, ?_⟩
  induction h with
  | nil => intro ts' es' f' h'; cases h'; exact ⟨rfl, rfl, rfl⟩
  | message raw m s ps ts es f h1 h2 _ ih =>
    intro ts' es' f' h'
    cases h' with
    | message _ m' s' _ _ _ _ h1' h2' h' =>
      rw [h1] at h1'; cases h1'
      rw [h2] at h2'; cases h2'
      obtain ⟨rfl, rfl, rfl⟩ := ih _ _ _ h'
      exact ⟨rfl, rfl, rfl⟩
    | noSentence _ _ _ _ _ h1' =>
      rw [(C14_none_iff now (.bytes raw) 0 1 []).2 ⟨.inl rfl, by decide, h1'⟩] at h1; cases h1
    | rejected _ _ _ _ _ _ h1' => rw [h1] at h1'; cases h1'
    | fatal _ _ h1' => rw [h1] at h1'; cases h1'
  | noSentence raw ps ts es f h1 _ ih =>
    have h1 := (C14_none_iff now (.bytes raw) 0 1 []).2 ⟨.inl rfl, by decide, h1⟩
    intro ts' es' f' h'
    cases h' with
    | message _ m' s' _ _ _ _ h1' h2' h' => rw [h1] at h1'; cases h1'
    | noSentence _ _ _ _ _ h1' h' =>
      obtain ⟨rfl, rfl, rfl⟩ := ih _ _ _ h'
      exact ⟨rfl, rfl, rfl⟩
    | rejected _ _ _ _ _ _ h1' => rw [h1] at h1'; cases h1'
    | fatal _ _ h1' => rw [h1] at h1'; cases h1'
  | rejected raw e ps ts es f h1 h2 _ ih =>
    intro ts' es' f' h'
    cases h' with
    | message _ m' s' _ _ _ _ h1' h2' h' => rw [h1] at h1'; cases h1'
    | noSentence _ _ _ _ _ h1' h' =>
      rw [(C14_none_iff now (.bytes raw) 0 1 []).2 ⟨.inl rfl, by decide, h1'⟩] at h1; cases h1
    | rejected _ _ _ _ _ _ h1' _ h' =>
      rw [h1] at h1'; cases h1'
      obtain ⟨rfl, rfl, rfl⟩ := ih _ _ _ h'
      exact ⟨rfl, rfl, rfl⟩
    | fatal _ _ h1' => rw [h1] at h1'; cases h1'; rcases h2 with h2 | h2 <;> cases h2
  | fatal raw ps h1 =>
    intro ts' es' f' h'
    cases h' with
    | message _ m' s' _ _ _ _ h1' h2' h' => rw [h1] at h1'; cases h1'
    | noSentence _ _ _ _ _ h1' h' =>
      rw [(C14_none_iff now (.bytes raw) 0 1 []).2 ⟨.inl rfl, by decide, h1'⟩] at h1; cases h1
    | rejected _ _ _ _ _ _ h1' h2 => rw [h1] at h1'; cases h1'; rcases h2 with h2 | h2 <;> cases h2
    | fatal _ _ h1' => exact ⟨rfl, rfl, rfl⟩
  | cut raw ps ts es f _ ih =>
    intro ts' es' f' h'
    cases h' with
    | cut _ _ _ _ _ h' => obtain ⟨rfl, rfl, rfl⟩ := ih _ _ _ h'; exact ⟨rfl, rfl, rfl⟩
  | junk x ps ts es f _ ih =>
    intro ts' es' f' h'
    cases h' with
    | junk _ _ _ _ _ h' => exact ih _ _ _ h'
  | foreign x ps ts es f _ ih =>
    intro ts' es' f' h'
    cases h' with
    | foreign _ _ _ _ _ h' => exact ih _ _ _ h'

/-- **C95, nmeafile.py.** For every file, the program prints the listing of the file, one text a line, and at the end the
number of texts - unless a sentence of the file makes `parse` raise `IndexError`: then it ends there, with this exception
and without the number. The error handler of the program is never called. -/
theorem C95_file (now : Nat → DateTime) (name : Str) (b : Bytes) (ps : List Piece) (hp : Pieces b ps) (ts es f)
    (h : Listed now ps ts es f) :
    (nmeaFile now name b).text = py!"\nOpening file " ++ name ++ py!"...\n\n" ++ textLines ts ++
        (if f = none then py!"\n" ++ natDec ts.length ++ py!" messages read.\n\n\nProcessing Complete\n" else []) ∧
      (nmeaFile now name b).failed = f ∧ (nmeaFile now name b).reported = [] := by
  have hr := readAll_run (cfg := fileCfg) (by decide) (step_file_run now fileCfg b ps hp)
  obtain ⟨h1, h2⟩ := printed_listed now fileCfg rfl rfl rfl rfl ps ts es f h
  unfold nmeaFile
  rw [hr]
  simp only
  rw [h1, h2]
  cases f with
  | none =>
    refine ⟨?_, rfl, rfl⟩
    simp only [if_true, List.append_assoc]
    rfl
  | some e => exact ⟨by simp, rfl, rfl⟩

/-- The events until `read()` returns `(None, None)`. -/
theorem heard_run (now : Nat → DateTime) (cfg : RCfg) (bs ps) (h : Heard bs ps) :
    ∃ r, Passes now SocketAny.crlfStream cfg (withTimeouts bs) (ps.map (eventOf now cfg) ++ [.eof]) r := by
  induction h with
  | last b ps i hp =>
    have := SocketAny.socket_burst now cfg [] [] .done b ps i hp
    rw [List.append_nil] at this
    cases i with
    | false => exact ⟨[], this⟩
    | true =>
      simp only [if_true, List.append_nil] at this
      exact ⟨[], this.append (.cons _ _ _ _ _ rfl (.nil _))⟩
  | quiet b ps bs hne hp =>
    have := SocketAny.socket_burst now cfg _ _ (.timeout (withTimeouts bs)) b ps false hp
    cases bs with
    | nil => exact absurd rfl hne
    | cons c bs => exact ⟨_, this⟩
  | inLine b ps bs qs hne hp _ ih =>
    obtain ⟨r, ih⟩ := ih
    have := SocketAny.socket_burst now cfg _ _ (.timeout (withTimeouts bs)) b ps true hp
    cases bs with
    | nil => exact absurd rfl hne
    | cons c bs =>
      refine ⟨r, ?_⟩
      simp only [if_true, List.append_nil] at this
      rw [List.map_append, List.append_assoc]
      exact this.append ih

theorem run_of_passes {σ} {now : Nat → DateTime} {ops : StreamOps σ} {cfg : RCfg} (evs : List Event) (hne : .eof ∉ evs) :
    ∀ s r, Passes now ops cfg s (evs ++ [.eof]) r → Run now ops cfg s evs := by
  induction evs with
  | nil => intro s r h; cases h with | cons _ _ s1 _ _ h _ => exact .done s s1 h
  | cons ev evs ih =>
    intro s r h
    cases h with
    | cons _ _ s1 _ _ h h' =>
      exact .more s ev s1 evs h (fun e => hne (by simp [e])) (ih (fun e => hne (List.mem_cons_of_mem _ e)) s1 r h')

theorem run_sim {σ τ} (now : Nat → DateTime) (o1 : StreamOps σ) (o2 : StreamOps τ) (cfg : RCfg) (R : σ → τ → Prop)
    (h : ∀ s t, R s t → (step now o1 cfg s).1 = (step now o2 cfg t).1 ∧ R (step now o1 cfg s).2 (step now o2 cfg t).2)
    (t : τ) (evs) (hr : Run now o2 cfg t evs) : ∀ s, R s t → Run now o1 cfg s evs := by
  induction hr with
  | done t t' ht =>
    intro s hR
    obtain ⟨h1, _⟩ := h s t hR
    rw [ht] at h1
    exact .done s _ (Prod.ext h1 rfl)
  | more t ev t' evs ht hne _ ih =>
    intro s hR
    obtain ⟨h1, h2⟩ := h s t hR
    rw [ht] at h1 h2
    exact .more s ev _ evs (Prod.ext h1 rfl) hne (ih _ h2)

theorem eventOf_ne_eof (now : Nat → DateTime) (cfg : RCfg) (p : Piece) : eventOf now cfg p ≠ .eof := by
  cases p with
  | junk => simp [eventOf]
  | foreign => simp only [eventOf]; split <;> simp
  | cut => simp [eventOf]
  | line =>
    simp only [eventOf]
    split
    · simp
    · split <;> simp

/-- **C95, nmeasocket.py.** Whatever arrives on the socket, in whatever segments and with failures wherever: the program
prints the listing of what it hears - up to the first failure or timeout that does not come inside a line, or the end -
and then ends; the errors of rejected and cut-off lines are logged, each once and in order. -/
theorem C95_socket (now : Nat → DateTime) (z : Zlib) (address : Str) (port : Nat) (script : List RecvEv) (bs : List Bytes)
    (hw : wire z 0 (Sock.open z 0 script) = withTimeouts bs) (ps : List Piece) (hh : Heard bs ps) (ts es f)
    (h : Listed now ps ts es f) :
    (nmeaSocket now z address port script).text = py!"Opening socket " ++ address ++ py!":" ++ natDec port ++
        py!"...\nStarting NMEA reader...\n" ++ textLines ts ∧
      (nmeaSocket now z address port script).failed = f ∧ (nmeaSocket now z address port script).reported = es := by
  obtain ⟨r, hpass⟩ := heard_run now socketCfg bs ps hh
  have hrun := run_of_passes _ (by
    intro hm
    obtain ⟨p, _, hp⟩ := List.mem_map.1 hm
    exact eventOf_ne_eof now socketCfg p hp) _ _ hpass
  have hrun' := run_sim now (sockStream z 0) SocketAny.crlfStream socketCfg (fun s w => wire z 0 s = w)
    (fun s w h => SocketAny.sock_crlf z 0 now socketCfg s w h) _ _ hrun _ hw
  have hr := readAll_run (cfg := socketCfg) (by decide) hrun'
  obtain ⟨h1, h2⟩ := printed_listed now socketCfg rfl rfl rfl rfl ps ts es f h
  unfold nmeaSocket
  rw [hr]
  simp only
  rw [h1, h2]
  refine ⟨?_, rfl, rfl⟩
  simp only [List.append_assoc]
  rfl

/-- There is always exactly one `ps` as in `C95_socket`. -/
theorem C95_heard (bs : List Bytes) (hne : bs ≠ []) : ∃ ps, Heard bs ps ∧ ∀ qs, Heard bs qs → qs = ps := by
  induction bs with
  | nil => exact absurd rfl hne
  | cons b bs ih =>
    obtain ⟨ps, i, hp⟩ := SocketAny.pieces_exist b
    by_cases hbs : bs = []
    · subst hbs
      refine ⟨ps, .last b ps i hp, fun qs h => ?_⟩
      cases h with
      | last _ _ _ hq => exact (SocketAny.pieces_unique hq hp).1
      | quiet _ _ _ h => exact absurd rfl h
      | inLine _ _ _ _ h => exact absurd rfl h
    · cases i with
      | false =>
        refine ⟨ps, .quiet b ps bs hbs hp, fun qs h => ?_⟩
        cases h with
        | last => exact absurd rfl hbs
        | quiet _ _ _ _ hq => exact (SocketAny.pieces_unique hq hp).1
        | inLine _ _ _ _ _ hq => have := (SocketAny.pieces_unique hq hp).2; cases this
      | true =>
        obtain ⟨rest, hr, hu⟩ := ih hbs
        refine ⟨ps ++ rest, .inLine b ps bs rest hbs hp hr, fun qs h => ?_⟩
        cases h with
        | last => exact absurd rfl hbs
        | quiet _ _ _ _ hq => have := (SocketAny.pieces_unique hq hp).2; cases this
        | inLine _ _ _ _ _ hq hr' => rw [(SocketAny.pieces_unique hq hp).1, hu _ hr']

/-- **C95, the number.** The number of messages the program reports counts every complete line that is not rejected -
lines that are no sentences, printed as `None`, included. -/
theorem C95_count (now : Nat → DateTime) (ps ts es) (h : Listed now ps ts es none) :
    ts.length + ((linesOf ps).filter fun raw =>
      match parse now (.bytes raw) 0 1 [] with | .error _ => true | .ok _ => false).length = (linesOf ps).length := by
  generalize hf : (none : Option Err) = f at h
  induction h with
  | nil => rfl
  | message raw m s ps ts es f h1 h2 _ ih => have := ih hf; simp [linesOf, h1]; omega
  | noSentence raw ps ts es f h1 _ ih =>
    have h1 := (C14_none_iff now (.bytes raw) 0 1 []).2 ⟨.inl rfl, by decide, h1⟩
    have := ih hf; simp [linesOf, h1]; omega
  | rejected raw e ps ts es f h1 h2 _ ih => have := ih hf; simp [linesOf, h1]; omega
  | fatal => cases hf
  | cut raw ps ts es f _ ih => simpa [linesOf] using ih hf
  | junk x ps ts es f _ ih => simpa [linesOf] using ih hf
  | foreign x ps ts es f _ ih => simpa [linesOf] using ih hf

/-- **C95, the end.** The programs end with an exception exactly if some line makes `parse` raise `IndexError`. -/
theorem C95_fails (now : Nat → DateTime) (ps ts es f) (h : Listed now ps ts es f) :
    (f = none ∨ f = some .index) ∧
      (f = some .index ↔ ∃ raw ∈ linesOf ps, parse now (.bytes raw) 0 1 [] = .error .index) := by
  induction h with
  | nil => simp [linesOf]
  | message raw m s ps ts es f h1 h2 _ ih => refine ⟨ih.1, ih.2.trans ?_⟩; simp [linesOf, h1]
  | noSentence raw ps ts es f h1 _ ih =>
    have h1 := (C14_none_iff now (.bytes raw) 0 1 []).2 ⟨.inl rfl, by decide, h1⟩
    refine ⟨ih.1, ih.2.trans ?_⟩; simp [linesOf, h1]
  | rejected raw e ps ts es f h1 h2 _ ih =>
    refine ⟨ih.1, ih.2.trans ?_⟩
    rcases h2 with rfl | rfl <;> simp [linesOf, h1]
  | fatal raw ps h1 => simp [linesOf, h1]
  | cut raw ps ts es f _ ih => simpa [linesOf] using ih
  | junk x ps ts es f _ ih => simpa [linesOf] using ih
  | foreign x ps ts es f _ ih => simpa [linesOf] using ih

/-! ## Concrete cases -/

/-- A heading line, a line without `*`, one with a wrong checksum: the first is printed, the second as `None`, the third
not; the program says it read two messages. A line `$PUBX*1F` ends the program. -/
theorem C95_example :
    (nmeaFile clock0 py!"f" (pb!"$GNHDT,1.5,T*2F\r\n" ++ pb!"$GN\n" ++ pb!"$GNHDT,1.5,T*00\r\n")).text =
      py!"\nOpening file f...\n\n<NMEA(GNHDT, headingT=1.5, headingTu=T)>\nNone\n\n2 messages read.\n\n\nProcessing Complete\n" ∧
    (nmeaFile clock0 py!"f" (pb!"$GN\n" ++ pb!"$PUBX*1F\r\n" ++ pb!"$GN\n")).text =
      py!"\nOpening file f...\n\nNone\n" ∧
    (nmeaFile clock0 py!"f" (pb!"$GN\n" ++ pb!"$PUBX*1F\r\n" ++ pb!"$GN\n")).failed = some .index := by
  obtain ⟨m, hm, hs⟩ := (acceptedWith_iff (fun m => match m.str with
      | .ok s => s == py!"<NMEA(GNHDT, headingT=1.5, headingTu=T)>" | .error _ => false)
    (parse clock0 (.bytes pb!"$GNHDT,1.5,T*2F\r\n") 0 1 [])).1 (by decide +kernel)
  have hs : m.str = .ok py!"<NMEA(GNHDT, headingT=1.5, headingTu=T)>" := by
    revert hs
    cases m.str with
    | ok s => intro h; simp only [beq_iff_eq] at h; rw [h]
    | error e => intro h; cases h
  have hn : ¬ ∃ c t i fs k, IsSentence (.bytes pb!"$GN\n") c t i fs k := by
    have h : parse clock0 (.bytes pb!"$GN\n") 0 1 [] = .ok none := by
      have : (match parse clock0 (.bytes pb!"$GN\n") 0 1 [] with | .ok none => true | _ => false) = true := by decide +kernel
      revert this
      cases parse clock0 (.bytes pb!"$GN\n") 0 1 [] with
      | ok m => cases m with
        | none => intro _; rfl
        | some m => intro h; cases h
      | error e => intro h; cases h
    exact ((C14_none_iff _ _ _ _ _).1 h).2.2
  have hr : parse clock0 (.bytes pb!"$GNHDT,1.5,T*00\r\n") 0 1 [] = .error .nmeaParse := by decide +kernel
  have hi : parse clock0 (.bytes pb!"$PUBX*1F\r\n") 0 1 [] = .error .index := by decide +kernel
  have p1 : Pieces (pb!"$GNHDT,1.5,T*2F\r\n" ++ pb!"$GN\n" ++ pb!"$GNHDT,1.5,T*00\r\n")
      [.line pb!"$GNHDT,1.5,T*2F\r\n", .line pb!"$GN\n", .line pb!"$GNHDT,1.5,T*00\r\n"] := by
    have h3 := Pieces.line 71 pb!"NHDT,1.5,T*00\r" [] [] (by decide +kernel) (by decide +kernel) .nil
    have h2 := Pieces.line 71 pb!"N" _ _ (by decide +kernel) (by decide +kernel) h3
    exact Pieces.line 71 pb!"NHDT,1.5,T*2F\r" _ _ (by decide +kernel) (by decide +kernel) h2
  have p2 : Pieces (pb!"$GN\n" ++ pb!"$PUBX*1F\r\n" ++ pb!"$GN\n")
      [.line pb!"$GN\n", .line pb!"$PUBX*1F\r\n", .line pb!"$GN\n"] := by
    have h3 := Pieces.line 71 pb!"N" [] [] (by decide +kernel) (by decide +kernel) .nil
    have h2 := Pieces.line 80 pb!"UBX*1F\r" _ _ (by decide +kernel) (by decide +kernel) h3
    exact Pieces.line 71 pb!"N" _ _ (by decide +kernel) (by decide +kernel) h2
  have e1 := C95_file clock0 py!"f" _ _ p1 _ _ _ (.message _ m _ _ _ _ _ hm hs (.noSentence _ _ _ _ _ hn
    (.rejected _ _ _ _ _ _ hr (.inl rfl) .nil)))
  have e2 := C95_file clock0 py!"f" _ _ p2 _ _ _ (.noSentence _ _ _ _ _ hn (.fatal _ [.line pb!"$GN\n"] hi))
  exact ⟨e1.1.trans (by decide +kernel), e2.1.trans (by decide +kernel), e2.2.1⟩

/-- A timeout inside a line does not end the program nmeasocket.py, a timeout between lines does: what is sent after it
is not read. -/
theorem C95_socket_example (z : Zlib) :
    (nmeaSocket clock0 z py!"h" 50012 [.data pb!"$GN\r\n$GN", .data pb!"HD", .fail, .data pb!"$GN\r\n", .fail, .data pb!"$GN\r\n"]).text =
      py!"Opening socket h:50012...\nStarting NMEA reader...\nNone\nNone\n" ∧
    (nmeaSocket clock0 z py!"h" 50012 [.data pb!"$GN\r\n$GN", .data pb!"HD", .fail, .data pb!"$GN\r\n", .fail, .data pb!"$GN\r\n"]).reported =
      [.nmeaStream] := by
  have hn : ¬ ∃ c t i fs k, IsSentence (.bytes pb!"$GN\r\n") c t i fs k := by
    have h : parse clock0 (.bytes pb!"$GN\r\n") 0 1 [] = .ok none := by
      have : (match parse clock0 (.bytes pb!"$GN\r\n") 0 1 [] with | .ok none => true | _ => false) = true := by decide +kernel
      revert this
      cases parse clock0 (.bytes pb!"$GN\r\n") 0 1 [] with
      | ok m => cases m with
        | none => intro _; rfl
        | some m => intro h; cases h
      | error e => intro h; cases h
    exact ((C14_none_iff _ _ _ _ _).1 h).2.2
  have ncr : ∀ b : Bytes, (10 : UInt8) ∉ b → ¬ HasCrLf b := fun b h hc => h (hasCrLf_lf b hc)
  have s1 : SocketPieces pb!"$GN\r\n$GNHD" [.line pb!"$GN\r\n", .cut pb!"$GNHD"] true :=
    SocketPieces.line 71 pb!"N" _ _ _ (by decide +kernel) (ncr _ (by decide +kernel))
      (SocketPieces.cut 71 pb!"NHD" (by decide +kernel) (by decide) (ncr _ (by decide +kernel)) (by decide))
  have s2 : SocketPieces pb!"$GN\r\n" [.line pb!"$GN\r\n"] false :=
    SocketPieces.line 71 pb!"N" [] _ _ (by decide +kernel) (ncr _ (by decide +kernel)) .nil
  have hh : Heard [pb!"$GN\r\n$GNHD", pb!"$GN\r\n", pb!"$GN\r\n"]
      ([.line pb!"$GN\r\n", .cut pb!"$GNHD"] ++ [.line pb!"$GN\r\n"]) :=
    .inLine _ _ _ _ (by simp) s1 (.quiet _ _ _ (by simp) s2)
  have := C95_socket clock0 z py!"h" 50012
    [.data pb!"$GN\r\n$GN", .data pb!"HD", .fail, .data pb!"$GN\r\n", .fail, .data pb!"$GN\r\n"] _
    (by rw [open_wire z 0 rfl]; rfl) _ hh _ _ _
    (.noSentence _ _ _ _ _ hn (.cut _ _ _ _ _ (.noSentence _ _ _ _ _ hn .nil)))
  exact ⟨this.1.trans (by decide +kernel), this.2.2⟩

end Props.Listing
