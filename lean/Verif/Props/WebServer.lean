import Verif.Spec.WebServer
import Verif.Props.GpxTracker
import Verif.Props.Poller
/-!
# The example web server (C87)
-/
namespace Props.Web
open Py Nmea Spec Spec.Web Props
open Spec.Poller (messages)
open Props.Poller (messages_append)

variable {σ : Type} {now : Nat → DateTime} {ops : StreamOps σ} {cfg : RCfg} {inw : Nat → Bool}

/-! ## The statements and the page -/

theorem assigns_other {id : Str} (h1 : id ≠ py!"RMC") (h2 : id ≠ py!"GGA") (h3 : id ≠ py!"GSA") : assigns id = [] := by
  unfold assigns
  rw [if_neg h1, if_neg h2, if_neg h3]

theorem ids_cases (id : Str) (P : Str → Prop) (h1 : P py!"RMC") (h2 : P py!"GGA") (h3 : P py!"GSA")
    (h4 : id ≠ py!"RMC" → id ≠ py!"GGA" → id ≠ py!"GSA" → P id) : P id := by
  by_cases e1 : id = py!"RMC"
  · rw [e1]; exact h1
  by_cases e2 : id = py!"GGA"
  · rw [e2]; exact h2
  by_cases e3 : id = py!"GSA"
  · rw [e3]; exact h3
  exact h4 e1 e2 e3

theorem source_ids : ∀ e ∈ page, ∀ s ∈ e.sources, s.1 = py!"RMC" ∨ s.1 = py!"GGA" ∨ s.1 = py!"GSA" := by decide

theorem corr (id : Str) : ∀ e ∈ page, ∀ attr, (id, attr) ∈ e.sources ↔ (⟨e.name, attr, e.asText⟩ : Assign) ∈ assigns id := by
  intro e he attr
  constructor
  · intro h
    have key : ∀ e ∈ page, ∀ s ∈ e.sources, (⟨e.name, s.2, e.asText⟩ : Assign) ∈ assigns s.1 := by decide
    exact key e he _ h
  · revert e
    apply ids_cases id (fun id => ∀ e ∈ page, (⟨e.name, attr, e.asText⟩ : Assign) ∈ assigns id → (id, attr) ∈ e.sources)
    · have key : ∀ a ∈ assigns py!"RMC", ∀ e ∈ page, a.entry = e.name → (py!"RMC", a.attr) ∈ e.sources := by decide
      intro e he h; exact key _ h e he rfl
    · have key : ∀ a ∈ assigns py!"GGA", ∀ e ∈ page, a.entry = e.name → (py!"GGA", a.attr) ∈ e.sources := by decide
      intro e he h; exact key _ h e he rfl
    · have key : ∀ a ∈ assigns py!"GSA", ∀ e ∈ page, a.entry = e.name → (py!"GSA", a.attr) ∈ e.sources := by decide
      intro e he h; exact key _ h e he rfl
    · intro h1 h2 h3 e he h
      rw [assigns_other h1 h2 h3] at h
      cases h

theorem assign_entry (id : Str) : ∀ a ∈ assigns id, ∃ e ∈ page, e.name = a.entry ∧ e.asText = a.asText := by
  apply ids_cases id (fun id => ∀ a ∈ assigns id, ∃ e ∈ page, e.name = a.entry ∧ e.asText = a.asText)
  · decide
  · decide
  · decide
  · intro h1 h2 h3
    rw [assigns_other h1 h2 h3]
    intro a h; cases h

theorem entries_nodup (id : Str) : ((assigns id).map Assign.entry).Nodup ∧ (assigns id).length ≤ 6 := by
  apply ids_cases id (fun id => ((assigns id).map Assign.entry).Nodup ∧ (assigns id).length ≤ 6)
  · decide
  · decide
  · decide
  · intro h1 h2 h3
    rw [assigns_other h1 h2 h3]
    simp

theorem names_nodup : (page.map Entry.name).Nodup := by decide

theorem value_iff (a : Assign) (m : Msg) (v : PyVal) : a.value m = .ok v ↔
    ∃ x, lookup a.attr m.attrs = some x ∧ (if a.asText then ∃ s, x.toStr = .ok s ∧ v = .str s else v = x) := by
  unfold Assign.value
  rw [Gpx.bind_ok]
  constructor
  · rintro ⟨x, h1, h2⟩
    refine ⟨x, (Gpx.attr_ok _ _ _).1 h1, ?_⟩
    split at h2 <;> rename_i hb <;> simp only [hb]
    · rw [Gpx.bind_ok] at h2
      obtain ⟨s, h3, h4⟩ := h2
      exact ⟨s, h3, by simpa [pure, Except.pure] using h4.symm⟩
    · simpa [pure, Except.pure] using h2.symm
  · rintro ⟨x, h1, h2⟩
    refine ⟨x, (Gpx.attr_ok _ _ _).2 h1, ?_⟩
    split at h2 <;> rename_i hb <;> simp only [hb]
    · obtain ⟨s, h3, rfl⟩ := h2
      simp [h3, bind, Except.bind, pure, Except.pure]
    · rw [h2]; rfl

theorem gives_iff (m : Msg) (e : Entry) (he : e ∈ page) (v : PyVal) :
    Gives m e v ↔ ∃ a ∈ assigns m.msgID, a.entry = e.name ∧ a.value m = .ok v := by
  constructor
  · rintro ⟨attr, x, h1, h2, h3⟩
    exact ⟨⟨e.name, attr, e.asText⟩, (corr _ e he attr).1 h1, rfl, (value_iff _ _ _).2 ⟨x, h2, h3⟩⟩
  · rintro ⟨a, h1, h2, h3⟩
    obtain ⟨x, h4, h5⟩ := (value_iff _ _ _).1 h3
    obtain ⟨e', he', hn, ht⟩ := assign_entry _ a h1
    have : e' = e := List.inj_on_of_nodup_map names_nodup he' he (by rw [hn, h2])
    subst this
    refine ⟨a.attr, x, ?_, h4, by rw [ht]; exact h5⟩
    rw [corr _ _ he]
    rw [show (⟨e'.name, a.attr, e'.asText⟩ : Assign) = a by rw [hn, ht]]
    exact h1

theorem concerns_iff (m : Msg) (e : Entry) (he : e ∈ page) :
    Concerns m e ↔ ∃ a ∈ assigns m.msgID, a.entry = e.name := by
  constructor
  · rintro ⟨attr, h⟩
    exact ⟨_, (corr _ e he attr).1 h, rfl⟩
  · rintro ⟨a, h1, h2⟩
    obtain ⟨e', he', hn, ht⟩ := assign_entry _ a h1
    have : e' = e := List.inj_on_of_nodup_map names_nodup he' he (by rw [hn, h2])
    subst this
    refine ⟨a.attr, ?_⟩
    rw [corr _ _ he]
    rw [show (⟨e'.name, a.attr, e'.asText⟩ : Assign) = a by rw [hn, ht]]
    exact h1

theorem storable_iff (m : Msg) : Storable m ↔ ∀ a ∈ assigns m.msgID, ∃ v, a.value m = .ok v := by
  constructor
  · intro h a ha
    obtain ⟨e, he, hn, -⟩ := assign_entry _ a ha
    obtain ⟨v, hv⟩ := h e he ((concerns_iff _ _ he).2 ⟨a, ha, hn.symm⟩)
    obtain ⟨a', ha', hn', hv'⟩ := (gives_iff _ _ he _).1 hv
    have : a' = a := List.inj_on_of_nodup_map (entries_nodup _).1 ha' ha (by rw [hn', hn])
    subst this
    exact ⟨v, hv'⟩
  · intro h e he hc
    obtain ⟨a, ha, hn⟩ := (concerns_iff _ _ he).1 hc
    obtain ⟨v, hv⟩ := h a ha
    exact ⟨v, (gives_iff _ _ he _).2 ⟨a, ha, hn, hv⟩⟩

/-! ## The dictionary -/

/-- `Shows` by looking entries up. -/
def Looks (ms : List Msg) (data : List (Str × PyVal)) : Prop :=
  data.map Prod.fst = page.map Entry.name ∧ ∀ e ∈ page, ∃ v, lookup e.name data = some v ∧ Newest ms e v

theorem forall₂_lookup {P : Entry → PyVal → Prop} : ∀ (pg : List Entry) (data : List (Str × PyVal)), (pg.map Entry.name).Nodup →
    (List.Forall₂ (fun (d : Str × PyVal) e => d.1 = e.name ∧ P e d.2) data pg ↔
      data.map Prod.fst = pg.map Entry.name ∧ ∀ e ∈ pg, ∃ v, lookup e.name data = some v ∧ P e v) := by
  intro pg
  induction pg with
  | nil =>
    intro data _
    simp [List.forall₂_nil_right_iff]
  | cons e pg ih =>
    intro data hn
    simp only [List.map_cons, List.nodup_cons] at hn
    cases data with
    | nil => simp
    | cons d data =>
      obtain ⟨k, v⟩ := d
      rw [List.forall₂_cons, ih data hn.2]
      simp only [List.map_cons, List.cons.injEq, List.mem_cons, forall_eq_or_imp]
      constructor
      · rintro ⟨⟨rfl, hv⟩, hk, hr⟩
        refine ⟨⟨rfl, hk⟩, ⟨v, by simp [lookup], hv⟩, ?_⟩
        intro e' he'
        obtain ⟨x, hx, hP⟩ := hr e' he'
        refine ⟨x, ?_, hP⟩
        rw [← hx]
        have : e'.name ≠ e.name := fun h => hn.1 (h ▸ List.mem_map_of_mem he')
        simp [lookup, this]
      · rintro ⟨⟨rfl, hk⟩, ⟨x, hx, hP⟩, hr⟩
        have : x = v := by simpa [lookup] using hx.symm
        subst this
        refine ⟨⟨rfl, hP⟩, hk, ?_⟩
        intro e' he'
        obtain ⟨y, hy, hP'⟩ := hr e' he'
        refine ⟨y, ?_, hP'⟩
        have : e'.name ≠ e.name := fun h => hn.1 (h ▸ List.mem_map_of_mem he')
        simpa [lookup, this] using hy

theorem shows_iff (ms : List Msg) (data : List (Str × PyVal)) : Shows ms data ↔ Looks ms data :=
  forall₂_lookup page data names_nodup

theorem newest_none {ms : List Msg} {m : Msg} {e : Entry} {v : PyVal} (h : Newest ms e v) (hc : ¬ Concerns m e) :
    Newest (ms ++ [m]) e v := by
  rcases h with ⟨h1, h2⟩ | ⟨b, x, a, rfl, h2, h3⟩
  · left
    refine ⟨?_, h2⟩
    intro y hy
    rcases List.mem_append.1 hy with hy | hy
    · exact h1 y hy
    · rw [List.mem_singleton.1 hy]; exact hc
  · right
    refine ⟨b, x, a ++ [m], by simp, ?_, h3⟩
    intro y hy
    rcases List.mem_append.1 hy with hy | hy
    · exact h2 y hy
    · rw [List.mem_singleton.1 hy]; exact hc

theorem newest_gives {ms : List Msg} {m : Msg} {e : Entry} {v : PyVal} (h : Gives m e v) : Newest (ms ++ [m]) e v :=
  .inr ⟨ms, m, [], rfl, by simp, h⟩

/-- The dictionary while the message `m` is stored: `done` statements have been executed. -/
def Storing (ms : List Msg) (m : Msg) (done : List Assign) (data : List (Str × PyVal)) : Prop :=
  data.map Prod.fst = page.map Entry.name ∧
    ∀ e ∈ page, ∃ v, lookup e.name data = some v ∧
      if e.name ∈ done.map Assign.entry then Gives m e v else Newest ms e v

theorem storing_start {ms : List Msg} (m : Msg) {data : List (Str × PyVal)} (h : Shows ms data) : Storing ms m [] data := by
  rw [shows_iff] at h
  refine ⟨h.1, ?_⟩
  intro e he
  obtain ⟨v, h1, h2⟩ := h.2 e he
  exact ⟨v, h1, by simpa using h2⟩

theorem storing_step {ms : List Msg} {m : Msg} {done rest : List Assign} {a : Assign} {v : PyVal} {data : List (Str × PyVal)}
    (h : Storing ms m done data) (ha : done ++ a :: rest = assigns m.msgID) (hv : a.value m = .ok v) :
    Storing ms m (done ++ [a]) (Py.insert a.entry v data) := by
  have hm : a ∈ assigns m.msgID := by rw [← ha]; simp
  obtain ⟨e0, he0, hn0, -⟩ := assign_entry _ a hm
  have hk : a.entry ∈ data.map Prod.fst := by rw [h.1, ← hn0]; exact List.mem_map_of_mem he0
  refine ⟨by rw [insert_keys_of_mem _ _ _ hk]; exact h.1, ?_⟩
  intro e he
  by_cases hne : e.name = a.entry
  · refine ⟨v, by rw [lookup_insert, if_pos hne], ?_⟩
    rw [if_pos (by simp [hne])]
    exact (gives_iff _ _ he _).2 ⟨a, hm, hne.symm, hv⟩
  · obtain ⟨x, h1, h2⟩ := h.2 e he
    refine ⟨x, by rw [lookup_insert, if_neg hne]; exact h1, ?_⟩
    have : e.name ∈ (done ++ [a]).map Assign.entry ↔ e.name ∈ done.map Assign.entry := by simp [hne]
    simp only [this]
    exact h2

theorem storing_end {ms : List Msg} {m : Msg} {data : List (Str × PyVal)}
    (h : Storing ms m (assigns m.msgID) data) : Shows (ms ++ [m]) data := by
  rw [shows_iff]
  refine ⟨h.1, ?_⟩
  intro e he
  obtain ⟨v, h1, h2⟩ := h.2 e he
  refine ⟨v, h1, ?_⟩
  split at h2
  · exact newest_gives h2
  · rename_i hn
    apply newest_none h2
    rw [concerns_iff _ _ he]
    rintro ⟨a, ha, hna⟩
    exact hn (by rw [← hna]; exact List.mem_map_of_mem ha)

theorem shows_start : Shows [] gpsStart := by
  rw [shows_iff]
  refine ⟨by decide, ?_⟩
  have : ∀ e ∈ page, lookup e.name gpsStart = some e.initial := by decide +kernel
  intro e he
  exact ⟨e.initial, this e he, .inl ⟨by simp, rfl⟩⟩

/-! ## Runs -/

/-- The read made in one step. -/
def made (now : Nat → DateTime) (ops : StreamOps σ) (cfg : RCfg) (w : Web σ) : WebAct → List ReadResult
  | .thread => match w.at_ with
    | .read => [(readMsg now ops cfg w.stream).1]
    | _ => []
  | _ => []

theorem readsMade_cons (w : Web σ) (x : WebAct) (b : List WebAct) :
    readsMade now ops cfg inw w (x :: b) = made now ops cfg w x ++ readsMade now ops cfg inw (w.step now ops cfg inw x) b := by
  cases x with
  | thread => cases h : w.at_ <;> simp [readsMade, made, h]
  | _ => simp [readsMade, made]

theorem run_cons (w : Web σ) (x : WebAct) (b : List WebAct) :
    w.run now ops cfg inw (x :: b) = (w.step now ops cfg inw x).run now ops cfg inw b := rfl

theorem run_append (w : Web σ) (a b : List WebAct) :
    w.run now ops cfg inw (a ++ b) = (w.run now ops cfg inw a).run now ops cfg inw b := by
  simp [Web.run, List.foldl_append]

theorem readsMade_append (w : Web σ) (a b : List WebAct) :
    readsMade now ops cfg inw w (a ++ b) = readsMade now ops cfg inw w a ++ readsMade now ops cfg inw (w.run now ops cfg inw a) b := by
  induction a generalizing w with
  | nil => simp [readsMade, Web.run]
  | cons x a ih => rw [List.cons_append, readsMade_cons, readsMade_cons, ih, run_cons, List.append_assoc]

theorem readsMade_snoc (w : Web σ) (a : List WebAct) (x : WebAct) :
    readsMade now ops cfg inw w (a ++ [x]) = readsMade now ops cfg inw w a ++ made now ops cfg (w.run now ops cfg inw a) x := by
  rw [readsMade_append, readsMade_cons]
  simp [readsMade]

theorem step_stream (w : Web σ) (x : WebAct) :
    (w.step now ops cfg inw x).stream = (reads now ops cfg (made now ops cfg w x).length w.stream).2.2 ∧
      made now ops cfg w x = (reads now ops cfg (made now ops cfg w x).length w.stream).1 := by
  cases x with
  | thread =>
    cases h : w.at_ with
    | read =>
      simp only [Web.step, webThread, made, h]
      split <;> rename_i heq <;> simp [reads, heq]
    | store m todo =>
      cases todo with
      | nil => simp [Web.step, webThread, made, h, reads]
      | cons a r =>
        simp only [Web.step, webThread, made, h]
        split <;> simp [reads]
    | _ =>
      simp only [Web.step, webThread, made, h]
      (try split) <;> simp [reads]
  | request => simp [Web.step, made, reads]
  | stop => simp [Web.step, made, reads]

/-- The reads made are consecutive reads of the stream. -/
theorem reads_made (w : Web σ) (sched : List WebAct) :
    (w.run now ops cfg inw sched).stream =
        (reads now ops cfg (readsMade now ops cfg inw w sched).length w.stream).2.2 ∧
      readsMade now ops cfg inw w sched = (reads now ops cfg (readsMade now ops cfg inw w sched).length w.stream).1 := by
  induction sched generalizing w with
  | nil => exact ⟨rfl, rfl⟩
  | cons x b ih =>
    rw [readsMade_cons, run_cons, List.length_append]
    obtain ⟨h1, h2⟩ := step_stream (now := now) (ops := ops) (cfg := cfg) (inw := inw) w x
    obtain ⟨h3, h4⟩ := Poller.reads_add (now := now) (ops := ops) (cfg := cfg) (made now ops cfg w x).length
      (readsMade now ops cfg inw (w.step now ops cfg inw x) b).length w.stream
    obtain ⟨h5, h6⟩ := ih (w.step now ops cfg inw x)
    rw [h1] at h5 h6
    exact ⟨by rw [h4]; exact h5, by rw [h3, ← h2, ← h6]⟩

/-- The reads made are the first reads of the stream, each once and in order, whatever the schedule; and the stream is read no further. -/
theorem C87_reads (s : σ) (sched : List WebAct) :
    ∃ n, readsMade now ops cfg inw (start s) sched = (reads now ops cfg n s).1 ∧
      ((start s).run now ops cfg inw sched).stream = (reads now ops cfg n s).2.2 :=
  let h := reads_made (now := now) (ops := ops) (cfg := cfg) (inw := inw) (start s) sched
  ⟨_, h.2, h.1⟩

/-- What holds after every schedule, given the outcomes of the reads. -/
def Inv (rs : List ReadResult) (w : Web σ) : Prop :=
  match w.at_ with
  | .store m todo => ∃ ms done, messages rs = ms ++ [m] ∧ done ++ todo = assigns m.msgID ∧ Storing ms m done w.data ∧
      (∀ x ∈ ms, Storable x) ∧ ∀ a ∈ done, ∃ v, a.value m = .ok v
  | .died e => (Shows (messages rs) w.data ∧ (∀ x ∈ messages rs, Storable x) ∧ rs.getLast? = some (.raised e) ∧
        webCatches e = false) ∨
      ∃ ms m done, messages rs = ms ++ [m] ∧ done <+: assigns m.msgID ∧ Storing ms m done w.data ∧ (∀ x ∈ ms, Storable x) ∧
        ¬ Storable m ∧ (e = .attribute ∨ e = .value)
  | _ => Shows (messages rs) w.data ∧ ∀ x ∈ messages rs, Storable x

theorem value_err {a : Assign} {m : Msg} {e : Err} (h : a.value m = .error e) : e = .attribute ∨ e = .value := by
  unfold Assign.value at h
  rcases Gpx.bind_err h with h | ⟨x, -, h⟩
  · exact .inl (Gpx.attr_err h)
  · split at h
    · rcases Gpx.bind_err h with h | ⟨_, _, h⟩
      · exact .inr (Gpx.toStr_err h)
      · cases h
    · cases h

theorem inv_step (rs : List ReadResult) (w : Web σ) (x : WebAct) (h : Inv rs w) :
    Inv (rs ++ made now ops cfg w x) (w.step now ops cfg inw x) := by
  cases x with
  | request =>
    simp only [made, List.append_nil, Web.step]
    exact h
  | stop =>
    simp only [made, List.append_nil, Web.step]
    exact h
  | thread =>
    unfold Inv at h
    cases hat : w.at_ with
    | top =>
      simp only [hat] at h
      simp only [Web.step, webThread, made, hat, List.append_nil]
      split <;> exact h
    | waiting =>
      simp only [hat] at h
      simp only [Web.step, webThread, made, hat, List.append_nil]
      unfold Inv
      simp only
      cases inw w.polls <;> exact h
    | ended =>
      simp only [hat] at h
      simp only [Web.step, webThread, made, hat, List.append_nil]
      unfold Inv
      simp only [hat]
      exact h
    | died e =>
      simp only [hat] at h
      simp only [Web.step, webThread, made, hat, List.append_nil]
      unfold Inv
      simp only [hat]
      exact h
    | read =>
      simp only [hat] at h
      simp only [Web.step, webThread, made, hat]
      split
      · rename_i raw m log s heq
        unfold Inv
        simp only [heq, messages_append, messages]
        exact ⟨_, [], rfl, rfl, storing_start m h.1, h.2, by simp⟩
      · rename_i raw log s heq
        unfold Inv
        simp only [heq, messages_append, messages, List.append_nil]
        exact h
      · rename_i log s heq
        unfold Inv
        simp only [heq, messages_append, messages, List.append_nil]
        exact h
      · rename_i e log s heq
        unfold Inv
        simp only [heq, messages_append, messages, List.append_nil]
        cases hc : webCatches e
        · simp only [Bool.false_eq_true, if_false]
          exact .inl ⟨h.1, h.2, by simp, hc⟩
        · simp only [if_true]
          exact h
    | store m todo =>
      simp only [hat] at h
      obtain ⟨ms, done, h1, h2, h3, h4, h5⟩ := h
      cases todo with
      | nil =>
        simp only [Web.step, webThread, made, hat, List.append_nil]
        unfold Inv
        simp only
        rw [List.append_nil] at h2
        rw [h1]
        refine ⟨storing_end (by rw [← h2]; exact h3), ?_⟩
        intro y hy
        rcases List.mem_append.1 hy with hy | hy
        · exact h4 y hy
        · rw [List.mem_singleton.1 hy, storable_iff, ← h2]
          exact h5
      | cons a r =>
        simp only [Web.step, webThread, made, hat, List.append_nil]
        split
        · rename_i v hv
          unfold Inv
          simp only
          refine ⟨ms, done ++ [a], h1, by simpa using h2, storing_step h3 h2 hv, h4, ?_⟩
          intro b hb
          rcases List.mem_append.1 hb with hb | hb
          · exact h5 b hb
          · rw [List.mem_singleton.1 hb]; exact ⟨v, hv⟩
        · rename_i e he
          have hc : webCatches e = false := by rcases value_err he with rfl | rfl <;> rfl
          unfold Inv
          simp only [hc, Bool.false_eq_true, if_false]
          refine .inr ⟨ms, m, done, h1, ⟨_, h2⟩, h3, h4, ?_, value_err he⟩
          rw [storable_iff]
          intro hs
          obtain ⟨v, hv⟩ := hs a (by rw [← h2]; simp)
          rw [he] at hv
          cases hv

theorem inv_run (s : σ) (sched : List WebAct) :
    Inv (readsMade now ops cfg inw (start s) sched) ((start s).run now ops cfg inw sched) := by
  induction sched using List.reverseRecOn with
  | nil => exact ⟨shows_start, by simp [readsMade, messages]⟩
  | append_singleton a x ih =>
    rw [readsMade_snoc, run_append]
    exact inv_step _ _ _ ih

theorem storing_mix {ms : List Msg} {m : Msg} {done : List Assign} {data : List (Str × PyVal)} (h : Storing ms m done data) :
    List.Forall₂ (fun (d : Str × PyVal) e => d.1 = e.name ∧ (Newest ms e d.2 ∨ Newest (ms ++ [m]) e d.2)) data page := by
  rw [forall₂_lookup (P := fun e v => Newest ms e v ∨ Newest (ms ++ [m]) e v) page data names_nodup]
  refine ⟨h.1, ?_⟩
  intro e he
  obtain ⟨v, h1, h2⟩ := h.2 e he
  refine ⟨v, h1, ?_⟩
  split at h2
  · exact .inr (newest_gives h2)
  · exact .inl h2

/-- Whenever the thread is not just storing a message and has not died, the dictionary shows the newest values of the
messages read so far, which all could be stored. -/
theorem C87_newest (s : σ) (sched : List WebAct)
    (hat : ∀ m todo, ((start s).run now ops cfg inw sched).at_ ≠ .store m todo)
    (hd : ∀ e, ((start s).run now ops cfg inw sched).at_ ≠ .died e) :
    Shows (messages (readsMade now ops cfg inw (start s) sched)) ((start s).run now ops cfg inw sched).data ∧
      ∀ m ∈ messages (readsMade now ops cfg inw (start s) sched), Storable m := by
  have h := inv_run (now := now) (ops := ops) (cfg := cfg) (inw := inw) s sched
  unfold Inv at h
  split at h
  · rename_i m todo heq; exact absurd heq (hat m todo)
  · rename_i e heq; exact absurd heq (hd e)
  · exact h

/-- At every moment, each entry shows the newest value of the messages read so far or of those before the last of them: what
a request sees is at most one message old, but it may see parts of two. -/
theorem C87_any_time (s : σ) (sched : List WebAct) :
    ∃ ms rest, messages (readsMade now ops cfg inw (start s) sched) = ms ++ rest ∧ rest.length ≤ 1 ∧
      List.Forall₂ (fun (d : Str × PyVal) e => d.1 = e.name ∧ (Newest ms e d.2 ∨ Newest (ms ++ rest) e d.2))
        ((start s).run now ops cfg inw sched).data page := by
  have h := inv_run (now := now) (ops := ops) (cfg := cfg) (inw := inw) s sched
  have hmix : ∀ ms data, Shows ms data →
      List.Forall₂ (fun (d : Str × PyVal) e => d.1 = e.name ∧ (Newest ms e d.2 ∨ Newest (ms ++ []) e d.2)) data page := by
    intro ms data h
    exact List.Forall₂.imp (fun _ _ h => ⟨h.1, .inl h.2⟩) h
  unfold Inv at h
  split at h
  · obtain ⟨ms, done, h1, -, h3, -⟩ := h
    exact ⟨ms, _, h1, by simp, storing_mix h3⟩
  · rcases h with ⟨h, -⟩ | ⟨ms, m, done, h1, -, h3, -⟩
    · exact ⟨_, [], by simp, by simp, hmix _ _ h⟩
    · exact ⟨ms, _, h1, by simp, storing_mix h3⟩
  · exact ⟨_, [], by simp, by simp, hmix _ _ h.1⟩

/-- The reading thread dies only of an exception of `read()` it does not catch, or of the first message that cannot be
stored, and this is the last one it reads. -/
theorem C87_death (s : σ) (sched : List WebAct) (e : Err) (h : ((start s).run now ops cfg inw sched).at_ = .died e) :
    ((readsMade now ops cfg inw (start s) sched).getLast? = some (.raised e) ∧
        e ∉ [.nmeaStream, .nmeaMessage, .nmeaType, .nmeaParse]) ∨
      ∃ ms m, messages (readsMade now ops cfg inw (start s) sched) = ms ++ [m] ∧ (∀ x ∈ ms, Storable x) ∧ ¬ Storable m ∧
        (e = .attribute ∨ e = .value) := by
  have hi := inv_run (now := now) (ops := ops) (cfg := cfg) (inw := inw) s sched
  unfold Inv at hi
  rw [h] at hi
  rcases hi with ⟨-, -, h1, h2⟩ | ⟨ms, m, done, h1, -, -, h4, h5, h6⟩
  · refine .inl ⟨h1, ?_⟩
    intro hm
    simp only [List.mem_cons, List.not_mem_nil, or_false] at hm
    rcases hm with rfl | rfl | rfl | rfl <;> simp [webCatches] at h2
  · exact .inr ⟨ms, m, h1, h4, h5, h6⟩

/-- A message that cannot be stored kills the reading thread: once one has been read, the thread is storing it, or
dead. -/
theorem C87_fatal (s : σ) (sched : List WebAct) (m : Msg)
    (hm : m ∈ messages (readsMade now ops cfg inw (start s) sched)) (hs : ¬ Storable m) :
    (∃ todo, ((start s).run now ops cfg inw sched).at_ = .store m todo) ∨
      ∃ e, ((start s).run now ops cfg inw sched).at_ = .died e := by
  have h := inv_run (now := now) (ops := ops) (cfg := cfg) (inw := inw) s sched
  unfold Inv at h
  split at h
  · rename_i m' todo heq
    obtain ⟨ms, done, h1, -, -, h4, -⟩ := h
    rw [h1] at hm
    rcases List.mem_append.1 hm with hm | hm
    · exact absurd (h4 m hm) hs
    · rw [List.mem_singleton.1 hm]; exact .inl ⟨todo, heq⟩
  · rename_i e heq; exact .inr ⟨e, heq⟩
  · exact absurd (h.2 m hm) hs

/-- Nothing happens any more once the thread has ended or died; with nothing in the serial port's own buffer, nothing happens
either, whatever is in the reader's. -/
theorem C87_quiet (w : Web σ) (sched : List WebAct)
    (h : w.at_ = .ended ∨ (∃ e, w.at_ = .died e) ∨ ((w.at_ = .top ∨ w.at_ = .waiting) ∧ ∀ k, w.polls ≤ k → inw k = false)) :
    (w.run now ops cfg inw sched).data = w.data ∧ (w.run now ops cfg inw sched).stream = w.stream := by
  induction sched generalizing w with
  | nil => exact ⟨rfl, rfl⟩
  | cons x b ih =>
    rw [run_cons]
    have : (w.step now ops cfg inw x).data = w.data ∧ (w.step now ops cfg inw x).stream = w.stream ∧
        ((w.step now ops cfg inw x).at_ = .ended ∨ (∃ e, (w.step now ops cfg inw x).at_ = .died e) ∨
          (((w.step now ops cfg inw x).at_ = .top ∨ (w.step now ops cfg inw x).at_ = .waiting) ∧
            ∀ k, (w.step now ops cfg inw x).polls ≤ k → inw k = false)) := by
      cases x with
      | request => exact ⟨rfl, rfl, h⟩
      | stop => exact ⟨rfl, rfl, h⟩
      | thread =>
        rcases h with h | ⟨e, h⟩ | ⟨h | h, hk⟩
        · simp [Web.step, webThread, h]
        · simp [Web.step, webThread, h]
        · simp only [Web.step, webThread, h]
          split
          · simp
          · exact ⟨rfl, rfl, .inr (.inr ⟨.inr rfl, hk⟩)⟩
        · simp only [Web.step, webThread, h]
          refine ⟨trivial, trivial, .inr (.inr ⟨.inl ?_, fun k hk' => hk k (by omega)⟩)⟩
          rw [hk _ (le_refl _)]
          rfl
    obtain ⟨h1, h2⟩ := ih _ this.2.2
    rw [h1, h2]
    exact ⟨this.1, this.2.1⟩

/-! ## Stopping -/

/-- Steps of the thread until it has ended, if `stop` is set. -/
def remaining : WebAt → Nat
  | .top => 1
  | .waiting => 10
  | .read => 9
  | .store _ todo => todo.length + 2
  | .ended => 0
  | .died _ => 0

/-- Once `stop` is set, ten steps of the reading thread suffice to end it. -/
theorem C87_stops (s : σ) (before after : List WebAct) (h : WebAct.stop ∈ before) (hk : 10 ≤ after.count .thread) :
    ((start s).run now ops cfg inw (before ++ after)).at_ = .ended ∨
      ∃ e, ((start s).run now ops cfg inw (before ++ after)).at_ = .died e := by
  have hstop : ∀ (l : List WebAct) (w : Web σ), w.stop = true → (w.run now ops cfg inw l).stop = true := by
    intro l
    induction l with
    | nil => intro w h; exact h
    | cons x l ih =>
      intro w h
      rw [run_cons]
      apply ih
      cases x with
      | request => exact h
      | stop => rfl
      | thread =>
        simp only [Web.step]
        unfold webThread
        split <;> (try split) <;> exact h
  have h1 : ((start s).run now ops cfg inw before).stop = true := by
    obtain ⟨a, b, rfl⟩ := List.append_of_mem h
    rw [run_append, run_cons]
    exact hstop _ _ rfl
  have hbound : remaining ((start s).run now ops cfg inw before).at_ ≤ 10 := by
    have hi := inv_run (now := now) (ops := ops) (cfg := cfg) (inw := inw) s before
    unfold Inv at hi
    cases hat : ((start s).run now ops cfg inw before).at_ with
    | store m todo =>
      rw [hat] at hi
      obtain ⟨ms, done, -, h2, -⟩ := hi
      have := (entries_nodup m.msgID).2
      rw [← h2, List.length_append] at this
      simp only [remaining]
      omega
    | _ => simp [remaining]
  rw [run_append]
  have main : ∀ (l : List WebAct) (w : Web σ), w.stop = true → remaining w.at_ ≤ l.count .thread →
      remaining (w.run now ops cfg inw l).at_ = 0 := by
    intro l
    induction l with
    | nil => intro w _ h; exact Nat.le_zero.1 h
    | cons x l ih =>
      intro w hs hr
      rw [run_cons]
      cases x with
      | request =>
        rw [List.count_cons_of_ne (by decide)] at hr
        exact ih _ hs hr
      | stop =>
        rw [List.count_cons_of_ne (by decide)] at hr
        exact ih _ rfl hr
      | thread =>
        rw [List.count_cons_self] at hr
        refine ih _ (hstop [.thread] w hs) ?_
        simp only [Web.step]
        cases hat : w.at_ with
        | top => simp [webThread, hat, hs, remaining]
        | waiting =>
          rw [hat] at hr
          simp only [remaining] at hr
          simp only [webThread, hat]
          split <;> simp only [remaining] <;> omega
        | read =>
          rw [hat] at hr
          simp only [remaining] at hr
          simp only [webThread, hat]
          split
          · rename_i raw m _ _ _
            have := (entries_nodup m.msgID).2
            simp only [remaining]
            omega
          · simp only [remaining]; omega
          · simp only [remaining]; omega
          · split <;> simp only [remaining] <;> omega
        | store m todo =>
          rw [hat] at hr
          cases todo with
          | nil => simp only [remaining, List.length_nil] at hr; simp only [webThread, hat, remaining]; omega
          | cons a r =>
            simp only [remaining, List.length_cons] at hr
            simp only [webThread, hat]
            split
            · simp only [remaining]; omega
            · split <;> simp only [remaining] <;> omega
        | ended => simp [webThread, hat, remaining]
        | died e => simp [webThread, hat, remaining]
  have := main after _ h1 (by omega)
  cases hat : ((start s).run now ops cfg inw before |>.run now ops cfg inw after).at_ with
  | ended => exact .inl rfl
  | died e => exact .inr ⟨e, rfl⟩
  | _ => rw [hat] at this; simp [remaining] at this
end Props.Web
