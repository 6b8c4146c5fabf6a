import Verif.Lemmas.Json
import Verif.Props.WebServer
/-!
# C87: what the web server's page can show, and its JSON
-/
namespace Props.Web
open Py Nmea Spec Spec.Web PyFloat

variable {σ : Type} {now : Nat → DateTime} {ops : StreamOps σ} {cfg : RCfg} {inw : Nat → Bool}

/-- The message that a call of `read()` returns is what parsing the bytes it returns gives. -/
theorem readMsg_item (s : σ) : ∀ raw m, (readMsg now ops cfg s).1 = .item raw m →
    parse now (.bytes raw) cfg.mode cfg.validate cfg.udefs = .ok m := by
  induction s using ops.rel.wf.induction with
  | _ s ih =>
    intro raw m
    have hd := step_dec now ops cfg s
    have hst : ∀ raw m s', step now ops cfg s = (.msg raw m, s') →
        parse now (.bytes raw) cfg.mode cfg.validate cfg.udefs = .ok m := by
      intro raw m s' h
      simp only [step] at h
      split at h
      · cases h
      · split at h
        · cases h
        · split at h
          · cases h
          · split at h
            · split at h
              · cases h
              · cases h
              · split at h <;> cases h
                assumption
            · split at h <;> cases h
    rw [readMsg_eq]
    generalize hs : step now ops cfg s = x at *
    obtain ⟨ev, s1⟩ := x
    cases ev with
    | eof => intro h; cases h
    | msg raw' m' => intro h; cases h; exact hst _ _ _ rfl
    | crash e => intro h; cases h
    | skip =>
      have hd : ops.rel.rel s1 s := by
        rcases hd with ⟨s', e⟩ | hd
        · cases e
        · exact hd
      exact ih s1 hd raw m
    | err e =>
      have hd : ops.rel.rel s1 s := by
        rcases hd with ⟨s', e⟩ | hd
        · cases e
        · exact hd
      simp only
      split
      · intro h; cases h
      · exact ih s1 hd raw m

/-! ## Attributes of RMC, GGA and GSA messages -/

/-- The definition of a message without groups of variable length, and what is needed to read it. -/
def Plain (id : Str) (d : PDict) : Prop :=
  IsStatic d = true ∧ ((slotsOf d []).map Prod.fst).Nodup ∧ lookup (upper id) (standardDefs 0) = some d ∧ IsStandard id ∧
    id ∉ NMEA_PREFIX_PROP ∧ id.length ≤ 4 ∧ id ≠ py!"SSN"

theorem rmc_plain : Plain py!"RMC" GET.RMC := by unfold Plain; decide +kernel
theorem gga_plain : Plain py!"GGA" GET.GGA := by unfold Plain; decide +kernel
theorem gsa_plain : Plain py!"GSA" GET.GSA := by unfold Plain; decide +kernel

theorem plain_id {msg : RawMsg} {mode : Int} {v : Nat} {u : UDefs} {c t i k : Str} {f : List Str} {m : Msg}
    (hs : IsSentence msg c t i f k) (h : parse now msg mode v u = .ok (some m)) : m.msgID = i := by
  obtain ⟨_, p, hp, _, _, hcase⟩ := parse_accepted _ _ _ _ _ _ h
  have e := sentence_getParts _ _ _ _ _ _ hs
  rw [hp] at e
  cases e
  rcases hcase with ⟨_, _, rfl⟩ | ⟨d, st, _, _, rfl⟩ <;> rfl

theorem plain_read {id : Str} {d : PDict} (hp : Plain id d) {msg : RawMsg} {v : Nat} {u : UDefs} {c t k : Str} {f : List Str} {m : Msg}
    (hs : IsSentence msg c t id f k) (h : parse now msg 0 v u = .ok (some m)) :
    readSlots (slotsOf d []) f [] = .ok m.attrs := by
  obtain ⟨hst, hnd, hd, hstd, hpre, hlen, hssn⟩ := hp
  have hmem : (upper id, d) ∈ standardDefs 0 := lookup_some_mem _ _ _ hd
  have hft : fieldTexts t id f = f := by
    apply fieldTexts_id
    have htl : t.length ≤ 2 := by
      obtain ⟨_, _, _, _, _, h⟩ := hs
      rcases h with rfl | ⟨_, h | h⟩
      · decide
      · omega
      · omega
    rintro (h | ⟨_, h, _⟩)
    · have := congrArg List.length h
      rw [List.length_append] at this
      have e : (py!"PSSNSNC").length = 7 := by decide
      omega
    · exact hssn h
  have ha := admitted_of_accept _ _ _ _ _ _ _ _ _ _ hs _ h
  obtain ⟨slots, hx, hr⟩ := (C16_layout now msg 0 v u c t _ k f hs ha _ (layout_definition hd hstd hpre u f)
    (tables_sane.1 0 _ hmem) m.attrs).1 ⟨m, h, rfl⟩
  rw [hft] at hx hr
  rw [expand_static_iff _ _ _ hst] at hx
  subst hx
  exact hr

theorem plain_has {id : Str} {d : PDict} (hp : Plain id d) {f : List Str} {attrs : Attrs}
    (hr : readSlots (slotsOf d []) f [] = .ok attrs) (n : Str) :
    (∃ x, lookup n attrs = some x) ↔ n ∈ ((slotsOf d []).map Prod.fst).take f.length := by
  have hkeys := readSlots_keys _ _ _ _ hr hp.2.1 (by simp)
  simp only [List.map_nil, List.nil_append] at hkeys
  rw [← hkeys]
  constructor
  · rintro ⟨x, hx⟩
    exact List.mem_map.2 ⟨_, lookup_some_mem _ _ _ hx, rfl⟩
  · intro hn
    cases hl : lookup n attrs with
    | none => exact absurd hn ((lookup_none_iff _ _).1 hl)
    | some x => exact ⟨x, rfl⟩

/-- Texts of dates and times. -/
def DateChar (c : Nat) : Prop := 45 ≤ c ∧ c ≤ 58

theorem dec_chars (w n : Nat) : ∀ c ∈ dec w n, DateChar c := by
  intro c hc
  unfold dec padZero at hc
  rcases List.mem_append.1 hc with hc | hc
  · rw [List.mem_replicate] at hc; unfold DateChar; omega
  · have := natDec_hex n c hc; unfold DateChar; omega

theorem date_chars (d : Date) : ∀ c ∈ d.str, DateChar c := by
  intro c hc
  simp only [Date.str, List.mem_append, List.mem_cons] at hc
  rcases hc with (h | rfl | h) | rfl | h <;> first | exact dec_chars _ _ c h | (unfold DateChar; omega)

theorem time_chars (t : Time) : ∀ c ∈ t.str, DateChar c := by
  intro c hc
  simp only [Time.str, List.mem_append, List.mem_cons] at hc
  rcases hc with ((h | rfl | h) | rfl | h) | h <;> first | exact dec_chars _ _ c h | (unfold DateChar; omega) | skip
  split at h
  · cases h
  · rcases List.mem_cons.1 h with rfl | h
    · unfold DateChar; omega
    · exact dec_chars _ _ c h

/-- Values whose text is that of a date or a time, or empty. -/
def DateVal (v : PyVal) : Prop := ∃ s, v.toStr = .ok s ∧ ∀ c ∈ s, DateChar c

theorem date_val {text ty : Str} {v : PyVal} (hty : ty ∈ [DT, TM]) (h : str2val text ty = .ok v) : DateVal v := by
  simp only [List.mem_cons, List.not_mem_nil, or_false] at hty
  rcases hty with rfl | rfl
  · have h' : (Except.ok (date2utc text DT) : Except Err PyVal) = .ok v := h
    cases h'
    unfold date2utc
    simp only
    split
    · exact ⟨_, rfl, date_chars _⟩
    · exact ⟨[], rfl, by simp⟩
  · have h' : (Except.ok (time2utc text) : Except Err PyVal) = .ok v := h
    cases h'
    unfold time2utc
    simp only
    split
    · exact ⟨_, rfl, time_chars _⟩
    · exact ⟨[], rfl, by simp⟩

theorem plain_date {id : Str} {d : PDict} (hp : Plain id d) {f : List Str} {attrs : Attrs}
    (hr : readSlots (slotsOf d []) f [] = .ok attrs) (n ty : Str) (hn : (n, ty) ∈ slotsOf d []) (hty : ty ∈ [DT, TM])
    (h1 : n ≠ py!"lon") (h2 : n ≠ py!"lat") (v : PyVal) (hv : lookup n attrs = some v) : DateVal v := by
  have hk := (plain_has hp hr n).1 ⟨v, hv⟩
  obtain ⟨p, hp1⟩ := List.getElem?_of_mem hn
  have hlt : p < f.length := by
    obtain ⟨q, hq⟩ := List.getElem?_of_mem hk
    rw [List.getElem?_take] at hq
    split at hq
    · rename_i hlt
      have e2 : ((slotsOf d []).map Prod.fst)[p]? = some n := by rw [List.getElem?_map, hp1]; rfl
      have := (List.nodup_iff_getElem?_ne_getElem?.1 hp.2.1)
      by_contra hge
      have hqp : q < p := by omega
      refine this q p hqp ?_ (by rw [hq, e2])
      exact (List.getElem?_eq_some_iff.1 e2).1
    · cases hq
  obtain ⟨val, e1, e2⟩ := readSlots_value _ _ _ _ hr hp.2.1 p n ty (f[p]) hp1 (by simp [hlt]) h1 h2
  rw [hv] at e2
  cases e2
  exact date_val hty e1

/-! ## Which sentences can be stored -/

/-- What a statement stores is a JSON value, and it fails only if the attribute is missing. -/
theorem assign_value {id : Str} {d : PDict} (hp : Plain id d) {f : List Str} {m : Msg}
    (hr : readSlots (slotsOf d []) f [] = .ok m.attrs) (a : Assign)
    (ht : if a.asText then ∃ ty ∈ [DT, TM], (a.attr, ty) ∈ slotsOf d [] ∧ a.attr ≠ py!"lon" ∧ a.attr ≠ py!"lat"
      else ∀ s ∈ slotsOf d [], s.1 = a.attr → s.2 ∈ [LA, LN, DE, IN]) :
    (∀ v, a.value m = .ok v → Jsonable v) ∧
      ((∃ v, a.value m = .ok v) ↔ a.attr ∈ ((slotsOf d []).map Prod.fst).take f.length) := by
  rw [← plain_has hp hr]
  have hnum : ¬ a.asText = true → ∀ v, lookup a.attr m.attrs = some v → Num v := by
    intro hf v hv
    rw [if_neg hf] at ht
    refine num_read [a.attr] _ _ _ _ hr (fun s hs hn => ht s hs (by simpa using hn)) (by intro n _ x hx; cases hx) a.attr (by simp) v hv
  have hdate : a.asText = true → ∀ v, lookup a.attr m.attrs = some v → DateVal v := by
    intro hf v hv
    rw [if_pos hf] at ht
    obtain ⟨ty, h1, h2, h3, h4⟩ := ht
    exact plain_date hp hr a.attr ty h2 h1 h3 h4 v hv
  constructor
  · intro v hv
    rw [value_iff] at hv
    obtain ⟨x, h1, h2⟩ := hv
    split at h2
    · rename_i hf
      obtain ⟨s, h3, rfl⟩ := h2
      obtain ⟨s', h4, h5⟩ := hdate hf x h1
      rw [h3] at h4
      cases h4
      intro c hc
      have : DateChar c := h5 c hc
      unfold DateChar at this
      omega
    · rename_i hf
      subst h2
      exact (hnum hf _ h1).jsonable
  · constructor
    · rintro ⟨v, hv⟩
      rw [value_iff] at hv
      obtain ⟨x, h1, -⟩ := hv
      exact ⟨x, h1⟩
    · rintro ⟨x, hx⟩
      by_cases hf : a.asText = true
      · obtain ⟨s, h1, -⟩ := hdate hf x hx
        exact ⟨.str s, (value_iff _ _ _).2 ⟨x, hx, by rw [if_pos hf]; exact ⟨s, h1, rfl⟩⟩⟩
      · exact ⟨x, (value_iff _ _ _).2 ⟨x, hx, by rw [if_neg hf]⟩⟩

/-- The number of fields a message needs. -/
def needed (id : Str) : Nat := if id = py!"RMC" then 9 else if id = py!"GGA" then 9 else if id = py!"GSA" then 17 else 0

theorem assign_ok (id : Str) : assigns id = [] ∨ ∃ d, Plain id d ∧
    (∀ a ∈ assigns id, if a.asText then ∃ ty ∈ [DT, TM], (a.attr, ty) ∈ slotsOf d [] ∧ a.attr ≠ py!"lon" ∧ a.attr ≠ py!"lat"
      else ∀ s ∈ slotsOf d [], s.1 = a.attr → s.2 ∈ [LA, LN, DE, IN]) ∧
    (∀ n, (∀ a ∈ assigns id, a.attr ∈ ((slotsOf d []).map Prod.fst).take n) ↔ needed id ≤ n) := by
  have mono : ∀ (l : List Str) (as : List Assign) (k : Nat), (∀ a ∈ as, a.attr ∈ l.take k) → (∃ a ∈ as, a.attr ∉ l.take (k - 1)) → 
      ∀ n, (∀ a ∈ as, a.attr ∈ l.take n) ↔ k ≤ n := by
    intro l as k h1 ⟨a, ha, h2⟩ n
    constructor
    · intro h
      by_contra hlt
      apply h2
      have := h a ha
      exact (List.take_prefix_take_left (show n ≤ k - 1 by omega)).subset this
    · intro hk b hb
      exact (List.take_prefix_take_left hk).subset (h1 b hb)
  apply ids_cases id (fun id => assigns id = [] ∨ ∃ d, Plain id d ∧
    (∀ a ∈ assigns id, if a.asText then ∃ ty ∈ [DT, TM], (a.attr, ty) ∈ slotsOf d [] ∧ a.attr ≠ py!"lon" ∧ a.attr ≠ py!"lat"
      else ∀ s ∈ slotsOf d [], s.1 = a.attr → s.2 ∈ [LA, LN, DE, IN]) ∧
    (∀ n, (∀ a ∈ assigns id, a.attr ∈ ((slotsOf d []).map Prod.fst).take n) ↔ needed id ≤ n))
  · exact .inr ⟨_, rmc_plain, by decide +kernel, mono _ _ 9 (by decide +kernel) (by decide +kernel)⟩
  · exact .inr ⟨_, gga_plain, by decide +kernel, mono _ _ 9 (by decide +kernel) (by decide +kernel)⟩
  · exact .inr ⟨_, gsa_plain, by decide +kernel, mono _ _ 17 (by decide +kernel) (by decide +kernel)⟩
  · intro h1 h2 h3; exact .inl (assigns_other h1 h2 h3)

/-- Which sentences can be stored: those with enough fields. -/
theorem C87_storable (now : Nat → DateTime) (msg : RawMsg) (v : Nat) (u : UDefs) (c t i k : Str) (f : List Str) (m : Msg)
    (hs : IsSentence msg c t i f k) (h : parse now msg 0 v u = .ok (some m)) :
    Storable m ↔ (i = py!"RMC" → 9 ≤ f.length) ∧ (i = py!"GGA" → 9 ≤ f.length) ∧ (i = py!"GSA" → 17 ≤ f.length) := by
  have hid := plain_id hs h
  have e : Storable m ↔ needed i ≤ f.length := by
    rw [storable_iff, hid]
    rcases assign_ok i with h0 | ⟨d, hp, ht, hn⟩
    · have hz : needed i = 0 := by
        unfold needed
        split
        · rename_i hi; subst hi; exact absurd h0 (by decide)
        · split
          · rename_i hi; subst hi; exact absurd h0 (by decide)
          · split
            · rename_i hi; subst hi; exact absurd h0 (by decide)
            · rfl
      rw [h0, hz]
      simp
    · rw [← hn]
      have hr := plain_read hp hs h
      exact forall₂_congr (fun a ha => (assign_value hp hr a (ht a ha)).2)
  rw [e]
  unfold needed
  split
  · rename_i hi; subst hi; simp
  · split
    · rename_i hi; subst hi; simp
    · split
      · rename_i hi; subst hi; simp
      · simp_all

/-! ## The answers -/

/-- What holds of the values in the dictionary. -/
def JsonInv (now : Nat → DateTime) (cfg : RCfg) (w : Web σ) : Prop :=
  (∀ d ∈ w.data, d.1 ∈ page.map Entry.name ∧ Jsonable d.2) ∧
    match w.at_ with
    | .store m todo => todo <:+ assigns m.msgID ∧
        ∃ raw, parse now (.bytes raw) cfg.mode cfg.validate cfg.udefs = .ok (some m)
    | _ => True

theorem mem_insert {k : Str} {v : PyVal} {d : List (Str × PyVal)} {x : Str × PyVal} (h : x ∈ Py.insert k v d) : x ∈ d ∨ x = (k, v) := by
  induction d with
  | nil => simpa [Py.insert] using h
  | cons y d ih =>
    obtain ⟨k', v'⟩ := y
    unfold Py.insert at h
    split at h
    · rename_i hk
      rcases List.mem_cons.1 h with rfl | h
      · exact .inr (by rw [hk])
      · exact .inl (List.mem_cons_of_mem _ h)
    · rcases List.mem_cons.1 h with rfl | h
      · exact .inl (by simp)
      · rcases ih h with h | h
        · exact .inl (List.mem_cons_of_mem _ h)
        · exact .inr h

theorem stored_json (hm : cfg.mode = 0) {m : Msg} {raw : Bytes}
    (h : parse now (.bytes raw) cfg.mode cfg.validate cfg.udefs = .ok (some m)) (a : Assign) (ha : a ∈ assigns m.msgID) (v : PyVal)
    (hv : a.value m = .ok v) : Jsonable v := by
  rw [hm] at h
  obtain ⟨_, p, hp, _⟩ := parse_accepted _ _ _ _ _ _ h
  have hs := (getParts_sentence _ _).1 hp
  have hid := plain_id hs h
  rcases assign_ok m.msgID with h0 | ⟨d, hpl, ht, -⟩
  · rw [h0] at ha; cases ha
  · rw [← hid] at hs
    exact (assign_value hpl (plain_read hpl hs h) a (ht a ha)).1 v hv

theorem json_step (hm : cfg.mode = 0) (w : Web σ) (x : WebAct) (h : JsonInv now cfg w) :
    JsonInv now cfg (w.step now ops cfg inw x) := by
  obtain ⟨hd, ha⟩ := h
  cases x with
  | request => exact ⟨hd, ha⟩
  | stop => exact ⟨hd, ha⟩
  | thread =>
    simp only [Web.step]
    unfold webThread
    cases hat : w.at_ with
    | top => simp only; split <;> exact ⟨hd, trivial⟩
    | waiting =>
      simp only
      refine ⟨hd, ?_⟩
      simp only
      cases inw w.polls <;> trivial
    | ended => simp only; exact ⟨hd, ha⟩
    | died e => simp only; exact ⟨hd, ha⟩
    | read =>
      simp only
      split
      · rename_i raw m log s heq
        exact ⟨hd, List.suffix_refl _, raw, readMsg_item w.stream raw (some m) (by rw [heq])⟩
      · exact ⟨hd, trivial⟩
      · exact ⟨hd, trivial⟩
      · rename_i e log s heq
        refine ⟨hd, ?_⟩
        simp only
        cases webCatches e <;> trivial
    | store m todo =>
      rw [hat] at ha
      obtain ⟨hsuf, raw, hp⟩ := ha
      cases todo with
      | nil => exact ⟨hd, trivial⟩
      | cons a r =>
        simp only
        split
        · rename_i v hv
          refine ⟨?_, (List.suffix_cons a r).trans hsuf, raw, hp⟩
          intro d hdm
          rcases mem_insert hdm with h | rfl
          · exact hd d h
          · have ham : a ∈ assigns m.msgID := hsuf.subset (by simp)
            obtain ⟨e, he, hn, -⟩ := assign_entry _ a ham
            exact ⟨List.mem_map.2 ⟨e, he, hn⟩, stored_json hm hp a ham v hv⟩
        · rename_i e he
          refine ⟨hd, ?_⟩
          simp only
          cases webCatches e <;> trivial

theorem json_run (hm : cfg.mode = 0) (s : σ) (sched : List WebAct) :
    JsonInv now cfg ((start s).run now ops cfg inw sched) := by
  induction sched using List.reverseRecOn with
  | nil =>
    refine ⟨?_, trivial⟩
    show ∀ d ∈ gpsStart, _
    have hz := zero_wf false
    have h1 : ∀ d ∈ gpsStart, d.1 ∈ page.map Entry.name := by decide +kernel
    intro d hd
    refine ⟨h1 d hd, ?_⟩
    simp only [gpsStart, List.mem_cons, List.not_mem_nil, or_false] at hd
    rcases hd with rfl | rfl | rfl | rfl | rfl | rfl | rfl | rfl | rfl | rfl | rfl | rfl <;>
      first | exact hz | exact ⟨_, rfl⟩ | (unfold Jsonable; decide)
  | append_singleton a x ih =>
    rw [run_append]
    exact json_step hm _ _ ih

/-- Every request is answered, at whatever moment it comes; and the answer is a JSON object with the entries of the
dictionary, unless one of these is a `nan` or an infinity. -/
theorem C87_json (hm : cfg.mode = 0) (s : σ) (sched : List WebAct) :
    ∃ text, ((start s).run now ops cfg inw (sched ++ [.request])).answers =
        ((start s).run now ops cfg inw sched).answers ++ [.ok text] ∧
      ((∀ d ∈ ((start s).run now ops cfg inw sched).data, IsFiniteFloat d.2) →
        IsObject text ((start s).run now ops cfg inw sched).data) := by
  obtain ⟨h, -⟩ := json_run (now := now) (ops := ops) (inw := inw) hm s sched
  have hn : ∀ n ∈ page.map Entry.name, ∀ c ∈ n, 32 ≤ c ∧ c ≤ 126 ∧ c ≠ 34 ∧ c ≠ 92 := by decide
  obtain ⟨text, h1, h2⟩ := getData_ok _ (fun d hd => hn _ (h d hd).1) (fun d hd => (h d hd).2)
  refine ⟨text, ?_, h2⟩
  rw [run_append, ← h1]
  rfl

/-- The thread comes to its end only if it has been told to stop. -/
theorem C87_ended (s : σ) (sched : List WebAct) (h : ((start s).run now ops cfg inw sched).at_ = .ended) : WebAct.stop ∈ sched := by
  have main : ∀ (l : List WebAct) (w : Web σ), (w.run now ops cfg inw l).at_ = .ended → (w.run now ops cfg inw l).stop = true →
      w.stop = true ∨ WebAct.stop ∈ l := by
    intro l
    induction l with
    | nil => intro w _ h; exact .inl h
    | cons x l ih =>
      intro w h1 h2
      rw [run_cons] at h1 h2
      rcases ih _ h1 h2 with h | h
      · cases x with
        | stop => exact .inr (by simp)
        | request => exact .inl h
        | thread =>
          left
          simp only [Web.step] at h
          unfold webThread at h
          split at h <;> (try split at h) <;> exact h
      · exact .inr (List.mem_cons_of_mem _ h)
  have inv : ∀ (l : List WebAct) (w : Web σ), (w.at_ = .ended → w.stop = true) →
      (w.run now ops cfg inw l).at_ = .ended → (w.run now ops cfg inw l).stop = true := by
    intro l
    induction l with
    | nil => intro w h; exact h
    | cons x l ih =>
      intro w h
      rw [run_cons]
      apply ih
      cases x with
      | stop => intro _; rfl
      | request => exact h
      | thread =>
        simp only [Web.step]
        unfold webThread
        cases hat : w.at_ with
        | top => simp only; split <;> simp_all
        | waiting => simp only; cases inw w.polls <;> simp
        | read =>
          simp only
          split
          · simp
          · simp
          · simp
          · rename_i e _ _ _; cases webCatches e <;> simp
        | store m todo =>
          cases todo with
          | nil => simp
          | cons a r =>
            simp only
            split
            · simp
            · rename_i e _; cases webCatches e <;> simp
        | ended => intro _; exact h hat
        | died e => simp [hat]
  rcases main sched _ h (inv sched _ (by simp [start]) h) with h | h
  · cases h
  · exact h

/-! ## Concrete runs -/

/-- A sentence. -/
def rmcLine : Bytes := pb!"$GNRMC,103607.00,A,5327.03942,N,00214.42462,W,0.046,,060321,,,A,V*0F\r\n"

/-- A short one. -/
def shortLine : Bytes := pb!"$GNRMC,103607.00,A*39\r\n"

/-- One with a `nan`. -/
def nanLine : Bytes := pb!"$GNGGA,103607.00,5327.03942,N,00214.42462,W,1,06,nan,56.0,M,48.5,M,,*1E\r\n"

/-- What a request sees after reading the line and `n` more steps of the thread, and whether the thread is alive. -/
def look (line : Bytes) (n : Nat) : Option (Option Str × Bool) :=
  match step clock0 fileStream webCfg line with
  | (.msg _ (some m), []) =>
    let w : Web Bytes := { stream := [], polls := 1, at_ := .store m (assigns m.msgID) }
    let w' := w.run clock0 fileStream webCfg (fun _ => true) (List.replicate n .thread)
    some ((getData w'.data).toOption, match w'.at_ with | .died _ => false | _ => true)
  | _ => none

theorem look_run (line : Bytes) (n : Nat) (text : Option Str) (alive : Bool) (h : look line n = some (text, alive)) :
    (getData ((start line).run clock0 fileStream webCfg (fun _ => true) (List.replicate (3 + n) .thread)).data).toOption = text ∧
      (alive = false ↔ ∃ e, ((start line).run clock0 fileStream webCfg (fun _ => true) (List.replicate (3 + n) .thread)).at_ = .died e) := by
  unfold look at h
  split at h
  · rename_i raw m heq
    have e : readMsg clock0 fileStream webCfg line = (.item raw (some m), [], []) := by
      rw [readMsg_eq, heq]
    have e3 : (start line).run clock0 fileStream webCfg (fun _ => true) (List.replicate 3 .thread) =
        { stream := [], polls := 1, at_ := .store m (assigns m.msgID) } := by
      simp [Web.run, Web.step, webThread, start, e]
    rw [← List.replicate_append_replicate, run_append, e3]
    simp only [Option.some.injEq, Prod.mk.injEq] at h
    refine ⟨h.1, ?_⟩
    rw [← h.2]
    split
    · rename_i e' he; simp [he]
    · rename_i hne
      simp only [Bool.true_eq_false, false_iff, not_exists]
      exact hne
  · cases h

/-- The page after an RMC sentence. -/
example : (getData ((start rmcLine).run clock0 fileStream webCfg (fun _ => true) (List.replicate 10 .thread)).data).toOption =
    some (py!"{\"date\": \"2021-03-06\", \"time\": \"10:36:07\", \"latitude\": 53.450657, \"longitude\": -2.2404103333, " ++
      py!"\"elevation\": 0.0, \"speed\": 0.046, \"track\": \"\", \"siv\": 0, \"pdop\": 99, \"hdop\": 99, \"vdop\": 99, \"fix\": 0}") :=
  (look_run rmcLine 7 _ true (by decide +kernel)).1

/-- In the middle of storing it: the new latitude, the old longitude. -/
example : (getData ((start rmcLine).run clock0 fileStream webCfg (fun _ => true) (List.replicate 6 .thread)).data).toOption =
    some (py!"{\"date\": \"2021-03-06\", \"time\": \"10:36:07\", \"latitude\": 53.450657, \"longitude\": 0.0, " ++
      py!"\"elevation\": 0.0, \"speed\": 0.0, \"track\": 0, \"siv\": 0, \"pdop\": 99, \"hdop\": 99, \"vdop\": 99, \"fix\": 0}") :=
  (look_run rmcLine 3 _ true (by decide +kernel)).1

/-- A short sentence kills the thread. -/
example : ∃ e, ((start shortLine).run clock0 fileStream webCfg (fun _ => true) (List.replicate 4 .thread)).at_ = .died e :=
  (look_run shortLine 1 (getData gpsStart).toOption false (by decide +kernel)).2.1 rfl

/-- A `nan` makes an answer that is not JSON. -/
example : (getData ((start nanLine).run clock0 fileStream webCfg (fun _ => true) (List.replicate 10 .thread)).data).toOption =
    some (py!"{\"date\": \"1900-01-01\", \"time\": \"10:36:07\", \"latitude\": 53.450657, \"longitude\": -2.2404103333, " ++
      py!"\"elevation\": 56.0, \"speed\": 0.0, \"track\": 0, \"siv\": 6, \"pdop\": 99, \"hdop\": NaN, \"vdop\": 99, \"fix\": 0}") :=
  (look_run nanLine 7 _ true (by decide +kernel)).1

/-- The hypotheses of `C87_storable` hold for the short sentence, which cannot be stored. -/
example : ∃ c t k f m, IsSentence (.bytes shortLine) c t py!"RMC" f k ∧ parse clock0 (.bytes shortLine) 0 1 [] = .ok (some m) ∧
    ¬ Storable m := by
  have hp : getParts (.bytes shortLine) = .ok ⟨py!"GNRMC,103607.00,A", py!"GN", py!"RMC", [py!"103607.00", py!"A"], py!"39"⟩ := by
    decide +kernel
  have hs := (getParts_sentence _ _).1 hp
  have h : (match parse clock0 (.bytes shortLine) 0 1 [] with | .ok (some _) => true | _ => false) = true := by decide +kernel
  split at h
  · rename_i m hm
    refine ⟨_, _, _, _, m, hs, hm, ?_⟩
    rw [C87_storable _ _ _ _ _ _ _ _ _ _ hs hm]
    decide
  · cases h

end Props.Web
