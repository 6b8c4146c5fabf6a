import Verif.Spec.Stream
/-! # Lemmas: runs of the reader -/
namespace Nmea
open Py Spec

theorem readMsg_eq {σ} (now : Nat → DateTime) (ops : StreamOps σ) (cfg : RCfg) (s : σ) :
    readMsg now ops cfg s = match step now ops cfg s with
      | (.eof, s') => (.none, [], s')
      | (.msg raw m, s') => (.item raw m, [], s')
      | (.crash e, s') => (.raised e, [], s')
      | (.skip, s') => readMsg now ops cfg s'
      | (.err e, s') =>
        if cfg.quitonerror = 2 then (.raised e, [], s')
        else
          let (r, log, s'') := readMsg now ops cfg s'
          (r, (if cfg.quitonerror = 1 then e :: log else log), s'') := by
  conv => lhs; rw [readMsg]
  split <;> simp_all

theorem step_policy {σ} (now : Nat → DateTime) (ops : StreamOps σ) (cfg : RCfg) (q : Nat) (s : σ) :
    step now ops (withPolicy cfg q) s = step now ops cfg s := rfl

/-- The events of passes through the loop, until the end of the stream. -/
inductive Run {σ} (now : Nat → DateTime) (ops : StreamOps σ) (cfg : RCfg) : σ → List Event → Prop
  | done (s s') : step now ops cfg s = (.eof, s') → Run now ops cfg s []
  | more (s ev s' evs) : step now ops cfg s = (ev, s') → ev ≠ .eof → Run now ops cfg s' evs →
      Run now ops cfg s (ev :: evs)

theorem run_exists {σ} (now : Nat → DateTime) (ops : StreamOps σ) (cfg : RCfg) (s : σ) :
    ∃ evs, Run now ops cfg s evs := by
  induction s using ops.rel.wf.induction with
  | _ s ih =>
    have hd := step_dec now ops cfg s
    cases hs : step now ops cfg s with
    | mk ev s' =>
      by_cases he : ev = .eof
      · subst he; exact ⟨[], .done s s' hs⟩
      · have hlt : ops.rel.rel s' s := by
          rcases hd with ⟨s'', h⟩ | h
          · rw [hs] at h; cases h; exact absurd rfl he
          · rw [hs] at h; exact h
        obtain ⟨evs, h⟩ := ih s' hlt
        exact ⟨ev :: evs, .more s ev s' evs hs he h⟩

theorem run_det {σ} {now : Nat → DateTime} {ops : StreamOps σ} {cfg : RCfg} {s : σ} {a b : List Event}
    (ha : Run now ops cfg s a) (hb : Run now ops cfg s b) : a = b := by
  induction ha generalizing b with
  | done s s' h =>
    cases hb with
    | done => rfl
    | more _ ev _ _ h' he _ => rw [h] at h'; cases h'; exact absurd rfl he
  | more s ev s' evs h he _ ih =>
    cases hb with
    | done _ _ h' => rw [h] at h'; cases h'; exact absurd rfl he
    | more _ _ _ _ h' _ hr => rw [h] at h'; cases h'; rw [ih hr]

/-- The entries of a session, given the events. -/
def sess (q : Nat) : List Err → List Event → List (List Err × ReadResult)
  | log, [] => [(log, .none)]
  | log, .skip :: es => sess q log es
  | log, .eof :: es => sess q log es
  | log, .msg raw m :: es => (log, .item raw m) :: sess q [] es
  | log, .crash e :: es => (log, .raised e) :: sess q [] es
  | log, .err e :: es =>
    if q = 2 then (log, .raised e) :: sess q [] es
    else sess q (if q = 1 then log ++ [e] else log) es

/-- Outcome of the first call. -/
theorem sess_prepend (q : Nat) (pre log : List Err) (evs : List Event) :
    ∃ l r rest, sess q log evs = (l, r) :: rest ∧ sess q (pre ++ log) evs = (pre ++ l, r) :: rest := by
  induction evs generalizing log with
  | nil => exact ⟨log, .none, [], rfl, rfl⟩
  | cons ev es ih =>
    cases ev with
    | skip => exact ih log
    | eof => exact ih log
    | msg raw m => exact ⟨log, _, _, rfl, rfl⟩
    | crash e => exact ⟨log, _, _, rfl, rfl⟩
    | err e =>
      simp only [sess]
      split
      · exact ⟨log, _, _, rfl, rfl⟩
      · split
        · have := ih (log ++ [e])
          rwa [← List.append_assoc] at this
        · exact ih log

theorem session_det {σ} {now : Nat → DateTime} {ops : StreamOps σ} {cfg : RCfg} {s : σ}
    {a b : List (List Err × ReadResult)} (ha : Session now ops cfg s a) (hb : Session now ops cfg s b) : a = b := by
  induction ha generalizing b with
  | last s s' log h =>
    cases hb with
    | last _ _ _ h' => rw [h] at h'; cases h'; rfl
    | more _ _ _ _ _ h' hr _ => rw [h] at h'; cases h'; exact absurd rfl hr
  | more s s' r log rest h hr _ ih =>
    cases hb with
    | last _ _ _ h' => rw [h] at h'; cases h'; exact absurd rfl hr
    | more _ _ _ _ _ h' _ hs => rw [h] at h'; cases h'; rw [ih hs]

/-- Continue a session's first call with an earlier pass. -/
theorem session_skip {σ} {now : Nat → DateTime} {ops : StreamOps σ} {cfg : RCfg} {s s' : σ} (pre : List Err)
    {l r rest} (hs : Session now ops cfg s' ((l, r) :: rest))
    (h : readMsg now ops cfg s = ((readMsg now ops cfg s').1, pre ++ (readMsg now ops cfg s').2.1,
      (readMsg now ops cfg s').2.2)) : Session now ops cfg s ((pre ++ l, r) :: rest) := by
  cases hs with
  | last _ s'' _ h' => rw [h'] at h; exact .last s s'' _ h
  | more _ s'' _ _ _ h' hr hrest => rw [h'] at h; exact .more s s'' r _ _ h hr hrest

theorem session_of_run {σ} {now : Nat → DateTime} {ops : StreamOps σ} {cfg : RCfg} {s : σ} {evs : List Event}
    (h : Run now ops cfg s evs) : Session now ops cfg s (sess cfg.quitonerror [] evs) := by
  induction h with
  | done s s' h => exact .last s s' [] (by rw [readMsg_eq, h])
  | more s ev s' evs h he _ ih =>
    cases ev with
    | eof => exact absurd rfl he
    | skip =>
      obtain ⟨l, r, rest, e1, _⟩ := sess_prepend cfg.quitonerror [] [] evs
      simp only [sess]
      rw [e1] at ih ⊢
      exact session_skip [] ih (by rw [readMsg_eq now ops cfg s, h]; rfl)
    | msg raw m => exact .more s s' _ [] _ (by rw [readMsg_eq, h]) (by simp) ih
    | crash e => exact .more s s' _ [] _ (by rw [readMsg_eq, h]) (by simp) ih
    | err e =>
      simp only [sess]
      split
      · rename_i hq
        exact .more s s' _ [] _ (by rw [readMsg_eq, h]; simp [hq]) (by simp) ih
      · rename_i hq
        obtain ⟨l, r, rest, e1, e2⟩ := sess_prepend cfg.quitonerror (if cfg.quitonerror = 1 then [e] else []) [] evs
        rw [e1] at ih
        have : (if cfg.quitonerror = 1 then [] ++ [e] else []) = (if cfg.quitonerror = 1 then [e] else []) ++ [] := by
          split <;> rfl
        rw [this, e2]
        refine session_skip _ ih ?_
        rw [readMsg_eq now ops cfg s, h]
        simp only [if_neg hq]
        split <;> rfl

theorem run_policy {σ} {now : Nat → DateTime} {ops : StreamOps σ} {cfg : RCfg} {s : σ} {evs : List Event}
    (h : Run now ops cfg s evs) (q : Nat) : Run now ops (withPolicy cfg q) s evs := by
  induction h with
  | done s s' h => exact .done s s' h
  | more s ev s' evs h he _ ih => exact .more s ev s' evs h he ih

/-- Errors of passes are library errors; other exceptions are not. -/
theorem step_errors {σ} (now : Nat → DateTime) (ops : StreamOps σ) (cfg : RCfg) (s s' : σ) (e : Err) :
    (step now ops cfg s = (.err e, s') → LibraryError e) ∧ (step now ops cfg s = (.crash e, s') → ¬ LibraryError e) := by
  constructor
  · intro h
    simp only [step] at h
    split at h
    · cases h
    · split at h
      · cases h
      · split at h
        · cases h
        · split at h
          · split at h
            · cases h
            · rename_i e3 s3 hne hrl
              cases h
              simp only [readLine] at hrl
              split at hrl
              · cases hrl; exact absurd rfl hne
              · split at hrl
                · cases hrl; exact .inr (.inr (.inr rfl))
                · cases hrl
            · repeat' split at h
              all_goals cases h
              all_goals decide
          · split at h
            · cases h; exact .inr (.inr (.inl rfl))
            · cases h
  · intro h
    simp only [step] at h
    split at h
    · cases h
    · split at h
      · cases h
      · split at h
        · cases h
        · split at h
          · split at h
            · cases h
            · cases h
            · repeat' split at h
              all_goals cases h
              rename_i h1 h2 h3 h4 _
              rintro (rfl | rfl | rfl | rfl) <;> simp_all
          · split at h <;> cases h

def goodEvents (evs : List Event) : Prop :=
  ∀ ev ∈ evs, (∀ e, ev = .err e → LibraryError e) ∧ (∀ e, ev = .crash e → ¬ LibraryError e)

theorem run_good {σ} {now : Nat → DateTime} {ops : StreamOps σ} {cfg : RCfg} {s : σ} {evs : List Event}
    (h : Run now ops cfg s evs) : goodEvents evs := by
  induction h with
  | done => intro ev h; cases h
  | more s ev s' evs h he _ ih =>
    intro x hx
    rcases List.mem_cons.1 hx with rfl | hx
    · exact ⟨fun e he => (step_errors now ops cfg s s' e).1 (by rw [h, he]),
        fun e he => (step_errors now ops cfg s s' e).2 (by rw [h, he])⟩
    · exact ih x hx

theorem sess_transcript (log : List Err) (evs : List Event) :
    transcript (sess 1 log evs) = log.map .raised ++ (sess 2 [] evs).map Prod.snd := by
  induction evs generalizing log with
  | nil => simp [sess, transcript]
  | cons ev es ih =>
    cases ev with
    | skip => exact ih log
    | eof => exact ih log
    | msg raw m =>
      have := ih []
      simp only [sess, transcript, List.flatMap_cons, List.map_nil, List.nil_append, List.map_cons] at this ⊢
      rw [this]; simp
    | crash e =>
      have := ih []
      simp only [sess, transcript, List.flatMap_cons, List.map_nil, List.nil_append, List.map_cons] at this ⊢
      rw [this]; simp
    | err e =>
      simp only [sess, if_pos, if_neg (by decide : ¬ (1 = 2))]
      rw [ih]
      simp

theorem sess_log2 (evs : List Event) : ∀ x ∈ sess 2 [] evs, x.1 = [] := by
  induction evs with
  | nil => intro x hx; simp [sess] at hx; rw [hx]
  | cons ev es ih =>
    cases ev with
    | skip => exact ih
    | eof => exact ih
    | msg raw m => intro x hx; simp only [sess, List.mem_cons] at hx; rcases hx with rfl | hx; rfl; exact ih x hx
    | crash e => intro x hx; simp only [sess, List.mem_cons] at hx; rcases hx with rfl | hx; rfl; exact ih x hx
    | err e =>
      intro x hx; simp only [sess, if_pos, List.mem_cons] at hx; rcases hx with rfl | hx; rfl; exact ih x hx

theorem sess_log0 (q : Nat) (hq : q ≠ 1) (hq2 : q ≠ 2) (evs : List Event) : ∀ x ∈ sess q [] evs, x.1 = [] := by
  induction evs with
  | nil => intro x hx; simp [sess] at hx; rw [hx]
  | cons ev es ih =>
    cases ev with
    | skip => exact ih
    | eof => exact ih
    | msg raw m => intro x hx; simp only [sess, List.mem_cons] at hx; rcases hx with rfl | hx; rfl; exact ih x hx
    | crash e => intro x hx; simp only [sess, List.mem_cons] at hx; rcases hx with rfl | hx; rfl; exact ih x hx
    | err e => simp only [sess, if_neg hq, if_neg hq2]; exact ih

theorem sess_results (q : Nat) (hq : q ≠ 2) (evs : List Event) (hg : goodEvents evs) (log : List Err) :
    (sess q log evs).map Prod.snd = ((sess 2 [] evs).map Prod.snd).filter (fun r => !isLibraryError r) := by
  induction evs generalizing log with
  | nil => simp [sess, isLibraryError]
  | cons ev es ih =>
    have hg' : goodEvents es := fun x hx => hg x (by simp [hx])
    have hev := hg ev (by simp)
    cases ev with
    | skip => exact ih hg' log
    | eof => exact ih hg' log
    | msg raw m => simp [sess, isLibraryError, ih hg' []]
    | crash e => simp [sess, isLibraryError, ih hg' [], hev.2 e rfl]
    | err e => simp [sess, isLibraryError, hq, ih hg', hev.1 e rfl]

/-! ## Files -/

theorem hdr_iff (h : UInt8) : ([36, h] : Bytes) ∈ NMEA_HDR ↔ TalkerLetter h := by
  unfold NMEA_HDR TalkerLetter
  rw [List.mem_map]
  have hlt : ∀ t ∈ NMEA_TALKERS, ∃ c r, t = c :: r ∧ c < 256 := by
    have : ∀ t ∈ NMEA_TALKERS, (match t with | c :: _ => decide (c < 256) | [] => false) = true := by decide +kernel
    intro t ht
    have := this t ht
    cases t with
    | nil => cases this
    | cons c r => exact ⟨c, r, rfl, by simpa using this⟩
  constructor
  · rintro ⟨t, ht, e⟩
    refine ⟨t, ht, ?_⟩
    obtain ⟨c, r, rfl, hc⟩ := hlt t ht
    simp at e
    rw [← e]
    simp [UInt8.toNat_ofNat, Nat.mod_eq_of_lt hc]
  · rintro ⟨t, ht, e⟩
    refine ⟨t, ht, ?_⟩
    obtain ⟨c, r, rfl, hc⟩ := hlt t ht
    simp at e
    simp [e]

theorem fileLine_lf (body r : Bytes) (h : 10 ∉ body) : fileLine (body ++ 10 :: r) = (body ++ [10], r) := by
  induction body with
  | nil => simp [fileLine]
  | cons b body ih =>
    simp only [List.mem_cons, not_or] at h
    simp only [List.cons_append, fileLine]
    rw [if_neg (fun e => h.1 e.symm), ih h.2]

theorem fileLine_nolf (body : Bytes) (h : 10 ∉ body) : fileLine body = (body, []) := by
  induction body with
  | nil => rfl
  | cons b body ih =>
    simp only [List.mem_cons, not_or] at h
    simp only [fileLine]
    rw [if_neg (fun e => h.1 e.symm), ih h.2]

theorem split_lf (b : Bytes) : (10 ∉ b) ∨ ∃ body r, 10 ∉ body ∧ b = body ++ 10 :: r := by
  by_cases h : 10 ∈ b
  · obtain ⟨body, r, e, hn⟩ := List.eq_append_cons_of_mem h
    exact .inr ⟨body, r, hn, e⟩
  · exact .inl h

/-- Every byte string falls into pieces in exactly one way. -/
theorem pieces_exists (b : Bytes) : ∃ ps, Pieces b ps := by
  induction hn : b.length using Nat.strongRecOn generalizing b with
  | _ n ih =>
    match b with
    | [] => exact ⟨[], .nil⟩
    | x :: r =>
      by_cases hx : x = 36
      · subst hx
        match r with
        | [] => exact ⟨[], .dollar⟩
        | h :: r =>
          by_cases hh : TalkerLetter h
          · rcases split_lf r with hl | ⟨body, r', hl, rfl⟩
            · by_cases hr : r = []
              · subst hr; exact ⟨[], .letter h hh⟩
              · exact ⟨_, .cut h r hh hr hl⟩
            · obtain ⟨ps, hp⟩ := ih r'.length (by simp at hn; omega) r' rfl
              exact ⟨_, .line h body r' ps hh hl hp⟩
          · obtain ⟨ps, hp⟩ := ih r.length (by simp at hn; omega) r rfl
            exact ⟨_, .foreign h r ps hh hp⟩
      · obtain ⟨ps, hp⟩ := ih r.length (by simp at hn; omega) r rfl
        exact ⟨_, .junk x r ps hx hp⟩

/-- The event of a piece. -/
def eventOf (now : Nat → DateTime) (cfg : RCfg) : Piece → Event
  | .junk _ => .skip
  | .foreign _ => if cfg.nmeaonly then .err .nmeaParse else .skip
  | .line raw =>
    match parse now (.bytes raw) cfg.mode cfg.validate cfg.udefs with
    | .ok m => .msg raw m
    | .error e => if LibraryError e then .err e else .crash e
  | .cut _ => .err .nmeaStream

theorem step_file_run (now : Nat → DateTime) (cfg : RCfg) (b : Bytes) (ps : List Piece) (h : Pieces b ps) :
    Run now fileStream cfg b (ps.map (eventOf now cfg)) := by
  induction h with
  | nil => exact .done [] [] rfl
  | junk b r ps hb _ ih =>
    refine .more _ .skip r _ ?_ (by simp) ih
    simp only [step, fileStream, List.take_succ_cons, List.take_zero, List.drop_succ_cons, List.drop_zero]
    rw [if_neg (by simp), if_pos (by simpa using hb)]
  | foreign h r ps hh _ ih =>
    refine .more _ _ r _ ?_ (by simp only [eventOf]; split <;> simp) ih
    simp only [step, fileStream, List.take_succ_cons, List.take_zero, List.drop_succ_cons, List.drop_zero]
    rw [if_neg (by simp), if_neg (by simp), if_neg (by simp), if_neg (by
      intro hm; exact hh ((hdr_iff h).1 hm))]
    simp only [eventOf]
    split <;> rfl
  | line h body r ps hh hl _ ih =>
    refine .more _ _ r _ ?_ (by
      simp only [eventOf]; split
      · simp
      · split <;> simp) ih
    simp only [step, fileStream, List.take_succ_cons, List.take_zero, List.drop_succ_cons, List.drop_zero]
    rw [if_neg (by simp), if_neg (by simp), if_neg (by simp), if_pos (show ([36] ++ [h] : Bytes) ∈ NMEA_HDR from (hdr_iff h).2 hh)]
    simp only [readLine]
    rw [fileLine_lf body r hl]
    simp only
    rw [if_neg (by simp), if_neg (by simp)]
    simp only [eventOf]
    have e : ([36] ++ [h] ++ (body ++ [10]) : Bytes) = 36 :: h :: (body ++ [10]) := by simp
    rw [e]
    cases parse now (.bytes (36 :: h :: (body ++ [10]))) cfg.mode cfg.validate cfg.udefs with
    | ok m => rfl
    | error e => cases e <;> rfl
  | dollar =>
    refine .done _ [] ?_
    simp only [step, fileStream, List.take_succ_cons, List.take_zero, List.drop_succ_cons, List.drop_zero]
    rw [if_neg (by simp), if_neg (by simp), if_pos (by simp)]
    rfl
  | letter h hh =>
    refine .done _ [] ?_
    simp only [step, fileStream, List.take_succ_cons, List.take_zero, List.drop_succ_cons, List.drop_zero]
    rw [if_neg (by simp), if_neg (by simp), if_neg (by simp), if_pos (show ([36] ++ [h] : Bytes) ∈ NMEA_HDR from (hdr_iff h).2 hh)]
    simp only [readLine, fileLine]
    rfl
  | cut h body hh hne hl =>
    refine .more _ _ [] _ ?_ (by simp [eventOf]) (.done [] [] rfl)
    simp only [step, fileStream, List.take_succ_cons, List.take_zero, List.drop_succ_cons, List.drop_zero]
    rw [if_neg (by simp), if_neg (by simp), if_neg (by simp), if_pos (show ([36] ++ [h] : Bytes) ∈ NMEA_HDR from (hdr_iff h).2 hh)]
    simp only [readLine]
    rw [fileLine_nolf body hl]
    simp only
    rw [if_neg hne, if_pos]
    · rfl
    · intro e
      exact hl (List.mem_of_getLast? e)

theorem pieces_det {b : Bytes} {p q : List Piece} (hp : Pieces b p) (hq : Pieces b q) : p = q := by
  have unlf : ∀ (a b c d : Bytes), 10 ∉ a → 10 ∉ c → a ++ 10 :: b = c ++ 10 :: d → a = c ∧ b = d := by
    intro a b c d ha hc e
    have h1 := fileLine_lf a b ha
    have h2 := fileLine_lf c d hc
    rw [e, h2] at h1
    simp only [Prod.mk.injEq, List.append_cancel_right_eq] at h1
    exact ⟨h1.1.symm, h1.2.symm⟩
  induction hp generalizing q with
  | nil => cases hq; rfl
  | junk b r ps hb _ ih =>
    cases hq with
    | junk _ _ _ _ h => rw [ih h]
    | foreign => exact absurd rfl hb
    | line => exact absurd rfl hb
    | dollar => exact absurd rfl hb
    | letter => exact absurd rfl hb
    | cut => exact absurd rfl hb
  | foreign h r ps hh _ ih =>
    generalize hz : 36 :: h :: r = z at hq
    cases hq with
    | nil => cases hz
    | junk _ _ _ hb _ => cases hz; exact absurd rfl hb
    | foreign _ _ _ _ h' => cases hz; rw [ih h']
    | line _ _ _ _ ht _ _ => cases hz; exact absurd ht hh
    | dollar => cases hz
    | letter _ ht => cases hz; exact absurd ht hh
    | cut _ _ ht _ _ => cases hz; exact absurd ht hh
  | line h body r ps hh hl _ ih =>
    generalize hz : 36 :: h :: (body ++ 10 :: r) = z at hq
    cases hq with
    | nil => cases hz
    | junk _ _ _ hb _ => cases hz; exact absurd rfl hb
    | foreign _ _ _ ht h' => cases hz; exact absurd hh ht
    | line _ body' r' _ ht hl' h' =>
      simp only [List.cons.injEq, true_and] at hz
      obtain ⟨rfl, hz⟩ := hz
      obtain ⟨rfl, rfl⟩ := unlf _ _ _ _ hl hl' hz
      rw [ih h']
    | dollar => cases hz
    | letter _ ht => simp at hz
    | cut _ _ ht _ hl' => simp only [List.cons.injEq, true_and] at hz; rw [← hz.2] at hl'; simp at hl'
  | dollar =>
    generalize hz : [(36 : UInt8)] = z at hq
    cases hq with
    | dollar => rfl
    | junk _ _ _ hb _ => cases hz; exact absurd rfl hb
    | nil => cases hz
    | foreign => cases hz
    | line => cases hz
    | letter => cases hz
    | cut => cases hz
  | letter h hh =>
    generalize hz : [(36 : UInt8), h] = z at hq
    cases hq with
    | dollar => rfl
    | junk _ _ _ hb _ => cases hz; exact absurd rfl hb
    | nil => cases hz
    | foreign _ _ _ ht _ => cases hz; exact absurd hh ht
    | line => simp at hz
    | letter => rfl
    | cut _ _ _ hne _ => cases hz; exact absurd rfl hne
  | cut h body hh hne hl =>
    generalize hz : 36 :: h :: body = z at hq
    cases hq with
    | nil => cases hz
    | dollar => cases hz
    | junk _ _ _ hb _ => cases hz; exact absurd rfl hb
    | foreign _ _ _ ht _ => cases hz; exact absurd hh ht
    | line _ _ _ _ _ hl' _ => simp only [List.cons.injEq, true_and] at hz; rw [hz.2] at hl; simp at hl
    | letter => cases hz; exact absurd rfl hne
    | cut => cases hz; rfl

theorem sess2_pieces (now : Nat → DateTime) (cfg : RCfg) (ps : List Piece) :
    (sess 2 [] (ps.map (eventOf now cfg))).map Prod.snd = ps.filterMap (reply now cfg) ++ [.none] := by
  induction ps with
  | nil => rfl
  | cons p ps ih =>
    rw [List.map_cons, List.filterMap_cons]
    cases p with
    | junk b => exact ih
    | foreign h =>
      simp only [eventOf, reply]
      split
      · simp only [sess, if_pos, List.map_cons, ih]; rfl
      · exact ih
    | line raw =>
      simp only [eventOf, reply]
      cases parse now (.bytes raw) cfg.mode cfg.validate cfg.udefs with
      | ok m => simp only [sess, List.map_cons, ih]; rfl
      | error e =>
        simp only
        split <;> simp only [sess, if_pos, List.map_cons, ih] <;> rfl
    | cut raw => simp only [eventOf, reply, sess, if_pos, List.map_cons, ih]; rfl

end Nmea
