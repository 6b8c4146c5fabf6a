import Verif.Lemmas.ErrorText
import Verif.Lemmas.Reader
import Verif.Spec.ErrorText
/-! # Lemmas: the texts of the reader's exceptions -/
namespace Nmea
open Py Spec

variable {σ} {now : Nat → DateTime} {ops : StreamOps σ} {cfg : RCfg}

theorem readMsgT_done {s s' : σ} (h : step now ops cfg s = (.eof, s')) : readMsgT now ops cfg s = (.none, none, [], s') := by
  rw [readMsgT]; split <;> simp_all
theorem readMsgT_msg {s s' : σ} {raw m} (h : step now ops cfg s = (.msg raw m, s')) :
    readMsgT now ops cfg s = (.item raw m, none, [], s') := by
  rw [readMsgT]; split <;> simp_all
theorem readMsgT_crash {s s' : σ} {e} (h : step now ops cfg s = (.crash e, s')) :
    readMsgT now ops cfg s = (.raised e, none, [], s') := by
  rw [readMsgT]; split <;> simp_all
theorem readMsgT_skip {s s' : σ} (h : step now ops cfg s = (.skip, s')) :
    readMsgT now ops cfg s = readMsgT now ops cfg s' := by
  rw [readMsgT]; split <;> simp_all
theorem readMsgT_err {s s' : σ} {e} (h : step now ops cfg s = (.err e, s')) :
    readMsgT now ops cfg s = if cfg.quitonerror = 2 then (.raised e, stepText now ops cfg s, [], s') else
      ((readMsgT now ops cfg s').1, (readMsgT now ops cfg s').2.1,
        (if cfg.quitonerror = 1 then (e, stepText now ops cfg s) :: (readMsgT now ops cfg s').2.2.1
          else (readMsgT now ops cfg s').2.2.1), (readMsgT now ops cfg s').2.2.2) := by
  rw [readMsgT]; split <;> simp_all

/-- The same results, exceptions and stream positions as without the texts. -/
theorem readMsgT_erase (s : σ) :
    ((readMsgT now ops cfg s).1, (readMsgT now ops cfg s).2.2.1.map Prod.fst, (readMsgT now ops cfg s).2.2.2) =
      readMsg now ops cfg s := by
  induction s using ops.rel.wf.induction with
  | _ s ih =>
    have hd := step_dec now ops cfg s
    cases hs : step now ops cfg s with
    | mk ev s' =>
      cases ev with
      | eof => rw [readMsgT_done hs, readMsg]; split <;> simp_all
      | msg raw m => rw [readMsgT_msg hs, readMsg]; split <;> simp_all
      | crash e => rw [readMsgT_crash hs, readMsg]; split <;> simp_all
      | skip =>
        have hlt : ops.rel.rel s' s := by simpa [hs] using hd
        rw [readMsgT_skip hs, ih s' hlt]
        conv => rhs; rw [readMsg]
        split <;> simp_all
      | err e =>
        have hlt : ops.rel.rel s' s := by simpa [hs] using hd
        have ih := ih s' hlt
        rw [readMsgT_err hs, readMsg_eq, hs]
        simp only
        rw [← ih]
        split
        · rfl
        · split <;> rfl

theorem transcriptT_cons (x) (xs) : transcriptT (x :: xs) = x.1.map (fun y => (.raised y.1, y.2)) ++ x.2 :: transcriptT xs := by
  simp [transcriptT]

/-- What one pass contributes to a transcript. -/
def passReply (t : Option Str) : Event → List (ReadResult × Option Str)
  | .eof => []
  | .skip => []
  | .msg raw m => [(.item raw m, none)]
  | .crash e => [(.raised e, none)]
  | .err e => [(.raised e, t)]

/-- One pass before a session. -/
theorem sessionT_pass {s s' : σ} {ev : Event} (hq : cfg.quitonerror = 1 ∨ cfg.quitonerror = 2)
    (h : step now ops cfg s = (ev, s')) (hev : ev ≠ .eof) {es} (hes : SessionT now ops cfg s' es) :
    ∃ es', SessionT now ops cfg s es' ∧ transcriptT es' =
      passReply (stepText now ops cfg s) ev ++ transcriptT es := by
  cases ev with
  | eof => exact absurd rfl hev
  | msg raw m => exact ⟨_, .more s s' _ _ _ _ (readMsgT_msg h) (by simp) hes, by simp [transcriptT, passReply]⟩
  | crash e => exact ⟨_, .more s s' _ _ _ _ (readMsgT_crash h) (by simp) hes, by simp [transcriptT, passReply]⟩
  | skip =>
    have hr := readMsgT_skip h
    cases hes with
    | last _ s'' t log hl => exact ⟨_, .last s s'' t log (hr.trans hl), by simp [transcriptT, passReply]⟩
    | more _ s'' r t log rest hl hn hrest => exact ⟨_, .more s s'' r t log rest (hr.trans hl) hn hrest, by simp [transcriptT, passReply]⟩
  | err e =>
    have hr := readMsgT_err h
    rcases hq with hq | hq
    · rw [if_neg (by omega), if_pos hq] at hr
      cases hes with
      | last _ s'' t log hl =>
        rw [hl] at hr
        exact ⟨_, .last s s'' t _ hr, by simp [transcriptT, passReply]⟩
      | more _ s'' r t log rest hl hn hrest =>
        rw [hl] at hr
        exact ⟨_, .more s s'' r t _ rest hr hn hrest, by simp [transcriptT, passReply]⟩
    · rw [if_pos hq] at hr
      exact ⟨_, .more s s' _ _ _ _ hr (by simp) hes, by simp [transcriptT, passReply]⟩

theorem sessionT_done {s s' : σ} (h : step now ops cfg s = (.eof, s')) : SessionT now ops cfg s [([], .none, none)] :=
  .last s s' none [] (readMsgT_done h)

/-- A line. -/
theorem step_line (now : Nat → DateTime) (cfg : RCfg) (h : UInt8) (body r : Bytes) (hh : TalkerLetter h) (hl : 10 ∉ body) :
    step now fileStream cfg (36 :: h :: (body ++ 10 :: r)) = (eventOf now cfg (.line (36 :: h :: (body ++ [10]))), r) ∧
    stepText now fileStream cfg (36 :: h :: (body ++ 10 :: r)) =
      match parseT now (.bytes (36 :: h :: (body ++ [10]))) cfg.mode cfg.validate cfg.udefs with
      | .ok _ => none
      | .error (_, t) => t := by
  have e : ([36] ++ [h] ++ (body ++ [10]) : Bytes) = 36 :: h :: (body ++ [10]) := by simp
  constructor
  · simp only [step, fileStream, List.take_succ_cons, List.take_zero, List.drop_succ_cons, List.drop_zero]
    rw [if_neg (by simp), if_neg (by simp), if_neg (by simp), if_pos (show ([36] ++ [h] : Bytes) ∈ NMEA_HDR from (hdr_iff h).2 hh)]
    simp only [readLine]
    rw [fileLine_lf body r hl]
    simp only
    rw [if_neg (by simp), if_neg (by simp)]
    simp only [eventOf]
    rw [e]
    cases parse now (.bytes (36 :: h :: (body ++ [10]))) cfg.mode cfg.validate cfg.udefs with
    | ok m => rfl
    | error e => cases e <;> rfl
  · simp only [stepText, fileStream, List.take_succ_cons, List.take_zero, List.drop_succ_cons, List.drop_zero]
    rw [if_neg (by simp), if_neg (by simp), if_neg (by simp), if_pos (show ([36] ++ [h] : Bytes) ∈ NMEA_HDR from (hdr_iff h).2 hh)]
    rw [fileLine_lf body r hl]
    simp only
    rw [if_neg (by simp), if_neg (by simp), e]
    rfl

theorem sessionT_file (now : Nat → DateTime) (cfg : RCfg) (hq : cfg.quitonerror = 1 ∨ cfg.quitonerror = 2) (b : Bytes)
    (ps : List Piece) (hp : Pieces b ps) :
    ∃ es, SessionT now fileStream cfg b es ∧ transcriptT es = ps.filterMap (replyT now cfg) ++ [(.none, none)] := by
  induction hp with
  | nil => exact ⟨_, sessionT_done (s' := []) rfl, rfl⟩
  | junk b r ps hb _ ih =>
    obtain ⟨es, h1, h2⟩ := ih
    have hs : step now fileStream cfg (b :: r) = (.skip, r) := by
      simp only [step, fileStream, List.take_succ_cons, List.take_zero, List.drop_succ_cons, List.drop_zero]
      rw [if_neg (by simp), if_pos (by simpa using hb)]
    obtain ⟨es', h3, h4⟩ := sessionT_pass hq hs (by simp) h1
    exact ⟨es', h3, by rw [h4, h2]; rfl⟩
  | foreign h r ps hh _ ih =>
    obtain ⟨es, h1, h2⟩ := ih
    have hnot : ([36] ++ [h] : Bytes) ∉ NMEA_HDR := fun hm => hh ((hdr_iff h).1 hm)
    by_cases hn : cfg.nmeaonly = true
    · have hs : step now fileStream cfg (36 :: h :: r) = (.err .nmeaParse, r) := by
        simp only [step, fileStream, List.take_succ_cons, List.take_zero, List.drop_succ_cons, List.drop_zero]
        rw [if_neg (by simp), if_neg (by simp), if_neg (by simp), if_neg hnot, if_pos hn]
      have ht : stepText now fileStream cfg (36 :: h :: r) = some (ErrorText.header (reprBytes [36, h])).text := by
        simp only [stepText, fileStream, List.take_succ_cons, List.take_zero, List.drop_succ_cons, List.drop_zero]
        rw [if_neg (by simp), if_neg (by simp), if_neg (by simp), if_neg hnot, if_pos hn]
        rfl
      obtain ⟨es', h3, h4⟩ := sessionT_pass hq hs (by simp) h1
      exact ⟨es', h3, by rw [h4, h2]; simp only [List.filterMap_cons, replyT, hn, if_true, ht]; rfl⟩
    · have hs : step now fileStream cfg (36 :: h :: r) = (.skip, r) := by
        simp only [step, fileStream, List.take_succ_cons, List.take_zero, List.drop_succ_cons, List.drop_zero]
        rw [if_neg (by simp), if_neg (by simp), if_neg (by simp), if_neg hnot, if_neg hn]
      obtain ⟨es', h3, h4⟩ := sessionT_pass hq hs (by simp) h1
      exact ⟨es', h3, by rw [h4, h2]; simp only [List.filterMap_cons, replyT, hn, if_false]; rfl⟩
  | line h body r ps hh hl _ ih =>
    obtain ⟨es, h1, h2⟩ := ih
    obtain ⟨hs, ht⟩ := step_line now cfg h body r hh hl
    have hev : eventOf now cfg (.line (36 :: h :: (body ++ [10]))) ≠ .eof := by
      simp only [eventOf]; split
      · simp
      · split <;> simp
    obtain ⟨es', h3, h4⟩ := sessionT_pass hq hs hev h1
    refine ⟨es', h3, ?_⟩
    rw [h4, h2, List.filterMap_cons]
    simp only [eventOf, replyT]
    rw [ht]
    rw [← parseT_erase]
    cases hp : parseT now (.bytes (36 :: h :: (body ++ [10]))) cfg.mode cfg.validate cfg.udefs with
    | ok m => rfl
    | error x =>
      obtain ⟨e, t⟩ := x
      simp only [erase]
      by_cases he : LibraryError e
      · simp only [if_pos he, passReply]; rfl
      · simp only [if_neg he, passReply]; rfl
  | dollar =>
    refine ⟨_, sessionT_done (s' := []) ?_, rfl⟩
    simp only [step, fileStream, List.take_succ_cons, List.take_zero, List.drop_succ_cons, List.drop_zero]
    rw [if_neg (by simp), if_neg (by simp), if_pos (by simp)]
    rfl
  | letter h hh =>
    refine ⟨_, sessionT_done (s' := []) ?_, rfl⟩
    simp only [step, fileStream, List.take_succ_cons, List.take_zero, List.drop_succ_cons, List.drop_zero]
    rw [if_neg (by simp), if_neg (by simp), if_neg (by simp), if_pos (show ([36] ++ [h] : Bytes) ∈ NMEA_HDR from (hdr_iff h).2 hh)]
    simp only [readLine, fileLine]
    rfl
  | cut h body hh hne hl =>
    have hlast : body.getLast? ≠ some 10 := fun e => hl (List.mem_of_getLast? e)
    have hs : step now fileStream cfg (36 :: h :: body) = (.err .nmeaStream, []) := by
      simp only [step, fileStream, List.take_succ_cons, List.take_zero, List.drop_succ_cons, List.drop_zero]
      rw [if_neg (by simp), if_neg (by simp), if_neg (by simp), if_pos (show ([36] ++ [h] : Bytes) ∈ NMEA_HDR from (hdr_iff h).2 hh)]
      simp only [readLine]
      rw [fileLine_nolf body hl]
      simp only
      rw [if_neg hne, if_pos hlast]
    have ht : stepText now fileStream cfg (36 :: h :: body) = some (ErrorText.cutOff body.length).text := by
      simp only [stepText, fileStream, List.take_succ_cons, List.take_zero, List.drop_succ_cons, List.drop_zero]
      rw [if_neg (by simp), if_neg (by simp), if_neg (by simp), if_pos (show ([36] ++ [h] : Bytes) ∈ NMEA_HDR from (hdr_iff h).2 hh)]
      rw [fileLine_nolf body hl]
      simp only
      rw [if_neg hne, if_pos hlast]
      rfl
    obtain ⟨es', h3, h4⟩ := sessionT_pass hq hs (by simp) (sessionT_done (s' := []) (by rfl) : SessionT now fileStream cfg [] _)
    refine ⟨es', h3, ?_⟩
    rw [h4]
    simp only [ht, passReply, replyT, List.filterMap_cons, List.filterMap_nil, List.length_cons]
    rfl

end Nmea
