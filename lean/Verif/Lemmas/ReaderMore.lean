import Verif.Lemmas.Reader
/-! # Lemmas: what the reader consumes -/
set_option linter.unusedSimpArgs false
namespace Nmea
open Py Spec

theorem fileStream_lossless : Lossless fileStream id := by
  intro b
  refine ⟨?_, ?_⟩
  · exact List.take_append_drop 1 b
  · exact fileLine_append b

/-- One pass hands out exactly the bytes it consumed. -/
theorem step_consumes {σ} (now : Nat → DateTime) (ops : StreamOps σ) (content : σ → Bytes)
    (hl : Lossless ops content) (cfg : RCfg) (s s' : σ) (ev : Event) (h : step now ops cfg s = (ev, s')) :
    ∃ used, content s = used ++ content s' ∧ (ev ≠ .eof → used ≠ []) ∧
      (∀ raw m, ev = .msg raw m → used = raw ∧ raw.head? = some 36 ∧ raw.getLast? = some 10) := by
  simp only [step] at h
  have h1 := (hl s).1
  split at h
  · cases h
    exact ⟨(ops.read1 s).1, h1.symm, fun hne => absurd rfl hne, fun raw m e => by cases e⟩
  · rename_i hb1
    split at h
    · cases h
      exact ⟨(ops.read1 s).1, h1.symm, fun _ => hb1, fun raw m e => by cases e⟩
    · rename_i hd
      have hd : (ops.read1 s).1 = [36] := Decidable.of_not_not hd
      have h2 := (hl (ops.read1 s).2).1
      split at h
      · cases h
        refine ⟨(ops.read1 s).1 ++ (ops.read1 (ops.read1 s).2).1, ?_, fun hne => absurd rfl hne, fun raw m e => by cases e⟩
        rw [List.append_assoc, h2, h1]
      · have h3 := (hl (ops.read1 (ops.read1 s).2).2).2
        split at h
        · split at h
          · rename_i s3 hrl
            cases h
            have hs : (ops.readline (ops.read1 (ops.read1 s).2).2).2 = s' := by
              simp only [readLine] at hrl
              split at hrl
              · cases hrl; rfl
              · split at hrl <;> cases hrl
            rw [hs] at h3
            refine ⟨(ops.read1 s).1 ++ (ops.read1 (ops.read1 s).2).1 ++ (ops.readline (ops.read1 (ops.read1 s).2).2).1,
              ?_, fun hne => absurd rfl hne, fun raw m e => by cases e⟩
            rw [List.append_assoc, List.append_assoc, h3, h2, h1]
          · rename_i s3 hne hrl
            cases h
            have hs : (ops.readline (ops.read1 (ops.read1 s).2).2).2 = s' := by
              simp only [readLine] at hrl
              split at hrl
              · cases hrl; rfl
              · split at hrl <;> cases hrl; rfl
            rw [hs] at h3
            refine ⟨(ops.read1 s).1 ++ (ops.read1 (ops.read1 s).2).1 ++ (ops.readline (ops.read1 (ops.read1 s).2).2).1,
              ?_, fun _ => by rw [hd]; simp, fun raw m e => by cases e⟩
            rw [List.append_assoc, List.append_assoc, h3, h2, h1]
          · rename_i byten s3 hrl
            have hs : (ops.readline (ops.read1 (ops.read1 s).2).2) = (byten, s3) ∧ byten ≠ [] ∧ byten.getLast? = some 10 := by
              simp only [readLine] at hrl
              split at hrl
              · cases hrl
              · rename_i hne
                split at hrl
                · cases hrl
                · rename_i hlast
                  cases hrl
                  exact ⟨rfl, hne, Decidable.of_not_not hlast⟩
            have hs' : s' = s3 := by
              repeat' split at h
              all_goals cases h; rfl
            rw [hs.1] at h3
            simp only at h3
            have key : content s = ((ops.read1 s).1 ++ (ops.read1 (ops.read1 s).2).1 ++ byten) ++ content s' := by
              rw [List.append_assoc, List.append_assoc, hs', h3, h2, h1]
            refine ⟨_, key, fun _ => by rw [hd]; simp, fun raw m e => ?_⟩
            subst e
            have hraw : raw = (ops.read1 s).1 ++ (ops.read1 (ops.read1 s).2).1 ++ byten := by
              repeat' split at h
              all_goals first | (cases h; rfl) | cases h
            subst hraw
            refine ⟨rfl, by rw [hd]; rfl, ?_⟩
            rw [List.getLast?_append, hs.2.2]; rfl
        · have key : content s = ((ops.read1 s).1 ++ (ops.read1 (ops.read1 s).2).1) ++ content (ops.read1 (ops.read1 s).2).2 := by
            rw [List.append_assoc, h2, h1]
          split at h <;> cases h <;>
            exact ⟨_, key, fun _ => by rw [hd]; simp, fun raw m e => by cases e⟩

theorem slices_gap (gap b : Bytes) (rs : List Bytes) (h : SlicesOf b rs) : SlicesOf (gap ++ b) rs := by
  cases h with
  | nil => exact .nil _
  | cons g raw b rs h =>
    rw [← List.append_assoc, ← List.append_assoc]
    exact .cons _ raw b rs h

/-- The raw values among events. -/
def rawEvents : List Event → List Bytes
  | [] => []
  | .msg raw _ :: es => raw :: rawEvents es
  | _ :: es => rawEvents es

theorem rawOf_sess (q : Nat) (log : List Err) (evs : List Event) :
    rawOf ((sess q log evs).map Prod.snd) = rawEvents evs := by
  induction evs generalizing log with
  | nil => rfl
  | cons ev es ih =>
    cases ev with
    | err e => simp only [sess]; split <;> simp [rawOf, rawEvents, ih]
    | _ => simp [sess, rawOf, rawEvents, ih]

theorem run_slices {σ} {now : Nat → DateTime} {ops : StreamOps σ} {content : σ → Bytes}
    (hl : Lossless ops content) {cfg : RCfg} {s : σ} {evs : List Event} (h : Run now ops cfg s evs) :
    SlicesOf (content s) (rawEvents evs) ∧ evs.length ≤ (content s).length ∧
      ∀ raw ∈ rawEvents evs, raw.head? = some 36 ∧ raw.getLast? = some 10 := by
  induction h with
  | done => exact ⟨.nil _, Nat.zero_le _, fun _ h => by cases h⟩
  | more s ev s' evs h he _ ih =>
    obtain ⟨used, hc, hne, hm⟩ := step_consumes now ops content hl cfg s s' ev h
    have hlen : (ev :: evs).length ≤ (content s).length := by
      have := List.length_pos_iff.2 (hne he)
      rw [hc]; simp only [List.length_cons, List.length_append]; have := ih.2.1; omega
    cases ev with
    | msg raw m =>
      obtain ⟨e1, e2, e3⟩ := hm raw m rfl
      refine ⟨?_, hlen, ?_⟩
      · rw [hc, e1]
        exact SlicesOf.cons [] raw _ _ ih.1
      · intro r hr
        rcases List.mem_cons.1 hr with rfl | hr
        · exact ⟨e2, e3⟩
        · exact ih.2.2 r hr
    | skip => exact ⟨hc ▸ slices_gap _ _ _ ih.1, hlen, ih.2.2⟩
    | err e => exact ⟨hc ▸ slices_gap _ _ _ ih.1, hlen, ih.2.2⟩
    | crash e => exact ⟨hc ▸ slices_gap _ _ _ ih.1, hlen, ih.2.2⟩
    | eof => exact absurd rfl he

theorem sess_length (q : Nat) (log : List Err) (evs : List Event) : (sess q log evs).length ≤ evs.length + 1 := by
  induction evs generalizing log with
  | nil => simp [sess]
  | cons ev es ih =>
    cases ev with
    | err e => 
      simp only [sess]; split
      · have := ih []; simp; omega
      · have := ih (if q = 1 then log ++ [e] else log); simp; omega
    | msg raw m => have := ih []; simp [sess]; omega
    | crash e => have := ih []; simp [sess]; omega
    | skip => have := ih log; simp [sess]; omega
    | eof => have := ih log; simp [sess]; omega

/-- A session is determined by the run. -/
theorem session_iff {σ} {now : Nat → DateTime} {ops : StreamOps σ} {cfg : RCfg} {s : σ} {evs : List Event}
    (h : Run now ops cfg s evs) (es) : Session now ops cfg s es ↔ es = sess cfg.quitonerror [] evs :=
  ⟨fun hs => session_det hs (session_of_run h), fun e => e ▸ session_of_run h⟩

theorem session_run {σ} {now : Nat → DateTime} {ops : StreamOps σ} {cfg : RCfg} {s : σ} {es}
    (h : Session now ops cfg s es) : ∃ evs, Run now ops cfg s evs ∧ es = sess cfg.quitonerror [] evs := by
  obtain ⟨evs, hr⟩ := run_exists now ops cfg s
  exact ⟨evs, hr, (session_iff hr es).1 h⟩

theorem readAll_session {σ} {now : Nat → DateTime} {ops : StreamOps σ} {cfg : RCfg} {s : σ} {es}
    (h : Session now ops cfg s es) : readAll now ops cfg s = loopOver es := by
  induction h with
  | last s s' log h => 
    rw [readAll]
    split <;> rename_i heq <;> rw [h] at heq <;> cases heq
    rfl
  | more s s' r log rest h hr _ ih =>
    rw [readAll]
    split <;> rename_i heq <;> rw [h] at heq <;> cases heq
    · exact absurd rfl hr
    · rfl
    · rw [ih]; rfl

/-- Bytes after which the reader is again searching for a sentence. -/
inductive Closed : Bytes → List Piece → Prop
  | nil : Closed [] []
  | junk (b : UInt8) (r : Bytes) (ps : List Piece) : b ≠ 36 → Closed r ps → Closed (b :: r) (.junk b :: ps)
  | foreign (h : UInt8) (r : Bytes) (ps : List Piece) : ¬ TalkerLetter h → Closed r ps →
      Closed (36 :: h :: r) (.foreign h :: ps)
  | line (h : UInt8) (body r : Bytes) (ps : List Piece) : TalkerLetter h → 10 ∉ body → Closed r ps →
      Closed (36 :: h :: (body ++ 10 :: r)) (.line (36 :: h :: (body ++ [10])) :: ps)

theorem closed_append {g s : Bytes} {ps qs : List Piece} (hg : Closed g ps) (hs : Pieces s qs) :
    Pieces (g ++ s) (ps ++ qs) := by
  induction hg with
  | nil => exact hs
  | junk b r ps hb _ ih => exact .junk b _ _ hb ih
  | foreign h r ps hh _ ih => exact .foreign h _ _ hh ih
  | line h body r ps hh hl _ ih =>
    have e : (36 :: h :: (body ++ 10 :: r)) ++ s = 36 :: h :: (body ++ 10 :: (r ++ s)) := by simp
    rw [e]; exact .line h body _ _ hh hl ih

theorem closed_pieces {g : Bytes} {ps : List Piece} (hg : Closed g ps) : Pieces g ps := by
  have := closed_append hg Pieces.nil
  simpa using this

theorem closed_concat {g s : Bytes} {ps qs : List Piece} (hg : Closed g ps) (hs : Closed s qs) :
    Closed (g ++ s) (ps ++ qs) := by
  induction hg with
  | nil => exact hs
  | junk b r ps hb _ ih => exact .junk b _ _ hb ih
  | foreign h r ps hh _ ih => exact .foreign h _ _ hh ih
  | line h body r ps hh hl _ ih =>
    have e : (36 :: h :: (body ++ 10 :: r)) ++ s = 36 :: h :: (body ++ 10 :: (r ++ s)) := by simp
    rw [e]; exact .line h body _ _ hh hl ih

theorem closed_junk (j : Bytes) (h : 36 ∉ j) : Closed j (j.map .junk) := by
  induction j with
  | nil => exact .nil
  | cons b j ih =>
    simp only [List.mem_cons, not_or] at h
    exact .junk b j _ (fun e => h.1 e.symm) (ih h.2)

theorem closed_line (x : Bytes) (h : CompleteLine x) : Closed x [.line x] := by
  obtain ⟨h, body, hh, hl, rfl⟩ := h
  exact .line h body [] [] hh hl .nil

/-- Anything ending in LF is closed. -/
theorem closed_lf (g : Bytes) (h : g.getLast? = some 10) : ∃ ps, Closed g ps := by
  obtain ⟨ps, hp⟩ := pieces_exists g
  refine ⟨ps, ?_⟩
  induction hp with
  | nil => exact .nil
  | junk b r ps hb hp ih =>
    refine .junk b r ps hb ?_
    cases r with
    | nil => cases hp; exact .nil
    | cons x r => exact ih (by rwa [List.getLast?_cons_cons] at h)
  | foreign hd r ps hh hp ih =>
    refine .foreign hd r ps hh ?_
    cases r with
    | nil => cases hp; exact .nil
    | cons x r => exact ih (by rwa [List.getLast?_cons_cons, List.getLast?_cons_cons] at h)
  | line hd body r ps hh hl hp ih =>
    refine .line hd body r ps hh hl ?_
    cases r with
    | nil => cases hp; exact .nil
    | cons x r =>
      apply ih
      have e : (36 :: hd :: (body ++ 10 :: x :: r)) = (36 :: hd :: (body ++ [10])) ++ x :: r := by simp
      rw [e, List.getLast?_append] at h
      cases hx : (x :: r).getLast? with
      | none => simp at hx
      | some v => rw [hx] at h; simpa using h
  | dollar => simp at h
  | letter hd hh =>
    simp at h; subst h; exact absurd hh (by decide +kernel)
  | cut hd body hh hne hl =>
    obtain ⟨x, r, rfl⟩ := List.exists_cons_of_ne_nil hne
    rw [List.getLast?_cons_cons, List.getLast?_cons_cons] at h
    exact absurd (List.mem_of_getLast? h) hl

theorem sess_append (q : Nat) (log : List Err) (a b : List Event) :
    ∃ l, (sess q log a).getLast? = some (l, .none) ∧ sess q log (a ++ b) = (sess q log a).dropLast ++ sess q l b := by
  induction a generalizing log with
  | nil => exact ⟨log, rfl, rfl⟩
  | cons ev es ih =>
    have aux : ∀ x : List Err × ReadResult, ∃ l, (x :: sess q [] es).getLast? = some (l, .none) ∧
        x :: sess q [] (es ++ b) = (x :: sess q [] es).dropLast ++ sess q l b := by
      intro x
      obtain ⟨l, e1, e2⟩ := ih []
      refine ⟨l, ?_, ?_⟩
      · cases hh : sess q [] es with
        | nil => rw [hh] at e1; cases e1
        | cons y r => rw [List.getLast?_cons_cons, ← hh]; exact e1
      · cases hh : sess q [] es with
        | nil => rw [hh] at e1; cases e1
        | cons y r => rw [List.dropLast_cons_cons, List.cons_append, ← hh, e2]
    cases ev with
    | skip => exact ih log
    | eof => exact ih log
    | msg raw m => exact aux _
    | crash e => exact aux _
    | err e =>
      simp only [sess, List.cons_append]
      split
      · exact aux _
      · exact ih _

end Nmea
