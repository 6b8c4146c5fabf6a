import Verif.Spec.Reentrant
import Verif.Props.Reader
/-!
# C88: error handlers that use the reader themselves
-/
namespace Props.Reentrant
open Py Nmea Spec Spec.Reentrant

variable {σ : Type} {now : Nat → DateTime} {ops : StreamOps σ} {cfg : RCfg} {h : Reenter}

theorem timeline_append {s s1 s2 : σ} {a b : List Happens} (h1 : Timeline now ops cfg s a s1) (h2 : Timeline now ops cfg s1 b s2) :
    Timeline now ops cfg s (a ++ b) s2 := by
  induction h1 with
  | nil s => exact h2
  | call s r log s1 tr s2 hr _ ih => exact .call _ _ _ _ _ _ hr (ih h2)
  | take s tr s2 _ ih => exact .take _ _ _ (ih h2)
  | line s tr s2 _ ih => exact .line _ _ _ (ih h2)

/-- One call with errors raised, by the first pass. -/
theorem call_step (s : σ) : readMsg now ops (withPolicy cfg 2) s = match step now ops cfg s with
    | (.eof, s') => (.none, [], s')
    | (.msg raw m, s') => (.item raw m, [], s')
    | (.crash e, s') => (.raised e, [], s')
    | (.skip, s') => readMsg now ops (withPolicy cfg 2) s'
    | (.err e, s') => (.raised e, [], s') := by
  rw [readMsg_eq]
  have : step now ops (withPolicy cfg 2) s = step now ops cfg s := rfl
  rw [this]
  split <;> simp_all [withPolicy]

theorem nread_timeline {seen seen' : List Seen} {s s' : σ} {tr : List Happens} {r : XResult}
    (hr : NRead now ops cfg h seen s tr r seen' s') : Timeline now ops cfg s tr s' ∧ ∃ r0 tr', tr = .came r0 :: tr' := by
  refine NRead.rec (motive_1 := fun _ s tr _ _ s' _ => Timeline now ops cfg s tr s' ∧ ∃ r0 tr', tr = .came r0 :: tr')
    (motive_2 := fun _ s tr _ _ s' _ => Timeline now ops cfg s tr s') ?_ ?_ ?_ ?_ ?_ ?_ ?_ ?_ ?_ ?_ ?_ hr
  · intro seen s s' e
    exact ⟨.call _ _ [] s' _ _ (by rw [call_step, e]) (.nil _), _, _, rfl⟩
  · intro seen s s' raw m e
    exact ⟨.call _ _ [] s' _ _ (by rw [call_step, e]) (.nil _), _, _, rfl⟩
  · intro seen s s' x e
    exact ⟨.call _ _ [] s' _ _ (by rw [call_step, e]) (.nil _), _, _, rfl⟩
  · rintro seen s s1 tr r seen' s' e _ ⟨h1, r0, tr', rfl⟩
    refine ⟨?_, r0, tr', rfl⟩
    cases h1 with
    | call _ _ log s2 _ _ hc ht => exact .call _ _ log s2 _ _ (by rw [call_step, e]; exact hc) ht
  · rintro seen s x s1 tr1 seen1 s2 tr2 r seen2 s3 e _ _ h1 ⟨h2, -⟩
    exact ⟨.call _ _ [] s1 _ _ (by rw [call_step, e]) (timeline_append h1 h2), _, _, rfl⟩
  · rintro seen s x s1 tr1 y seen1 s2 e _ h1
    exact ⟨.call _ _ [] s1 _ _ (by rw [call_step, e]) h1, _, _, rfl⟩
  · intro seen s _; exact .nil _
  · intro seen s x _; exact .nil _
  · rintro seen s tr1 r seen1 s1 tr2 o seen2 s2 _ _ _ ⟨h1, -⟩ h2
    exact timeline_append h1 h2
  · intro seen s tr o seen2 s2 _ _ h1; exact .take _ _ _ h1
  · intro seen s tr o seen2 s2 _ _ h1; exact .line _ _ _ h1

/-- All that happens - to the program, and to the handler in its own calls, however deep they are nested - happens in the
same way to a program that makes all these calls itself, with errors raised, one after the other. So no sentence is lost or
returned twice, and no error is missed, because a handler reads on its own. -/
theorem C88_timeline {seen seen' : List Seen} {s s' : σ} {tr : List Happens} {rs : List XResult}
    (hc : NCalls now ops cfg h seen s tr rs seen' s') : Timeline now ops cfg s tr s' := by
  induction hc with
  | nil seen s => exact .nil _
  | cons seen s tr1 r seen1 s1 tr2 rs seen2 s2 h1 _ ih => exact timeline_append (nread_timeline h1).1 ih

/-- If the handler does not touch the stream, these are successive calls of `read()`. -/
theorem C88_reads {seen seen' : List Seen} {s s' : σ} {tr : List Happens} {rs : List XResult}
    (hc : NCalls now ops cfg h seen s tr rs seen' s') (ht : bytesTaken tr = []) :
    ∃ n, outcomes tr = (reads now ops (withPolicy cfg 2) n s).1 ∧ s' = (reads now ops (withPolicy cfg 2) n s).2.2 := by
  have hl := C88_timeline hc
  clear hc
  induction hl with
  | nil s => exact ⟨0, rfl, rfl⟩
  | call s r log s1 tr s2 hr _ ih =>
    obtain ⟨n, h1, h2⟩ := ih ht
    refine ⟨n + 1, ?_, ?_⟩
    · simp only [outcomes, reads, hr, h1]
    · simp only [reads, hr]; exact h2
  | take s tr s2 _ ih => cases ht
  | line s tr s2 _ ih => cases ht

theorem call_slices {content : σ → Bytes} (hl : Lossless ops content) (s : σ) : ∀ r log s1,
    readMsg now ops (withPolicy cfg 2) s = (r, log, s1) → ∃ gap, content s = gap ++ (rawOf [r]).flatten ++ content s1 := by
  induction s using ops.rel.wf.induction with
  | _ s ih =>
    intro r log s1 hr
    rw [call_step] at hr
    have hd := step_dec now ops cfg s
    generalize hs : step now ops cfg s = x at *
    obtain ⟨ev, s2⟩ := x
    obtain ⟨used, h1, -, h3⟩ := step_consumes now ops content hl cfg s s2 ev hs
    cases ev with
    | skip =>
      have hd : ops.rel.rel s2 s := by
        rcases hd with ⟨s', e⟩ | hd
        · cases e
        · exact hd
      obtain ⟨gap, h⟩ := ih s2 hd r log s1 hr
      exact ⟨used ++ gap, by rw [h1, h]; simp⟩
    | eof => cases hr; exact ⟨used, by simp [rawOf, h1]⟩
    | err e => cases hr; exact ⟨used, by simp [rawOf, h1]⟩
    | crash e => cases hr; exact ⟨used, by simp [rawOf, h1]⟩
    | msg raw m =>
      cases hr
      obtain ⟨rfl, -⟩ := h3 raw m rfl
      exact ⟨[], by simp [rawOf, h1]⟩

/-- On a stream that loses nothing, the raw data of the sentences, whoever gets them, and the bytes the handler takes are
disjoint slices of the content, in the order of time. -/
theorem C88_slices {content : σ → Bytes} (hl : Lossless ops content) {seen seen' : List Seen} {s s' : σ} {tr : List Happens}
    {rs : List XResult} (hc : NCalls now ops cfg h seen s tr rs seen' s') : SlicesOf (content s) (slices tr) := by
  have ht := C88_timeline hc
  clear hc
  induction ht with
  | nil s => exact .nil _
  | call s r log s1 tr s2 hr _ ih =>
    obtain ⟨gap, e⟩ := call_slices hl s r log s1 hr
    rw [e]
    cases r with
    | item raw m => simp only [slices, rawOf, List.flatten_cons, List.flatten_nil, List.append_nil]; exact .cons _ _ _ _ ih
    | none => simp only [slices, rawOf, List.flatten_nil, List.append_nil]; exact slices_gap _ _ _ ih
    | raised e => simp only [slices, rawOf, List.flatten_nil, List.append_nil]; exact slices_gap _ _ _ ih
  | take s tr s2 _ ih => rw [← (hl s).1]; exact .cons [] _ _ _ ih
  | line s tr s2 _ ih => rw [← (hl s).2]; exact .cons [] _ _ _ ih

/-! ## Who gets what -/

theorem sentences_append (a b : List Happens) : sentences (a ++ b) = sentences a ++ sentences b := by
  induction a with
  | nil => rfl
  | cons x a ih => cases x with
    | came r => cases r <;> simp [sentences, ih]
    | taken b => simp [sentences, ih]

theorem errors_append (a b : List Happens) : errors (a ++ b) = errors a ++ errors b := by
  induction a with
  | nil => rfl
  | cons x a ih => cases x with
    | came r => cases r <;> simp [errors, ih]
                split <;> simp
    | taken b => simp [errors, ih]

theorem bytesTaken_append (a b : List Happens) : bytesTaken (a ++ b) = bytesTaken a ++ bytesTaken b := by
  induction a with
  | nil => rfl
  | cons x a ih => cases x <;> simp [bytesTaken, ih]

theorem sentencesSeen_append (a b : List Seen) : sentencesSeen (a ++ b) = sentencesSeen a ++ sentencesSeen b := by
  induction a with
  | nil => rfl
  | cons x a ih => cases x with
    | got r => cases r <;> simp [sentencesSeen, ih]
    | _ => simp [sentencesSeen, ih]

theorem errorsSeen_append (a b : List Seen) : errorsSeen (a ++ b) = errorsSeen a ++ errorsSeen b := by
  induction a with
  | nil => rfl
  | cons x a ih => cases x <;> simp [errorsSeen, ih]

theorem bytesSeen_append (a b : List Seen) : bytesSeen (a ++ b) = bytesSeen a ++ bytesSeen b := by
  induction a with
  | nil => rfl
  | cons x a ih => cases x <;> simp [bytesSeen, ih]

theorem shuffle_append {α} {a b c a' b' c' : List α} (h1 : Shuffle a b c) (h2 : Shuffle a' b' c') :
    Shuffle (a ++ a') (b ++ b') (c ++ c') := by
  induction h1 with
  | nil => exact h2
  | left x a b c _ ih => exact .left _ _ _ _ ih
  | right x a b c _ ih => exact .right _ _ _ _ ih

theorem shuffle_right {α} (l : List α) : Shuffle [] l l := by
  induction l with
  | nil => exact .nil
  | cons x l ih => exact .right _ _ _ _ ih

theorem shuffle_left {α} (l : List α) : Shuffle l [] l := by
  induction l with
  | nil => exact .nil
  | cons x l ih => exact .left _ _ _ _ ih

/-- The sentence of an outcome. -/
def sentenceOf (r : XResult) : List (Bytes × Option Msg) := (itemOf r).toList

/-- What is new in what the handler has seen, compared with what happened: `own` comes last. -/
def Fits (seen seen' : List Seen) (tr : List Happens) (own : List (Bytes × Option Msg)) : Prop :=
  ∃ new, seen' = seen ++ new ∧ errorsSeen new = errors tr ∧ bytesSeen new = bytesTaken tr ∧
    sentences tr = sentencesSeen new ++ own

theorem fits_append {a b c : List Seen} {t u : List Happens} {p : List (Bytes × Option Msg)} (h1 : Fits a b t []) (h2 : Fits b c u p) :
    Fits a c (t ++ u) p := by
  obtain ⟨n, rfl, e1, b1, s1⟩ := h1
  obtain ⟨n', rfl, e2, b2, s2⟩ := h2
  refine ⟨n ++ n', by simp, ?_, ?_, ?_⟩
  · rw [errorsSeen_append, errors_append, e1, e2]
  · rw [bytesSeen_append, bytesTaken_append, b1, b2]
  · rw [sentencesSeen_append, sentences_append, s1, s2]; simp

theorem fits_got {a b : List Seen} {t : List Happens} {r : XResult} (h : Fits a b t (sentenceOf r)) : Fits a (b ++ [.got r]) t [] := by
  obtain ⟨n, rfl, e1, b1, s1⟩ := h
  refine ⟨n ++ [.got r], by simp, ?_, ?_, ?_⟩
  · rw [errorsSeen_append, e1]; simp [errorsSeen]
  · rw [bytesSeen_append, b1]; simp [bytesSeen]
  · rw [sentencesSeen_append, s1]
    cases r <;> simp [sentencesSeen, sentenceOf, itemOf]

theorem fits_error (seen : List Seen) (e : Err) (he : LibraryError e) : Fits seen (seen ++ [.error e]) [.came (.raised e)] [] :=
  ⟨[.error e], rfl, by simp [errorsSeen, errors, he], rfl, rfl⟩

theorem nread_fits {seen seen' : List Seen} {s s' : σ} {tr : List Happens} {r : XResult}
    (hr : NRead now ops cfg h seen s tr r seen' s') : Fits seen seen' tr (sentenceOf r) := by
  refine NRead.rec (motive_1 := fun seen _ tr r seen' _ _ => Fits seen seen' tr (sentenceOf r))
    (motive_2 := fun seen _ tr _ seen' _ _ => Fits seen seen' tr []) ?_ ?_ ?_ ?_ ?_ ?_ ?_ ?_ ?_ ?_ ?_ hr
  · intro seen s s' e
    exact ⟨[], by simp, rfl, rfl, rfl⟩
  · intro seen s s' raw m e
    exact ⟨[], by simp, rfl, rfl, rfl⟩
  · intro seen s s' x e
    have := (step_errors now ops cfg s s' x).2 e
    exact ⟨[], by simp, by simp [errorsSeen, errors, this], rfl, rfl⟩
  · intro seen s s1 tr r seen' s' e _ h1
    exact h1
  · intro seen s x s1 tr1 seen1 s2 tr2 r seen2 s3 e _ _ h1 h2
    have := (step_errors now ops cfg s s1 x).1 e
    exact fits_append (fits_error seen x this) (fits_append h1 h2)
  · intro seen s x s1 tr1 y seen1 s2 e _ h1
    have := (step_errors now ops cfg s s1 x).1 e
    exact fits_append (fits_error seen x this) h1
  · intro seen s _; exact ⟨[], by simp, rfl, rfl, rfl⟩
  · intro seen s x _; exact ⟨[], by simp, rfl, rfl, rfl⟩
  · intro seen s tr1 r seen1 s1 tr2 o seen2 s2 _ _ _ h1 h2
    exact fits_append (fits_got h1) h2
  · intro seen s tr o seen2 s2 _ _ h1
    exact fits_append (t := [.taken (ops.read1 s).1]) ⟨[.bytes (ops.read1 s).1], rfl, rfl, rfl, rfl⟩ h1
  · intro seen s tr o seen2 s2 _ _ h1
    exact fits_append (t := [.taken (ops.readline s).1]) ⟨[.bytes (ops.readline s).1], rfl, rfl, rfl, rfl⟩ h1

/-- Every sentence goes to exactly one call, of the program or of the handler; the handler is called exactly once for every
library error, in order, whichever call comes to it; and what the handler takes it gets. -/
theorem C88_shared {seen seen' : List Seen} {s s' : σ} {tr : List Happens} {rs : List XResult}
    (hc : NCalls now ops cfg h seen s tr rs seen' s') :
    ∃ new, seen' = seen ++ new ∧ errorsSeen new = errors tr ∧ bytesSeen new = bytesTaken tr ∧
      Shuffle (rs.filterMap itemOf) (sentencesSeen new) (sentences tr) := by
  induction hc with
  | nil seen s => exact ⟨[], by simp, rfl, rfl, .nil⟩
  | cons seen s tr1 r seen1 s1 tr2 rs seen2 s2 h1 _ ih =>
    obtain ⟨n, rfl, e1, b1, q1⟩ := nread_fits h1
    obtain ⟨n', rfl, e2, b2, q2⟩ := ih
    refine ⟨n ++ n', by simp, ?_, ?_, ?_⟩
    · rw [errorsSeen_append, errors_append, e1, e2]
    · rw [bytesSeen_append, bytesTaken_append, b1, b2]
    · rw [sentencesSeen_append, sentences_append, q1]
      have e : (r :: rs).filterMap itemOf = ([] ++ sentenceOf r) ++ rs.filterMap itemOf := by
        rw [List.filterMap_cons]
        cases r <;> simp [sentenceOf, itemOf]
      rw [e, ← List.append_nil (sentencesSeen n)]
      refine shuffle_append ?_ q2
      rw [List.append_nil]
      have := shuffle_append (shuffle_right (sentencesSeen n)) (shuffle_left (sentenceOf r))
      simpa using this

/-! ## The calls are determined, and end -/

theorem nread_unique {seen seen1 : List Seen} {s s1 : σ} {tr1 : List Happens} {r1 : XResult}
    (h1 : NRead now ops cfg h seen s tr1 r1 seen1 s1) : ∀ {tr2 : List Happens} {r2 : XResult} {seen2 : List Seen} {s2 : σ},
    NRead now ops cfg h seen s tr2 r2 seen2 s2 → tr1 = tr2 ∧ r1 = r2 ∧ seen1 = seen2 ∧ s1 = s2 := by
  refine NRead.rec (motive_1 := fun seen s tr1 r1 seen1 s1 _ => ∀ {tr2 : List Happens} {r2 : XResult} {seen2 : List Seen} {s2 : σ},
      NRead now ops cfg h seen s tr2 r2 seen2 s2 → tr1 = tr2 ∧ r1 = r2 ∧ seen1 = seen2 ∧ s1 = s2)
    (motive_2 := fun seen s tr1 o1 seen1 s1 _ => ∀ {tr2 : List Happens} {o2 : Option Exc} {seen2 : List Seen} {s2 : σ},
      NHandle now ops cfg h seen s tr2 o2 seen2 s2 → tr1 = tr2 ∧ o1 = o2 ∧ seen1 = seen2 ∧ s1 = s2)
    ?_ ?_ ?_ ?_ ?_ ?_ ?_ ?_ ?_ ?_ ?_ h1
  · intro seen s s' e tr2 r2 seen2 s2 k
    cases k <;> simp_all
  · intro seen s s' raw m e tr2 r2 seen2 s2 k
    cases k <;> simp_all
  · intro seen s s' x e tr2 r2 seen2 s2 k
    cases k <;> simp_all
  · intro seen s s1 tr r seen' s' e _ ih tr2 r2 seen2 s2 k
    cases k with
    | skip _ _ s1' _ _ _ _ e' k' =>
      rw [e] at e'; cases e'
      exact ih k'
    | _ => simp_all
  · intro seen s x s1 tr1 seen1 s2 tr2 r seen2 s3 e _ _ ih1 ih2 tr2' r2' seen2' s2' k
    cases k with
    | handled _ _ x' _ _ _ _ _ _ _ _ e' k1 k2 =>
      rw [e] at e'; cases e'
      obtain ⟨rfl, -, rfl, rfl⟩ := ih1 k1
      obtain ⟨rfl, rfl, rfl, rfl⟩ := ih2 k2
      exact ⟨rfl, rfl, rfl, rfl⟩
    | escaped _ _ x' _ _ y _ _ e' k1 =>
      rw [e] at e'; cases e'
      obtain ⟨-, hh, -⟩ := ih1 k1
      cases hh
    | _ => simp_all
  · intro seen s x s1 tr1 y seen1 s2 e _ ih1 tr2' r2' seen2' s2' k
    cases k with
    | handled _ _ x' _ _ _ _ _ _ _ _ e' k1 k2 =>
      rw [e] at e'; cases e'
      obtain ⟨-, hh, -⟩ := ih1 k1
      cases hh
    | escaped _ _ x' _ _ y _ _ e' k1 =>
      rw [e] at e'; cases e'
      obtain ⟨rfl, hh, rfl, rfl⟩ := ih1 k1
      cases hh
      exact ⟨rfl, rfl, rfl, rfl⟩
    | _ => simp_all
  · intro seen s e tr2 r2 seen2 s2 k
    cases k <;> simp_all
  · intro seen s x e tr2 r2 seen2 s2 k
    cases k <;> simp_all
  · intro seen s tr1 r seen1 s1 tr2 o seen2 s2 e _ _ ih1 ih2 tr2' r2' seen2' s2' k
    cases k with
    | read _ _ _ _ _ _ _ _ _ _ e' k1 k2 =>
      obtain ⟨rfl, rfl, rfl, rfl⟩ := ih1 k1
      obtain ⟨rfl, rfl, rfl, rfl⟩ := ih2 k2
      exact ⟨rfl, rfl, rfl, rfl⟩
    | _ => simp_all
  · intro seen s tr o seen2 s2 e _ ih tr2' r2' seen2' s2' k
    cases k with
    | take _ _ _ _ _ _ e' k1 =>
      obtain ⟨rfl, rfl, rfl, rfl⟩ := ih k1
      exact ⟨rfl, rfl, rfl, rfl⟩
    | _ => simp_all
  · intro seen s tr o seen2 s2 e _ ih tr2' r2' seen2' s2' k
    cases k with
    | line _ _ _ _ _ _ e' k1 =>
      obtain ⟨rfl, rfl, rfl, rfl⟩ := ih k1
      exact ⟨rfl, rfl, rfl, rfl⟩
    | _ => simp_all

/-- The outcome of a call is determined: what the other theorems say of some calls they say of all. -/
theorem C88_unique {seen seen1 seen2 : List Seen} {s s1 s2 : σ} {tr1 tr2 : List Happens} {r1 r2 : XResult}
    (h1 : NRead now ops cfg h seen s tr1 r1 seen1 s1) (h2 : NRead now ops cfg h seen s tr2 r2 seen2 s2) :
    tr1 = tr2 ∧ r1 = r2 ∧ seen1 = seen2 ∧ s1 = s2 := nread_unique h1 h2

/-- Not further from the end. -/
def NotBack (ops : StreamOps σ) (a b : σ) : Prop := a = b ∨ ops.rel.rel a b

theorem NotBack.trans {a b c : σ} (h1 : NotBack ops a b) (h2 : NotBack ops b c) : NotBack ops a c := by
  rcases h1 with rfl | h1
  · exact h2
  · rcases h2 with rfl | h2
    · exact .inr h1
    · exact .inr (ops.rel_trans _ _ _ h1 h2)

theorem NotBack.lt {a b c : σ} (h1 : NotBack ops a b) (h2 : ops.rel.rel b c) : ops.rel.rel a c := by
  rcases h1 with rfl | h1
  · exact h2
  · exact ops.rel_trans _ _ _ h1 h2

theorem step_notBack (hf : RunsOut ops) {s s' : σ} {ev : Event} (e : step now ops cfg s = (ev, s')) : NotBack ops s' s := by
  have hd := step_dec now ops cfg s
  rcases hd with ⟨s2, e2⟩ | hd
  · rw [e2] at e
    cases e
    simp only [step] at e2
    have h1 : NotBack ops (ops.read1 s).2 s := (hf s).1
    have h2 : NotBack ops (ops.read1 (ops.read1 s).2).2 (ops.read1 s).2 := (hf _).1
    have h3 := readLine_rel ops (ops.read1 (ops.read1 s).2).2
    split at e2
    · cases e2; exact h1
    · split at e2
      · cases e2
      · split at e2
        · cases e2; exact h2.trans h1
        · split at e2
          · split at e2
            · rename_i hr
              rw [hr] at h3
              cases e2
              exact NotBack.trans h3 (h2.trans h1)
            · cases e2
            · split at e2 <;> cases e2
          · split at e2 <;> cases e2
  · rw [e] at hd; exact .inr hd

theorem step_lt {s s' : σ} {ev : Event} (e : step now ops cfg s = (ev, s')) (hne : ev ≠ .eof) : ops.rel.rel s' s := by
  have hd := step_dec now ops cfg s
  rw [e] at hd
  rcases hd with ⟨s2, e2⟩ | hd
  · cases e2; exact absurd rfl hne
  · exact hd

theorem nread_notBack (hf : RunsOut ops) {seen seen' : List Seen} {s s' : σ} {tr : List Happens} {r : XResult}
    (hr : NRead now ops cfg h seen s tr r seen' s') : NotBack ops s' s ∧ (r ≠ .none → ops.rel.rel s' s) := by
  refine NRead.rec (motive_1 := fun _ s _ r _ s' _ => NotBack ops s' s ∧ (r ≠ .none → ops.rel.rel s' s))
    (motive_2 := fun _ s _ _ _ s' _ => NotBack ops s' s) ?_ ?_ ?_ ?_ ?_ ?_ ?_ ?_ ?_ ?_ ?_ hr
  · intro seen s s' e
    exact ⟨step_notBack hf e, fun hne => absurd rfl hne⟩
  · intro seen s s' raw m e
    exact ⟨step_notBack hf e, fun _ => step_lt e (by simp)⟩
  · intro seen s s' x e
    exact ⟨step_notBack hf e, fun _ => step_lt e (by simp)⟩
  · rintro seen s s1 tr r seen' s' e _ ⟨h1, -⟩
    have := h1.lt (step_lt e (by simp))
    exact ⟨.inr this, fun _ => this⟩
  · rintro seen s x s1 tr1 seen1 s2 tr2 r seen2 s3 e _ _ h1 ⟨h2, -⟩
    have := (h2.trans h1).lt (step_lt e (by simp))
    exact ⟨.inr this, fun _ => this⟩
  · intro seen s x s1 tr1 y seen1 s2 e _ h1
    have := h1.lt (step_lt e (by simp))
    exact ⟨.inr this, fun _ => this⟩
  · intro seen s _; exact .inl rfl
  · intro seen s x _; exact .inl rfl
  · rintro seen s tr1 r seen1 s1 tr2 o seen2 s2 _ _ _ ⟨h1, -⟩ h2
    exact h2.trans h1
  · intro seen s tr o seen2 s2 _ _ h1; exact h1.trans (hf s).1
  · intro seen s tr o seen2 s2 _ _ h1; exact h1.trans (ops.readline_dec s)

theorem nhandle_notBack (hf : RunsOut ops) {seen seen' : List Seen} {s s' : σ} {tr : List Happens} {o : Option Exc}
    (hr : NHandle now ops cfg h seen s tr o seen' s') : NotBack ops s' s := by
  refine NHandle.rec (motive_1 := fun _ _ _ _ _ _ _ => True)
    (motive_2 := fun _ s _ _ _ s' _ => NotBack ops s' s) ?_ ?_ ?_ ?_ ?_ ?_ ?_ ?_ ?_ ?_ ?_ hr
  · intros; trivial
  · intros; trivial
  · intros; trivial
  · intros; trivial
  · intros; trivial
  · intros; trivial
  · intro seen s _; exact .inl rfl
  · intro seen s x _; exact .inl rfl
  · rintro seen s tr1 r seen1 s1 tr2 o seen2 s2 _ h1 _ _ h2
    exact h2.trans (nread_notBack hf h1).1
  · intro seen s tr o seen2 s2 _ _ h1; exact h1.trans (hf s).1
  · intro seen s tr o seen2 s2 _ _ h1; exact h1.trans (ops.readline_dec s)

theorem all_end (hs : StopsAtEnd h) (hf : RunsOut ops) (s : σ) :
    (∀ seen, ∃ tr r seen' s', NRead now ops cfg h seen s tr r seen' s') ∧
      ∀ seen, ∃ tr o seen' s', NHandle now ops cfg h seen s tr o seen' s' := by
  induction s using ops.rel.wf.induction with
  | _ s ih =>
    have hP : ∀ seen, ∃ tr r seen' s', NRead now ops cfg h seen s tr r seen' s' := by
      intro seen
      cases e : step now ops cfg s with
      | mk ev s1 =>
        cases ev with
        | eof => exact ⟨_, _, _, _, .eof _ _ _ e⟩
        | msg raw m => exact ⟨_, _, _, _, .item _ _ _ _ _ e⟩
        | crash x => exact ⟨_, _, _, _, .crash _ _ _ _ e⟩
        | skip =>
          obtain ⟨tr, r, seen', s', hr⟩ := (ih s1 (step_lt e (by simp))).1 seen
          exact ⟨_, _, _, _, .skip _ _ _ _ _ _ _ e hr⟩
        | err x =>
          have hlt := step_lt e (by simp)
          obtain ⟨tr1, o, seen1, s2, hh⟩ := (ih s1 hlt).2 (seen ++ [.error x])
          cases o with
          | some y => exact ⟨_, _, _, _, .escaped _ _ _ _ _ _ _ _ e hh⟩
          | none =>
            obtain ⟨tr2, r, seen2, s3, hr⟩ := (ih s2 ((nhandle_notBack hf hh).lt hlt)).1 seen1
            exact ⟨_, _, _, _, .handled _ _ _ _ _ _ _ _ _ _ _ e hh hr⟩
    refine ⟨hP, ?_⟩
    have stop : ∀ seen (t : σ), (h seen = .done ∨ ∃ x, h seen = .raise x) → ∃ tr o seen' s', NHandle now ops cfg h seen t tr o seen' s' := by
      intro seen t hh
      rcases hh with hh | ⟨x, hh⟩
      · exact ⟨_, _, _, _, .done _ _ hh⟩
      · exact ⟨_, _, _, _, .raise _ _ _ hh⟩
    intro seen
    cases e : h seen with
    | done => exact stop seen s (.inl e)
    | raise x => exact stop seen s (.inr ⟨x, e⟩)
    | read =>
      obtain ⟨tr1, r, seen1, s1, hr⟩ := hP seen
      have : ∃ tr o seen' s', NHandle now ops cfg h (seen1 ++ [.got r]) s1 tr o seen' s' := by
        by_cases hn : r = .none
        · subst hn; exact stop _ _ (hs seen1).1
        · exact (ih s1 ((nread_notBack hf hr).2 hn)).2 _
      obtain ⟨tr2, o, seen2, s2, hh⟩ := this
      exact ⟨_, _, _, _, .read _ _ _ _ _ _ _ _ _ _ e hr hh⟩
    | take =>
      have : ∃ tr o seen' s', NHandle now ops cfg h (seen ++ [.bytes (ops.read1 s).1]) (ops.read1 s).2 tr o seen' s' := by
        by_cases hn : (ops.read1 s).1 = []
        · rw [hn]; exact stop _ _ (hs seen).2
        · exact (ih _ (ops.read1_dec s hn)).2 _
      obtain ⟨tr2, o, seen2, s2, hh⟩ := this
      exact ⟨_, _, _, _, .take _ _ _ _ _ _ e hh⟩
    | line =>
      have : ∃ tr o seen' s', NHandle now ops cfg h (seen ++ [.bytes (ops.readline s).1]) (ops.readline s).2 tr o seen' s' := by
        by_cases hn : (ops.readline s).1 = []
        · rw [hn]; exact stop _ _ (hs seen).2
        · exact (ih _ ((hf s).2 hn)).2 _
      obtain ⟨tr2, o, seen2, s2, hh⟩ := this
      exact ⟨_, _, _, _, .line _ _ _ _ _ _ e hh⟩

/-- On a stream that runs out, every call of `read()` ends if the handler knows when to stop: any number of calls may be
made. -/
theorem C88_ends (hs : StopsAtEnd h) (hf : RunsOut ops) (n : Nat) (seen : List Seen) (s : σ) :
    ∃ tr rs seen' s', NCalls now ops cfg h seen s tr rs seen' s' ∧ rs.length = n := by
  induction n generalizing seen s with
  | zero => exact ⟨_, _, _, _, .nil _ _, rfl⟩
  | succ n ih =>
    obtain ⟨tr, r, seen1, s1, hr⟩ := (all_end (now := now) (cfg := cfg) hs hf s).1 seen
    obtain ⟨tr', rs, seen2, s2, hc, hl⟩ := ih seen1 s1
    exact ⟨_, _, _, _, .cons _ _ _ _ _ _ _ _ _ _ hr hc, by simp [hl]⟩

/-- Files run out. -/
theorem C88_file : RunsOut fileStream := by
  intro b
  refine ⟨?_, ?_⟩
  · cases b with
    | nil => exact .inl rfl
    | cons x r => exact .inr (Nat.lt_succ_self r.length)
  · intro hne
    rcases fileStream.readline_dec b with e | e
    · cases b with
      | nil => exact absurd rfl hne
      | cons x r =>
        exfalso
        have h1 := fileLine_len (x :: r)
        have h2 := List.length_pos_iff.2 (fileLine_pos (x :: r) (by simp))
        have h3 : (fileLine (x :: r)).2 = x :: r := e
        rw [h3] at h1
        omega
    · exact e

/-- With a handler that only looks at its errors this is the reader of the other properties. -/
theorem C88_plain (hq : cfg.quitonerror = 1) {seen seen' : List Seen} {s s' : σ} {tr : List Happens} {r : XResult}
    (hr : NRead now ops cfg (fun _ => .done) seen s tr r seen' s') :
    r = asX (readMsg now ops cfg s).1 ∧ s' = (readMsg now ops cfg s).2.2 ∧
      seen' = seen ++ (readMsg now ops cfg s).2.1.map .error := by
  have hdone : ∀ {seen seen' : List Seen} {s s' : σ} {tr : List Happens} {o : Option Exc},
      NHandle now ops cfg (fun _ => .done) seen s tr o seen' s' → o = none ∧ seen' = seen ∧ s' = s := by
    intro seen seen' s s' tr o hh
    cases hh <;> simp_all
  refine NRead.rec (motive_1 := fun seen s tr r seen' s' _ => r = asX (readMsg now ops cfg s).1 ∧ s' = (readMsg now ops cfg s).2.2 ∧
      seen' = seen ++ (readMsg now ops cfg s).2.1.map .error)
    (motive_2 := fun _ _ _ _ _ _ _ => True) ?_ ?_ ?_ ?_ ?_ ?_ ?_ ?_ ?_ ?_ ?_ hr
  · intro seen s s' e
    rw [readMsg_eq, e]; simp [asX]
  · intro seen s s' raw m e
    rw [readMsg_eq, e]; simp [asX]
  · intro seen s s' x e
    rw [readMsg_eq, e]; simp [asX]
  · intro seen s s1 tr r seen' s' e _ ih
    rw [readMsg_eq, e]; exact ih
  · intro seen s x s1 tr1 seen1 s2 tr2 r seen2 s3 e hh _ _ ih
    obtain ⟨-, rfl, rfl⟩ := hdone hh
    rw [readMsg_eq, e]
    simp only [hq]
    simpa using ih
  · intro seen s x s1 tr1 y seen1 s2 e hh _
    cases (hdone hh).1
  all_goals intros; trivial

/-! ## A handler at work -/

/-- A handler that reads the next sentence itself whenever there is an error, and one byte more. -/
def curious : Reenter := fun seen => match seen.getLast? with
  | some (.error _) => .read
  | some (.got (.item _ _)) => .take
  | _ => .done

theorem curious_stops : StopsAtEnd curious := by
  intro seen
  simp [curious]

/-- A sentence with a wrong checksum, two good ones with a byte of noise between. -/
def noisy : Bytes := pb!"$GNGLL,5327.04319,S,00214.41396,E,223232.00,A,A*69\r\n" ++ (gll ++ (pb!"x" ++ gll))

/-- The first call of `read()`: the handler gets the first good sentence and the byte, the program the second sentence. -/
theorem noisy_read : ∃ m m', NRead clock0 fileStream ⟨0, 1, true, 1, []⟩ curious [] noisy
    [.came (.raised .nmeaParse), .came (.item gll (some m)), .taken (pb!"x"), .came (.item gll (some m'))]
    (.item gll (some m')) [.error .nmeaParse, .got (.item gll (some m)), .bytes (pb!"x")] [] := by
  have s1 : step clock0 fileStream ⟨0, 1, true, 1, []⟩ noisy = (.err .nmeaParse, gll ++ (pb!"x" ++ gll)) := by
    have : (match step clock0 fileStream ⟨0, 1, true, 1, []⟩ noisy with
      | (.err .nmeaParse, r) => r == gll ++ (pb!"x" ++ gll) | _ => false) = true := by decide +kernel
    revert this
    generalize step clock0 fileStream ⟨0, 1, true, 1, []⟩ noisy = x
    split
    · intro h; rw [eq_of_beq h]
    · intro h; cases h
  have key : ∀ b rest, (match step clock0 fileStream ⟨0, 1, true, 1, []⟩ b with
      | (.msg raw (some _), r) => raw == gll && r == rest | _ => false) = true →
      ∃ m, step clock0 fileStream ⟨0, 1, true, 1, []⟩ b = (.msg gll (some m), rest) := by
    intro b rest
    generalize step clock0 fileStream ⟨0, 1, true, 1, []⟩ b = x
    split
    · rename_i raw m r
      intro h
      rw [Bool.and_eq_true] at h
      exact ⟨m, by rw [eq_of_beq h.1, eq_of_beq h.2]⟩
    · intro h; cases h
  obtain ⟨m, s2⟩ := key (gll ++ (pb!"x" ++ gll)) (pb!"x" ++ gll) (by decide +kernel)
  obtain ⟨m', s3⟩ := key gll [] (by decide +kernel)
  refine ⟨m, m', .handled [] noisy .nmeaParse (gll ++ (pb!"x" ++ gll)) [.came (.item gll (some m)), .taken (pb!"x")]
    [.error .nmeaParse, .got (.item gll (some m)), .bytes (pb!"x")] gll _ _ _ [] s1 ?_ (.item _ _ _ _ _ s3)⟩
  refine .read _ _ [.came (.item gll (some m))] (.item gll (some m)) [.error .nmeaParse] (pb!"x" ++ gll) _ _ _ _ rfl
    (.item _ _ _ _ _ s2) ?_
  exact .take _ _ _ _ _ _ rfl (.done _ _ rfl)

example (n : Nat) : ∃ tr rs seen' s', NCalls clock0 fileStream ⟨0, 1, true, 1, []⟩ curious [] noisy tr rs seen' s' ∧
    rs.length = n ∧ SlicesOf noisy (slices tr) := by
  obtain ⟨tr, rs, seen', s', hc, hl⟩ := C88_ends (now := clock0) (cfg := ⟨0, 1, true, 1, []⟩) curious_stops C88_file n [] noisy
  exact ⟨tr, rs, seen', s', hc, hl, C88_slices fileStream_lossless hc⟩

end Props.Reentrant
