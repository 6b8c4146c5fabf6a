import Verif.Spec.ReaderExc
import Verif.Lemmas.Reader
import Verif.Props.Errors
/-!
# Exceptions from the stream object and from the error handler (C72)
-/
namespace Props
open Py Nmea Spec

theorem readX_eq {σ} (now : Nat → DateTime) (ops : XStream σ) (cfg : RCfg) (handler : Handler)
    (hist : List Err) (s : σ) : readX now ops cfg handler hist s =
      match stepX now ops cfg s with
      | (.eof, s') => (.none, hist, s')
      | (.msg raw m, s') => (.item raw m, hist, s')
      | (.crash x, s') => (.raised x, hist, s')
      | (.skip, s') => readX now ops cfg handler hist s'
      | (.err e, s') =>
        if cfg.quitonerror = 2 then (.raised (.py e), hist, s')
        else if cfg.quitonerror = 1 then
          match handler (hist ++ [e]) with
          | some x => (.raised x, hist ++ [e], s')
          | none => readX now ops cfg handler (hist ++ [e]) s'
        else readX now ops cfg handler hist s' := by
  conv => lhs; rw [readX]
  split <;> rename_i heq <;> rw [heq]
  dsimp only
  rename_i e _
  cases handler (hist ++ [e]) <;> rfl

/-! ## Events of passes -/

inductive PassesX {σ} (now : Nat → DateTime) (ops : XStream σ) (cfg : RCfg) : σ → List XEvent → σ → Prop
  | nil (s) : PassesX now ops cfg s [] s
  | cons (s ev s1 evs s2) : stepX now ops cfg s = (ev, s1) → PassesX now ops cfg s1 evs s2 →
      PassesX now ops cfg s (ev :: evs) s2

theorem PassesX.append {σ} {now : Nat → DateTime} {ops : XStream σ} {cfg : RCfg} {s1 s2 s3 : σ} {a b}
    (h : PassesX now ops cfg s1 a s2) (h' : PassesX now ops cfg s2 b s3) : PassesX now ops cfg s1 (a ++ b) s3 := by
  induction h with
  | nil => exact h'
  | cons s ev s1 evs s2 hs _ ih => exact .cons _ _ _ _ _ hs (ih h')

/-- Outcomes of the calls, given the events. -/
def outs (q : Nat) (h : Handler) : List Err → List XEvent → List XResult
  | _, [] => []
  | hist, .skip :: es => outs q h hist es
  | hist, .eof :: es => .none :: outs q h hist es
  | hist, .msg raw m :: es => .item raw m :: outs q h hist es
  | hist, .crash x :: es => .raised x :: outs q h hist es
  | hist, .err e :: es =>
    if q = 2 then .raised (.py e) :: outs q h hist es
    else if q = 1 then
      match h (hist ++ [e]) with
      | some x => .raised x :: outs q h (hist ++ [e]) es
      | none => outs q h (hist ++ [e]) es
    else outs q h hist es

def errsOf : List XEvent → List Err
  | [] => []
  | .err e :: es => e :: errsOf es
  | _ :: es => errsOf es

def histAfter (q : Nat) (hist : List Err) (evs : List XEvent) : List Err :=
  if q = 1 then hist ++ errsOf evs else hist

theorem errsOf_append (a b : List XEvent) : errsOf (a ++ b) = errsOf a ++ errsOf b := by
  induction a with
  | nil => rfl
  | cons ev a ih => cases ev <;> simp [errsOf, ih]

theorem histAfter_append (q : Nat) (hist : List Err) (a b : List XEvent) :
    histAfter q hist (a ++ b) = histAfter q (histAfter q hist a) b := by
  unfold histAfter
  split
  · rw [errsOf_append, List.append_assoc]
  · rfl

theorem histAfter_cons (q : Nat) (hist : List Err) (ev : XEvent) (b : List XEvent) :
    histAfter q hist (ev :: b) = histAfter q (histAfter q hist [ev]) b :=
  histAfter_append q hist [ev] b

theorem outs_append (q : Nat) (h : Handler) (hist : List Err) (a b : List XEvent) :
    outs q h hist (a ++ b) = outs q h hist a ++ outs q h (histAfter q hist a) b := by
  induction a generalizing hist with
  | nil => unfold histAfter; simp [errsOf, outs]
  | cons ev a ih =>
    rw [histAfter_cons, List.cons_append]
    cases ev with
    | err e =>
      simp only [outs]
      by_cases h2 : q = 2
      · subst h2; simp [ih, histAfter]
      · by_cases h1 : q = 1
        · subst h1
          simp only [if_neg h2, if_true]
          have : histAfter 1 hist [.err e] = hist ++ [e] := rfl
          rw [this]
          split <;> simp [ih]
        · simp [h1, h2, ih, histAfter]
    | _ => simp [outs, ih, histAfter, errsOf]

/-- The events that end a call whatever the policy. -/
def final : XEvent → Bool
  | .skip => false
  | .err _ => false
  | _ => true

theorem outs_ne (q : Nat) (h : Handler) (hist : List Err) (evs : List XEvent) (ev : XEvent)
    (hl : evs.getLast? = some ev) (hf : final ev = true ∨ (q = 2 ∧ ∃ e, ev = .err e)) : outs q h hist evs ≠ [] := by
  obtain ⟨a, rfl⟩ := List.getLast?_eq_some_iff.1 hl
  rw [outs_append]
  intro he
  have := (List.append_eq_nil_iff.1 he).2
  rcases hf with hf | ⟨rfl, e, rfl⟩
  · cases ev with
    | skip => cases hf
    | err e => cases hf
    | _ => simp [outs] at this
  · simp [outs] at this

theorem Calls.first {σ} {now : Nat → DateTime} {ops : XStream σ} {cfg : RCfg} {h : Handler} {hist hist' hist1 s s' s1}
    {rs : List XResult} (hc : Calls now ops cfg h hist1 s1 rs hist' s') (hne : rs ≠ [])
    (he : readX now ops cfg h hist s = readX now ops cfg h hist1 s1) : Calls now ops cfg h hist s rs hist' s' := by
  cases hc with
  | nil => exact absurd rfl hne
  | cons _ _ r h2 s2 rs _ _ h' hr => exact .cons _ _ _ _ _ _ _ _ (he.trans h') hr

theorem calls_of_passes {σ} {now : Nat → DateTime} {ops : XStream σ} {cfg : RCfg} (h : Handler) (hist : List Err)
    {s s' : σ} {evs : List XEvent} (hp : PassesX now ops cfg s evs s')
    (hl : ∀ ev, evs.getLast? = some ev → final ev = true ∨ (cfg.quitonerror = 2 ∧ ∃ e, ev = .err e)) :
    Calls now ops cfg h hist s (outs cfg.quitonerror h hist evs) (histAfter cfg.quitonerror hist evs) s' := by
  induction hp generalizing hist with
  | nil s =>
    have : histAfter cfg.quitonerror hist [] = hist := by unfold histAfter; simp [errsOf]
    rw [this]; exact .nil _ _
  | cons s ev s1 evs s2 hs _ ih =>
    have hl' : ∀ ev, evs.getLast? = some ev → final ev = true ∨ (cfg.quitonerror = 2 ∧ ∃ e, ev = .err e) := by
      intro ev' he
      apply hl
      cases evs with
      | nil => simp at he
      | cons x xs => simpa using he
    have hne : ¬ (final ev = true ∨ (cfg.quitonerror = 2 ∧ ∃ e, ev = .err e)) →
        ∀ hist1, outs cfg.quitonerror h hist1 evs ≠ [] := by
      intro hn hist1
      cases hx : evs.getLast? with
      | none =>
        have : evs = [] := by simpa using hx
        subst this
        exact absurd (hl ev rfl) hn
      | some ev' => exact outs_ne _ h _ _ ev' hx (hl' ev' hx)
    rw [histAfter_cons]
    have hq := readX_eq now ops cfg h hist s
    rw [hs] at hq
    cases ev with
    | skip =>
      have e1 : histAfter cfg.quitonerror hist [.skip] = hist := by simp [histAfter, errsOf]
      rw [e1]
      exact Calls.first (ih hist hl') (hne (by simp [final]) hist) hq
    | eof =>
      have e1 : histAfter cfg.quitonerror hist [.eof] = hist := by simp [histAfter, errsOf]
      rw [e1]
      exact .cons _ _ _ _ _ _ _ _ hq (ih hist hl')
    | msg raw m =>
      have e1 : histAfter cfg.quitonerror hist [.msg raw m] = hist := by simp [histAfter, errsOf]
      rw [e1]
      exact .cons _ _ _ _ _ _ _ _ hq (ih hist hl')
    | crash x =>
      have e1 : histAfter cfg.quitonerror hist [.crash x] = hist := by simp [histAfter, errsOf]
      rw [e1]
      exact .cons _ _ _ _ _ _ _ _ hq (ih hist hl')
    | err e =>
      simp only [outs]
      simp only at hq
      by_cases h2 : cfg.quitonerror = 2
      · have e1 : histAfter cfg.quitonerror hist [.err e] = hist := by simp [histAfter, h2]
        rw [e1, if_pos h2]
        rw [if_pos h2] at hq
        exact .cons _ _ _ _ _ _ _ _ hq (ih hist hl')
      · rw [if_neg h2] at hq ⊢
        have hn := hne (by simp [final, h2])
        by_cases h1 : cfg.quitonerror = 1
        · have e1 : histAfter cfg.quitonerror hist [.err e] = hist ++ [e] := by simp [histAfter, h1, errsOf]
          rw [e1, if_pos h1]
          rw [if_pos h1] at hq
          cases hh : h (hist ++ [e]) with
          | some x =>
            rw [hh] at hq
            exact .cons _ _ _ _ _ _ _ _ hq (ih _ hl')
          | none =>
            rw [hh] at hq
            exact Calls.first (ih _ hl') (hn _) hq
        · have e1 : histAfter cfg.quitonerror hist [.err e] = hist := by simp [histAfter, h1]
          rw [e1, if_neg h1]
          rw [if_neg h1] at hq
          exact Calls.first (ih _ hl') (hn _) hq

/-- One call: its passes. -/
theorem readX_passes {σ} (now : Nat → DateTime) (ops : XStream σ) (cfg : RCfg) (h : Handler) (hist : List Err) (s : σ) :
    ∃ evs ev, PassesX now ops cfg s (evs ++ [ev]) (readX now ops cfg h hist s).2.2 ∧ ev ≠ .skip ∧
      outs cfg.quitonerror h hist (evs ++ [ev]) = [(readX now ops cfg h hist s).1] ∧
      histAfter cfg.quitonerror hist (evs ++ [ev]) = (readX now ops cfg h hist s).2.1 := by
  induction s using ops.rel.wf.induction generalizing hist with
  | _ s ih =>
    rw [readX_eq]
    have hd := stepX_dec now ops cfg s
    cases hs : stepX now ops cfg s with
    | mk ev s1 =>
      have one : ∀ {t}, t = s1 → PassesX now ops cfg s ([] ++ [ev]) t := by
        rintro t rfl; exact .cons _ _ _ _ _ hs (.nil _)
      cases ev with
      | skip =>
        obtain ⟨evs, ev, h1, h2, h3, h4⟩ := ih s1 ((hd s1).1 hs) hist
        refine ⟨.skip :: evs, ev, .cons _ _ _ _ _ hs h1, h2, h3, ?_⟩
        rw [← h4]; simp [histAfter, errsOf]
      | eof => exact ⟨[], .eof, one rfl, by simp, rfl, by simp [histAfter, errsOf]⟩
      | msg raw m => exact ⟨[], .msg raw m, one rfl, by simp, rfl, by simp [histAfter, errsOf]⟩
      | crash x => exact ⟨[], .crash x, one rfl, by simp, rfl, by simp [histAfter, errsOf]⟩
      | err e =>
        simp only
        by_cases h2 : cfg.quitonerror = 2
        · rw [if_pos h2]
          exact ⟨[], .err e, one rfl, by simp, by simp [outs, h2], by simp [histAfter, h2]⟩
        · rw [if_neg h2]
          by_cases h1 : cfg.quitonerror = 1
          · rw [if_pos h1]
            cases hh : h (hist ++ [e]) with
            | some x =>
              exact ⟨[], .err e, one rfl, by simp, by simp [outs, h1, hh], by simp [histAfter, h1, errsOf]⟩
            | none =>
              obtain ⟨evs, ev, g1, g2, g3, g4⟩ := ih s1 ((hd s1).2 e hs) (hist ++ [e])
              refine ⟨.err e :: evs, ev, .cons _ _ _ _ _ hs g1, g2, ?_, ?_⟩
              · rw [← g3]; simp [outs, h1, hh]
              · rw [← g4]; simp [histAfter, h1, errsOf]
          · rw [if_neg h1]
            obtain ⟨evs, ev, g1, g2, g3, g4⟩ := ih s1 ((hd s1).2 e hs) hist
            refine ⟨.err e :: evs, ev, .cons _ _ _ _ _ hs g1, g2, ?_, ?_⟩
            · rw [← g3]; simp [outs, h1, h2]
            · rw [← g4]; simp [histAfter, h1]

theorem passes_of_calls {σ} {now : Nat → DateTime} {ops : XStream σ} {cfg : RCfg} {h : Handler} {hist hist' : List Err}
    {s s' : σ} {rs : List XResult} (hc : Calls now ops cfg h hist s rs hist' s') :
    ∃ evs, PassesX now ops cfg s evs s' ∧ evs.getLast? ≠ some .skip ∧ outs cfg.quitonerror h hist evs = rs ∧
      histAfter cfg.quitonerror hist evs = hist' := by
  induction hc with
  | nil hist s => exact ⟨[], .nil _, by simp, rfl, by simp [histAfter, errsOf]⟩
  | cons hist s r hist1 s1 rs hist2 s2 hr _ ih =>
    obtain ⟨evs, ev, h1, h2, h3, h4⟩ := readX_passes now ops cfg h hist s
    rw [hr] at h1 h3 h4
    obtain ⟨es, g1, g2, g3, g4⟩ := ih
    refine ⟨(evs ++ [ev]) ++ es, h1.append g1, ?_, ?_, ?_⟩
    · cases es with
      | nil => simpa using h2
      | cons x xs =>
        rw [List.getLast?_append]
        cases hx : (x :: xs).getLast? with
        | none => simp at hx
        | some y => rw [hx] at g2; simpa using g2
    · rw [outs_append, h3, h4, g3]; rfl
    · rw [histAfter_append, h4, g4]

/-! ## Library errors in events -/

def good (evs : List XEvent) : Prop :=
  ∀ ev ∈ evs, (∀ e, ev = .err e → LibraryError e) ∧ (∀ e, ev = .crash (.py e) → ¬ LibraryError e)

theorem caught_good (x : Exc) : (∀ e, caught x = .err e → LibraryError e) ∧
    (∀ e, caught x = .crash (.py e) → ¬ LibraryError e) := by
  cases x with
  | other n => exact ⟨fun e h => (by cases h), fun e h => (by cases h)⟩
  | py e =>
    cases e <;> exact ⟨fun e h => (by cases h <;> decide), fun e h => (by cases h <;> decide)⟩

theorem stepX_good {σ} (now : Nat → DateTime) (ops : XStream σ) (cfg : RCfg) (s : σ) :
    good [(stepX now ops cfg s).1] := by
  intro ev hev
  have hev : ev = (stepX now ops cfg s).1 := by simpa using hev
  subst hev
  have hc := caught_good
  simp only [stepX]
  repeat' split
  all_goals first
    | exact hc _
    | exact hc (.py .nmeaParse)
    | exact ⟨fun e h => (by cases h), fun e h => (by cases h)⟩

theorem passesX_good {σ} {now : Nat → DateTime} {ops : XStream σ} {cfg : RCfg} {s s' : σ} {evs}
    (h : PassesX now ops cfg s evs s') : good evs := by
  induction h with
  | nil => intro ev h; cases h
  | cons s ev s1 evs s2 hs _ ih =>
    intro x hx
    rcases List.mem_cons.1 hx with rfl | hx
    · have := stepX_good now ops cfg s
      rw [hs] at this
      exact this x (by simp)
    · exact ih x hx

theorem handled_outs (h h2 : Handler) (hist hist2 : List Err) (evs : List XEvent) (hg : good evs) :
    outs 1 h hist evs = handled h hist (outs 2 h2 hist2 evs) := by
  induction evs generalizing hist with
  | nil => rfl
  | cons ev evs ih =>
    have ih := fun hist => ih hist (fun x hx => hg x (List.mem_cons_of_mem _ hx))
    have hv := hg ev (by simp)
    cases ev with
    | skip => exact ih hist
    | eof => simp [outs, handled, libraryError?, ih]
    | msg raw m => simp [outs, handled, libraryError?, ih]
    | crash x =>
      cases x with
      | other n => simp [outs, handled, libraryError?, ih]
      | py e => simp [outs, handled, libraryError?, ih, hv.2 e rfl]
    | err e =>
      simp only [outs, if_true, handled, libraryError?, if_pos (hv.1 e rfl), ih]
      rw [if_neg (by decide)]
      cases h (hist ++ [e]) <;> rfl

theorem ignored_outs (q : Nat) (h1 : q ≠ 1) (h2 : q ≠ 2) (h h' : Handler) (hist hist2 : List Err)
    (evs : List XEvent) (hg : good evs) :
    outs q h hist evs = (outs 2 h' hist2 evs).filter (fun r => (libraryError? r).isNone) := by
  induction evs with
  | nil => rfl
  | cons ev evs ih =>
    have ih := ih (fun x hx => hg x (List.mem_cons_of_mem _ hx))
    have hv := hg ev (by simp)
    cases ev with
    | skip => exact ih
    | eof => simp [outs, libraryError?, ih]
    | msg raw m => simp [outs, libraryError?, ih]
    | crash x =>
      cases x with
      | other n => simp [outs, libraryError?, ih]
      | py e => simp [outs, libraryError?, ih, hv.2 e rfl]
    | err e => simp [outs, libraryError?, h1, h2, ih, hv.1 e rfl]

theorem errs_outs (h : Handler) (hist : List Err) (evs : List XEvent) (hg : good evs) :
    (outs 2 h hist evs).filterMap libraryError? = errsOf evs := by
  induction evs with
  | nil => rfl
  | cons ev evs ih =>
    have ih := ih (fun x hx => hg x (List.mem_cons_of_mem _ hx))
    have hv := hg ev (by simp)
    cases ev with
    | skip => exact ih
    | eof => rw [outs, List.filterMap_cons]; simpa [libraryError?, errsOf] using ih
    | msg raw m => rw [outs, List.filterMap_cons]; simpa [libraryError?, errsOf] using ih
    | crash x =>
      cases x with
      | other n => rw [outs, List.filterMap_cons]; simpa [libraryError?, errsOf] using ih
      | py e => rw [outs, List.filterMap_cons]; simpa [libraryError?, errsOf, hv.2 e rfl] using ih
    | err e => rw [outs, if_pos rfl, List.filterMap_cons]; simpa [libraryError?, errsOf, hv.1 e rfl] using ih

theorem stepX_policy {σ} (now : Nat → DateTime) (ops : XStream σ) (cfg : RCfg) (q : Nat) (s : σ) :
    stepX now ops (withPolicy cfg q) s = stepX now ops cfg s := rfl

theorem passesX_policy {σ} {now : Nat → DateTime} {ops : XStream σ} {cfg : RCfg} {s s' : σ} {evs}
    (h : PassesX now ops cfg s evs s') (q : Nat) : PassesX now ops (withPolicy cfg q) s evs s' := by
  induction h with
  | nil => exact .nil _
  | cons s ev s1 evs s2 hs _ ih => exact .cons _ _ _ _ _ hs ih

/-! ## C72 -/

/-- Whatever the stream raises and whatever the handler does: calls made with policy 1 give what calls
with policy 2 give over the same data, except that every library error goes to the handler - exactly
once, in order - and the call goes on, or raises the handler's exception. Nothing is lost: afterwards
the stream is in the same state. -/
theorem C72_handler {σ} (now : Nat → DateTime) (ops : XStream σ) (cfg : RCfg) (h : Handler) (hist hist' : List Err)
    (s s' : σ) (rs : List XResult) (hc : Calls now ops (withPolicy cfg 1) h hist s rs hist' s') :
    ∃ rs2, Calls now ops (withPolicy cfg 2) h [] s rs2 [] s' ∧ rs = handled h hist rs2 ∧
      hist' = hist ++ rs2.filterMap libraryError? := by
  obtain ⟨evs, h1, h2, h3, h4⟩ := passes_of_calls hc
  have hg := passesX_good h1
  have h1' := passesX_policy h1 2
  have hcl := calls_of_passes h [] h1' (by
    intro ev hev
    cases ev with
    | skip => exact absurd hev h2
    | err e => exact .inr ⟨rfl, e, rfl⟩
    | _ => exact .inl rfl)
  refine ⟨_, hcl, ?_, ?_⟩
  · rw [← h3]; exact handled_outs h h hist [] evs hg
  · rw [← h4]; show hist ++ errsOf evs = _
    rw [← errs_outs h [] evs hg]; rfl

/-- With policy 0 (or any value but 1 and 2) the calls give what calls with policy 2 give over the same
data, without the library errors; the handler is not called. Exceptions of the stream that are no
library errors are raised all the same. -/
theorem C72_ignore {σ} (now : Nat → DateTime) (ops : XStream σ) (cfg : RCfg) (q : Nat) (hq1 : q ≠ 1) (hq2 : q ≠ 2)
    (h : Handler) (hist hist' : List Err) (s s' : σ) (rs : List XResult)
    (hc : Calls now ops (withPolicy cfg q) h hist s rs hist' s') :
    hist' = hist ∧ ∃ rs2, Calls now ops (withPolicy cfg 2) h [] s rs2 [] s' ∧
      rs = rs2.filter (fun r => (libraryError? r).isNone) := by
  obtain ⟨evs, h1, h2, h3, h4⟩ := passes_of_calls hc
  have hg := passesX_good h1
  have h1' := passesX_policy h1 2
  have hcl := calls_of_passes h [] h1' (by
    intro ev hev
    cases ev with
    | skip => exact absurd hev h2
    | err e => exact .inr ⟨rfl, e, rfl⟩
    | _ => exact .inl rfl)
  refine ⟨?_, _, hcl, ?_⟩
  · rw [← h4]; show (if q = 1 then _ else _) = _; rw [if_neg hq1]
  · rw [← h3]; exact ignored_outs q hq1 hq2 h h hist [] evs hg

/-- Conversely, everything calls with policy 2 give over some data, up to an outcome that is no library
error, is reached under the other policies. -/
theorem C72_converse {σ} (now : Nat → DateTime) (ops : XStream σ) (cfg : RCfg) (h : Handler) (hist : List Err)
    (s s' : σ) (rs : List XResult) (r : XResult) (hr : libraryError? r = none)
    (hc : Calls now ops (withPolicy cfg 2) h [] s (rs ++ [r]) [] s') :
    Calls now ops (withPolicy cfg 1) h hist s (handled h hist (rs ++ [r]))
      (hist ++ (rs ++ [r]).filterMap libraryError?) s' ∧
    ∀ q, q ≠ 1 → q ≠ 2 → Calls now ops (withPolicy cfg q) h hist s
      ((rs ++ [r]).filter (fun r => (libraryError? r).isNone)) hist s' := by
  obtain ⟨evs, h1, h2, h3, _⟩ := passes_of_calls hc
  have h3 : outs 2 h [] evs = rs ++ [r] := h3
  have hg := passesX_good h1
  have hf : ∀ ev, evs.getLast? = some ev → final ev = true := by
    intro ev hev
    obtain ⟨a, rfl⟩ := List.getLast?_eq_some_iff.1 hev
    rw [outs_append] at h3
    have hv := hg ev (by simp)
    cases ev with
    | skip => simp at h2
    | err e =>
      have : outs 2 h (histAfter 2 [] a) [.err e] = [.raised (.py e)] := rfl
      rw [this] at h3
      have := List.append_inj_right' h3 rfl
      simp only [List.cons.injEq, and_true] at this
      rw [← this] at hr
      simp [libraryError?, hv.1 e rfl] at hr
    | _ => rfl
  constructor
  · have h1' := passesX_policy h1 1
    have := calls_of_passes h hist h1' (fun ev hev => .inl (hf ev hev))
    rw [← h3, ← handled_outs h h hist [] evs hg, errs_outs h [] evs hg]
    exact this
  · intro q hq1 hq2
    have h1' := passesX_policy h1 q
    have := calls_of_passes h hist h1' (fun ev hev => .inl (hf ev hev))
    rw [← h3, ← ignored_outs q hq1 hq2 h h hist [] evs hg]
    have e : histAfter (withPolicy (withPolicy cfg 2) q).quitonerror hist evs = hist := by
      show (if q = 1 then _ else _) = _; rw [if_neg hq1]
    rw [e] at this
    exact this

/-- Streams that do not raise, with a handler that does not raise: the reader of the other
properties (C23 to C28, C48, C67). -/
theorem C72_plain {σ} (now : Nat → DateTime) (ops : StreamOps σ) (cfg : RCfg) (hist : List Err) (s : σ) :
    readX now (noRaise ops) cfg (fun _ => none) hist s =
      (asX (readMsg now ops cfg s).1, hist ++ (readMsg now ops cfg s).2.1, (readMsg now ops cfg s).2.2) := by
  have hstep : ∀ s, stepX now (noRaise ops) cfg s =
      ((match (step now ops cfg s).1 with
        | .skip => .skip | .msg raw m => .msg raw m | .err e => .err e | .eof => .eof
        | .crash e => .crash (.py e)), (step now ops cfg s).2) := by
    intro s
    simp only [stepX, step, readByteX, noRaise]
    by_cases h1 : (ops.read1 s).1 = []
    · rw [if_pos h1, if_pos h1]; rfl
    · rw [if_neg h1, if_neg h1]
      dsimp only
      by_cases h2 : (ops.read1 s).1 ≠ pb!"$"
      · rw [if_pos h2, if_pos h2]
      · rw [if_neg h2, if_neg h2]
        by_cases h3 : (ops.read1 (ops.read1 s).2).1 = []
        · rw [if_pos h3, if_pos h3]; rfl
        · rw [if_neg h3, if_neg h3]
          dsimp only
          by_cases h4 : (ops.read1 s).1 ++ (ops.read1 (ops.read1 s).2).1 ∈ NMEA_HDR
          · rw [if_pos h4, if_pos h4]
            simp only [readLineX, readLine]
            by_cases h5 : (ops.readline (ops.read1 (ops.read1 s).2).2).1 = []
            · rw [if_pos h5, if_pos h5]; rfl
            · rw [if_neg h5, if_neg h5]
              by_cases h6 : (ops.readline (ops.read1 (ops.read1 s).2).2).1.getLast? ≠ some 10
              · rw [if_pos h6, if_pos h6]; rfl
              · rw [if_neg h6, if_neg h6]
                dsimp only
                cases hp : parse now (.bytes ((ops.read1 s).1 ++ (ops.read1 (ops.read1 s).2).1 ++
                    (ops.readline (ops.read1 (ops.read1 s).2).2).1)) cfg.mode cfg.validate cfg.udefs with
                | ok m => rfl
                | error e =>
                  have := C13_exceptions _ _ _ _ _ _ hp
                  cases e <;> first | rfl | simp at this
          · rw [if_neg h4, if_neg h4]
            by_cases h5 : cfg.nmeaonly = true
            · rw [if_pos h5, if_pos h5]; rfl
            · rw [if_neg h5, if_neg h5]
  induction s using ops.rel.wf.induction generalizing hist with
  | _ s ih =>
    rw [readX_eq, hstep, readMsg_eq]
    have hd := step_dec now ops cfg s
    cases hs : step now ops cfg s with
    | mk ev s' =>
      rw [hs] at hd
      have hd : ev ≠ .eof → ops.rel.rel s' s := by
        intro hne
        rcases hd with ⟨_, h⟩ | h
        · cases h; exact absurd rfl hne
        · exact h
      cases ev with
      | skip => exact ih s' (hd (by simp)) hist
      | eof => simp [asX]
      | msg raw m => simp [asX]
      | crash e => simp [asX]
      | err e =>
        simp only
        by_cases h2 : cfg.quitonerror = 2
        · rw [if_pos h2, if_pos h2]; simp [asX]
        · rw [if_neg h2, if_neg h2]
          by_cases h1 : cfg.quitonerror = 1
          · rw [if_pos h1]
            simp only [if_pos h1]
            rw [ih s' (hd (by simp)) (hist ++ [e])]
            simp
          · rw [if_neg h1]
            simp only [if_neg h1]
            exact ih s' (hd (by simp)) hist

/-! ## A port that fails now and then -/

theorem faultReadline_lf (body : Bytes) (r : FaultLine) (h : 10 ∉ body) :
    faultReadline ((body ++ [10]).map .inl ++ r) = (.ok (body ++ [10]), r) := by
  induction body with
  | nil => rfl
  | cons b body ih =>
    simp only [List.mem_cons, not_or] at h
    have := ih h.2
    simp only [List.map_append, List.map_cons, List.cons_append, List.map_nil, faultReadline] at this ⊢
    rw [if_neg (Ne.symm h.1), this]

theorem faultReadline_cut (body : Bytes) (x : Exc) (r : FaultLine) (h : 10 ∉ body) :
    faultReadline (body.map .inl ++ .inr x :: r) = (.error x, r) := by
  induction body with
  | nil => rfl
  | cons b body ih =>
    simp only [List.mem_cons, not_or] at h
    simp only [List.map_cons, List.cons_append, faultReadline]
    rw [if_neg (Ne.symm h.1), ih h.2]

/-- Events of a segment. -/
def segEvents (now : Nat → DateTime) (cfg : RCfg) : Segment → List XEvent
  | .junk b => b.map (fun _ => .skip)
  | .line raw =>
    match parse now (.bytes raw) cfg.mode cfg.validate cfg.udefs with
    | .ok m => [.msg raw m]
    | .error e => [caught (.py e)]
  | .fault _ x => [caught x]

theorem read_inl (b : UInt8) (r : FaultLine) : readByteX faultStream (.inl b :: r) = (.ok [b], r) := by
  simp [readByteX, faultStream]

theorem read_inr (x : Exc) (r : FaultLine) : readByteX faultStream (.inr x :: r) = (.error x, r) := by
  simp [readByteX, faultStream]

theorem seg_passes (now : Nat → DateTime) (cfg : RCfg) (sg : Segment) (hp : sg.Proper) (r : FaultLine) :
    PassesX now faultStream cfg (sg.onPort ++ r) (segEvents now cfg sg) r := by
  cases sg with
  | junk b =>
    simp only [Segment.onPort, segEvents]
    replace hp : 36 ∉ b := hp
    induction b with
    | nil => exact .nil _
    | cons x b ih =>
      simp only [List.mem_cons, not_or] at hp
      refine .cons _ _ _ _ _ ?_ (ih hp.2)
      simp only [List.map_cons, List.cons_append, stepX, read_inl]
      rw [if_pos (by simpa using Ne.symm hp.1)]
  | line raw =>
    obtain ⟨h, body, hh, hl, rfl⟩ := hp
    have e1 : stepX now faultStream cfg ((Segment.line (36 :: h :: (body ++ [10]))).onPort ++ r) =
        ((segEvents now cfg (.line (36 :: h :: (body ++ [10])))).headD .skip, r) := by
      simp only [Segment.onPort, List.map_cons, List.cons_append, stepX, read_inl]
      rw [if_neg (by simp), if_pos (show (36 :: ([] ++ [h]) : Bytes) ∈ NMEA_HDR from (hdr_iff h).2 hh)]
      simp only [readLineX]
      have : faultStream.readline = faultReadline := rfl
      rw [this, faultReadline_lf body r hl]
      simp only
      rw [if_neg (by simp), if_neg (by simp)]
      simp only
      have e : (36 :: ([] ++ [h] ++ (body ++ [10])) : Bytes) = 36 :: h :: (body ++ [10]) := by simp
      rw [e]
      simp only [segEvents]
      cases parse now (.bytes (36 :: h :: (body ++ [10]))) cfg.mode cfg.validate cfg.udefs <;> rfl
    have : segEvents now cfg (.line (36 :: h :: (body ++ [10]))) =
        [(segEvents now cfg (.line (36 :: h :: (body ++ [10])))).headD .skip] := by
      simp only [segEvents]
      cases parse now (.bytes (36 :: h :: (body ++ [10]))) cfg.mode cfg.validate cfg.udefs <;> rfl
    rw [this]
    exact .cons _ _ _ _ _ e1 (.nil _)
  | fault p x =>
    obtain ⟨q, hq, h, body, hh, hl, he⟩ := hp
    refine .cons _ _ _ _ _ ?_ (.nil _)
    simp only [Segment.onPort, List.append_assoc, List.cons_append, List.nil_append]
    match p with
    | [] => simp only [List.map_nil, List.nil_append, stepX, read_inr]
    | [a] =>
      have ha : a = 36 := by simp at he; exact he.1
      subst ha
      simp only [List.map_cons, List.map_nil, List.cons_append, List.nil_append, stepX, read_inl, read_inr]
      rw [if_neg (by simp)]
    | a :: b :: p =>
      simp only [List.cons_append, List.cons.injEq] at he
      obtain ⟨rfl, rfl, he⟩ := he
      have hlp : 10 ∉ p := by
        intro hm
        -- the LF is the last byte, and `q` is not empty
        have hq' : q = q.dropLast ++ [q.getLast hq] := (List.dropLast_concat_getLast hq).symm
        rw [hq', ← List.append_assoc] at he
        have := List.append_inj_left' he rfl
        rw [← this] at hl
        exact hl (List.mem_append_left _ hm)
      simp only [List.map_cons, List.cons_append, stepX, read_inl]
      rw [if_neg (by simp), if_pos (show (36 :: ([] ++ [b]) : Bytes) ∈ NMEA_HDR from (hdr_iff b).2 hh)]
      simp only [readLineX]
      have : faultStream.readline = faultReadline := rfl
      rw [this, faultReadline_cut p x r hlp]

theorem segs_passes (now : Nat → DateTime) (cfg : RCfg) (segs : List Segment) (hp : ∀ sg ∈ segs, sg.Proper)
    (r : FaultLine) : PassesX now faultStream cfg (segs.flatMap Segment.onPort ++ r) (segs.flatMap (segEvents now cfg)) r := by
  induction segs with
  | nil => exact .nil _
  | cons sg segs ih =>
    simp only [List.flatMap_cons, List.append_assoc]
    exact (seg_passes now cfg sg (hp sg (by simp)) _).append (ih (fun x hx => hp x (List.mem_cons_of_mem _ hx)))

theorem outs_caught (h : Handler) (hist : List Err) (x : Exc) (hx : x ≠ .py .eof) :
    outs 2 h hist [caught x] = [.raised x] := by
  cases x with
  | other n => rfl
  | py e => cases e <;> first | rfl | exact absurd rfl hx

theorem outs_segs (now : Nat → DateTime) (cfg : RCfg) (h : Handler) (segs : List Segment) :
    outs 2 h [] (segs.flatMap (segEvents now cfg)) = segs.filterMap (answerTo now cfg) := by
  have hn : ∀ evs, histAfter 2 [] evs = [] := fun _ => rfl
  induction segs with
  | nil => rfl
  | cons sg segs ih =>
    rw [List.flatMap_cons, outs_append, hn, ih, List.filterMap_cons]
    cases sg with
    | junk b =>
      have : outs 2 h [] (segEvents now cfg (.junk b)) = [] := by
        simp only [segEvents]
        induction b with
        | nil => rfl
        | cons x b ih => exact ih
      rw [this]; rfl
    | line raw =>
      simp only [segEvents, answerTo]
      cases hp : parse now (.bytes raw) cfg.mode cfg.validate cfg.udefs with
      | ok m => rfl
      | error e =>
        have : e ≠ .eof := by
          have := C13_exceptions _ _ _ _ _ _ hp
          rintro rfl; simp at this
        simp only
        rw [outs_caught _ _ _ (by simpa using this)]; rfl
    | fault p x =>
      simp only [segEvents, answerTo]
      by_cases hx : x = .py .eof
      · subst hx; rfl
      · rw [outs_caught _ _ _ hx, if_neg hx]; rfl

/-- A port that delivers junk, lines and exceptions in any order, exceptions between lines or inside
them. With errors raised, successive calls of `read()` answer each line and each exception exactly
once, in order, and then return `(None, None)`: an exception costs no line but the one it interrupts.
With policy 1 the library errors go to the handler, whether it raises or not; with another policy they
are dropped; the rest stays. -/
theorem C72_port (now : Nat → DateTime) (cfg : RCfg) (h : Handler) (hist : List Err) (segs : List Segment)
    (hp : ∀ sg ∈ segs, sg.Proper) :
    let rs := segs.filterMap (answerTo now cfg) ++ [.none]
    Calls now faultStream (withPolicy cfg 2) h [] (segs.flatMap Segment.onPort) rs [] [] ∧
    Calls now faultStream (withPolicy cfg 1) h hist (segs.flatMap Segment.onPort) (handled h hist rs)
      (hist ++ rs.filterMap libraryError?) [] ∧
    ∀ q, q ≠ 1 → q ≠ 2 → Calls now faultStream (withPolicy cfg q) h hist (segs.flatMap Segment.onPort)
      (rs.filter (fun r => (libraryError? r).isNone)) hist [] := by
  intro rs
  have h1 := (segs_passes now (withPolicy cfg 2) segs hp []).append
    (.cons [] .eof [] [] [] rfl (.nil _))
  rw [List.append_nil] at h1
  have hc := calls_of_passes h [] h1 (by intro ev hev; simp at hev; subst hev; exact .inl rfl)
  have e : outs 2 h [] (segs.flatMap (segEvents now (withPolicy cfg 2)) ++ [.eof]) = rs := by
    rw [outs_append, outs_segs]; rfl
  have hc : Calls now faultStream (withPolicy cfg 2) h [] (segs.flatMap Segment.onPort) rs [] [] := by
    rw [← e]; exact hc
  obtain ⟨g1, g2⟩ := C72_converse now faultStream cfg h hist _ _ _ .none rfl hc
  exact ⟨hc, g1, g2⟩

theorem handled_delivered (h : Handler) (hist : List Err) (rs : List XResult) :
    (handled h hist rs).filterMap itemOf = rs.filterMap itemOf := by
  induction rs generalizing hist with
  | nil => rfl
  | cons r rs ih =>
    simp only [handled]
    cases hr : libraryError? r with
    | none => simp only [List.filterMap_cons]; rw [ih]
    | some e =>
      have hd : itemOf r = none := by
        cases r with
        | raised x => rfl
        | item raw m => simp [libraryError?] at hr
        | none => rfl
      simp only [List.filterMap_cons, hd]
      cases h (hist ++ [e]) with
      | none => exact ih _
      | some x => rw [List.filterMap_cons]; exact ih _

/-- What is delivered does not depend on the policy, on what the handler does, or on exceptions that
occur between lines: exactly the acceptable lines, in order, each with its message. -/
theorem C72_nothing_lost (now : Nat → DateTime) (cfg : RCfg) (h : Handler) (hist : List Err) (segs : List Segment)
    (hp : ∀ sg ∈ segs, sg.Proper) :
    ∃ rs hist', Calls now faultStream cfg h hist (segs.flatMap Segment.onPort) (rs ++ [.none]) hist' [] ∧
      rs.filterMap itemOf = segs.filterMap (fun sg => match sg with
        | .line raw => (match parse now (.bytes raw) cfg.mode cfg.validate cfg.udefs with
          | .ok m => some (raw, m)
          | .error _ => none)
        | _ => none) := by
  have ha : (segs.filterMap (answerTo now cfg)).filterMap itemOf = segs.filterMap (fun sg => match sg with
        | .line raw => (match parse now (.bytes raw) cfg.mode cfg.validate cfg.udefs with
          | .ok m => some (raw, m)
          | .error _ => none)
        | _ => none) := by
    rw [List.filterMap_filterMap]
    congr 1
    funext sg
    cases sg with
    | junk b => rfl
    | line raw =>
      simp only [answerTo]
      cases parse now (.bytes raw) cfg.mode cfg.validate cfg.udefs <;> rfl
    | fault p x =>
      simp only [answerTo]
      split <;> rfl
  obtain ⟨c2, c1, c0⟩ := C72_port now cfg h hist segs hp
  by_cases h2 : cfg.quitonerror = 2
  · have e : withPolicy cfg 2 = cfg := by cases cfg; simp_all [withPolicy]
    rw [e] at c2
    -- with policy 2 the handler is never called
    refine ⟨segs.filterMap (answerTo now cfg), hist, ?_, ha⟩
    obtain ⟨evs, p1, p2, p3, p4⟩ := passes_of_calls c2
    have := calls_of_passes h hist p1 (by
      intro ev hev
      cases ev with
      | skip => exact absurd hev p2
      | err e => exact .inr ⟨h2, e, rfl⟩
      | _ => exact .inl rfl)
    have o : ∀ hist evs, outs 2 h hist evs = outs 2 h [] evs := by
      intro hist evs
      induction evs with
      | nil => rfl
      | cons ev evs ih => cases ev <;> simp [outs, ih]
    rw [h2] at this p3
    rw [o, p3] at this
    exact this
  · by_cases h1 : cfg.quitonerror = 1
    · have e : withPolicy cfg 1 = cfg := by cases cfg; simp_all [withPolicy]
      rw [e] at c1
      have happ : ∀ hist rs, handled h hist (rs ++ [.none]) = handled h hist rs ++ [.none] := by
        intro hist rs
        induction rs generalizing hist with
        | nil => rfl
        | cons r rs ih =>
          simp only [List.cons_append, handled]
          cases libraryError? r with
          | none => simp [ih]
          | some e => cases hh : h (hist ++ [e]) <;> simp [hh, ih]
      rw [happ] at c1
      exact ⟨_, _, c1, by rw [handled_delivered, ha]⟩
    · have e : withPolicy cfg cfg.quitonerror = cfg := by cases cfg; rfl
      have c := c0 cfg.quitonerror h1 h2
      rw [e, List.filter_append] at c
      refine ⟨_, _, c, ?_⟩
      rw [← ha, List.filterMap_filter]
      congr 1
      funext r
      cases r with
      | raised x => simp [itemOf]
      | item raw m => simp [itemOf, libraryError?]
      | none => simp [itemOf]

/-- Calls are determined by their number: the above speaks about all sequences of calls. -/
theorem C72_calls_unique {σ} (now : Nat → DateTime) (ops : XStream σ) (cfg : RCfg) (h : Handler) (hist h1 h2 : List Err)
    (s s1 s2 : σ) (a b : List XResult) (hl : a.length = b.length) (ha : Calls now ops cfg h hist s a h1 s1)
    (hb : Calls now ops cfg h hist s b h2 s2) : a = b ∧ h1 = h2 ∧ s1 = s2 := by
  induction ha generalizing b with
  | nil => cases hb with
    | nil => exact ⟨rfl, rfl, rfl⟩
    | cons => simp at hl
  | cons hist s r _ _ rs _ _ hr _ ih =>
    cases hb with
    | nil => simp at hl
    | cons _ _ _ _ _ _ _ _ h' hs =>
      rw [hr] at h'; cases h'
      obtain ⟨rfl, rfl, rfl⟩ := ih _ (by simpa using hl) hs
      exact ⟨rfl, rfl, rfl⟩

/-! ## A concrete case -/

/-- A GLL sentence; the same with a wrong checksum. -/
def okLine : Bytes := pb!"$GNGLL,5327.04319,S,00214.41396,E,223232.00,A,A*68\r\n"
def badLine : Bytes := pb!"$GNGLL,5327.04319,S,00214.41396,E,223232.00,A,A*69\r\n"

/-- Junk, a line, an `OSError` in the middle of the next line, a wrong line, an `EOFError`, a line. -/
def flaky : List Segment :=
  [.junk [10, 13, 200], .line okLine, .fault (okLine.take 20) (.other 7), .line badLine, .fault [] (.py .eof), .line okLine]

theorem okLine_complete : CompleteLine okLine :=
  ⟨71, (okLine.drop 2).dropLast, by decide +kernel, by decide +kernel, by decide +kernel⟩

theorem badLine_complete : CompleteLine badLine :=
  ⟨71, (badLine.drop 2).dropLast, by decide +kernel, by decide +kernel, by decide +kernel⟩

theorem flaky_proper : ∀ sg ∈ flaky, sg.Proper := by
  intro sg h
  simp only [flaky, List.mem_cons, List.not_mem_nil, or_false] at h
  rcases h with rfl | rfl | rfl | rfl | rfl | rfl
  · show (36 : UInt8) ∉ _; decide
  · exact okLine_complete
  · exact ⟨okLine.drop 20, by decide +kernel, by rw [List.take_append_drop]; exact okLine_complete⟩
  · exact badLine_complete
  · exact ⟨okLine, by decide +kernel, okLine_complete⟩
  · exact okLine_complete

def stdCfg (q : Nat) : RCfg := { mode := 0, validate := 1, nmeaonly := false, quitonerror := q, udefs := [] }

/-- A handler that gives up at its second error, with exception 99. -/
def impatient : Handler := fun hist => if hist.length < 2 then none else some (.other 99)

/-- The outcomes as data: raw bytes returned, `(None, None)`, or the exception. -/
def shown : XResult → Option (Bytes ⊕ Exc)
  | .item raw _ => some (.inl raw)
  | .none => none
  | .raised x => some (.inr x)

/-- With policy 2: the line, the `OSError`, the parse error, `(None, None)` for the `EOFError`, the
line after it, `(None, None)`. -/
theorem flaky_raise : (flaky.filterMap (answerTo clock0 (stdCfg 2)) ++ [XResult.none]).map shown =
    [some (.inl okLine), some (.inr (.other 7)), some (.inr (.py .nmeaParse)), none, some (.inl okLine), none] := by
  decide +kernel

example : ∃ rs, Calls clock0 faultStream (stdCfg 2) impatient [] (flaky.flatMap Segment.onPort) rs [] [] ∧
    rs.map shown = [some (.inl okLine), some (.inr (.other 7)), some (.inr (.py .nmeaParse)), none,
      some (.inl okLine), none] :=
  ⟨_, (C72_port clock0 (stdCfg 2) impatient [] flaky flaky_proper).1, flaky_raise⟩

/-- With policy 1 and a handler that raises at its second error (it had one before): its exception
replaces the parse error. -/
example : ∃ rs, Calls clock0 faultStream (stdCfg 1) impatient [.nmeaStream] (flaky.flatMap Segment.onPort) rs
      [.nmeaStream, .nmeaParse] [] ∧
    rs.map shown = [some (.inl okLine), some (.inr (.other 7)), some (.inr (.other 99)), none,
      some (.inl okLine), none] := by
  have h := (C72_port clock0 (stdCfg 1) impatient [.nmeaStream] flaky flaky_proper).2.1
  have e : [Err.nmeaStream] ++ (flaky.filterMap (answerTo clock0 (stdCfg 1)) ++ [XResult.none]).filterMap libraryError? =
      [.nmeaStream, .nmeaParse] := by decide +kernel
  rw [e] at h
  exact ⟨_, h, by decide +kernel⟩

example : ∃ rs2, Calls clock0 faultStream (stdCfg 2) impatient [] (flaky.flatMap Segment.onPort) rs2 [] [] ∧
    rs2.filterMap libraryError? = [.nmeaParse] := by
  have h := (C72_port clock0 (stdCfg 1) impatient [.nmeaStream] flaky flaky_proper).2.1
  obtain ⟨rs2, h1, _, h3⟩ := C72_handler clock0 faultStream (stdCfg 1) _ _ _ _ _ _ h
  refine ⟨rs2, h1, ?_⟩
  have := List.append_cancel_left h3
  rw [← this]
  decide +kernel

end Props
