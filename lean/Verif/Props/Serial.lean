import Verif.Spec.Serial
import Verif.Props.Reader
/-!
# Serial ports with timeouts (C67)
-/
namespace Props
open Py Nmea Spec

/-! ## Events of repeated calls -/

/-- Passes through the loop, including those that end a call with `(None, None)`. -/
inductive Passes {σ} (now : Nat → DateTime) (ops : StreamOps σ) (cfg : RCfg) : σ → List Event → σ → Prop
  | nil (s) : Passes now ops cfg s [] s
  | cons (s ev s1 evs s2) : step now ops cfg s = (ev, s1) → Passes now ops cfg s1 evs s2 →
      Passes now ops cfg s (ev :: evs) s2

theorem Passes.append {σ} {now : Nat → DateTime} {ops : StreamOps σ} {cfg : RCfg} {s1 s2 s3 : σ} {a b}
    (h : Passes now ops cfg s1 a s2) (h' : Passes now ops cfg s2 b s3) : Passes now ops cfg s1 (a ++ b) s3 := by
  induction h with
  | nil => exact h'
  | cons s ev s1 evs s2 hs _ ih => exact .cons _ _ _ _ _ hs (ih h')

/-- The entries of complete calls. -/
def polls (q : Nat) : List Err → List Event → List (List Err × ReadResult)
  | _, [] => []
  | log, .skip :: es => polls q log es
  | log, .eof :: es => (log, .none) :: polls q [] es
  | log, .msg raw m :: es => (log, .item raw m) :: polls q [] es
  | log, .crash e :: es => (log, .raised e) :: polls q [] es
  | log, .err e :: es =>
    if q = 2 then (log, .raised e) :: polls q [] es
    else polls q (if q = 1 then log ++ [e] else log) es

theorem polls_prepend (q : Nat) (pre log : List Err) (evs : List Event) (hl : evs.getLast? = some .eof) :
    ∃ l r rest, polls q log evs = (l, r) :: rest ∧ polls q (pre ++ log) evs = (pre ++ l, r) :: rest := by
  induction evs generalizing log with
  | nil => simp at hl
  | cons ev es ih =>
    have hl' : ev ≠ .eof → es.getLast? = some .eof := by
      intro hne
      cases es with
      | nil => simp at hl; exact absurd hl hne
      | cons x xs => simpa using hl
    cases ev with
    | skip => exact ih log (hl' (by simp))
    | eof => exact ⟨log, _, _, rfl, rfl⟩
    | msg raw m => exact ⟨log, _, _, rfl, rfl⟩
    | crash e => exact ⟨log, _, _, rfl, rfl⟩
    | err e =>
      simp only [polls]
      split
      · exact ⟨log, _, _, rfl, rfl⟩
      · split
        · have := ih (log ++ [e]) (hl' (by simp))
          rwa [← List.append_assoc] at this
        · exact ih log (hl' (by simp))

theorem polled_skip {σ} {now : Nat → DateTime} {ops : StreamOps σ} {cfg : RCfg} {s s' s'' : σ} (pre : List Err)
    {l r rest} (hs : Polled now ops cfg s' ((l, r) :: rest) s'')
    (h : readMsg now ops cfg s = ((readMsg now ops cfg s').1, pre ++ (readMsg now ops cfg s').2.1,
      (readMsg now ops cfg s').2.2)) : Polled now ops cfg s ((pre ++ l, r) :: rest) s'' := by
  cases hs with
  | cons _ s1 _ _ _ _ h' hrest => rw [h'] at h; exact .cons _ _ _ _ _ _ h hrest

theorem polled_of_passes {σ} {now : Nat → DateTime} {ops : StreamOps σ} {cfg : RCfg} {s s2 : σ} {evs : List Event}
    (h : Passes now ops cfg s evs s2) (hl : evs = [] ∨ evs.getLast? = some .eof) :
    Polled now ops cfg s (polls cfg.quitonerror [] evs) s2 := by
  induction h with
  | nil s => exact .nil s
  | cons s ev s1 evs s2 h _ ih =>
    have hl : (ev :: evs).getLast? = some .eof := by simpa using hl
    have hl2 : evs = [] ∨ evs.getLast? = some .eof := by
      cases evs with
      | nil => exact .inl rfl
      | cons x xs => right; simpa using hl
    have hl1 : ev ≠ .eof → evs.getLast? = some .eof := by
      intro hne
      rcases hl2 with rfl | h
      · simp at hl; exact absurd hl hne
      · exact h
    have ih := ih hl2
    cases ev with
    | eof => exact .cons s s1 s2 _ [] _ (by rw [readMsg_eq, h]) ih
    | skip =>
      obtain ⟨l, r, rest, e1, _⟩ := polls_prepend cfg.quitonerror [] [] evs (hl1 (by simp))
      simp only [polls]
      rw [e1] at ih ⊢
      exact polled_skip [] ih (by rw [readMsg_eq now ops cfg s, h]; rfl)
    | msg raw m => exact .cons s s1 s2 _ [] _ (by rw [readMsg_eq, h]) ih
    | crash e => exact .cons s s1 s2 _ [] _ (by rw [readMsg_eq, h]) ih
    | err e =>
      simp only [polls]
      split
      · rename_i hq
        exact .cons s s1 s2 _ [] _ (by rw [readMsg_eq, h]; simp [hq]) ih
      · rename_i hq
        obtain ⟨l, r, rest, e1, e2⟩ := polls_prepend cfg.quitonerror (if cfg.quitonerror = 1 then [e] else []) [] evs
          (hl1 (by simp))
        rw [e1] at ih
        have : (if cfg.quitonerror = 1 then [] ++ [e] else []) = (if cfg.quitonerror = 1 then [e] else []) ++ [] := by
          split <;> rfl
        rw [this, e2]
        refine polled_skip _ ih ?_
        rw [readMsg_eq now ops cfg s, h]
        simp only [if_neg hq]
        split <;> rfl

theorem polled_det {σ} {now : Nat → DateTime} {ops : StreamOps σ} {cfg : RCfg} {s a' b' : σ} {a b}
    (ha : Polled now ops cfg s a a') (hb : Polled now ops cfg s b b') (hl : a.length = b.length) : a = b ∧ a' = b' := by
  induction ha generalizing b with
  | nil => cases hb with
    | nil => exact ⟨rfl, rfl⟩
    | cons => simp at hl
  | cons s s1 s2 r log es h _ ih =>
    cases hb with
    | nil => simp at hl
    | cons _ _ _ _ _ _ h' hs =>
      rw [h] at h'; cases h'
      obtain ⟨rfl, rfl⟩ := ih hs (by simpa using hl)
      exact ⟨rfl, rfl⟩

/-! ## One burst -/

theorem serialLine_lf (body : Bytes) (r : Line) (h : 10 ∉ body) :
    serialLine ((body ++ [10]).map some ++ r) = (body ++ [10], r) := by
  induction body with
  | nil => rfl
  | cons b body ih =>
    simp only [List.mem_cons, not_or] at h
    have := ih h.2
    simp only [List.map_append, List.map_cons, List.cons_append, List.map_nil, serialLine] at this ⊢
    rw [if_neg (Ne.symm h.1), this]

theorem serialLine_cut (body : Bytes) (r : Line) (h : 10 ∉ body) :
    serialLine (body.map some ++ none :: r) = (body, r) := by
  induction body with
  | nil => rfl
  | cons b body ih =>
    simp only [List.mem_cons, not_or] at h
    simp only [List.map_cons, List.cons_append, serialLine]
    rw [if_neg (Ne.symm h.1), ih h.2]

theorem serialLine_end (body : Bytes) (h : 10 ∉ body) : serialLine (body.map some) = (body, []) := by
  induction body with
  | nil => rfl
  | cons b body ih =>
    simp only [List.mem_cons, not_or] at h
    simp only [List.map_cons, serialLine]
    rw [if_neg (Ne.symm h.1), ih h.2]

/-- The stream after a timeout at this point. -/
inductive AtTimeout : Line → Line → Prop
  | timeout (r) : AtTimeout (none :: r) r
  | done : AtTimeout [] []

theorem AtTimeout.read1 {t r : Line} (h : AtTimeout t r) : serialRead1 t = ([], r) := by cases h <;> rfl

theorem AtTimeout.line {t r : Line} (h : AtTimeout t r) (body : Bytes) (hb : 10 ∉ body) :
    serialLine (body.map some ++ t) = (body, r) := by
  cases h with
  | timeout => exact serialLine_cut body _ hb
  | done => rw [List.append_nil]; exact serialLine_end body hb

theorem serial_burst (now : Nat → DateTime) (cfg : RCfg) (t r' : Line) (ht : AtTimeout t r') (b : Bytes) (ps : List Piece)
    (h : Pieces b ps) :
    (EndsInLine ps → Passes now serialStream cfg (b.map some ++ t) (ps.map (eventOf now cfg)) r') ∧
    (¬ EndsInLine ps → Passes now serialStream cfg (b.map some ++ t) (ps.map (eventOf now cfg) ++ [.eof]) r') := by
  have key : ∀ (p : Piece) (ps : List Piece) (s s1 : Line), (∀ raw, p ≠ .cut raw) →
      step now serialStream cfg s = (eventOf now cfg p, s1) →
      ((EndsInLine ps → Passes now serialStream cfg s1 (ps.map (eventOf now cfg)) r') ∧
       (¬ EndsInLine ps → Passes now serialStream cfg s1 (ps.map (eventOf now cfg) ++ [.eof]) r')) →
      (EndsInLine (p :: ps) → Passes now serialStream cfg s ((p :: ps).map (eventOf now cfg)) r') ∧
      (¬ EndsInLine (p :: ps) → Passes now serialStream cfg s ((p :: ps).map (eventOf now cfg) ++ [.eof]) r') := by
    intro p ps s s1 hp hs hi
    have hiff : EndsInLine (p :: ps) ↔ EndsInLine ps := by
      constructor
      · rintro ⟨raw, hr⟩
        rcases List.mem_cons.1 hr with h | h
        · exact absurd h.symm (hp raw)
        · exact ⟨raw, h⟩
      · rintro ⟨raw, hr⟩; exact ⟨raw, List.mem_cons_of_mem _ hr⟩
    rw [hiff]
    exact ⟨fun h => .cons _ _ _ _ _ hs (hi.1 h), fun h => .cons _ _ _ _ _ hs (hi.2 h)⟩
  induction h with
  | nil =>
    refine ⟨?_, fun _ => ?_⟩
    · rintro ⟨raw, hr⟩; cases hr
    · refine .cons _ _ r' _ _ ?_ (.nil _)
      simp only [step, serialStream, List.map_nil, List.nil_append, ht.read1]
      rfl
  | junk b r ps hb _ ih =>
    refine key _ _ _ _ (by simp) ?_ ih
    simp only [step, serialStream, List.map_cons, List.cons_append, List.nil_append, serialRead1]
    rw [if_neg (by simp), if_pos (by simpa using hb)]
    rfl
  | foreign h r ps hh _ ih =>
    refine key _ _ _ _ (by simp) ?_ ih
    simp only [step, serialStream, List.map_cons, List.cons_append, List.nil_append, serialRead1]
    rw [if_neg (by simp), if_neg (by simp), if_neg (by simp), if_neg (by
      intro hm; exact hh ((hdr_iff h).1 hm))]
    simp only [eventOf]
    split <;> rfl
  | line h body r ps hh hl _ ih =>
    refine key _ _ _ _ (by simp) ?_ ih
    simp only [step, serialStream, List.map_cons, List.cons_append, List.nil_append, serialRead1]
    rw [if_neg (by simp), if_neg (by simp), if_neg (by simp), if_pos ((hdr_iff h).2 hh)]
    have hsl := serialLine_lf body (r.map some ++ t) hl
    have e0 : (body ++ 10 :: r).map some ++ t = (body ++ [10]).map some ++ (r.map some ++ t) := by simp
    simp only [readLine]
    rw [e0, hsl]
    simp only
    rw [if_neg (by simp), if_neg (by simp)]
    simp only [eventOf]
    cases parse now (.bytes (36 :: h :: (body ++ [10]))) cfg.mode cfg.validate cfg.udefs with
    | ok m => rfl
    | error e => cases e <;> rfl
  | dollar =>
    refine ⟨?_, fun _ => ?_⟩
    · rintro ⟨raw, hr⟩; cases hr
    · refine .cons _ _ r' _ _ ?_ (.nil _)
      simp only [step, serialStream, List.map_cons, List.map_nil, List.cons_append, List.nil_append, serialRead1, ht.read1]
      rw [if_neg (by simp), if_neg (by simp), if_pos (by simp)]
  | letter h hh =>
    refine ⟨?_, fun _ => ?_⟩
    · rintro ⟨raw, hr⟩; cases hr
    · refine .cons _ _ r' _ _ ?_ (.nil _)
      simp only [step, serialStream, List.map_cons, List.map_nil, List.cons_append, List.nil_append, serialRead1]
      rw [if_neg (by simp), if_neg (by simp), if_neg (by simp), if_pos ((hdr_iff h).2 hh)]
      have := ht.line [] (by simp)
      simp only [List.map_nil, List.nil_append] at this
      simp only [readLine, this]
      rfl
  | cut h body hh hne hl =>
    refine ⟨fun _ => ?_, fun hn => absurd ⟨_, List.mem_singleton.2 rfl⟩ hn⟩
    refine .cons _ _ r' _ _ ?_ (.nil _)
    simp only [step, serialStream, List.map_cons, List.cons_append, List.nil_append, serialRead1]
    rw [if_neg (by simp), if_neg (by simp), if_neg (by simp), if_pos ((hdr_iff h).2 hh)]
    simp only [readLine, ht.line body hl]
    rw [if_neg hne, if_pos]
    · rfl
    · intro e
      exact hl (List.mem_of_getLast? e)

/-! ## All bursts -/

theorem withTimeouts_cons (b : Bytes) (bs : List Bytes) (h : bs ≠ []) :
    withTimeouts (b :: bs) = b.map some ++ none :: withTimeouts bs := by
  cases bs with
  | nil => exact absurd rfl h
  | cons c cs => rfl

/-- Every history of a port consists of bursts. -/
theorem bursts_exist (t : Line) : ∃ bs, bs ≠ [] ∧ t = withTimeouts bs := by
  induction t with
  | nil => exact ⟨[[]], by simp, rfl⟩
  | cons x t ih =>
    obtain ⟨bs, hne, rfl⟩ := ih
    cases x with
    | none => exact ⟨[] :: bs, by simp, by rw [withTimeouts_cons _ _ hne]; rfl⟩
    | some b =>
      cases bs with
      | nil => exact absurd rfl hne
      | cons c cs =>
        refine ⟨(b :: c) :: cs, by simp, ?_⟩
        cases cs with
        | nil => rfl
        | cons d ds => rfl

/-- The events of a list of bursts. -/
inductive BurstEvents (now : Nat → DateTime) (cfg : RCfg) : List Bytes → List Event → Prop
  | last (b ps) : Pieces b ps → EndsInLine ps → BurstEvents now cfg [b] (ps.map (eventOf now cfg) ++ [.eof])
  | last' (b ps) : Pieces b ps → ¬ EndsInLine ps → BurstEvents now cfg [b] (ps.map (eventOf now cfg) ++ [.eof])
  | quiet (b ps bs evs) : bs ≠ [] → Pieces b ps → ¬ EndsInLine ps → BurstEvents now cfg bs evs →
      BurstEvents now cfg (b :: bs) ((ps.map (eventOf now cfg) ++ [.eof]) ++ evs)
  | inLine (b ps bs evs) : bs ≠ [] → Pieces b ps → EndsInLine ps → BurstEvents now cfg bs evs →
      BurstEvents now cfg (b :: bs) (ps.map (eventOf now cfg) ++ evs)

theorem burstEvents_last {now : Nat → DateTime} {cfg : RCfg} {bs evs} (h : BurstEvents now cfg bs evs) :
    evs.getLast? = some .eof := by
  induction h with
  | last => simp
  | last' => simp
  | quiet b ps bs evs _ _ _ _ ih => rw [List.getLast?_append, ih]; rfl
  | inLine b ps bs evs _ _ _ _ ih => rw [List.getLast?_append, ih]; rfl

theorem events_det {now : Nat → DateTime} {cfg : RCfg} {bs e e'} (h : BurstEvents now cfg bs e)
    (h' : BurstEvents now cfg bs e') : e = e' := by
  induction h generalizing e' with
  | last b ps hp =>
    cases h' with
    | last _ ps' hp' => rw [pieces_det hp hp']
    | last' _ ps' hp' => rw [pieces_det hp hp']
    | quiet _ _ _ _ hne => exact absurd rfl hne
    | inLine _ _ _ _ hne => exact absurd rfl hne
  | last' b ps hp =>
    cases h' with
    | last _ ps' hp' => rw [pieces_det hp hp']
    | last' _ ps' hp' => rw [pieces_det hp hp']
    | quiet _ _ _ _ hne => exact absurd rfl hne
    | inLine _ _ _ _ hne => exact absurd rfl hne
  | quiet b ps bs rs hne hp hc _ ih =>
    cases h' with
    | last => exact absurd rfl hne
    | last' => exact absurd rfl hne
    | quiet _ ps' _ rs' _ hp' _ h' => rw [pieces_det hp hp', ih h']
    | inLine _ ps' _ rs' _ hp' hc' h' => rw [pieces_det hp' hp] at hc'; exact absurd hc' hc
  | inLine b ps bs rs hne hp hc _ ih =>
    cases h' with
    | last => exact absurd rfl hne
    | last' => exact absurd rfl hne
    | quiet _ ps' _ rs' _ hp' hc' h' => rw [pieces_det hp' hp] at hc'; exact absurd hc hc'
    | inLine _ ps' _ rs' _ hp' _ h' => rw [pieces_det hp hp', ih h']

theorem burstEvents_passes {now : Nat → DateTime} {cfg : RCfg} {bs evs} (h : BurstEvents now cfg bs evs) :
    Passes now serialStream cfg (withTimeouts bs) evs [] := by
  induction h with
  | last b ps hp hc =>
    have := (serial_burst now cfg [] [] .done b ps hp).1 hc
    rw [List.append_nil] at this
    exact this.append (.cons _ _ _ _ _ rfl (.nil _))
  | last' b ps hp hc =>
    have := (serial_burst now cfg [] [] .done b ps hp).2 hc
    rwa [List.append_nil] at this
  | quiet b ps bs evs hne hp hc _ ih =>
    rw [withTimeouts_cons _ _ hne]
    exact ((serial_burst now cfg _ _ (.timeout _) b ps hp).2 hc).append ih
  | inLine b ps bs evs hne hp hc _ ih =>
    rw [withTimeouts_cons _ _ hne]
    exact ((serial_burst now cfg _ _ (.timeout _) b ps hp).1 hc).append ih

theorem polls2_append (a b : List Event) : polls 2 [] (a ++ b) = polls 2 [] a ++ polls 2 [] b := by
  induction a with
  | nil => rfl
  | cons ev a ih =>
    cases ev <;> simp [polls, ih]

theorem polls2_pieces (now : Nat → DateTime) (cfg : RCfg) (ps : List Piece) :
    (polls 2 [] (ps.map (eventOf now cfg))).map Prod.snd = ps.filterMap (reply now cfg) := by
  induction ps with
  | nil => rfl
  | cons p ps ih =>
    rw [List.map_cons, List.filterMap_cons]
    cases p with
    | junk b => exact ih
    | foreign h =>
      simp only [eventOf, reply]
      split
      · simp only [polls, if_pos, List.map_cons, ih]
      · exact ih
    | line raw =>
      simp only [eventOf, reply]
      cases parse now (.bytes raw) cfg.mode cfg.validate cfg.udefs with
      | ok m => simp only [polls, List.map_cons, ih]
      | error e =>
        simp only
        split <;> simp only [polls, if_pos, List.map_cons, ih]
    | cut raw => simp only [eventOf, reply, polls, if_pos, List.map_cons, ih]

theorem answers_events (now : Nat → DateTime) (cfg : RCfg) (bs : List Bytes) (rs : List ReadResult)
    (h : Answers now cfg bs rs) : ∃ evs, BurstEvents now cfg bs evs ∧ (polls 2 [] evs).map Prod.snd = rs := by
  induction h with
  | last b ps hp =>
    refine ⟨ps.map (eventOf now cfg) ++ [.eof], ?_, ?_⟩
    · by_cases hc : EndsInLine ps
      · exact .last b ps hp hc
      · exact .last' b ps hp hc
    · rw [polls2_append, List.map_append, polls2_pieces]; rfl
  | quiet b ps bs rs hne hp hc _ ih =>
    obtain ⟨evs, h1, h2⟩ := ih
    refine ⟨_, .quiet b ps bs evs hne hp hc h1, ?_⟩
    rw [polls2_append, polls2_append, List.map_append, List.map_append, polls2_pieces, h2]
    simp [polls]
  | inLine b ps bs rs hne hp hc _ ih =>
    obtain ⟨evs, h1, h2⟩ := ih
    refine ⟨_, .inLine b ps bs evs hne hp hc h1, ?_⟩
    rw [polls2_append, List.map_append, polls2_pieces, h2]

theorem answers_exist (now : Nat → DateTime) (cfg : RCfg) (bs : List Bytes) (hne : bs ≠ []) :
    ∃ rs, Answers now cfg bs rs := by
  induction bs with
  | nil => exact absurd rfl hne
  | cons b bs ih =>
    obtain ⟨ps, hp⟩ := pieces_exists b
    by_cases hbs : bs = []
    · subst hbs; exact ⟨_, .last b ps hp⟩
    · obtain ⟨rs, hr⟩ := ih hbs
      by_cases hc : EndsInLine ps
      · exact ⟨_, .inLine b ps bs rs hbs hp hc hr⟩
      · exact ⟨_, .quiet b ps bs rs hbs hp hc hr⟩

theorem answers_det {now : Nat → DateTime} {cfg : RCfg} {bs rs rs'} (h : Answers now cfg bs rs)
    (h' : Answers now cfg bs rs') : rs = rs' := by
  induction h generalizing rs' with
  | last b ps hp =>
    cases h' with
    | last _ ps' hp' => rw [pieces_det hp hp']
    | quiet _ _ _ _ hne => exact absurd rfl hne
    | inLine _ _ _ _ hne => exact absurd rfl hne
  | quiet b ps bs rs hne hp hc _ ih =>
    cases h' with
    | last => exact absurd rfl hne
    | quiet _ ps' _ rs' _ hp' _ h' => rw [pieces_det hp hp', ih h']
    | inLine _ ps' _ rs' _ hp' hc' h' => rw [pieces_det hp' hp] at hc'; exact absurd hc' hc
  | inLine b ps bs rs hne hp hc _ ih =>
    cases h' with
    | last => exact absurd rfl hne
    | quiet _ ps' _ rs' _ hp' hc' h' => rw [pieces_det hp' hp] at hc'; exact absurd hc hc'
    | inLine _ ps' _ rs' _ hp' _ h' => rw [pieces_det hp hp', ih h']

theorem polls_log2 (evs : List Event) : ∀ x ∈ polls 2 [] evs, x.1 = [] := by
  induction evs with
  | nil => intro x hx; simp [polls] at hx
  | cons ev es ih =>
    cases ev with
    | skip => exact ih
    | eof => intro x hx; simp only [polls, List.mem_cons] at hx; rcases hx with rfl | hx; rfl; exact ih x hx
    | msg raw m => intro x hx; simp only [polls, List.mem_cons] at hx; rcases hx with rfl | hx; rfl; exact ih x hx
    | crash e => intro x hx; simp only [polls, List.mem_cons] at hx; rcases hx with rfl | hx; rfl; exact ih x hx
    | err e => intro x hx; simp only [polls, if_pos, List.mem_cons] at hx; rcases hx with rfl | hx; rfl; exact ih x hx

/-- Whatever a serial port delivers, in bursts separated by timeouts: successive calls of `read()`
(errors raised, the caller goes on) give exactly the answers of the specification, and the port is then
empty. -/
theorem C67_every_port (now : Nat → DateTime) (cfg : RCfg) (hq : cfg.quitonerror = 2) (bs : List Bytes) (hne : bs ≠ []) :
    ∃ rs, Answers now cfg bs rs ∧ (∀ rs', Answers now cfg bs rs' → rs' = rs) ∧
      ∃ es, Polled now serialStream cfg (withTimeouts bs) es [] ∧ es.map Prod.snd = rs ∧ ∀ x ∈ es, x.1 = [] := by
  obtain ⟨rs, hr⟩ := answers_exist now cfg bs hne
  refine ⟨rs, hr, fun _ h => answers_det h hr, ?_⟩
  obtain ⟨evs, h1, h2⟩ := answers_events now cfg bs rs hr
  have := polled_of_passes (burstEvents_passes h1) (.inr (burstEvents_last h1))
  rw [hq] at this
  exact ⟨_, this, h2, polls_log2 evs⟩

theorem events_exist (now : Nat → DateTime) (cfg : RCfg) (bs : List Bytes) (hne : bs ≠ []) :
    ∃ evs, BurstEvents now cfg bs evs := by
  obtain ⟨rs, hr⟩ := answers_exist now cfg bs hne
  obtain ⟨evs, h, -⟩ := answers_events now cfg bs rs hr
  exact ⟨evs, h⟩

theorem passes_policy {σ} {now : Nat → DateTime} {ops : StreamOps σ} {cfg : RCfg} {s s' : σ} {evs : List Event}
    (h : Passes now ops cfg s evs s') (q : Nat) : Passes now ops (withPolicy cfg q) s evs s' := by
  induction h with
  | nil s => exact .nil s
  | cons s ev s1 evs s2 h _ ih => exact .cons _ _ _ _ _ (by rw [step_policy]; exact h) ih

theorem passes_good {σ} {now : Nat → DateTime} {ops : StreamOps σ} {cfg : RCfg} {s s' : σ} {evs : List Event}
    (h : Passes now ops cfg s evs s') : goodEvents evs := by
  induction h with
  | nil s => intro ev hev; cases hev
  | cons s ev s1 evs s2 h _ ih =>
    intro x hx
    rcases List.mem_cons.1 hx with rfl | hx
    · exact ⟨fun e he => (step_errors now ops cfg s s1 e).1 (he ▸ h), fun e he => (step_errors now ops cfg s s1 e).2 (he ▸ h)⟩
    · exact ih x hx

theorem polls_results (q : Nat) (hq : q ≠ 2) (evs : List Event) (hg : goodEvents evs) (log : List Err) :
    (polls q log evs).map Prod.snd = ((polls 2 [] evs).map Prod.snd).filter (fun r => !isLibraryError r) := by
  induction evs generalizing log with
  | nil => simp [polls]
  | cons ev es ih =>
    have hg' : goodEvents es := fun x hx => hg x (by simp [hx])
    have hev := hg ev (by simp)
    cases ev with
    | skip => exact ih hg' log
    | eof => simp [polls, isLibraryError, ih hg' []]
    | msg raw m => simp [polls, isLibraryError, ih hg' []]
    | crash e => simp [polls, isLibraryError, ih hg' [], hev.2 e rfl]
    | err e => simp [polls, isLibraryError, hq, ih hg', hev.1 e rfl]

theorem polls_transcript (log : List Err) (evs : List Event) (hl : evs = [] ∧ log = [] ∨ evs.getLast? = some .eof) :
    transcript (polls 1 log evs) = log.map .raised ++ (polls 2 [] evs).map Prod.snd := by
  induction evs generalizing log with
  | nil =>
    rcases hl with ⟨-, rfl⟩ | h
    · rfl
    · simp at h
  | cons ev es ih =>
    have hl : (ev :: es).getLast? = some .eof := by rcases hl with ⟨h, -⟩ | h; cases h; exact h
    have h0 : es = [] ∧ ([] : List Err) = [] ∨ es.getLast? = some .eof := by
      cases es with
      | nil => exact .inl ⟨rfl, rfl⟩
      | cons x xs => right; simpa using hl
    have h1 : ev ≠ .eof → es.getLast? = some .eof := by
      intro hne
      rcases h0 with ⟨rfl, -⟩ | h
      · simp at hl; exact absurd hl hne
      · exact h
    cases ev with
    | skip => exact ih log (.inr (h1 (by simp)))
    | eof =>
      have := ih [] h0
      simp only [polls, transcript, List.flatMap_cons, List.map_nil, List.nil_append, List.map_cons] at this ⊢
      rw [this]; simp
    | msg raw m =>
      have := ih [] h0
      simp only [polls, transcript, List.flatMap_cons, List.map_nil, List.nil_append, List.map_cons] at this ⊢
      rw [this]; simp
    | crash e =>
      have := ih [] h0
      simp only [polls, transcript, List.flatMap_cons, List.map_nil, List.nil_append, List.map_cons] at this ⊢
      rw [this]; simp
    | err e =>
      simp only [polls, if_pos, if_neg (by decide : ¬ (1 = 2))]
      rw [ih _ (.inr (h1 (by simp)))]
      simp

/-- With the other error policies the port gives the same results without the library errors; policy 1
reports exactly these errors, each in its place; in all cases the calls empty the port. -/
theorem C67_policies (now : Nat → DateTime) (cfg : RCfg) (port : Line) :
    ∃ e0 e1 e2,
      Polled now serialStream (withPolicy cfg 0) port e0 [] ∧ Polled now serialStream (withPolicy cfg 1) port e1 [] ∧
      Polled now serialStream (withPolicy cfg 2) port e2 [] ∧
      e0.map Prod.snd = (e2.map Prod.snd).filter (fun r => !isLibraryError r) ∧
      e1.map Prod.snd = e0.map Prod.snd ∧ transcript e1 = e2.map Prod.snd := by
  obtain ⟨bs, hne, rfl⟩ := bursts_exist port
  obtain ⟨evs, h⟩ := events_exist now cfg bs hne
  have hp := burstEvents_passes h
  have hl := burstEvents_last h
  have hg := passes_good hp
  refine ⟨_, _, _, polled_of_passes (passes_policy hp 0) (.inr hl), polled_of_passes (passes_policy hp 1) (.inr hl),
    polled_of_passes (passes_policy hp 2) (.inr hl), ?_, ?_, ?_⟩
  · exact polls_results 0 (by omega) evs hg []
  · exact (polls_results 1 (by omega) evs hg []).trans (polls_results 0 (by omega) evs hg []).symm
  · have := polls_transcript [] evs (.inr hl)
    simpa [withPolicy] using this

/-! ## Consequences -/

theorem piece_infix {b : Bytes} {ps : List Piece} (h : Pieces b ps) (raw : Bytes) (hr : .line raw ∈ ps) :
    ∃ pre post, b = pre ++ raw ++ post := by
  induction h with
  | nil => cases hr
  | junk b r ps _ _ ih =>
    obtain ⟨pre, post, e⟩ := ih (by simpa using hr)
    exact ⟨b :: pre, post, by rw [e]; simp⟩
  | foreign h r ps _ _ ih =>
    obtain ⟨pre, post, e⟩ := ih (by simpa using hr)
    exact ⟨36 :: h :: pre, post, by rw [e]; simp⟩
  | line h body r ps _ _ _ ih =>
    rcases List.mem_cons.1 hr with e | hr
    · cases e; exact ⟨[], r, by simp⟩
    · obtain ⟨pre, post, e⟩ := ih hr
      exact ⟨36 :: h :: (body ++ 10 :: pre), post, by rw [e]; simp⟩
  | dollar => cases hr
  | letter => cases hr
  | cut => simp at hr

theorem answers_item {now : Nat → DateTime} {cfg : RCfg} {bs rs} (h : Answers now cfg bs rs) (raw m)
    (hm : ReadResult.item raw m ∈ rs) :
    ∃ b ∈ bs, ∃ pre post, b = pre ++ raw ++ post ∧ parse now (.bytes raw) cfg.mode cfg.validate cfg.udefs = .ok m := by
  have key : ∀ (b : Bytes) ps, Pieces b ps → ReadResult.item raw m ∈ ps.filterMap (reply now cfg) →
      ∃ pre post, b = pre ++ raw ++ post ∧ parse now (.bytes raw) cfg.mode cfg.validate cfg.udefs = .ok m := by
    intro b ps hp hr
    obtain ⟨p, hp1, hp2⟩ := List.mem_filterMap.1 hr
    cases p with
    | junk => cases hp2
    | foreign => simp only [reply] at hp2; split at hp2 <;> simp at hp2
    | cut => simp [reply] at hp2
    | line r =>
      simp only [reply] at hp2
      split at hp2
      · rename_i hok
        simp only [Option.some.injEq, ReadResult.item.injEq] at hp2
        obtain ⟨rfl, rfl⟩ := hp2
        obtain ⟨pre, post, e⟩ := piece_infix hp r hp1
        exact ⟨pre, post, e, hok⟩
      · simp at hp2
  induction h with
  | last b ps hp =>
    refine ⟨b, by simp, key b ps hp (by simpa using hm)⟩
  | quiet b ps bs rs _ hp _ _ ih =>
    simp only [List.mem_append, List.mem_cons, reduceCtorEq, false_or] at hm
    rcases hm with hm | hm
    · exact ⟨b, by simp, key b ps hp hm⟩
    · obtain ⟨b', h1, h2⟩ := ih hm
      exact ⟨b', by simp [h1], h2⟩
  | inLine b ps bs rs _ hp _ _ ih =>
    simp only [List.mem_append] at hm
    rcases hm with hm | hm
    · exact ⟨b, by simp, key b ps hp hm⟩
    · obtain ⟨b', h1, h2⟩ := ih hm
      exact ⟨b', by simp [h1], h2⟩

theorem polled_take {σ} {now : Nat → DateTime} {ops : StreamOps σ} {cfg : RCfg} {s s' : σ} {es}
    (h : Polled now ops cfg s es s') (n : Nat) : ∃ s1, Polled now ops cfg s (es.take n) s1 ∧ Polled now ops cfg s1 (es.drop n) s' := by
  induction h generalizing n with
  | nil s => exact ⟨s, by simpa using .nil s, by simpa using .nil s⟩
  | cons s s1 s2 r log es h hr ih =>
    cases n with
    | zero => exact ⟨s, .nil s, .cons _ _ _ _ _ _ h hr⟩
    | succ n =>
      obtain ⟨x, h1, h2⟩ := ih n
      exact ⟨x, .cons _ _ _ _ _ _ h h1, h2⟩

theorem polled_append {σ} {now : Nat → DateTime} {ops : StreamOps σ} {cfg : RCfg} {s s' s'' : σ} {es es'}
    (h : Polled now ops cfg s es s') (h' : Polled now ops cfg s' es' s'') : Polled now ops cfg s (es ++ es') s'' := by
  induction h with
  | nil s => exact h'
  | cons s s1 s2 r log es h _ ih => exact .cons _ _ _ _ _ _ h (ih h')

theorem polled_empty (now : Nat → DateTime) (cfg : RCfg) (n : Nat) :
    Polled now serialStream cfg [] (List.replicate n ([], .none)) [] := by
  induction n with
  | zero => exact .nil _
  | succ n ih => exact .cons _ [] _ _ _ _ (by rw [readMsg_eq]; rfl) ih

/-- Nothing is ever put together across a timeout: whatever the settings and however often `read()` is
called, each sentence returned was received in one piece within one burst, and its message is what
`parse` makes of it. -/
theorem C67_no_splice (now : Nat → DateTime) (cfg : RCfg) (bs : List Bytes) (hne : bs ≠ []) (es port')
    (h : Polled now serialStream cfg (withTimeouts bs) es port') (log raw m) (hm : (log, .item raw m) ∈ es) :
    ∃ b ∈ bs, ∃ pre post, b = pre ++ raw ++ post ∧
      parse now (.bytes raw) cfg.mode cfg.validate cfg.udefs = .ok m := by
  obtain ⟨evs, hev⟩ := events_exist now cfg bs hne
  have hp := burstEvents_passes hev
  have hall := polled_of_passes hp (.inr (burstEvents_last hev))
  have hbig := polled_append hall (polled_empty now cfg es.length)
  obtain ⟨s1, h1, -⟩ := polled_take hbig es.length
  have hlen : es.length = (List.take es.length (polls cfg.quitonerror [] evs ++ List.replicate es.length ([], .none))).length := by
    rw [List.length_take, List.length_append, List.length_replicate]; omega
  obtain ⟨e, -⟩ := polled_det h h1 hlen
  rw [e] at hm
  have hm := List.mem_of_mem_take hm
  have hm : (log, ReadResult.item raw m) ∈ polls cfg.quitonerror [] evs := by
    rcases List.mem_append.1 hm with h | h
    · exact h
    · have := List.eq_of_mem_replicate h; cases this
  have hm2 : ReadResult.item raw m ∈ (polls 2 [] evs).map Prod.snd := by
    by_cases hq : cfg.quitonerror = 2
    · rw [hq] at hm; exact List.mem_map.2 ⟨_, hm, rfl⟩
    · have := polls_results cfg.quitonerror hq evs (passes_good hp) []
      have hx : ReadResult.item raw m ∈ (polls cfg.quitonerror [] evs).map Prod.snd := List.mem_map.2 ⟨_, hm, rfl⟩
      rw [this] at hx
      exact (List.mem_filter.1 hx).1
  obtain ⟨rs, hr⟩ := answers_exist now cfg bs hne
  obtain ⟨evs', h1, h2⟩ := answers_events now cfg bs rs hr
  have hd : polls 2 [] evs = polls 2 [] evs' := by
    rw [events_det hev h1]
  rw [hd, h2] at hm2
  exact answers_item hr raw m hm2

theorem closed_no_cut {g : Bytes} {ps : List Piece} (h : Closed g ps) : ¬ EndsInLine ps := by
  rintro ⟨raw, hr⟩
  induction h with
  | nil => cases hr
  | junk _ _ _ _ _ ih => exact ih (by simpa using hr)
  | foreign _ _ _ _ _ ih => exact ih (by simpa using hr)
  | line _ _ _ _ _ _ _ ih => exact ih (by simpa using hr)

/-- A burst made of junk without `$` and acceptable lines. -/
theorem items_closed (items : List (Bytes × Bytes × Option Msg)) (tail : Bytes)
    (hjunk : ∀ x ∈ items, (36 : UInt8) ∉ x.1) (htail : (36 : UInt8) ∉ tail) (hline : ∀ x ∈ items, CompleteLine x.2.1) :
    Closed (items.flatMap (fun x => x.1 ++ x.2.1) ++ tail)
      (items.flatMap (fun x : Bytes × Bytes × Option Msg => x.1.map Piece.junk ++ [Piece.line x.2.1]) ++ tail.map Piece.junk) := by
  induction items with
  | nil => exact closed_junk tail htail
  | cons x xs ih =>
    have ih := ih (fun y hy => hjunk y (by simp [hy])) (fun y hy => hline y (by simp [hy]))
    have h1 := closed_junk x.1 (hjunk x (by simp))
    have h2 := closed_line x.2.1 (hline x (by simp))
    have := closed_concat (closed_concat h1 h2) ih
    simpa using this

theorem polls_append_eof (q : Nat) (log : List Err) (a b : List Event) :
    polls q log ((a ++ [.eof]) ++ b) = polls q log (a ++ [.eof]) ++ polls q [] b := by
  induction a generalizing log with
  | nil => rfl
  | cons ev a ih =>
    cases ev with
    | err e => simp only [List.cons_append, polls]; split <;> rw [ih]; rfl
    | skip => exact ih log
    | _ => simp only [List.cons_append, polls]; rw [ih]

theorem polls_items (q : Nat) (items : List (Bytes × Bytes × Option Msg)) (tail : Bytes) (now : Nat → DateTime) (cfg : RCfg)
    (hok : ∀ x ∈ items, parse now (.bytes x.2.1) cfg.mode cfg.validate cfg.udefs = .ok x.2.2) :
    polls q [] ((items.flatMap (fun x : Bytes × Bytes × Option Msg => x.1.map Piece.junk ++ [Piece.line x.2.1]) ++
      tail.map Piece.junk).map (eventOf now cfg) ++ [.eof]) =
      items.map (fun x => ([], ReadResult.item x.2.1 x.2.2)) ++ [([], .none)] := by
  have hj : ∀ (j : Bytes) (evs : List Event), polls q [] ((j.map Piece.junk).map (eventOf now cfg) ++ evs) = polls q [] evs := by
    intro j evs
    induction j with
    | nil => rfl
    | cons b j ih => exact ih
  induction items with
  | nil => exact hj tail _
  | cons x xs ih =>
    have ih := ih (fun y hy => hok y (by simp [hy]))
    have hx := hok x (by simp)
    simp only [List.flatMap_cons, List.append_assoc, List.map_append] at ih ⊢
    rw [hj]
    simp only [List.map_cons, List.map_nil, List.cons_append, List.nil_append, eventOf, hx, polls]
    rw [ih]

/-- Timeouts between sentences (or inside junk) lose nothing: if every burst consists of acceptable
sentences and bytes without `$`, then with every error policy successive calls of `read()` return the
sentences of the first burst in order, `(None, None)`, the sentences of the second burst, and so on. -/
theorem C67_between_sentences (now : Nat → DateTime) (cfg : RCfg)
    (bursts : List (List (Bytes × Bytes × Option Msg) × Bytes)) (hne : bursts ≠ [])
    (hjunk : ∀ b ∈ bursts, (36 : UInt8) ∉ b.2 ∧ ∀ x ∈ b.1, (36 : UInt8) ∉ x.1)
    (hline : ∀ b ∈ bursts, ∀ x ∈ b.1, CompleteLine x.2.1)
    (hok : ∀ b ∈ bursts, ∀ x ∈ b.1, parse now (.bytes x.2.1) cfg.mode cfg.validate cfg.udefs = .ok x.2.2) :
    Polled now serialStream cfg
      (withTimeouts (bursts.map fun b => b.1.flatMap (fun x => x.1 ++ x.2.1) ++ b.2))
      (bursts.flatMap fun b => b.1.map (fun x => ([], ReadResult.item x.2.1 x.2.2)) ++ [([], .none)]) [] := by
  have key : ∃ evs, BurstEvents now cfg (bursts.map fun b => b.1.flatMap (fun x => x.1 ++ x.2.1) ++ b.2) evs ∧
      polls cfg.quitonerror [] evs =
        bursts.flatMap fun b => b.1.map (fun x => ([], ReadResult.item x.2.1 x.2.2)) ++ [([], .none)] := by
    induction bursts with
    | nil => exact absurd rfl hne
    | cons b bs ih =>
      have hb := items_closed b.1 b.2 (hjunk b (by simp)).2 (hjunk b (by simp)).1 (hline b (by simp))
      have hp := polls_items cfg.quitonerror b.1 b.2 now cfg (hok b (by simp))
      by_cases hbs : bs = []
      · subst hbs
        exact ⟨_, .last' _ _ (closed_pieces hb) (closed_no_cut hb), by rw [hp]; simp⟩
      · obtain ⟨evs, h1, h2⟩ := ih hbs (fun x hx => hjunk x (by simp [hx])) (fun x hx => hline x (by simp [hx]))
          (fun x hx => hok x (by simp [hx]))
        refine ⟨_, .quiet _ _ _ _ (by simpa using hbs) (closed_pieces hb) (closed_no_cut hb) h1, ?_⟩
        rw [polls_append_eof, hp, h2]; rfl
  obtain ⟨evs, h1, h2⟩ := key
  rw [← h2]
  exact polled_of_passes (burstEvents_passes h1) (.inr (burstEvents_last h1))

theorem answers_junk (now : Nat → DateTime) (cfg : RCfg) (j rest : Bytes) (bs rs) (hj : (36 : UInt8) ∉ j)
    (h : Answers now cfg (rest :: bs) rs) : Answers now cfg ((j ++ rest) :: bs) rs := by
  have hc := closed_junk j hj
  have hf : ∀ ps, ((j.map Piece.junk) ++ ps).filterMap (reply now cfg) = ps.filterMap (reply now cfg) := by
    intro ps
    induction j with
    | nil => rfl
    | cons b j ih => exact ih (by simp at hj; exact hj.2) (closed_junk _ (by simp at hj; exact hj.2))
  have he : ∀ ps, EndsInLine ((j.map Piece.junk) ++ ps) ↔ EndsInLine ps := by
    intro ps
    constructor
    · rintro ⟨raw, hr⟩
      refine ⟨raw, ?_⟩
      simpa using hr
    · rintro ⟨raw, hr⟩
      exact ⟨raw, by simp [hr]⟩
  cases h with
  | last _ ps hp => rw [← hf]; exact .last _ _ (closed_append hc hp)
  | quiet _ ps _ rs hne hp hn h => rw [← hf]; exact .quiet _ _ _ _ hne (closed_append hc hp) (by rwa [he]) h
  | inLine _ ps _ rs hne hp hn h => rw [← hf]; exact .inLine _ _ _ _ hne (closed_append hc hp) (by rwa [he]) h

/-- A timeout inside a sentence loses that sentence and no other: if it comes after the first or second
byte the sentence disappears silently behind `(None, None)`; if it comes later `NMEAStreamError` is
raised; in both cases everything after the sentence is read as if it had begun there. -/
theorem C67_cut_sentence (now : Nat → DateTime) (cfg : RCfg) (x1 x2 rest : Bytes) (bs : List Bytes) (rs)
    (hx : CompleteLine (x1 ++ x2)) (h1 : x1 ≠ []) (h2 : x2 ≠ []) (hd : (36 : UInt8) ∉ x2)
    (hr : Answers now cfg (rest :: bs) rs) :
    Answers now cfg (x1 :: (x2 ++ rest) :: bs)
      ((if x1.length ≤ 2 then .none else .raised .nmeaStream) :: rs) := by
  have hj := answers_junk now cfg x2 rest bs rs hd hr
  obtain ⟨h, body, hh, hl, e⟩ := hx
  cases x1 with
  | nil => exact absurd rfl h1
  | cons a x1 =>
    simp only [List.cons_append, List.cons.injEq] at e
    obtain ⟨rfl, e⟩ := e
    cases x1 with
    | nil => exact .quiet _ [] _ _ (by simp) .dollar (by rintro ⟨_, h⟩; cases h) hj
    | cons b x1 =>
      simp only [List.cons_append, List.cons.injEq] at e
      obtain ⟨rfl, e⟩ := e
      cases x1 with
      | nil => exact .quiet _ [] _ _ (by simp) (.letter _ hh) (by rintro ⟨_, h⟩; cases h) hj
      | cons c x1 =>
        have hl' : (10 : UInt8) ∉ c :: x1 := by
          rcases List.eq_nil_or_concat x2 with rfl | ⟨y, z, rfl⟩
          · exact absurd rfl h2
          · rw [List.concat_eq_append, ← List.append_assoc] at e
            obtain ⟨e1, -⟩ := List.append_inj' e rfl
            rw [← e1] at hl
            intro hm
            exact hl (List.mem_append_left _ hm)
        have := Answers.inLine (now := now) (cfg := cfg) (36 :: b :: c :: x1) [.cut (36 :: b :: c :: x1)] _ _ (by simp)
          (.cut b (c :: x1) hh (by simp) hl') ⟨_, List.mem_singleton.2 rfl⟩ hj
        rw [if_neg (by simp)]
        exact this

/-- A sentence that arrives in two bursts, and one that follows. -/
example : ∃ m, Answers clock0 ⟨0, 1, false, 2, []⟩ [gll.take 20, gll.drop 20 ++ gll]
    [.raised .nmeaStream, .item gll (some m), .none] := by
  obtain ⟨m, hm⟩ := gll_ok
  refine ⟨m, ?_⟩
  have h := C67_cut_sentence clock0 ⟨0, 1, false, 2, []⟩ (gll.take 20) (gll.drop 20) gll [] [.item gll (some m), .none]
    (by rw [List.take_append_drop]; exact gll_line) (by decide) (by decide) (by decide)
    (by
      have := Answers.last (now := clock0) (cfg := ⟨0, 1, false, 2, []⟩) gll [.line gll] (closed_pieces (closed_line gll gll_line))
      simpa [reply, hm] using this)
  rwa [if_neg (by decide)] at h

/-- The first two bytes in one burst: the sentence disappears without an error. -/
example : ∃ m, Answers clock0 ⟨0, 1, false, 2, []⟩ [gll.take 2, gll.drop 2 ++ gll]
    [.none, .item gll (some m), .none] := by
  obtain ⟨m, hm⟩ := gll_ok
  refine ⟨m, ?_⟩
  have h := C67_cut_sentence clock0 ⟨0, 1, false, 2, []⟩ (gll.take 2) (gll.drop 2) gll [] [.item gll (some m), .none]
    (by rw [List.take_append_drop]; exact gll_line) (by decide) (by decide) (by decide)
    (by
      have := Answers.last (now := clock0) (cfg := ⟨0, 1, false, 2, []⟩) gll [.line gll] (closed_pieces (closed_line gll gll_line))
      simpa [reply, hm] using this)
  rwa [if_pos (by decide)] at h

/-- Two bursts of whole sentences meet the hypotheses of `C67_between_sentences`. -/
example : ∃ m, Polled clock0 serialStream ⟨0, 1, false, 1, []⟩ (withTimeouts [pb!"xx" ++ gll ++ pb!"yy", gll])
    [([], .item gll (some m)), ([], .none), ([], .item gll (some m)), ([], .none)] [] := by
  obtain ⟨m, hm⟩ := gll_ok
  refine ⟨m, ?_⟩
  have h := C67_between_sentences clock0 ⟨0, 1, false, 1, []⟩
    [([(pb!"xx", gll, some m)], pb!"yy"), ([([], gll, some m)], [])] (by simp)
    (by
      intro b hb
      simp only [List.mem_cons, List.not_mem_nil, or_false] at hb
      rcases hb with rfl | rfl <;>
        exact ⟨by simp, fun x hx => by simp only [List.mem_singleton] at hx; subst hx; simp⟩)
    (by
      intro b hb x hx
      simp only [List.mem_cons, List.not_mem_nil, or_false] at hb
      rcases hb with rfl | rfl <;> simp only [List.mem_singleton] at hx <;> subst hx <;> exact gll_line)
    (by
      intro b hb x hx
      simp only [List.mem_cons, List.not_mem_nil, or_false] at hb
      rcases hb with rfl | rfl <;> simp only [List.mem_singleton] at hx <;> subst hx <;> exact hm)
  simpa using h

end Props
