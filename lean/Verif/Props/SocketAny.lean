import Verif.Spec.SocketAny
import Verif.Props.SocketFail
import Verif.Props.Checksum
import Verif.Props.Chunked
import Verif.Props.Reader
/-!
# C89: sockets, whatever the bytes
-/
namespace Props.SocketAny
open Py Nmea Spec Props.SocketFail

/-! ## A stream with lines that end in CR LF -/

/-- `readline` on what is received. -/
def crlfLine : Line → Bytes × Line
  | [] => ([], [])
  | none :: r => ([], r)
  | some b :: r => if b = 13 ∧ r.head? = some (some 10) then ([13, 10], r.tail) else
      let (l, r') := crlfLine r; (b :: l, r')

theorem crlfLine_len (s : Line) : (crlfLine s).2 = s ∨ (crlfLine s).2.length < s.length := by
  induction s with
  | nil => exact .inl rfl
  | cons x r ih =>
    right
    cases x with
    | none => simp [crlfLine]
    | some b =>
      simp only [crlfLine]
      split
      · simp only [List.length_tail, List.length_cons]; omega
      · rcases ih with h | h
        · simp [h]
        · simp only [List.length_cons]; omega

def crlfStream : StreamOps Line where
  read1 := serialRead1
  readline := crlfLine
  rel := measure List.length
  rel_trans a b c h1 h2 := Nat.lt_trans (m := b.length) h1 h2
  read1_len := serialStream.read1_len
  read1_dec := serialStream.read1_dec
  readline_dec s := crlfLine_len s

theorem hasCrLf_tail {c : UInt8} {b : Bytes} (h : HasCrLf b) : HasCrLf (c :: b) := by
  obtain ⟨x, y, rfl⟩ := h
  exact ⟨c :: x, y, rfl⟩

/-- A part without CR LF is passed over, if CR LF does not straddle its end. -/
theorem crlfLine_pre (d : Bytes) (w : Line) (h : ¬ HasCrLf d) (hs : d.getLast? = some 13 → w.head? ≠ some (some 10)) :
    crlfLine (d.map some ++ w) = (d ++ (crlfLine w).1, (crlfLine w).2) := by
  induction d with
  | nil => rfl
  | cons c d ih =>
    simp only [List.map_cons, List.cons_append, crlfLine]
    have h' : ¬ HasCrLf d := fun x => h (hasCrLf_tail x)
    rw [if_neg]
    · rw [ih h']
      intro hl
      apply hs
      cases d with
      | nil => cases hl
      | cons e d => simpa using hl
    · rintro ⟨rfl, hh⟩
      cases d with
      | nil => exact hs rfl (by simpa using hh)
      | cons e d =>
        simp only [List.map_cons, List.cons_append, List.head?_cons, Option.some.injEq] at hh
        subst hh
        exact h ⟨[], d, rfl⟩

theorem crlfLine_lf (d : Bytes) (w : Line) (h : ¬ HasCrLf (d ++ [13])) :
    crlfLine ((d ++ [13, 10]).map some ++ w) = (d ++ [13, 10], w) := by
  have h' : ¬ HasCrLf d := by
    rintro ⟨x, y, rfl⟩
    exact h ⟨x, y ++ [13], by simp⟩
  have e : (d ++ [13, 10]).map some ++ w = d.map some ++ (some 13 :: some 10 :: w) := by simp
  rw [e, crlfLine_pre d _ h' (by simp)]
  simp [crlfLine]

theorem crlfLine_cut (d : Bytes) (w : Line) (h : ¬ HasCrLf d) : crlfLine (d.map some ++ none :: w) = (d, w) := by
  rw [crlfLine_pre d _ h (by simp)]
  simp [crlfLine]

theorem crlfLine_end (d : Bytes) (h : ¬ HasCrLf d) : crlfLine (d.map some) = (d, []) := by
  have := crlfLine_pre d [] h (by simp)
  simpa [crlfLine] using this

/-- The wrapper is read like this stream. -/
theorem sock_crlf (z : Zlib) (enc : Nat) (now : Nat → DateTime) (cfg : RCfg) (s : Sock) (w : Line) (hR : wire z enc s = w) :
    (step now (sockStream z enc) cfg s).1 = (step now crlfStream cfg w).1 ∧
      wire z enc (step now (sockStream z enc) cfg s).2 = (step now crlfStream cfg w).2 := by
  have hread : ∀ (s : Sock) (w : Line), wire z enc s = w →
      ((sockStream z enc).read1 s).1 = (serialStream.read1 w).1 ∧
        wire z enc ((sockStream z enc).read1 s).2 = (serialStream.read1 w).2 := by
    intro s w h
    have e := read_wire z enc 1 s
    rw [h, wireRead1] at e
    cases w with
    | nil => exact Prod.mk.inj e
    | cons x w => cases x <;> exact Prod.mk.inj e
  refine step_sim now _ crlfStream cfg (fun s w => wire z enc s = w) (fun s w => wire z enc s = w)
    (fun s w => wire z enc s = w) s w (hread s w hR).1 (hread s w hR).2 (fun _ => (hread s w hR).2)
    (fun s w h => ⟨(hread s w h).1, (hread s w h).2, fun _ => (hread s w h).2⟩) ?_
  intro s w h
  have hl := C31_readline z enc s
  show (s.readline z enc).1 = (crlfLine w).1 ∧ wire z enc (s.readline z enc).2 = (crlfLine w).2
  rcases C31_exhaustive z enc s with ⟨d, w', e, hn⟩ | ⟨d, w', e, hn⟩ | ⟨d, e, hn⟩
  · obtain ⟨l1, l2⟩ := hl.1 d w' e hn
    rw [l1, l2, ← h, e, crlfLine_lf d w' hn]
    exact ⟨rfl, rfl⟩
  · obtain ⟨l1, l2⟩ := hl.2.1 d w' e hn
    rw [l1, l2, ← h, e, crlfLine_cut d w' hn]
    exact ⟨rfl, rfl⟩
  · obtain ⟨l1, l2⟩ := hl.2.2 d e hn
    rw [l1, l2, ← h, e, crlfLine_end d hn]
    exact ⟨rfl, rfl⟩

theorem sock_polled (z : Zlib) (enc : Nat) (now : Nat → DateTime) (cfg : RCfg) (s : Sock) (es) (w : Line) :
    (∃ s', Polled now (sockStream z enc) cfg s es s' ∧ wire z enc s' = w) ↔ Polled now crlfStream cfg (wire z enc s) es w := by
  have key : ∀ es s', Polled now (sockStream z enc) cfg s es s' → Polled now crlfStream cfg (wire z enc s) es (wire z enc s') := by
    intro es s' h
    obtain ⟨t', h1, h2⟩ := polled_sim now _ crlfStream cfg (fun s w => wire z enc s = w)
      (fun s w h => sock_crlf z enc now cfg s w h) s s' _ rfl es h
    rwa [h2]
  constructor
  · rintro ⟨s', h, rfl⟩; exact key es s' h
  · intro h
    obtain ⟨es', s', h', hl⟩ := polled_exists now (sockStream z enc) cfg es.length s
    obtain ⟨rfl, rfl⟩ := polled_det h (key es' s' h') hl.symm
    exact ⟨s', h', rfl⟩

/-! ## One burst -/

theorem timeout_line {t r : Line} (h : AtTimeout t r) (body : Bytes) (hb : ¬ HasCrLf body) :
    crlfLine (body.map some ++ t) = (body, r) := by
  cases h with
  | timeout => exact crlfLine_cut body _ hb
  | done => rw [List.append_nil]; exact crlfLine_end body hb

theorem step_line (now : Nat → DateTime) (cfg : RCfg) (h : UInt8) (hh : TalkerLetter h) (body : Bytes) (w w' : Line)
    (hl : crlfLine w = (body, w')) (hb : body.getLast? = some 10) :
    step now crlfStream cfg (some 36 :: some h :: w) = (eventOf now cfg (.line (36 :: h :: body)), w') := by
  simp only [step, crlfStream, serialRead1]
  rw [if_neg (by simp), if_neg (by simp), if_neg (by simp), if_pos (show ([36] ++ [h] : Bytes) ∈ NMEA_HDR from (hdr_iff h).2 hh)]
  simp only [readLine]
  rw [hl]
  simp only
  rw [if_neg (by rintro rfl; cases hb), if_neg (by simp [hb])]
  simp only [eventOf]
  have e : ([36] ++ [h] ++ body : Bytes) = 36 :: h :: body := by simp
  rw [e]
  cases parse now (.bytes (36 :: h :: body)) cfg.mode cfg.validate cfg.udefs with
  | ok m => rfl
  | error e => cases e <;> rfl

theorem step_junk (now : Nat → DateTime) (cfg : RCfg) (b : UInt8) (hb : b ≠ 36) (w : Line) :
    step now crlfStream cfg (some b :: w) = (.skip, w) := by
  simp only [step, crlfStream, serialRead1]
  rw [if_neg (by simp), if_pos (by simpa using hb)]

theorem step_foreign (now : Nat → DateTime) (cfg : RCfg) (h : UInt8) (hh : ¬ TalkerLetter h) (w : Line) :
    step now crlfStream cfg (some 36 :: some h :: w) = (eventOf now cfg (.foreign h), w) := by
  simp only [step, crlfStream, serialRead1]
  rw [if_neg (by simp), if_neg (by simp), if_neg (by simp), if_neg (by
    intro hm; exact hh ((hdr_iff h).1 hm))]
  simp only [eventOf]
  split <;> rfl

theorem socket_burst (now : Nat → DateTime) (cfg : RCfg) (t r' : Line) (ht : AtTimeout t r') (b : Bytes) (ps : List Piece) (i : Bool)
    (h : SocketPieces b ps i) :
    Passes now crlfStream cfg (b.map some ++ t) (ps.map (eventOf now cfg) ++ (if i then [] else [.eof])) r' := by
  induction h with
  | nil =>
    refine .cons _ _ r' _ _ ?_ (.nil _)
    simp only [step, crlfStream, List.map_nil, List.nil_append, ht.read1]
    rfl
  | junk b r ps i hb _ ih => exact .cons _ _ _ _ _ (step_junk now cfg b hb _) ih
  | foreign h r ps i hh _ ih => exact .cons _ _ _ _ _ (step_foreign now cfg h hh _) ih
  | line h body r ps i hh hl _ ih =>
    refine .cons _ _ (r.map some ++ t) _ _ ?_ ih
    have e0 : (36 :: h :: (body ++ [13, 10] ++ r)).map some ++ t
      = some 36 :: some h :: ((body ++ [13, 10]).map some ++ (r.map some ++ t)) := by simp
    rw [e0]
    exact step_line now cfg h hh _ _ _ (crlfLine_lf body _ hl) (by simp)
  | dollar =>
    refine .cons _ _ r' _ _ ?_ (.nil _)
    simp only [step, crlfStream, List.map_cons, List.map_nil, List.cons_append, List.nil_append, serialRead1, ht.read1]
    rw [if_neg (by simp), if_neg (by simp), if_pos (by simp)]
  | letter h hh =>
    refine .cons _ _ r' _ _ ?_ (.nil _)
    simp only [step, crlfStream, List.map_cons, List.map_nil, List.cons_append, List.nil_append, serialRead1]
    rw [if_neg (by simp), if_neg (by simp), if_neg (by simp), if_pos ((hdr_iff h).2 hh)]
    have := timeout_line ht [] (by rintro ⟨x, y, e⟩; simp at e)
    simp only [List.map_nil, List.nil_append] at this
    simp only [readLine, this]
    rfl
  | lf h body hh hl =>
    exact .cons _ _ r' _ _ (step_line now cfg h hh _ _ _ (timeout_line ht _ hl) (by simp)) (.nil _)
  | cut h body hh hne hl hlast =>
    refine .cons _ _ r' _ _ ?_ (.nil _)
    simp only [step, crlfStream, List.map_cons, List.cons_append, List.nil_append, serialRead1]
    rw [if_neg (by simp), if_neg (by simp), if_neg (by simp), if_pos ((hdr_iff h).2 hh)]
    simp only [readLine, timeout_line ht body hl]
    rw [if_neg hne, if_pos hlast]
    rfl

/-! ## The pieces exist and are unique -/

theorem split_crlf (b : Bytes) : (¬ HasCrLf b) ∨ ∃ body r, ¬ HasCrLf (body ++ [13]) ∧ b = body ++ [13, 10] ++ r := by
  induction b with
  | nil => left; rintro ⟨x, y, e⟩; simp at e
  | cons c b ih =>
    by_cases hc : c = 13 ∧ b.head? = some 10
    · obtain ⟨rfl, hb⟩ := hc
      cases b with
      | nil => cases hb
      | cons d b =>
        simp only [List.head?_cons, Option.some.injEq] at hb
        subst hb
        refine .inr ⟨[], b, ?_, rfl⟩
        rintro ⟨x, y, e⟩
        have := congrArg List.length e
        simp at this
        omega
    · have nc : ∀ b', HasCrLf (c :: b') → b'.head? = b.head? → HasCrLf b' := by
        rintro b' ⟨x, y, e⟩ hb'
        cases x with
        | nil =>
          simp only [List.nil_append, List.cons.injEq] at e
          exact absurd ⟨e.1, by rw [← hb', e.2]; rfl⟩ hc
        | cons d x =>
          simp only [List.cons_append, List.cons.injEq] at e
          exact ⟨x, y, e.2⟩
      rcases ih with h | ⟨body, r, h, rfl⟩
      · exact .inl fun h' => h (nc b h' rfl)
      · refine .inr ⟨c :: body, r, fun h' => h (nc _ h' ?_), by simp⟩
        cases body <;> simp

theorem pieces_exist (b : Bytes) : ∃ ps i, SocketPieces b ps i := by
  induction hn : b.length using Nat.strongRecOn generalizing b with
  | _ n ih =>
    match b with
    | [] => exact ⟨[], _, .nil⟩
    | x :: r =>
      by_cases hx : x = 36
      · subst hx
        match r with
        | [] => exact ⟨[], _, .dollar⟩
        | h :: r =>
          by_cases hh : TalkerLetter h
          · rcases split_crlf r with hl | ⟨body, r', hl, rfl⟩
            · by_cases hr : r = []
              · subst hr; exact ⟨[], _, .letter h hh⟩
              · by_cases hlast : r.getLast? = some 10
                · obtain ⟨body, rfl⟩ : ∃ body, r = body ++ [10] := by
                    rw [List.getLast?_eq_some_iff] at hlast
                    exact hlast
                  exact ⟨_, _, .lf h body hh hl⟩
                · exact ⟨_, _, .cut h r hh hr hl hlast⟩
            · obtain ⟨ps, i, hp⟩ := ih r'.length (by simp at hn; omega) r' rfl
              exact ⟨_, _, .line h body r' ps i hh hl hp⟩
          · obtain ⟨ps, i, hp⟩ := ih r.length (by simp at hn; omega) r rfl
            exact ⟨_, _, .foreign h r ps i hh hp⟩
      · obtain ⟨ps, i, hp⟩ := ih r.length (by simp at hn; omega) r rfl
        exact ⟨_, _, .junk x r ps i hx hp⟩

theorem line_unique (a b c d : Bytes) (ha : ¬ HasCrLf (a ++ [13])) (hc : ¬ HasCrLf (c ++ [13]))
    (e : a ++ [13, 10] ++ b = c ++ [13, 10] ++ d) : a = c ∧ b = d := by
  have h1 := crlfLine_lf a (b.map some) ha
  have h2 := crlfLine_lf c (d.map some) hc
  rw [← List.map_append] at h1 h2
  rw [e, h2] at h1
  simp only [Prod.mk.injEq, List.append_cancel_right_eq] at h1
  exact ⟨h1.1.symm, (List.map_injective_iff.2 (Option.some_injective _) h1.2).symm⟩

theorem pieces_unique {b : Bytes} {p q : List Piece} {i j : Bool} (hp : SocketPieces b p i) (hq : SocketPieces b q j) :
    p = q ∧ i = j := by
  have has : ∀ a r : Bytes, HasCrLf (a ++ [13, 10] ++ r) := fun a r => ⟨a, r, by simp⟩
  induction hp generalizing q j with
  | nil => cases hq; exact ⟨rfl, rfl⟩
  | junk b r ps i hb _ ih =>
    cases hq with
    | junk _ _ _ _ _ h => obtain ⟨rfl, rfl⟩ := ih h; exact ⟨rfl, rfl⟩
    | _ => exact absurd rfl hb
  | foreign h r ps i hh _ ih =>
    generalize hz : 36 :: h :: r = z at hq
    cases hq with
    | nil => cases hz
    | junk _ _ _ _ hb => cases hz; exact absurd rfl hb
    | foreign _ _ _ _ _ h => cases hz; obtain ⟨rfl, rfl⟩ := ih h; exact ⟨rfl, rfl⟩
    | dollar => cases hz
    | line _ _ _ _ _ ht => cases hz; exact absurd ht hh
    | letter _ ht => cases hz; exact absurd ht hh
    | lf _ _ ht => cases hz; exact absurd ht hh
    | cut _ _ ht => cases hz; exact absurd ht hh
  | line h body r ps i hh hl _ ih =>
    generalize hz : 36 :: h :: (body ++ [13, 10] ++ r) = z at hq
    cases hq with
    | nil => cases hz
    | junk _ _ _ _ hb => cases hz; exact absurd rfl hb
    | foreign _ _ _ _ hn h => cases hz; exact absurd hh hn
    | dollar => cases hz
    | line h' body' r' ps' i' ht hl' hr' =>
      simp only [List.cons.injEq, true_and] at hz
      obtain ⟨rfl, hz⟩ := hz
      obtain ⟨rfl, rfl⟩ := line_unique _ _ _ _ hl hl' hz
      obtain ⟨rfl, rfl⟩ := ih hr'
      exact ⟨rfl, rfl⟩
    | letter _ ht =>
      have := congrArg List.length hz
      simp at this
    | lf _ body' ht hl' =>
      simp only [List.cons.injEq, true_and] at hz
      exact absurd (hz.2 ▸ has body r) hl'
    | cut _ body' ht _ hl' =>
      simp only [List.cons.injEq, true_and] at hz
      exact absurd (hz.2 ▸ has body r) hl'
  | dollar =>
    cases hq with
    | junk _ _ _ _ hb => exact absurd rfl hb
    | dollar => exact ⟨rfl, rfl⟩
  | letter h hh =>
    generalize hz : [36, h] = z at hq
    cases hq with
    | nil => cases hz
    | junk _ _ _ _ hb => cases hz; exact absurd rfl hb
    | foreign _ _ _ _ hn h => cases hz; exact absurd hh hn
    | dollar => cases hz
    | line h' body' r' ps' i' ht hl' hr' =>
      have := congrArg List.length hz
      simp at this
    | letter _ ht => exact ⟨rfl, rfl⟩
    | lf _ body' ht hl' =>
      have := congrArg List.length hz
      simp at this
    | cut _ body' ht hne hl' => cases hz; exact absurd rfl hne
  | lf h body hh hl =>
    generalize hz : 36 :: h :: (body ++ [10]) = z at hq
    cases hq with
    | nil => cases hz
    | junk _ _ _ _ hb => cases hz; exact absurd rfl hb
    | foreign _ _ _ _ hn h => cases hz; exact absurd hh hn
    | dollar => cases hz
    | line h' body' r' ps' i' ht hl' hr' =>
      simp only [List.cons.injEq, true_and] at hz
      exact absurd (hz.2 ▸ has body' r') hl
    | letter _ ht =>
      have := congrArg List.length hz
      simp at this
    | lf _ body' ht hl' =>
      simp only [List.cons.injEq, true_and, List.append_cancel_right_eq] at hz
      obtain ⟨rfl, rfl⟩ := hz
      exact ⟨rfl, rfl⟩
    | cut _ body' ht hne hl' hlast =>
      simp only [List.cons.injEq, true_and] at hz
      exact absurd (by rw [← hz.2]; simp) hlast
  | cut h body hh hne hl hlast =>
    generalize hz : 36 :: h :: body = z at hq
    cases hq with
    | nil => cases hz
    | junk _ _ _ _ hb => cases hz; exact absurd rfl hb
    | foreign _ _ _ _ hn h => cases hz; exact absurd hh hn
    | dollar => cases hz
    | line h' body' r' ps' i' ht hl' hr' =>
      simp only [List.cons.injEq, true_and] at hz
      exact absurd (hz.2 ▸ has body' r') hl
    | letter _ ht => cases hz; exact absurd rfl hne
    | lf _ body' ht hl' =>
      simp only [List.cons.injEq, true_and] at hz
      exact absurd (by rw [hz.2]; simp) hlast
    | cut _ body' ht hne hl' hlast => cases hz; exact ⟨rfl, rfl⟩

/-! ## All bursts -/

inductive Events (now : Nat → DateTime) (cfg : RCfg) : List Bytes → List Event → Prop
  | last (b ps i) : SocketPieces b ps i → Events now cfg [b] (ps.map (eventOf now cfg) ++ [.eof])
  | more (b ps i bs evs) : bs ≠ [] → SocketPieces b ps i → Events now cfg bs evs →
      Events now cfg (b :: bs) ((ps.map (eventOf now cfg) ++ (if i then [] else [.eof])) ++ evs)

theorem events_last {now : Nat → DateTime} {cfg : RCfg} {bs evs} (h : Events now cfg bs evs) : evs.getLast? = some .eof := by
  induction h with
  | last => simp
  | more b ps i bs evs _ _ _ ih => rw [List.getLast?_append, ih]; rfl

theorem events_passes {now : Nat → DateTime} {cfg : RCfg} {bs evs} (h : Events now cfg bs evs) :
    Passes now crlfStream cfg (withTimeouts bs) evs [] := by
  induction h with
  | last b ps i hp =>
    have := socket_burst now cfg [] [] .done b ps i hp
    rw [List.append_nil] at this
    cases i with
    | false => exact this
    | true =>
      simp only [if_true, List.append_nil] at this
      exact this.append (.cons _ _ _ _ _ rfl (.nil _))
  | more b ps i bs evs hne hp _ ih =>
    rw [withTimeouts_cons _ _ hne]
    exact (socket_burst now cfg _ _ (.timeout _) b ps i hp).append ih

theorem answers_events (now : Nat → DateTime) (cfg : RCfg) (bs : List Bytes) (rs : List ReadResult)
    (h : SocketAnswers now cfg bs rs) : ∃ evs, Events now cfg bs evs ∧ (polls 2 [] evs).map Prod.snd = rs := by
  induction h with
  | last b ps i hp =>
    refine ⟨_, .last b ps i hp, ?_⟩
    rw [polls2_append, List.map_append, polls2_pieces]; rfl
  | quiet b ps bs rs hne hp _ ih =>
    obtain ⟨evs, h1, h2⟩ := ih
    refine ⟨_, .more b ps false bs evs hne hp h1, ?_⟩
    rw [polls2_append, polls2_append, List.map_append, List.map_append, polls2_pieces, h2]
    simp [polls]
  | inLine b ps bs rs hne hp _ ih =>
    obtain ⟨evs, h1, h2⟩ := ih
    refine ⟨_, .more b ps true bs evs hne hp h1, ?_⟩
    rw [polls2_append, polls2_append, List.map_append, List.map_append, polls2_pieces, h2]
    simp [polls]

theorem answers_exist (now : Nat → DateTime) (cfg : RCfg) (bs : List Bytes) (hne : bs ≠ []) :
    ∃ rs, SocketAnswers now cfg bs rs := by
  induction bs with
  | nil => exact absurd rfl hne
  | cons b bs ih =>
    obtain ⟨ps, i, hp⟩ := pieces_exist b
    by_cases hbs : bs = []
    · subst hbs; exact ⟨_, .last b ps i hp⟩
    · obtain ⟨rs, hr⟩ := ih hbs
      cases i with
      | true => exact ⟨_, .inLine b ps bs rs hbs hp hr⟩
      | false => exact ⟨_, .quiet b ps bs rs hbs hp hr⟩

theorem answers_unique {now : Nat → DateTime} {cfg : RCfg} {bs rs rs'} (h : SocketAnswers now cfg bs rs)
    (h' : SocketAnswers now cfg bs rs') : rs = rs' := by
  induction h generalizing rs' with
  | last b ps i hp =>
    cases h' with
    | last _ ps' i' hp' => rw [(pieces_unique hp hp').1]
    | quiet _ _ _ _ hne => exact absurd rfl hne
    | inLine _ _ _ _ hne => exact absurd rfl hne
  | quiet b ps bs rs hne hp _ ih =>
    cases h' with
    | last => exact absurd rfl hne
    | quiet _ ps' _ rs' _ hp' h' => rw [(pieces_unique hp hp').1, ih h']
    | inLine _ ps' _ rs' _ hp' h' => cases (pieces_unique hp hp').2
  | inLine b ps bs rs hne hp _ ih =>
    cases h' with
    | last => exact absurd rfl hne
    | quiet _ ps' _ rs' _ hp' h' => cases (pieces_unique hp hp').2
    | inLine _ ps' _ rs' _ hp' h' => rw [(pieces_unique hp hp').1, ih h']

/-- Whatever the bytes a socket receives, and wherever it fails: successive calls of `read()` (errors raised, the caller goes
on) give exactly the answers of the specification, and the socket is then exhausted. -/
theorem C89_every_socket (z : Zlib) (enc : Nat) (now : Nat → DateTime) (cfg : RCfg) (hq : cfg.quitonerror = 2)
    (s : Sock) (bs : List Bytes) (hne : bs ≠ []) (hw : wire z enc s = withTimeouts bs) :
    ∃ rs, SocketAnswers now cfg bs rs ∧ (∀ rs', SocketAnswers now cfg bs rs' → rs' = rs) ∧
      ∃ es s', Polled now (sockStream z enc) cfg s es s' ∧ wire z enc s' = [] ∧ es.map Prod.snd = rs ∧
        ∀ x ∈ es, x.1 = [] := by
  obtain ⟨rs, hr⟩ := answers_exist now cfg bs hne
  obtain ⟨evs, h1, h2⟩ := answers_events now cfg bs rs hr
  have := polled_of_passes (events_passes h1) (.inr (events_last h1))
  rw [hq, ← hw] at this
  obtain ⟨s', h3, h4⟩ := (sock_polled z enc now cfg s _ _).2 this
  exact ⟨rs, hr, fun _ h => answers_unique h hr, _, s', h3, h4, h2, polls_log2 evs⟩

/-- Every socket is of this kind. -/
theorem C89_bursts (z : Zlib) (enc : Nat) (s : Sock) : ∃ bs, bs ≠ [] ∧ wire z enc s = withTimeouts bs := bursts_exist _

/-- With the other error policies the results are the same without the library errors; with policy 1 exactly these errors
are reported, each in its place. -/
theorem C89_policies (z : Zlib) (enc : Nat) (now : Nat → DateTime) (cfg : RCfg) (s : Sock) :
    ∃ e0 e1 e2 s0 s1 s2,
      Polled now (sockStream z enc) (withPolicy cfg 0) s e0 s0 ∧ wire z enc s0 = [] ∧
      Polled now (sockStream z enc) (withPolicy cfg 1) s e1 s1 ∧ wire z enc s1 = [] ∧
      Polled now (sockStream z enc) (withPolicy cfg 2) s e2 s2 ∧ wire z enc s2 = [] ∧
      e0.map Prod.snd = (e2.map Prod.snd).filter (fun r => !isLibraryError r) ∧
      e1.map Prod.snd = e0.map Prod.snd ∧ transcript e1 = e2.map Prod.snd := by
  obtain ⟨bs, hne, hw⟩ := C89_bursts z enc s
  obtain ⟨rs, hr⟩ := answers_exist now cfg bs hne
  obtain ⟨evs, h, -⟩ := answers_events now cfg bs rs hr
  have hp := events_passes h
  have hl := events_last h
  have hg := passes_good hp
  rw [← hw] at hp
  obtain ⟨s0, a0, b0⟩ := (sock_polled z enc now _ s _ _).2 (polled_of_passes (passes_policy hp 0) (.inr hl))
  obtain ⟨s1, a1, b1⟩ := (sock_polled z enc now _ s _ _).2 (polled_of_passes (passes_policy hp 1) (.inr hl))
  obtain ⟨s2, a2, b2⟩ := (sock_polled z enc now _ s _ _).2 (polled_of_passes (passes_policy hp 2) (.inr hl))
  refine ⟨_, _, _, s0, s1, s2, a0, b0, a1, b1, a2, b2, ?_, ?_, ?_⟩
  · exact polls_results 0 (by omega) evs hg []
  · exact (polls_results 1 (by omega) evs hg []).trans (polls_results 0 (by omega) evs hg []).symm
  · have := polls_transcript [] evs (.inr hl)
    simpa [withPolicy] using this

/-! ## Nothing is put together across a failure -/

theorem piece_infix {b : Bytes} {ps : List Piece} {i : Bool} (h : SocketPieces b ps i) (raw : Bytes) (hr : .line raw ∈ ps) :
    ∃ pre post, b = pre ++ raw ++ post := by
  induction h with
  | nil => cases hr
  | junk b r ps i _ _ ih =>
    obtain ⟨pre, post, e⟩ := ih (by simpa using hr)
    exact ⟨b :: pre, post, by rw [e]; simp⟩
  | foreign h r ps i _ _ ih =>
    obtain ⟨pre, post, e⟩ := ih (by simpa using hr)
    exact ⟨36 :: h :: pre, post, by rw [e]; simp⟩
  | line h body r ps i _ _ _ ih =>
    rcases List.mem_cons.1 hr with e | hr
    · cases e; exact ⟨[], r, by simp⟩
    · obtain ⟨pre, post, e⟩ := ih hr
      exact ⟨36 :: h :: (body ++ [13, 10] ++ pre), post, by rw [e]; simp⟩
  | dollar => cases hr
  | letter => cases hr
  | lf h body =>
    simp only [List.mem_singleton, Piece.line.injEq] at hr
    exact ⟨[], [], by simp [hr]⟩
  | cut => simp at hr

theorem events_item {now : Nat → DateTime} {cfg : RCfg} {bs evs} (h : Events now cfg bs evs) (raw m)
    (hm : Event.msg raw m ∈ evs) :
    ∃ b ∈ bs, ∃ pre post, b = pre ++ raw ++ post ∧ parse now (.bytes raw) cfg.mode cfg.validate cfg.udefs = .ok m := by
  have key : ∀ (b : Bytes) ps i, SocketPieces b ps i → Event.msg raw m ∈ ps.map (eventOf now cfg) →
      ∃ pre post, b = pre ++ raw ++ post ∧ parse now (.bytes raw) cfg.mode cfg.validate cfg.udefs = .ok m := by
    intro b ps i hp hr
    obtain ⟨p, hp1, hp2⟩ := List.mem_map.1 hr
    cases p with
    | junk => cases hp2
    | foreign => simp only [eventOf] at hp2; split at hp2 <;> cases hp2
    | cut => cases hp2
    | line r =>
      simp only [eventOf] at hp2
      split at hp2
      · rename_i hok
        simp only [Event.msg.injEq] at hp2
        obtain ⟨rfl, rfl⟩ := hp2
        obtain ⟨pre, post, e⟩ := piece_infix hp r hp1
        exact ⟨pre, post, e, hok⟩
      · split at hp2 <;> cases hp2
  induction h with
  | last b ps i hp => exact ⟨b, by simp, key b ps i hp (by simpa using hm)⟩
  | more b ps i bs evs hne hp _ ih =>
    rcases List.mem_append.1 hm with hm | hm
    · refine ⟨b, by simp, key b ps i hp ?_⟩
      rcases List.mem_append.1 hm with hm | hm
      · exact hm
      · cases i <;> simp at hm
    · obtain ⟨b', h1, h2⟩ := ih hm
      exact ⟨b', by simp [h1], h2⟩

theorem polls_item (q : Nat) (log0 : List Err) (evs : List Event) (log raw m)
    (h : (log, ReadResult.item raw m) ∈ polls q log0 evs) : Event.msg raw m ∈ evs := by
  induction evs generalizing log0 with
  | nil => cases h
  | cons ev evs ih =>
    cases ev with
    | skip => exact List.mem_cons_of_mem _ (ih _ h)
    | eof =>
      simp only [polls, List.mem_cons] at h
      rcases h with h | h
      · cases h
      · exact List.mem_cons_of_mem _ (ih _ h)
    | crash e =>
      simp only [polls, List.mem_cons] at h
      rcases h with h | h
      · cases h
      · exact List.mem_cons_of_mem _ (ih _ h)
    | msg r m' =>
      simp only [polls, List.mem_cons] at h
      rcases h with h | h
      · cases h; exact List.mem_cons_self
      · exact List.mem_cons_of_mem _ (ih _ h)
    | err e =>
      simp only [polls] at h
      split at h
      · simp only [List.mem_cons] at h
        rcases h with h | h
        · cases h
        · exact List.mem_cons_of_mem _ (ih _ h)
      · exact List.mem_cons_of_mem _ (ih _ h)

theorem empty_polled (now : Nat → DateTime) (cfg : RCfg) (n : Nat) :
    Polled now crlfStream cfg [] (List.replicate n ([], .none)) [] := by
  induction n with
  | zero => exact .nil _
  | succ n ih => exact .cons _ [] _ _ _ _ (by rw [readMsg_eq]; rfl) ih

/-- Whatever the bytes, the failures, the settings and the number of calls: every sentence returned was received between
two failures, and its message is what `parse` makes of it. -/
theorem C89_no_splice (z : Zlib) (enc : Nat) (now : Nat → DateTime) (cfg : RCfg) (s s' : Sock) (bs : List Bytes)
    (hne : bs ≠ []) (hw : wire z enc s = withTimeouts bs) (es) (h : Polled now (sockStream z enc) cfg s es s')
    (log raw m) (hm : (log, .item raw m) ∈ es) :
    ∃ b ∈ bs, ∃ pre post, b = pre ++ raw ++ post ∧ parse now (.bytes raw) cfg.mode cfg.validate cfg.udefs = .ok m := by
  have h := (sock_polled z enc now cfg s es _).1 ⟨s', h, rfl⟩
  rw [hw] at h
  obtain ⟨rs, hr⟩ := answers_exist now cfg bs hne
  obtain ⟨evs, hev, -⟩ := answers_events now cfg bs rs hr
  have hall := polled_of_passes (events_passes hev) (.inr (events_last hev))
  obtain ⟨s1, h1, -⟩ := polled_take (polled_append hall (empty_polled now cfg es.length)) es.length
  have hlen : es.length = (List.take es.length (polls cfg.quitonerror [] evs ++ List.replicate es.length ([], .none))).length := by
    rw [List.length_take, List.length_append, List.length_replicate]; omega
  obtain ⟨e, -⟩ := polled_det h h1 hlen
  rw [e] at hm
  rcases List.mem_append.1 (List.mem_of_mem_take hm) with h | h
  · exact events_item hev raw m (polls_item _ _ _ _ _ _ h)
  · cases List.eq_of_mem_replicate h

/-! ## Resynchronisation -/

theorem polled_to_item {σ} {now : Nat → DateTime} {ops : StreamOps σ} {cfg : RCfg} {s2 : σ} {raw m} (evs : List Event) :
    ∀ s, Passes now ops cfg s (evs ++ [.msg raw m]) s2 →
      ∃ es log, Polled now ops cfg s (es ++ [(log, .item raw m)]) s2 := by
  induction evs with
  | nil =>
    intro s h
    cases h with
    | cons _ _ s1 _ _ h h' =>
      cases h'
      exact ⟨[], [], .cons _ _ _ _ _ _ (by rw [readMsg_eq, h]) (.nil _)⟩
  | cons ev evs ih =>
    intro s h
    cases h with
    | cons _ _ s1 _ _ h h' =>
      obtain ⟨es, log, hp⟩ := ih s1 h'
      have skip : ∀ pre, readMsg now ops cfg s = ((readMsg now ops cfg s1).1, pre ++ (readMsg now ops cfg s1).2.1,
          (readMsg now ops cfg s1).2.2) → ∃ es log, Polled now ops cfg s (es ++ [(log, .item raw m)]) s2 := by
        intro pre hm
        cases es with
        | nil => exact ⟨[], _, polled_skip pre hp hm⟩
        | cons x es => exact ⟨_ :: es, log, polled_skip pre hp hm⟩
      cases ev with
      | eof => exact ⟨_ :: es, log, .cons _ _ _ _ _ _ (by rw [readMsg_eq, h]) hp⟩
      | msg r m' => exact ⟨_ :: es, log, .cons _ _ _ _ _ _ (by rw [readMsg_eq, h]) hp⟩
      | crash e => exact ⟨_ :: es, log, .cons _ _ _ _ _ _ (by rw [readMsg_eq, h]) hp⟩
      | skip => exact skip [] (by rw [readMsg_eq now ops cfg s, h]; rfl)
      | err e =>
        by_cases hq : cfg.quitonerror = 2
        · exact ⟨_ :: es, log, .cons _ _ _ _ _ _ (by rw [readMsg_eq, h]; simp only [if_pos hq]; rfl) hp⟩
        · refine skip (if cfg.quitonerror = 1 then [e] else []) ?_
          rw [readMsg_eq now ops cfg s, h]
          simp only [if_neg hq]
          split <;> rfl

/-- Data that end in CR LF are used up exactly, whatever follows. -/
theorem closed_passes (now : Nat → DateTime) (cfg : RCfg) (w : Line) (g : Bytes) (hg : g = [] ∨ ∃ a, g = a ++ [13, 10]) :
    ∃ evs, Passes now crlfStream cfg (g.map some ++ w) evs w := by
  induction hn : g.length using Nat.strongRecOn generalizing g with
  | _ n ih =>
    have tail : ∀ r : Bytes, r.length < n → ∀ c : Bytes, g = c ++ r → (r = [] ∨ r = [10] ∨ ∃ a, r = a ++ [13, 10]) := by
      intro r hr c e
      rcases hg with rfl | ⟨a, rfl⟩
      · simp at hn; omega
      · rcases List.append_eq_append_iff.1 e with ⟨d, rfl, e2⟩ | ⟨d, rfl, e2⟩
        · rcases d with _ | ⟨x, _ | ⟨y, d⟩⟩
          · right; right; exact ⟨[], by simpa using e2.symm⟩
          · simp only [List.cons_append, List.nil_append, List.cons.injEq] at e2
            right; left; exact e2.2.symm
          · simp only [List.cons_append, List.cons.injEq] at e2
            have := e2.2.2
            left
            have h2 := congrArg List.length this
            simp only [List.length_nil, List.length_append] at h2
            exact List.length_eq_zero_iff.1 (by omega)
        · right; right; exact ⟨d, e2⟩
    have lf1 : Passes now crlfStream cfg (([10] : Bytes).map some ++ w) [.skip] w :=
      .cons _ _ _ _ _ (step_junk now cfg 10 (by decide) w) (.nil _)
    have rest : ∀ r : Bytes, r.length < n → ∀ c : Bytes, g = c ++ r → ∃ evs, Passes now crlfStream cfg (r.map some ++ w) evs w := by
      intro r hr c e
      rcases tail r hr c e with rfl | rfl | ⟨a, rfl⟩
      · exact ⟨[], .nil _⟩
      · exact ⟨_, lf1⟩
      · exact ih _ hr _ (.inr ⟨a, rfl⟩) rfl
    match g with
    | [] => exact ⟨[], .nil _⟩
    | x :: r =>
      by_cases hx : x = 36
      · subst hx
        match r with
        | [] => rcases hg with h | ⟨a, h⟩
                · cases h
                · have := congrArg List.length h; simp at this
        | h :: r =>
          by_cases hh : TalkerLetter h
          · rcases split_crlf r with hl | ⟨body, r', hl, rfl⟩
            · exfalso
              rcases tail r (by simp at hn; omega) [36, h] rfl with e | e | ⟨a, e⟩
              · subst e
                rcases hg with h' | ⟨a, h'⟩
                · cases h'
                · have h2 := congrArg List.reverse h'
                  simp at h2
              · subst e
                rcases hg with h' | ⟨a, h'⟩
                · cases h'
                · have h2 := congrArg List.reverse h'
                  simp only [List.reverse_cons, List.reverse_nil, List.nil_append, List.cons_append, List.reverse_append,
                    List.cons.injEq, true_and] at h2
                  rw [h2.1] at hh
                  exact absurd hh (by decide +kernel)
              · subst e; exact hl ⟨a, [], by simp⟩
            · obtain ⟨evs, he⟩ := rest r' (by simp at hn; omega) (36 :: h :: (body ++ [13, 10])) (by simp)
              have e0 : (36 :: h :: (body ++ [13, 10] ++ r')).map some ++ w
                  = some 36 :: some h :: ((body ++ [13, 10]).map some ++ (r'.map some ++ w)) := by simp
              have hst := step_line now cfg h hh _ _ _ (crlfLine_lf body (r'.map some ++ w) hl) (by simp)
              rw [e0]
              exact ⟨_, .cons _ _ _ _ _ hst he⟩
          · obtain ⟨evs, he⟩ := rest r (by simp at hn; omega) [36, h] rfl
            exact ⟨_, .cons _ _ _ _ _ (step_foreign now cfg h hh _) he⟩
      · obtain ⟨evs, he⟩ := rest r (by simp at hn; omega) [x] rfl
        exact ⟨_, .cons _ _ _ _ _ (step_junk now cfg x hx _) he⟩

theorem junk_passes (now : Nat → DateTime) (cfg : RCfg) (w : Line) (j : Bytes) (hj : (36 : UInt8) ∉ j) :
    ∃ evs, Passes now crlfStream cfg (j.map some ++ w) evs w := by
  induction j with
  | nil => exact ⟨[], .nil _⟩
  | cons b j ih =>
    simp only [List.mem_cons, not_or] at hj
    obtain ⟨evs, he⟩ := ih hj.2
    exact ⟨_, .cons _ _ _ _ _ (step_junk now cfg b (Ne.symm hj.1) _) he⟩

/-- After any damaged data that end in CR LF (or are absent), possibly followed by bytes without `$`, the next acceptable
sentence is returned, whatever came before, whatever the policy; the socket is then right behind it. What follows (`w`) may
be anything. -/
theorem C89_resync (z : Zlib) (enc : Nat) (now : Nat → DateTime) (cfg : RCfg) (s : Sock) (g j body : Bytes) (h : UInt8)
    (w : Line) (m : Option Msg) (hw : wire z enc s = (g ++ j ++ 36 :: h :: (body ++ [13, 10])).map some ++ w)
    (hg : g = [] ∨ ∃ a, g = a ++ [13, 10]) (hj : (36 : UInt8) ∉ j) (hh : TalkerLetter h) (hb : ¬ HasCrLf (body ++ [13]))
    (hok : parse now (.bytes (36 :: h :: (body ++ [13, 10]))) cfg.mode cfg.validate cfg.udefs = .ok m) :
    ∃ es log s', Polled now (sockStream z enc) cfg s (es ++ [(log, .item (36 :: h :: (body ++ [13, 10])) m)]) s' ∧
      wire z enc s' = w := by
  have hs : Passes now crlfStream cfg ((36 :: h :: (body ++ [13, 10])).map some ++ w) [.msg (36 :: h :: (body ++ [13, 10])) m] w := by
    refine .cons _ _ _ _ _ ?_ (.nil _)
    have := step_line now cfg h hh _ _ _ (crlfLine_lf body w hb) (by simp)
    simp only [eventOf, hok] at this
    simpa using this
  obtain ⟨e2, h2⟩ := junk_passes now cfg ((36 :: h :: (body ++ [13, 10])).map some ++ w) j hj
  obtain ⟨e1, h1⟩ := closed_passes now cfg (j.map some ++ ((36 :: h :: (body ++ [13, 10])).map some ++ w)) g hg
  obtain ⟨es, log, hp⟩ := polled_to_item (e1 ++ e2) _ ((h1.append h2).append hs)
  have e : wire z enc s = g.map some ++ (j.map some ++ ((36 :: h :: (body ++ [13, 10])).map some ++ w)) := by
    rw [hw]; simp
  rw [← e] at hp
  obtain ⟨s', a, b⟩ := (sock_polled z enc now cfg s _ _).2 hp
  exact ⟨es, log, s', a, b⟩

/-! ## A sentence that ends in LF alone -/

theorem upper_mem10 (s : Str) (h : 10 ∈ s) : 10 ∈ upper s := by
  unfold upper
  rw [List.mem_flatMap]
  exact ⟨10, h, by decide +kernel⟩

theorem letter_not_frame (h : UInt8) (hh : TalkerLetter h) : ¬ FrameChar h.toNat ∧ h ≠ 42 := by
  have key : ∀ t ∈ NMEA_TALKERS, ∀ c ∈ t.head?, ¬ FrameChar c ∧ c ≠ 42 := by
    have : (NMEA_TALKERS.all fun t => t.head?.all fun c => c != 36 && c != 13 && c != 10 && c != 42) = true := by decide +kernel
    intro t ht c hc
    have h1 := List.all_eq_true.1 this t ht
    rw [Option.mem_def] at hc
    rw [hc] at h1
    simp only [Option.all_some, Bool.and_eq_true, bne_iff_ne] at h1
    exact ⟨by rintro (e | e | e) <;> simp_all, h1.2⟩
  obtain ⟨t, ht, e⟩ := hh
  obtain ⟨k1, k2⟩ := key t ht h.toNat (by rw [e]; rfl)
  exact ⟨k1, by rintro rfl; exact k2 rfl⟩

/-- Two sentences, the first of which ends in LF without CR, taken for one are rejected when checksums are validated. -/
theorem joined_rejected (now : Nat → DateTime) (mode : Int) (v : Nat) (u : UDefs) (hv : ValCksum v) (h h' : UInt8) (a k b : Bytes)
    (hh : TalkerLetter h) (hh' : TalkerLetter h') (ha : 42 ∉ a)
    (has : ∀ c ∈ a ++ k ++ b, c < 128) :
    parse now (.bytes (36 :: h :: (a ++ 42 :: k ++ [10]) ++ 36 :: h' :: (b ++ [13, 10]))) mode v u = .error .nmeaParse := by
  have l128 : ∀ h : UInt8, TalkerLetter h → h.toNat < 128 := by
    rintro h ⟨t, ht, e⟩
    have : (NMEA_TALKERS.all fun t => t.head?.all (· < 128)) = true := by decide +kernel
    have h1 := List.all_eq_true.1 this t ht
    rw [e] at h1
    simpa using h1
  have n128 : ∀ c ∈ a ++ k ++ b, c.toNat < 128 := fun c hc => UInt8.lt_iff_toNat_lt.1 (has c hc)
  let n := fun x : Bytes => x.map UInt8.toNat
  obtain ⟨c, post, e, hpost, hlast⟩ : ∃ c post : Str, n b = c ++ post ∧ (∀ x ∈ post, FrameChar x) ∧ ∀ x ∈ (h'.toNat :: c).getLast?, ¬ FrameChar x := by
    have gen : ∀ d : Str, ∃ c post : Str, d = c ++ post ∧ (∀ x ∈ post, FrameChar x) ∧ ∀ x ∈ (h'.toNat :: c).getLast?, ¬ FrameChar x := by
      intro d
      induction hd : d.length generalizing d with
      | zero =>
        rw [List.length_eq_zero_iff] at hd
        subst hd
        exact ⟨[], [], rfl, by simp, by simpa using (letter_not_frame h' hh').1⟩
      | succ m ih =>
        obtain ⟨d', x, rfl⟩ : ∃ d' x, d = d' ++ [x] := by
          rcases List.eq_nil_or_concat d with rfl | ⟨d', x, e⟩
          · cases hd
          · exact ⟨d', x, by simpa using e⟩
        by_cases hx : FrameChar x
        · obtain ⟨c, post, rfl, h1, h2⟩ := ih d' (by simpa using hd)
          exact ⟨c, post ++ [x], by simp, by simpa [or_imp, forall_and] using ⟨h1, hx⟩, h2⟩
        · refine ⟨d' ++ [x], [], by simp, by simp, ?_⟩
          rw [show h'.toNat :: (d' ++ [x]) = (h'.toNat :: d') ++ [x] by simp, List.getLast?_concat]
          simpa using hx
    exact gen _
  refine C03_wrong_checksum_rejected now _ mode v u (n (36 :: h :: (a ++ 42 :: k ++ [10]) ++ 36 :: h' :: (b ++ [13, 10])))
    (h.toNat :: n a) (n k ++ [10, 36, h'.toNat] ++ c) hv ?_ ⟨⟨[36], post ++ [13, 10], ?_, ?_, ?_, ?_, ?_⟩, ?_⟩ ?_
  · rw [textOf_iff]
    refine utf8DecodeN_ascii _ ?_
    intro x hx
    simp only [List.map_append, List.map_cons, List.mem_append, List.mem_cons, List.mem_map, List.map_nil, List.not_mem_nil,
      or_false] at hx
    have hl := l128 h hh
    have hl' := l128 h' hh'
    rcases hx with ((rfl | rfl | ((⟨y, hy, rfl⟩ | rfl | ⟨y, hy, rfl⟩) | rfl))) | (rfl | rfl | (⟨y, hy, rfl⟩ | rfl | rfl))
    · decide
    · exact hl
    · exact n128 y (by simp [hy])
    · decide
    · exact n128 y (by simp [hy])
    · decide
    · decide
    · exact hl'
    · exact n128 y (by simp [hy])
    · decide
    · decide
  · have e' : b.map UInt8.toNat = c ++ post := e
    simp [n, e']
  · simp [FrameChar]
  · intro x hx
    rcases List.mem_append.1 hx with hx | hx
    · exact hpost x hx
    · simp at hx; rcases hx with rfl | rfl <;> simp [FrameChar]
  · intro x hx
    simp at hx
    subst hx
    exact (letter_not_frame h hh).1
  · intro x hx
    refine hlast x ?_
    have e2 : h.toNat :: n a ++ py!"*" ++ (n k ++ [10, 36, h'.toNat] ++ c) = (h.toNat :: n a ++ py!"*" ++ n k ++ [10, 36]) ++ (h'.toNat :: c) := by
      simp
    rw [e2, List.getLast?_append] at hx
    cases hz : (h'.toNat :: c).getLast? with
    | none => simp at hz
    | some y => rw [hz] at hx; simpa using hx
  · simp only [List.mem_cons, n, List.mem_map, not_or]
    refine ⟨?_, ?_⟩
    · intro e
      exact (letter_not_frame h hh).2 (UInt8.toNat_inj.1 e.symm)
    · rintro ⟨x, hx, e⟩
      have : x = 42 := UInt8.toNat_inj.1 e
      exact ha (this ▸ hx)
  · intro e
    have h10 : 10 ∈ calcChecksum (h.toNat :: n a) := e ▸ upper_mem10 _ (by simp)
    have := (C01_checksum_is_hex_of_xor (h.toNat :: n a)).1 10 h10
    exact absurd this (by decide +kernel)

/-- On a socket, a sentence that ends in LF without CR is taken together with the sentence after it, and, when checksums are
validated, both are lost: one `NMEAParseError` is reported for the two. `wire` after it: right behind the second sentence.
(From a file or a serial line both sentences are returned: C23, C67.) -/
theorem C89_bare_lf (z : Zlib) (enc : Nat) (now : Nat → DateTime) (cfg : RCfg) (hq : cfg.quitonerror = 2) (hv : ValCksum cfg.validate)
    (s : Sock) (h h' : UInt8) (a k b : Bytes) (w : Line) (hh : TalkerLetter h) (hh' : TalkerLetter h') (ha : 42 ∉ a)
    (hn : ¬ HasCrLf (a ++ 42 :: k ++ 10 :: 36 :: h' :: (b ++ [13]))) (has : ∀ c ∈ a ++ k ++ b, c < 128)
    (hw : wire z enc s = ((36 :: h :: (a ++ 42 :: k ++ [10])) ++ (36 :: h' :: (b ++ [13, 10]))).map some ++ w) :
    ∃ s', Polled now (sockStream z enc) cfg s [([], .raised .nmeaParse)] s' ∧ wire z enc s' = w := by
  rw [sock_polled]
  have hst := step_line now cfg h hh _ _ _ (crlfLine_lf (a ++ 42 :: k ++ 10 :: 36 :: h' :: b) w (by simpa using hn))
    (by rw [List.getLast?_append]; rfl)
  have e : wire z enc s = some 36 :: some h :: ((a ++ 42 :: k ++ 10 :: 36 :: h' :: b ++ [13, 10]).map some ++ w) := by
    rw [hw]; simp
  have hj := joined_rejected now cfg.mode cfg.validate cfg.udefs hv h h' a k b hh hh' ha has
  rw [e]
  refine .cons _ _ w _ _ _ ?_ (.nil _)
  rw [readMsg_eq, hst]
  have e3 : (36 :: h :: (a ++ 42 :: k ++ 10 :: 36 :: h' :: b ++ [13, 10]) : Bytes)
      = 36 :: h :: (a ++ 42 :: k ++ [10]) ++ 36 :: h' :: (b ++ [13, 10]) := by simp
  rw [e3]
  simp only [eventOf, hj, if_pos hq]
  rfl

/-! ## Chunked transfer with failures -/

/-- The non-empty segments received. -/
def segments : List RecvEv → List Bytes
  | [] => []
  | .fail :: r => segments r
  | .data d :: r => if d = [] then segments r else d :: segments r

theorem segments_ne (script : List RecvEv) : ∀ d ∈ segments script, d ≠ [] := by
  induction script with
  | nil => simp [segments]
  | cons x r ih =>
    cases x with
    | fail => exact ih
    | data d =>
      simp only [segments]
      split
      · exact ih
      · rename_i h; simpa using ⟨h, ih⟩

theorem failures_aside (z : Zlib) (enc : Nat) (p : Bytes) (script : List RecvEv) :
    (deliveries z enc p script).filterMap id = (deliveries z enc p ((segments script).map .data)).filterMap id := by
  induction script generalizing p with
  | nil => rfl
  | cons x r ih =>
    cases x with
    | fail => simpa [deliveries, segments] using ih p
    | data d =>
      simp only [segments]
      by_cases hd : d = []
      · simpa [deliveries, hd] using ih p
      · simp only [deliveries, if_neg hd, List.map_cons]
        split <;> simp only [List.filterMap_append, ih]

theorem open_content (z : Zlib) (enc : Nat) (script : List RecvEv) :
    content z enc (Sock.open z enc script) = (deliveries z enc [] script).filterMap id := by
  unfold content wire Sock.open
  cases script with
  | nil => rfl
  | cons x r =>
    cases x with
    | fail => simp [Sock.recv, deliveries]
    | data d =>
      simp only [Sock.recv, deliveries]
      split
      · simp
      · simp only [Sock.accept]
        split <;> simp

theorem content_bursts (z : Zlib) (enc : Nat) (s : Sock) (bs : List Bytes) (hw : wire z enc s = withTimeouts bs) :
    content z enc s = bs.flatten := by
  unfold content
  rw [hw]
  clear hw
  induction bs with
  | nil => rfl
  | cons b bs ih =>
    cases bs with
    | nil => simp [withTimeouts]
    | cons c bs =>
      simp only [withTimeouts] at ih ⊢
      rw [List.filterMap_append, List.filterMap_cons_none rfl, ih]
      simp

/-- Chunked transfer (cut cleanly, see C34) with failures of the connection anywhere between the segments: the bytes that
arrive between the failures are, put together, still exactly the decoded data; `C89_every_socket` says what is read. -/
theorem C89_chunked (z : Zlib) (enc : Nat) (henc : encChunked enc = true) (cs : List Chunk) (e : Bytes) (script : List RecvEv)
    (hcs : ∀ c ∈ cs, c.Ok) (he : ChunkedEnd e) (hall : (segments script).flatten = chunked cs e)
    (hcut : ∀ k, CleanCut cs e ((segments script).take k).flatten) :
    ∃ bs, bs ≠ [] ∧ wire z enc (Sock.open z enc script) = withTimeouts bs ∧
      bs.flatten = cs.flatMap fun c => decompressChunk z enc c.data := by
  obtain ⟨bs, hne, hw⟩ := C89_bursts z enc (Sock.open z enc script)
  refine ⟨bs, hne, hw, ?_⟩
  rw [← content_bursts z enc _ bs hw, open_content, failures_aside,
    C34_clean_cuts z enc henc cs e _ hcs he (segments_ne script) hall hcut]
  simp

/-! ## Concrete cases -/

theorem noCrLf_of (b : Bytes) (h : (b.zip b.tail).all (fun p => ! (p.1 == 13 && p.2 == 10)) = true) : ¬ HasCrLf b := by
  rintro ⟨x, y, rfl⟩
  have : ((13, 10) : UInt8 × UInt8) ∈ (x ++ 13 :: 10 :: y).zip (x ++ 13 :: 10 :: y).tail := by
    clear h
    induction x with
    | nil => simp
    | cons c x ih =>
      cases x with
      | nil => simp
      | cons d x =>
        simp only [List.cons_append, List.tail_cons, List.zip_cons_cons, List.mem_cons] at ih ⊢
        exact .inr ih
  have := List.all_eq_true.1 h _ this
  simp at this

/-- `C89_bare_lf` on two sentences that would each be accepted, received in three segments with a failure after them. -/
example (z : Zlib) : ∃ s', Polled clock0 (sockStream z 0) ⟨0, 1, false, 2, []⟩
    (Sock.open z 0 [.data (pb!"$GNROT,1.5,"), .data (pb!"A*21\n$GNGLL,5327.04319,S,00214.41396,E,"),
      .data (pb!"223232.00,A,A*68\r\n"), .fail]) [([], .raised .nmeaParse)] s' ∧ wire z 0 s' = [none] :=
  C89_bare_lf z 0 clock0 ⟨0, 1, false, 2, []⟩ rfl (by decide +kernel) _ 71 71 (pb!"NROT,1.5,A") (pb!"21")
    (pb!"NGLL,5327.04319,S,00214.41396,E,223232.00,A,A*68") [none] (by decide +kernel) (by decide +kernel) (by decide)
    (noCrLf_of _ (by decide +kernel)) (by decide +kernel) (by rw [Props.SocketFail.C75_open z 0 rfl]; rfl)

/-- The reader finds the next sentence after data of every damaged kind, among them a line without CR. -/
example (z : Zlib) : ∃ m es log s', Polled clock0 (sockStream z 0) ⟨0, 1, false, 1, []⟩
    (Sock.open z 0 [.data (pb!"$GNROT,1.5,A*21\n$GNGLL,5327*00\r\n\rxyz"), .data (gll ++ [36]), .fail, .data gll])
      (es ++ [(log, .item gll (some m))]) s' ∧ wire z 0 s' = some 36 :: none :: gll.map some := by
  obtain ⟨m, hm⟩ := gll_ok
  refine ⟨m, ?_⟩
  obtain ⟨es, log, s', h1, h2⟩ := C89_resync z 0 clock0 ⟨0, 1, false, 1, []⟩
    (Sock.open z 0 [.data (pb!"$GNROT,1.5,A*21\n$GNGLL,5327*00\r\n\rxyz"), .data (gll ++ [36]), .fail, .data gll])
    (pb!"$GNROT,1.5,A*21\n$GNGLL,5327*00\r\n") (pb!"\rxyz") (pb!"NGLL,5327.04319,S,00214.41396,E,223232.00,A,A*68") 71
    (some 36 :: none :: gll.map some) (some m) (by rw [Props.SocketFail.C75_open z 0 rfl]; rfl) (.inr ⟨pb!"$GNROT,1.5,A*21\n$GNGLL,5327*00", rfl⟩)
    (by decide) (by decide +kernel) (noCrLf_of _ (by decide +kernel)) hm
  exact ⟨es, log, s', h1, h2⟩

/-- `C89_chunked`: two chunks in three segments, with failures before, between and after them (one of them an empty
`recv`). -/
example (z : Zlib) : ∃ bs, bs ≠ [] ∧ wire z 1 (Sock.open z 1 [.fail, .data (pb!"3\r\nab"), .fail, .data (pb!"c\r\n0A\r"), .data [],
    .data (pb!"\n0123456789\r\n"), .fail]) = withTimeouts bs ∧ bs.flatten = pb!"abc0123456789" := by
  have := C89_chunked z 1 rfl [chunkABC, chunkDE] [] [.fail, .data (pb!"3\r\nab"), .fail, .data (pb!"c\r\n0A\r"), .data [],
      .data (pb!"\n0123456789\r\n"), .fail]
    (by intro c hc; simp at hc; rcases hc with rfl | rfl; exact chunkABC_ok; exact chunkDE_ok) (.inl rfl) (by decide) (by
      intro k
      match k with
      | 0 => exact .inl ⟨[], chunkABC, [chunkDE], [], rfl, rfl, List.nil_prefix, by decide⟩
      | 1 => exact .inl ⟨[], chunkABC, [chunkDE], pb!"3\r\nab", rfl, by decide, ⟨pb!"c", by decide⟩, by decide⟩
      | 2 => exact .inl ⟨[chunkABC], chunkDE, [], pb!"0A\r", rfl, by decide, ⟨pb!"\n0123456789", by decide⟩, by decide⟩
      | k + 3 => exact .inr ⟨[], by simp [segments, chunkABC, chunkDE, Chunk.bytes], List.nil_prefix⟩)
  simpa [chunkABC, chunkDE, decompressChunk, encGzip, encCompress, encDeflate] using this

end Props.SocketAny
