import Verif.Model.Growing
import Verif.Props.SocketFail
/-!
# C79: reading a file that is still being written
-/
namespace Props.Grow
open Py Nmea Spec

private def bytesIn (p : Line) : Bytes := p.filterMap id

private theorem bytesIn_some (b : Bytes) : bytesIn (b.map some) = b := by
  simp [bytesIn, List.filterMap_map]

private theorem bytesIn_append (p q : Line) : bytesIn (p ++ q) = bytesIn p ++ bytesIn q := by
  simp [bytesIn]

/-- An operation on the file looks like the same operation on a port that delivers `p` first. -/
private def Mimics {α} (f : Growing → α × Growing) (h : Line → α × Line) (g : Growing) : Prop :=
  ∃ p : Line, bytesIn p ++ (f g).2.everything = g.everything ∧ ∀ l, h (p ++ l) = ((f g).1, l)

private theorem mimics_read1 (g : Growing) : Mimics growingStream.read1 serialStream.read1 g := by
  have he := g.available_flatten
  cases ha : g.available with
  | nil =>
    refine ⟨[none], ?_, ?_⟩
    · rw [← he]; simp [growingStream, ha, bytesIn, Growing.everything]
    · intro l; simp [growingStream, ha, serialStream, serialRead1]
  | cons b r =>
    refine ⟨[some b], ?_, ?_⟩
    · rw [← he]; simp [growingStream, ha, bytesIn, Growing.everything]
    · intro l; simp [growingStream, ha, serialStream, serialRead1]

private theorem serialLine_lf (b : Bytes) (hb : 10 ∉ b) (l : Line) :
    serialLine (b.map some ++ some 10 :: l) = (b ++ [10], l) := by
  induction b with
  | nil => simp [serialLine]
  | cons x r ih =>
    simp only [List.mem_cons, not_or] at hb
    simp only [List.map_cons, List.cons_append, serialLine, if_neg (Ne.symm hb.1), ih hb.2]

private theorem serialLine_cut (b : Bytes) (hb : 10 ∉ b) (l : Line) :
    serialLine (b.map some ++ none :: l) = (b, l) := by
  induction b with
  | nil => simp [serialLine]
  | cons x r ih =>
    simp only [List.mem_cons, not_or] at hb
    simp only [List.map_cons, List.cons_append, serialLine, if_neg (Ne.symm hb.1), ih hb.2]

private theorem fileLine_cases (b : Bytes) :
    (∃ x, 10 ∉ x ∧ (fileLine b).1 = x ++ [10]) ∨ (10 ∉ b ∧ fileLine b = (b, [])) := by
  induction b with
  | nil => right; simp [fileLine]
  | cons x r ih =>
    simp only [fileLine]
    split
    · rename_i h; left; exact ⟨[], by simp, by simp [h]⟩
    · rename_i h
      rcases ih with ⟨y, h1, h2⟩ | ⟨h1, h2⟩
      · left; exact ⟨x :: y, by simp [h1, Ne.symm h], by simp [h2]⟩
      · right; exact ⟨by simp [h1, Ne.symm h], by simp [h2]⟩

private theorem mimics_readline (g : Growing) : Mimics growingStream.readline serialStream.readline g := by
  have he := g.available_flatten
  have hf := fileLine_append g.available
  rcases fileLine_cases g.available with ⟨x, h1, h2⟩ | ⟨h1, h2⟩
  · refine ⟨(x.map some) ++ [some 10], ?_, ?_⟩
    · rw [← he, ← hf, h2]
      simp [growingStream, bytesIn, Growing.everything, List.filterMap_map]
    · intro l
      simp only [growingStream, serialStream, h2, List.append_assoc, List.singleton_append]
      exact serialLine_lf x h1 l
  · refine ⟨(g.available.map some) ++ [none], ?_, ?_⟩
    · rw [← he]
      simp [growingStream, bytesIn, Growing.everything, List.filterMap_map, h2]
    · intro l
      simp only [growingStream, serialStream, h2, List.append_assoc, List.singleton_append]
      exact serialLine_cut _ h1 l

private theorem mimics_readLine (g : Growing) : Mimics (readLine growingStream) (readLine serialStream) g := by
  obtain ⟨p, h1, h2⟩ := mimics_readline g
  refine ⟨p, ?_, ?_⟩
  · simp only [readLine]
    split
    · exact h1
    · split <;> exact h1
  · intro l
    simp only [readLine, h2]
    split
    · rfl
    · split <;> rfl

private theorem mimics_step (now : Nat → DateTime) (cfg : RCfg) (g : Growing) :
    Mimics (step now growingStream cfg) (step now serialStream cfg) g := by
  obtain ⟨p1, a1, b1⟩ := mimics_read1 g
  generalize hr1 : growingStream.read1 g = r1 at a1 b1
  obtain ⟨y1, g1⟩ := r1
  obtain ⟨p2, a2, b2⟩ := mimics_read1 g1
  generalize hr2 : growingStream.read1 g1 = r2 at a2 b2
  obtain ⟨y2, g2⟩ := r2
  obtain ⟨p3, a3, b3⟩ := mimics_readLine g2
  generalize hr3 : readLine growingStream g2 = r3 at a3 b3
  obtain ⟨y3, g3⟩ := r3
  simp only at a1 b1 a2 b2 a3 b3
  unfold Mimics
  have e1 : step now growingStream cfg g = step now growingStream cfg g := rfl
  conv at e1 => rhs; unfold step
  simp only [hr1, hr2, hr3] at e1
  have s1 : ∀ l, step now serialStream cfg l = step now serialStream cfg l := fun _ => rfl
  conv at s1 => intro l; rhs; unfold step
  by_cases c1 : y1 = []
  · rw [if_pos c1] at e1
    refine ⟨p1, by rw [e1]; exact a1, fun l => ?_⟩
    rw [s1, b1, e1]; simp only [if_pos c1]
  · rw [if_neg c1] at e1
    by_cases c2 : y1 ≠ pb!"$"
    · rw [if_pos c2] at e1
      refine ⟨p1, by rw [e1]; exact a1, fun l => ?_⟩
      rw [s1, b1, e1]; simp only [if_neg c1, if_pos c2]
    · rw [if_neg c2] at e1
      by_cases c3 : y2 = []
      · rw [if_pos c3] at e1
        refine ⟨p1 ++ p2, by rw [e1, bytesIn_append, List.append_assoc, a2, a1], fun l => ?_⟩
        rw [s1, List.append_assoc, b1]
        simp only [b2, e1, if_neg c1, if_neg c2, if_pos c3]
      · rw [if_neg c3] at e1
        by_cases c4 : y1 ++ y2 ∈ NMEA_HDR
        · rw [if_pos c4] at e1
          have hg : (step now growingStream cfg g).2 = g3 := by
            rw [e1]
            split
            · rename_i h; cases h; rfl
            · rename_i h; cases h; rfl
            · rename_i h; cases h
              split <;> rfl
          refine ⟨p1 ++ p2 ++ p3, ?_, fun l => ?_⟩
          · rw [hg, bytesIn_append, bytesIn_append, List.append_assoc, List.append_assoc, a3, a2, a1]
          · rw [s1, List.append_assoc, List.append_assoc, b1]
            simp only [b2, b3, if_neg c1, if_neg c2, if_neg c3, if_pos c4]
            rw [e1]
            cases y3 with
            | error e => cases e <;> rfl
            | ok byten =>
              simp only
              generalize parse now (.bytes (y1 ++ y2 ++ byten)) cfg.mode cfg.validate cfg.udefs = pr
              cases pr with
              | ok m => rfl
              | error e => cases e <;> rfl
        · rw [if_neg c4] at e1
          refine ⟨p1 ++ p2, ?_, fun l => ?_⟩
          · rw [e1, bytesIn_append, List.append_assoc]
            split <;> rw [a2, a1]
          · rw [s1, List.append_assoc, b1]
            simp only [b2, e1, if_neg c1, if_neg c2, if_neg c3, if_neg c4]
            split <;> rfl

private theorem mimics_readMsg (now : Nat → DateTime) (cfg : RCfg) (g : Growing) :
    ∃ p : Line, bytesIn p ++ (readMsg now growingStream cfg g).2.2.everything = g.everything ∧
      ∀ l, readMsg now serialStream cfg (p ++ l) =
        ((readMsg now growingStream cfg g).1, (readMsg now growingStream cfg g).2.1, l) := by
  induction g using growingStream.rel.wf.induction with
  | _ g ih =>
    have hd := step_dec now growingStream cfg g
    obtain ⟨p, h1, h2⟩ := mimics_step now cfg g
    rw [readMsg_eq now growingStream cfg g]
    generalize hs : step now growingStream cfg g = x at *
    obtain ⟨ev, g1⟩ := x
    simp only at h1 h2
    have base : ∀ r log, (∀ l, readMsg now serialStream cfg (p ++ l) = (r, log, l)) →
        ∃ p : Line, bytesIn p ++ g1.everything = g.everything ∧ ∀ l, readMsg now serialStream cfg (p ++ l) = (r, log, l) :=
      fun r log h => ⟨p, h1, h⟩
    cases ev with
    | eof => exact base _ _ fun l => by rw [readMsg_eq, h2]
    | msg raw m => exact base _ _ fun l => by rw [readMsg_eq, h2]
    | crash e => exact base _ _ fun l => by rw [readMsg_eq, h2]
    | skip =>
      have hd : growingStream.rel.rel g1 g := by
        rcases hd with ⟨s', e⟩ | hd
        · cases e
        · exact hd
      obtain ⟨q, q1, q2⟩ := ih g1 hd
      refine ⟨p ++ q, ?_, fun l => ?_⟩
      · simp only [bytesIn_append, List.append_assoc]; rw [q1, h1]
      · rw [readMsg_eq, List.append_assoc, h2]; exact q2 l
    | err e =>
      have hd : growingStream.rel.rel g1 g := by
        rcases hd with ⟨s', e⟩ | hd
        · cases e
        · exact hd
      simp only
      split
      · rename_i hq
        exact base _ _ fun l => by rw [readMsg_eq, h2]; simp only [if_pos hq]
      · rename_i hq
        obtain ⟨q, q1, q2⟩ := ih g1 hd
        refine ⟨p ++ q, ?_, fun l => ?_⟩
        · simp only [bytesIn_append, List.append_assoc]; rw [q1, h1]
        · rw [readMsg_eq, List.append_assoc, h2]; simp only [if_neg hq, q2 l]

private theorem bursts_of (l : Line) : ∃ bs : List Bytes, bs ≠ [] ∧ withTimeouts bs = l ∧ bs.flatten = bytesIn l := by
  induction l with
  | nil => exact ⟨[[]], by simp, rfl, rfl⟩
  | cons x r ih =>
    obtain ⟨bs, h1, h2, h3⟩ := ih
    cases x with
    | none =>
      refine ⟨[] :: bs, by simp, ?_, by simpa [bytesIn] using h3⟩
      cases bs with
      | nil => exact absurd rfl h1
      | cons b bs => simp [withTimeouts, h2]
    | some b =>
      cases bs with
      | nil => exact absurd rfl h1
      | cons c bs =>
        refine ⟨(b :: c) :: bs, by simp, ?_, ?_⟩
        · cases bs with
          | nil => simp only [withTimeouts] at h2 ⊢; simp [h2]
          | cons d bs => simp only [withTimeouts] at h2 ⊢; simp [h2]
        · have : bytesIn (some b :: r) = b :: bytesIn r := by simp [bytesIn]
          rw [this, ← h3]; simp

/-- A file that is read while it is written gives the results of a serial port that delivers the same bytes and
times out wherever the reader reached the end of the file: so all that is known about such ports (C67) holds. -/
theorem C79_growing_is_port (now : Nat → DateTime) (cfg : RCfg) (g g' : Growing) (es)
    (h : Polled now growingStream cfg g es g') :
    ∃ bs : List Bytes, bs ≠ [] ∧ bs.flatten = g.everything ∧
      Polled now serialStream cfg (withTimeouts bs) es (g'.everything.map some) := by
  have key : ∃ p : Line, bytesIn p ++ g'.everything = g.everything ∧
      ∀ l, Polled now serialStream cfg (p ++ l) es l := by
    induction h with
    | nil s => exact ⟨[], rfl, fun l => .nil l⟩
    | cons s s1 s2 r log es hm _ ih =>
      obtain ⟨q, q1, q2⟩ := ih
      obtain ⟨p, p1, p2⟩ := mimics_readMsg now cfg s
      rw [hm] at p1 p2
      refine ⟨p ++ q, ?_, fun l => ?_⟩
      · rw [bytesIn_append, List.append_assoc, q1, p1]
      · rw [List.append_assoc]
        exact .cons _ _ _ _ _ _ (p2 _) (q2 l)
  obtain ⟨p, h1, h2⟩ := key
  obtain ⟨bs, b1, b2, b3⟩ := bursts_of (p ++ g'.everything.map some)
  refine ⟨bs, b1, ?_, ?_⟩
  · rw [b3, bytesIn_append, bytesIn_some, h1]
  · rw [b2]; exact h2 _

/-- Every sentence returned stands in the file in one piece, and its message is what `parse` makes of it. -/
theorem C79_no_splice (now : Nat → DateTime) (cfg : RCfg) (g g' : Growing) (es)
    (h : Polled now growingStream cfg g es g') (log raw m) (hm : (log, .item raw m) ∈ es) :
    raw <:+: g.everything ∧ parse now (.bytes raw) cfg.mode cfg.validate cfg.udefs = .ok m := by
  obtain ⟨bs, h1, h2, h3⟩ := C79_growing_is_port now cfg g g' es h
  obtain ⟨b, hb, pre, post, e, hp⟩ := C67_no_splice now cfg bs h1 es _ h3 log raw m hm
  refine ⟨?_, hp⟩
  rw [← h2]
  obtain ⟨u, v, huv⟩ := List.append_of_mem hb
  rw [huv]
  refine ⟨u.flatten ++ pre, post ++ v.flatten, ?_⟩
  simp [e]

/-! ## Writers that append whole sentences -/

/-- A sentence and its message: a complete line that `parse` accepts with the settings of the reader. -/
def Good (now : Nat → DateTime) (cfg : RCfg) (x : Bytes × Option Msg) : Prop :=
  CompleteLine x.1 ∧ parse now (.bytes x.1) cfg.mode cfg.validate cfg.udefs = .ok x.2

/-- A file in which sentences `here` stand now and to which the sentences of each element of `later` are appended
at once (possibly none). -/
def wholeSentences (here : List (Bytes × Option Msg)) (later : List (List (Bytes × Option Msg))) : Growing :=
  ⟨(here.map Prod.fst).flatten, later.map fun xs => (xs.map Prod.fst).flatten⟩

/-- What the calls returned, except `(None, None)`. -/
def itemsOf (es : List (List Err × ReadResult)) : List (Bytes × Option Msg) :=
  es.filterMap fun x => match x.2 with
    | .item raw m => some (raw, m)
    | _ => none

private theorem avail_whole (here : List (Bytes × Option Msg)) (later) :
    (wholeSentences here later).available = ((here ++ later.headD []).map Prod.fst).flatten := by
  cases later <;> simp [wholeSentences, Growing.available]

private theorem read_whole (now : Nat → DateTime) (cfg : RCfg) (here : List (Bytes × Option Msg)) (later)
    (hh : ∀ x ∈ here, Good now cfg x) (hl : ∀ xs ∈ later, ∀ x ∈ xs, Good now cfg x) :
    (here ++ later.headD [] = [] ∧
      readMsg now growingStream cfg (wholeSentences here later) = (.none, [], wholeSentences [] later.tail)) ∨
    ∃ x rest, here ++ later.headD [] = x :: rest ∧
      readMsg now growingStream cfg (wholeSentences here later) =
        (.item x.1 x.2, [], wholeSentences (rest ++ later.tail.headD [] ++ later.tail.tail.headD []) (later.drop 3)) := by
  cases hc : here ++ later.headD [] with
  | nil =>
    left
    refine ⟨rfl, ?_⟩
    have ha := avail_whole here later
    rw [hc] at ha
    rw [readMsg_eq]
    have hs : step now growingStream cfg (wholeSentences here later) = (.eof, wholeSentences [] later.tail) := by
      simp only [step, growingStream, ha]
      cases later <;> simp [wholeSentences]
    rw [hs]
  | cons x rest =>
    right
    refine ⟨x, rest, rfl, ?_⟩
    have hx : Good now cfg x := by
      have hm : x ∈ here ++ later.headD [] := by rw [hc]; simp
      rcases List.mem_append.1 hm with h | h
      · exact hh x h
      · cases later with
        | nil => simp at h
        | cons xs ls => exact hl xs (by simp) x h
    obtain ⟨⟨h, body, ht, hb, e⟩, hp⟩ := hx
    have ha : (wholeSentences here later).available = 36 :: h :: (body ++ 10 :: (rest.map Prod.fst).flatten) := by
      rw [avail_whole, hc]
      simp [e]
    have hfut : (wholeSentences here later).future.tail = later.tail.map fun xs => (xs.map Prod.fst).flatten := by
      cases later <;> simp [wholeSentences]
    rw [readMsg_eq]
    have hs : step now growingStream cfg (wholeSentences here later) =
        (.msg x.1 x.2, wholeSentences (rest ++ later.tail.headD [] ++ later.tail.tail.headD []) (later.drop 3)) := by
      have s1 : growingStream.read1 (wholeSentences here later) =
          ([36], ⟨h :: (body ++ 10 :: (rest.map Prod.fst).flatten), later.tail.map fun xs => (xs.map Prod.fst).flatten⟩) := by
        simp only [growingStream, ha, hfut]; rfl
      have s2 : growingStream.read1 ⟨h :: (body ++ 10 :: (rest.map Prod.fst).flatten), later.tail.map fun xs => (xs.map Prod.fst).flatten⟩ =
          ([h], ⟨body ++ 10 :: ((rest ++ later.tail.headD []).map Prod.fst).flatten, later.tail.tail.map fun xs => (xs.map Prod.fst).flatten⟩) := by
        simp only [growingStream, Growing.available]
        cases later.tail <;> simp
      have s3 : growingStream.readline ⟨body ++ 10 :: ((rest ++ later.tail.headD []).map Prod.fst).flatten, later.tail.tail.map fun xs => (xs.map Prod.fst).flatten⟩ =
          (body ++ [10], wholeSentences (rest ++ later.tail.headD [] ++ later.tail.tail.headD []) (later.drop 3)) := by
        have e3 : later.drop 3 = later.tail.tail.tail := by cases later with
          | nil => rfl
          | cons a l => cases l with
            | nil => rfl
            | cons b l => cases l <;> rfl
        rw [e3]
        simp only [growingStream, Growing.available, wholeSentences]
        cases later.tail.tail with
        | nil => simp [fileLine_lf _ _ hb]
        | cons y ys => simp [fileLine_lf _ _ hb]
      have s3' : readLine growingStream ⟨body ++ 10 :: ((rest ++ later.tail.headD []).map Prod.fst).flatten, later.tail.tail.map fun xs => (xs.map Prod.fst).flatten⟩ =
          (.ok (body ++ [10]), wholeSentences (rest ++ later.tail.headD [] ++ later.tail.tail.headD []) (later.drop 3)) := by
        simp only [readLine, s3]
        rw [if_neg (by simp), if_neg (by simp)]
      simp only [step, s1, s2, s3']
      rw [if_neg (by simp), if_neg (by simp), if_neg (by simp),
        if_pos (show ([36] ++ [h] : Bytes) ∈ NMEA_HDR from (hdr_iff h).2 ht)]
      have er : ([36] ++ [h] ++ (body ++ [10]) : Bytes) = x.1 := by rw [e]; simp
      rw [er, hp]
    rw [hs]

/-- A writer that appends whole sentences: whatever it appends when, and however often `read()` is called, no
error is reported or raised, and the sentences returned so far, followed by those still to come, are all sentences
of the file, in order. So none is lost, changed or returned twice. After as many calls as there are sentences and
operations during which something is appended, all have been returned. -/
theorem C79_whole_sentences (now : Nat → DateTime) (cfg : RCfg) (here : List (Bytes × Option Msg))
    (later : List (List (Bytes × Option Msg))) (hh : ∀ x ∈ here, Good now cfg x)
    (hl : ∀ xs ∈ later, ∀ x ∈ xs, Good now cfg x) (es g')
    (h : Polled now growingStream cfg (wholeSentences here later) es g') :
    (∀ e ∈ es, e.1 = [] ∧ ∀ x, e.2 ≠ .raised x) ∧
    (∃ here' later', g' = wholeSentences here' later' ∧
      itemsOf es ++ here' ++ later'.flatten = here ++ later.flatten) ∧
    (here.length + later.flatten.length + later.length ≤ es.length → itemsOf es = here ++ later.flatten) := by
  generalize hg : wholeSentences here later = g at h
  induction h generalizing here later with
  | nil s =>
    subst hg
    refine ⟨by simp, ⟨here, later, rfl, by simp [itemsOf]⟩, ?_⟩
    intro hlen
    have h1 : here = [] := List.length_eq_zero_iff.1 (by simp only [List.length_nil] at hlen; omega)
    have h2 : later = [] := List.length_eq_zero_iff.1 (by simp only [List.length_nil] at hlen; omega)
    simp [h1, h2, itemsOf]
  | cons s s1 s2 r log es hm hrest ih =>
    subst hg
    rcases read_whole now cfg here later hh hl with ⟨h0, h1⟩ | ⟨x, rest, h0, h1⟩
    · rw [hm] at h1
      simp only [Prod.mk.injEq] at h1
      obtain ⟨rfl, rfl, rfl⟩ := h1
      obtain ⟨a, ⟨here', later', b1, b2⟩, c⟩ := ih [] later.tail (by simp)
        (fun xs hxs => hl xs (List.mem_of_mem_tail hxs)) rfl
      have e : here ++ later.flatten = [] ++ later.tail.flatten := by
        cases later with
        | nil => simpa using h0
        | cons xs ls => simp only [List.headD_cons] at h0; simp only [List.flatten_cons, ← List.append_assoc, h0]; rfl
      have hi : itemsOf (([], ReadResult.none) :: es) = itemsOf es := by simp [itemsOf]
      refine ⟨?_, ⟨here', later', b1, by rw [hi, b2, e]⟩, ?_⟩
      · intro y hy
        rcases List.mem_cons.1 hy with rfl | hy
        · simp
        · exact a y hy
      · intro hlen
        rw [hi, e]
        refine c ?_
        have he : (here ++ later.flatten).length = later.tail.flatten.length := by rw [e]; rfl
        simp only [List.length_append] at he
        simp only [List.length_cons, List.length_nil, List.length_tail] at hlen ⊢
        cases later with
        | nil => simp only [List.length_nil, List.tail_nil, List.flatten_nil] at *; omega
        | cons xs ls => simp only [List.length_cons] at *; omega
    · rw [hm] at h1
      simp only [Prod.mk.injEq] at h1
      obtain ⟨rfl, rfl, rfl⟩ := h1
      have hall : ∀ y ∈ here ++ later.flatten, Good now cfg y := by
        intro y hy
        rcases List.mem_append.1 hy with hy | hy
        · exact hh y hy
        · obtain ⟨xs, h1, h2⟩ := List.mem_flatten.1 hy
          exact hl xs h1 y h2
      have e : here ++ later.flatten = x :: (rest ++ later.tail.headD [] ++ later.tail.tail.headD [] ++ (later.drop 3).flatten) := by
        have e1 : ∀ l : List (List (Bytes × Option Msg)), l.flatten = l.headD [] ++ l.tail.flatten := by
          intro l; cases l <;> simp
        have e3 : later.drop 3 = later.tail.tail.tail := by cases later with
          | nil => rfl
          | cons a l => cases l with
            | nil => rfl
            | cons b l => cases l <;> rfl
        rw [e1 later, ← List.append_assoc, h0, e1 later.tail, e1 later.tail.tail, e3]
        simp
      obtain ⟨a, ⟨here', later', b1, b2⟩, c⟩ := ih (rest ++ later.tail.headD [] ++ later.tail.tail.headD []) (later.drop 3)
        (by
          intro y hy
          apply hall y
          rw [e]
          exact List.mem_cons_of_mem _ (List.mem_append_left _ hy))
        (fun xs hxs => hl xs (List.mem_of_mem_drop hxs)) rfl
      have hi : itemsOf (([], ReadResult.item x.1 x.2) :: es) = x :: itemsOf es := by simp [itemsOf]
      refine ⟨?_, ⟨here', later', b1, ?_⟩, ?_⟩
      · intro y hy
        rcases List.mem_cons.1 hy with rfl | hy
        · simp
        · exact a y hy
      · rw [hi, e, ← b2]; simp
      · intro hlen
        rw [hi, e]
        congr 1
        refine c ?_
        have he := congrArg List.length e
        simp only [List.length_append, List.length_cons, List.length_drop] at he hlen ⊢
        omega

/-- A writer that has appended only the part `x1` of a sentence `x1 ++ x2` when the reader comes to the end of the
file: the part is consumed by a call that returns `(None, None)`, or raises `NMEAStreamError` (from the third byte
on); the reader goes on behind it (so, by `C79_no_splice`, the sentence will not be returned, although in the end it
stands in the file in one piece). -/
theorem C79_cut_sentence (now : Nat → DateTime) (cfg : RCfg) (hq : cfg.quitonerror = 2) (x1 x2 : Bytes) (later : List Bytes)
    (hx : CompleteLine (x1 ++ x2)) (h1 : x1 ≠ []) (h2 : x2 ≠ []) :
    readMsg now growingStream cfg ⟨x1, [] :: [] :: [] :: later⟩ =
      (if x1.length ≤ 2 then .none else .raised .nmeaStream, [], ⟨[], if x1.length = 1 then [] :: later else later⟩) := by
  obtain ⟨h, body, ht, hb, e⟩ := hx
  rw [readMsg_eq]
  cases x1 with
  | nil => exact absurd rfl h1
  | cons a x1 =>
    simp only [List.cons_append, List.cons.injEq] at e
    obtain ⟨rfl, e⟩ := e
    cases x1 with
    | nil =>
      have hs : step now growingStream cfg ⟨[36], [] :: [] :: [] :: later⟩ = (.eof, ⟨[], [] :: later⟩) := by
        simp [step, growingStream, Growing.available]
      rw [hs]; simp
    | cons a x1 =>
      simp only [List.cons_append, List.cons.injEq] at e
      obtain ⟨rfl, e⟩ := e
      have hm : ([36, a] : Bytes) ∈ NMEA_HDR := (hdr_iff a).2 ht
      cases x1 with
      | nil =>
        have hs : step now growingStream cfg ⟨[36, a], [] :: [] :: [] :: later⟩ = (.eof, ⟨[], later⟩) := by
          simp [step, growingStream, Growing.available, hm, readLine, fileLine]
        rw [hs]; simp
      | cons b x1 =>
        have hno : (10 : UInt8) ∉ b :: x1 := by
          obtain ⟨x2', c, rfl⟩ : ∃ x2' c, x2 = x2' ++ [c] := ⟨x2.dropLast, x2.getLast h2, (List.dropLast_append_getLast h2).symm⟩
          rw [← List.append_assoc] at e
          have := (List.append_inj' e rfl).1
          rw [← this] at hb
          intro hm'; exact hb (List.mem_append_left _ hm')
        have hs : step now growingStream cfg ⟨36 :: a :: b :: x1, [] :: [] :: [] :: later⟩ = (.err .nmeaStream, ⟨[], later⟩) := by
          have hl : (b :: x1).getLast? ≠ some 10 := fun h => hno (List.mem_of_getLast? h)
          simp only [step, growingStream, Growing.available, List.headD_cons, List.append_nil, List.take_succ_cons,
            List.take_zero, List.drop_succ_cons, List.drop_zero, List.tail_cons, readLine, fileLine_nolf _ hno]
          rw [if_neg (by simp), if_neg (by simp), if_neg (by simp), if_pos (show ([36] ++ [a] : Bytes) ∈ NMEA_HDR from hm)]
          rw [if_neg (by simp), if_pos hl]
        rw [hs]; simp [hq]

/-- The statements are about something: a file that holds one sentence, to which another one is appended while
the reader reads. -/
example : Good clock0 ⟨0, 1, false, 2, []⟩ (gll, (parse clock0 (.bytes gll) 0 1 []).toOption.join) ∧
    CompleteLine (gll.take 20 ++ gll.drop 20) := by
  refine ⟨⟨gll_line, ?_⟩, by rw [List.take_append_drop]; exact gll_line⟩
  have h : accepted (parse clock0 (.bytes gll) 0 1 []) = true := by decide +kernel
  obtain ⟨m, hm⟩ := (accepted_iff _).1 h
  simp only [hm]
  rfl

end Props.Grow
