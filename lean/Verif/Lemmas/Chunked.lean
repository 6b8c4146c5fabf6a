import Verif.Spec.Chunked
import Verif.Lemmas.IntText
import Verif.Props.Socket
/-! # Lemmas: dechunking -/
set_option linter.unusedSimpArgs false
namespace Nmea
open Py Spec

theorem hexOf_digitVal (b : UInt8) : hexOf b = digitVal b.toNat := by
  unfold hexOf digitVal
  simp only [Bool.and_eq_true, decide_eq_true_eq]
  repeat' split
  all_goals first | rfl | omega | (simp only [Option.some.injEq]; omega)

theorem digitVal_lt (c v : Nat) (h : digitVal c = some v) : v < 16 ∧ c ≠ 95 ∧ isAsciiSpace c = false ∧ c ≠ 45 ∧ c ≠ 43 ∧
    c ≠ 120 ∧ c ≠ 88 := by
  unfold digitVal at h
  simp only [isAsciiSpace, Bool.or_eq_false_iff, decide_eq_false_iff_not, Bool.and_eq_false_iff]
  repeat' split at h
  all_goals first | cases h | skip
  all_goals simp at *
  all_goals omega

theorem scanDigits_vals (ds : Bytes) (vs : List Nat) (h : ds.map hexOf = vs.map some) (prev : Bool)
    (hne : prev = true ∨ vs ≠ []) : scanDigits 16 prev (ds.map UInt8.toNat) = some vs := by
  induction ds generalizing vs prev with
  | nil =>
    cases vs with
    | nil =>
      rcases hne with rfl | h
      · rfl
      · exact absurd rfl h
    | cons => simp at h
  | cons d ds ih =>
    cases vs with
    | nil => simp at h
    | cons v vs =>
      simp only [List.map_cons, List.cons.injEq] at h
      have hv := h.1
      rw [hexOf_digitVal] at hv
      have hl := digitVal_lt _ _ hv
      rw [List.map_cons, scanDigits, if_neg hl.2.1]
      have e : digitValB 16 d.toNat = some v := by simp [digitValB, hv, hl.1]
      rw [e]
      simp only
      rw [ih vs h.2 true (.inl rfl)]
      rfl

theorem intOfBytes16_line (line : Bytes) (n : Nat) (h : LengthLine line n) : intOfBytes16 line = .ok (n : Int) := by
  obtain ⟨ds, ⟨vs, hne, hv, hn⟩, rfl⟩ := h
  have hd : ∀ c ∈ ds.map UInt8.toNat, ∃ v, digitVal c = some v := by
    intro c hc
    obtain ⟨d, hd, rfl⟩ := List.mem_map.1 hc
    have : hexOf d ∈ vs.map some := by rw [← hv]; exact List.mem_map.2 ⟨d, hd, rfl⟩
    obtain ⟨v, _, e⟩ := List.mem_map.1 this
    exact ⟨v, by rw [← hexOf_digitVal, e]⟩
  have hstrip : stripBy isAsciiSpace ((ds ++ [13, 10]).map UInt8.toNat) = ds.map UInt8.toNat := by
    have := stripBy_of_stripped isAsciiSpace [] (ds.map UInt8.toNat) [13, 10] ⟨fun x hx => ?_, fun x hx => ?_⟩
      (by simp) (by decide)
    · simpa using this
    · obtain ⟨v, hv⟩ := hd x (List.mem_of_mem_head? hx); exact (digitVal_lt _ _ hv).2.2.1
    · obtain ⟨v, hv⟩ := hd x (List.mem_of_mem_getLast? hx); exact (digitVal_lt _ _ hv).2.2.1
  have hsign : splitSign (ds.map UInt8.toNat) = (false, ds.map UInt8.toNat) := by
    apply splitSign_digit
    intro c hc
    obtain ⟨v, hv⟩ := hd c (List.mem_of_mem_head? hc)
    exact ⟨(digitVal_lt _ _ hv).2.2.2.1, (digitVal_lt _ _ hv).2.2.2.2.1⟩
  have hpre : stripHexPrefix (ds.map UInt8.toNat) = ds.map UInt8.toNat := by
    generalize ds.map UInt8.toNat = t at hd
    match t with
    | [] => rfl
    | [_] => rfl
    | a :: b :: r =>
      obtain ⟨v, hv⟩ := hd b (by simp)
      have := digitVal_lt _ _ hv
      simp [stripHexPrefix, this]
  unfold intOfBytes16
  rw [hstrip, hsign]
  simp only [hpre]
  rw [scanDigits_vals ds vs hv false (.inr hne)]
  simp only [applySign, Bool.false_eq_true, if_false, ofDigits]
  rw [← hn]
  congr 3
  funext a v; rw [Nat.mul_comm]

theorem line_noLf (ds : Bytes) (n : Nat) (h : HexNumber ds n) : 10 ∉ ds ++ [13] := by
  obtain ⟨vs, _, hv, _⟩ := h
  intro hm
  simp at hm
  have : hexOf 10 ∈ vs.map some := by rw [← hv]; exact List.mem_map.2 ⟨10, hm, rfl⟩
  rw [show hexOf 10 = none from by decide] at this
  simp at this

theorem readsAs_line (line : Bytes) (n : Nat) (h : LengthLine line n) : ReadsAs line n := by
  refine ⟨?_, intOfBytes16_line line n h⟩
  obtain ⟨ds, hd, rfl⟩ := h
  exact ⟨ds, fun hm => line_noLf ds n hd (by simp [hm]), rfl⟩

theorem crlf_cut (x r : Bytes) (h : 10 ∉ x) : fileLine (x ++ [13, 10] ++ r) = (x ++ [13, 10], r) := by
  have := fileLine_lf (x ++ [13]) r (by simp [h])
  simpa using this

theorem endsCrLf_snoc (x : Bytes) : endsCrLf (x ++ [13, 10]) = true := (endsCrLf_iff _).2 ⟨x, rfl⟩

/-- A complete chunk. -/
theorem dechunk_chunk (z : Zlib) (enc : Nat) (line c t r : Bytes) (hl : ReadsAs line (c.length : Int)) (hc : c ≠ [])
    (ht : fileLine (t ++ r) = (t, r)) :
    dechunk z enc (line ++ c ++ t ++ r) =
      (decompressChunk z enc c ++ (dechunk z enc r).1, (dechunk z enc r).2) := by
  obtain ⟨⟨x, hx, rfl⟩, hi⟩ := hl
  have hf : fileLine (x ++ [13, 10] ++ c ++ t ++ r) = (x ++ [13, 10], c ++ t ++ r) := by
    have := crlf_cut x (c ++ t ++ r) hx
    simpa using this
  have hr : readN (c.length : Int) (c ++ t ++ r) = (c, t ++ r) := by
    unfold readN; rw [if_neg (by omega)]; simp
  rw [dechunk]
  simp only [hf]
  rw [dif_pos (endsCrLf_snoc x), hi]
  simp only
  have hpos := List.length_pos_iff.2 hc
  rw [if_neg (by omega), hr]
  simp only
  rw [if_neg (by simp), ht]

theorem dechunk_final (z : Zlib) (enc : Nat) (line r : Bytes) (hl : ReadsAs line 0) :
    dechunk z enc (line ++ r) = ([], []) := by
  obtain ⟨⟨x, hx, rfl⟩, hi⟩ := hl
  rw [dechunk]
  simp only [crlf_cut x r hx]
  rw [dif_pos (endsCrLf_snoc x), hi]
  simp

theorem dechunk_garbage (z : Zlib) (enc : Nat) (x r : Bytes) (hx : 10 ∉ x) (hn : ∀ n, intOfBytes16 (x ++ [13, 10]) ≠ .ok n) :
    dechunk z enc (x ++ [13, 10] ++ r) = ([], []) := by
  rw [dechunk]
  simp only [crlf_cut x r hx]
  rw [dif_pos (endsCrLf_snoc x)]
  split
  · rfl
  · rename_i n h; exact absurd h (hn n)

theorem noLf_crlf (l : Bytes) (h : 10 ∉ l) : endsCrLf l = false := by
  cases hb : endsCrLf l with
  | false => rfl
  | true => obtain ⟨x, rfl⟩ := (endsCrLf_iff _).1 hb; simp at h

theorem dechunk_cutLine (z : Zlib) (enc : Nat) (l : Bytes) (h : 10 ∉ l) : dechunk z enc l = ([], l) := by
  rw [dechunk]
  simp only [fileLine_nolf l h]
  rw [dif_neg (by rw [noLf_crlf l h]; simp)]

theorem dechunk_cutData (z : Zlib) (enc : Nat) (line c : Bytes) (n : Int) (hl : ReadsAs line n) (hn : n ≠ 0)
    (hc : (c.length : Int) < n ∨ n < 0) : dechunk z enc (line ++ c) = ([], line ++ c) := by
  obtain ⟨⟨x, hx, rfl⟩, hi⟩ := hl
  have hr : (readN n c).1 = c := by
    unfold readN
    split
    · rfl
    · simp; rw [List.take_of_length_le]; omega
  rw [dechunk]
  simp only [crlf_cut x c hx]
  rw [dif_pos (endsCrLf_snoc x), hi]
  simp only
  rw [if_neg hn, hr, if_pos (by omega)]

theorem dechunk_bareLf (z : Zlib) (enc : Nat) (x r : Bytes) (hx : 10 ∉ x) (hl : x.getLast? ≠ some 13) :
    dechunk z enc (x ++ 10 :: r) = ([], x ++ [10]) := by
  rw [dechunk]
  simp only [fileLine_lf x r hx]
  rw [dif_neg]
  rw [endsCrLf_iff]
  rintro ⟨y, e⟩
  have e' : x ++ [10] = (y ++ [13]) ++ [10] := by rw [e]; simp
  obtain ⟨rfl, _⟩ := List.append_inj' e' rfl
  simp at hl

/-- What `dechunk` does with any data. -/
theorem dechunk_spec (z : Zlib) (enc : Nat) (b : Bytes) :
    ∃ cs p, Unchunk b cs p ∧ dechunk z enc b = (cs.flatMap (decompressChunk z enc), p) := by
  induction hn : b.length using Nat.strongRecOn generalizing b with
  | _ k ih =>
    rcases split_lf b with hb | ⟨x, r, hx, rfl⟩
    · exact ⟨[], b, .cutLine b hb, dechunk_cutLine z enc b hb⟩
    · by_cases hl : x.getLast? = some 13
      · obtain ⟨y, rfl⟩ : ∃ y, x = y ++ [13] := by
          rcases List.eq_nil_or_concat x with rfl | ⟨y, c, rfl⟩
          · simp at hl
          · simp at hl; subst hl; exact ⟨y, by simp⟩
        have hy : 10 ∉ y := fun hm => hx (by simp [hm])
        have eb : (y ++ [13]) ++ 10 :: r = y ++ [13, 10] ++ r := by simp
        rw [eb] at hn ⊢
        have hline : ∃ x, 10 ∉ x ∧ y ++ [13, 10] = x ++ [13, 10] := ⟨y, hy, rfl⟩
        cases hi : intOfBytes16 (y ++ [13, 10]) with
        | error e =>
          have hno : ∀ n, intOfBytes16 (y ++ [13, 10]) ≠ .ok n := by rw [hi]; simp
          exact ⟨[], [], .garbage _ r hline hno, dechunk_garbage z enc y r hy hno⟩
        | ok n =>
          have hr : ReadsAs (y ++ [13, 10]) n := ⟨hline, hi⟩
          by_cases h0 : n = 0
          · subst h0
            exact ⟨[], [], .final _ r hr, dechunk_final z enc _ r hr⟩
          · by_cases hlen : (r.length : Int) < n ∨ n < 0
            · exact ⟨[], _, .cutData _ r n hr h0 hlen, dechunk_cutData z enc _ r n hr h0 hlen⟩
            · -- a complete chunk
              have hn' : ((r.take n.toNat).length : Int) = n := by simp; omega
              have hne : r.take n.toNat ≠ [] := by
                intro e; rw [e] at hn'; simp at hn'; omega
              have hr' : ReadsAs (y ++ [13, 10]) ((r.take n.toNat).length : Int) := by rw [hn']; exact hr
              have hsplit : r = r.take n.toNat ++ r.drop n.toNat := (List.take_append_drop _ _).symm
              have hkey : ∀ t r', r.drop n.toNat = t ++ r' → fileLine (t ++ r') = (t, r') →
                  ((∃ x, 10 ∉ x ∧ t = x ++ [10]) ∨ (10 ∉ t ∧ r' = [])) →
                  ∃ cs p, Unchunk (y ++ [13, 10] ++ r) cs p ∧
                    dechunk z enc (y ++ [13, 10] ++ r) = (cs.flatMap (decompressChunk z enc), p) := by
                intro t r' ht hf hor
                have e : y ++ [13, 10] ++ r = y ++ [13, 10] ++ r.take n.toNat ++ t ++ r' := by
                  rw [List.append_assoc, List.append_assoc, List.append_assoc, ← ht, ← hsplit]; simp
                have hlt : r'.length < k := by
                  rw [← hn, e]; simp; omega
                obtain ⟨cs, p, hu, hd⟩ := ih _ hlt r' rfl
                refine ⟨r.take n.toNat :: cs, p, ?_, ?_⟩
                · rw [e]; exact .chunk _ _ t r' cs p hr' hne hor hu
                · rw [e, dechunk_chunk z enc _ _ t r' hr' hne hf, hd]; simp
              rcases split_lf (r.drop n.toNat) with hb | ⟨t, r', ht, e⟩
              · exact hkey _ [] (by simp) (by simpa using fileLine_nolf _ hb) (.inr ⟨hb, rfl⟩)
              · refine hkey (t ++ [10]) r' (by simpa using e) ?_ (.inl ⟨t, ht, rfl⟩)
                have := fileLine_lf t r' ht
                simpa using this
      · exact ⟨[], _, .bareLf x r hx hl, dechunk_bareLf z enc x r hx hl⟩

theorem decompress_staged (z : Zlib) (enc : Nat) (x : Bytes) : Staged (stages z enc) x (decompressChunk z enc x) := by
  have h1 : encGzip enc = decide (enc &&& 2 ≠ 0) := by rw [Bool.eq_iff_iff]; simp [encGzip]
  have h2 : encCompress enc = decide (enc &&& 4 ≠ 0) := by rw [Bool.eq_iff_iff]; simp [encCompress]
  have h3 : encDeflate enc = decide (enc &&& 8 ≠ 0) := by rw [Bool.eq_iff_iff]; simp [encDeflate]
  have step : ∀ (f : Bytes → Option Bytes) fs (x y r), f x = some y → Staged fs y r → Staged (f :: fs) x r := Staged.step
  have last : ∀ (q : Prop) [Decidable q] (x : Bytes), Staged (if q then [z.deflate] else []) x
      (match (if q then z.deflate x else some x) with | none => x | some c => c) := by
    intro q _ x
    by_cases hq : q
    · simp only [if_pos hq]
      cases hf : z.deflate x with
      | none => exact .fail _ _ _ hf
      | some y => exact .step _ _ _ _ _ hf (.done y)
    · simp only [if_neg hq]; exact .done x
  have mid : ∀ (p q : Prop) [Decidable p] [Decidable q] (x : Bytes),
      Staged ((if p then [z.compress] else []) ++ (if q then [z.deflate] else [])) x
      (match (if p then z.compress x else some x) with
        | none => x
        | some c => match (if q then z.deflate c else some c) with | none => c | some c => c) := by
    intro p q _ _ x
    by_cases hp : p
    · simp only [if_pos hp]
      cases hf : z.compress x with
      | none => exact .fail _ _ _ hf
      | some y => exact .step _ _ _ _ _ hf (last q y)
    · simp only [if_neg hp]; exact last q x
  unfold stages decompressChunk
  rw [h1, h2, h3]
  simp only [decide_eq_true_eq, List.append_assoc]
  by_cases hp : enc &&& 2 ≠ 0
  · simp only [if_pos hp]
    cases hf : z.gzip x with
    | none => exact .fail _ _ _ hf
    | some y => exact .step _ _ _ _ _ hf (mid _ _ y)
  · simp only [if_neg hp]; exact mid _ _ x

end Nmea
