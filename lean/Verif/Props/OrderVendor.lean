import Verif.Props.Order
import Verif.Props.Vendor
import Verif.Spec.OrderVendor
/-!
# Reading keeps the order: proprietary sentences too (C98)
-/
namespace Props.Order
open Py Nmea Spec Spec.Nmea0183 Spec.Order

/-- One sentence read. -/
theorem read_described (now : Nat → DateTime) (msg : RawMsg) (v : Nat) (u : UDefs) (f : List Str) (lay : List Item)
    (h : WellFormed msg v u f lay) :
    ∃ m, parse now msg 0 v u = .ok (some m) ∧
      ∀ (p : Nat) name kind text, (fields f lay 0)[p]? = some (name, kind) → f[p]? = some text →
        ∃ val, (∃ ty, kindOf ty = some kind ∧ str2val text ty = .ok val) ∧
          lookup name m.attrs = some (oriented kind ((fields f lay 0)[p + 1]?.map Prod.snd) f[p + 1]? val) := by
  obtain ⟨⟨c, t, i, k, hs, ha, hl⟩, hcnt, hw⟩ := h
  have vendor : (∃ d, (∀ u, definitionFor 0 u i f = .ok (some d)) ∧ SaneNames d ∧ layoutOk d lay = true ∧
      ∀ t : Str, t.length ≤ 2 → fieldTexts t i f = f) → _ := fun ⟨d, h1, h2, h3, h4⟩ =>
    reading_exact now msg 0 v u c t i k f f lay d hs ha (h1 u) (h1 []) h2 (h4 t (Props.Vendor.talker_short hs)) h3 hcnt hw
  rcases hl with hl | ⟨sel, hl, hf⟩ | ⟨var, hl, hf⟩
  · exact read_listed now msg v u c t i k f lay hl hs ha hcnt hw
  all_goals
    obtain ⟨m, h1, _, h3⟩ := vendor (by
      first
      | exact Props.Vendor.variant_facts hl f hf
      | exact Props.Vendor.vendor_facts (by
          rcases List.mem_append.1 hl with h | h
          · exact Props.Vendor.vendor_ok _ h
          · exact Props.Vendor.others_ok _ h) f hf)
    refine ⟨m, h1, fun p name kind text hp ht => ?_⟩
    obtain ⟨val, _, h4, h5⟩ := h3 p name kind text hp ht
    exact ⟨val, h4, h5⟩

/-- C98. Reading keeps the order: take any two sentences whose layout is known from the standard or from their manufacturer,
of the same or of different types, and in each a field of the same kind. If what the first says is at most what the second
says, then `a <= b` in Python for the two attributes. If it is less - coordinates by more than `1.2e-10` degrees - and they
are not decimal numbers, then `b <= a` is false. -/
theorem C98_every (now now' : Nat → DateTime) (msg msg' : RawMsg) (v v' : Nat) (u u' : UDefs) (f f' : List Str)
    (lay lay' : List Item) (h : WellFormed msg v u f lay) (h' : WellFormed msg' v' u' f' lay')
    (name name' : Str) (kind : Kind) (q q' : ℚ) (hq : Says f lay name kind q) (hq' : Says f' lay' name' kind q') (hle : q ≤ q') :
    ∃ m m' a a', parse now msg 0 v u = .ok (some m) ∧ parse now' msg' 0 v' u' = .ok (some m') ∧
      lookup name m.attrs = some a ∧ lookup name' m'.attrs = some a' ∧ AtMost a a' ∧
      (kind ≠ .decimal → q < q' → (kind = .latitude ∨ kind = .longitude → q + 12 / 10 ^ 11 < q') → ¬ AtMost a' a) := by
  obtain ⟨m, h1, h2⟩ := read_described now msg v u f lay h
  obtain ⟨m', h1', h2'⟩ := read_described now' msg' v' u' f' lay' h'
  obtain ⟨p, text, q, hp, ht, hx⟩ := hq
  obtain ⟨p', text', q', hp', ht', hx'⟩ := hq'
  obtain ⟨w, ⟨ty, g1, g2⟩, g3⟩ := h2 p name kind text hp ht
  obtain ⟨w', ⟨ty', g1', g2'⟩, g3'⟩ := h2' p' name' kind text' hp' ht'
  exact ⟨m, m', _, _, h1, h1', g3, g3', values_order (exact_value hx g1 g2) (exact_value hx' g1' g2') hle,
    fun hd hlt hc => values_distinct (exact_value hx g1 g2) (exact_value hx' g1' g2') hd hlt hc⟩

/-! ## An example: the rates of two proprietary sentences -/

def rateFields (n : Str) : List Str := [py!"OK", py!"RMC", n]

theorem rate_wellFormed (msg : RawMsg) (c k n : Str) (hs : IsSentence msg c py!"P" py!"QTMCFGMSGRATE" (rateFields n) k)
    (hc : upper k = calcChecksum c) (hn : IsDigits n ∧ n ≠ [] ∧ n.length ≤ 4300) :
    WellFormed msg 3 [] (rateFields n) Props.Vendor.msgrate3Layout := by
  refine ⟨⟨c, py!"P", py!"QTMCFGMSGRATE", k, hs,
      ⟨.inl rfl, fun _ => hc, fun _ => ⟨by decide +kernel, by decide +kernel⟩⟩,
      .variant (.count 3) (by decide +kernel) rfl⟩, by intro p b h; simp [Props.Vendor.msgrate3Layout] at h, ?_⟩
  intro p name kind text hp ht
  match p, hp, ht with
  | 0, hp, _ => obtain ⟨_, rfl⟩ : _ ∧ Kind.text = kind := by simpa [fields, Props.Vendor.msgrate3Layout] using hp
                exact ⟨_, .text _⟩
  | 1, hp, _ => obtain ⟨_, rfl⟩ : _ ∧ Kind.text = kind := by simpa [fields, Props.Vendor.msgrate3Layout] using hp
                exact ⟨_, .text _⟩
  | 2, hp, ht =>
    obtain ⟨_, rfl⟩ : _ ∧ Kind.whole = kind := by simpa [fields, Props.Vendor.msgrate3Layout] using hp
    obtain rfl : n = text := by simpa [rateFields] using ht
    exact ⟨_, by have := Denotes.whole false n hn.2.1 hn.1 hn.2.2; simpa [signText] using this⟩
  | p + 3, hp, _ => simp [fields, Props.Vendor.msgrate3Layout] at hp

theorem rate_says (n : Str) (hn : IsDigits n ∧ n ≠ [] ∧ n.length ≤ 4300) :
    Says (rateFields n) Props.Vendor.msgrate3Layout py!"rate" .whole (number n : ℚ) := by
  have h : Says (rateFields n) Props.Vendor.msgrate3Layout py!"rate" .whole _ :=
    .mk 2 (signText false ++ n) (if false = true then -(number n : ℚ) else number n) rfl
      rfl (.whole false n hn.2.1 hn.1 hn.2.2)
  exact h

/-- Rate 9 in one sentence, 10 in another: `9 < 10` as numbers, although not as texts. -/
example : ∃ m m' a a', parse clock0 (.bytes pb!"$PQTMCFGMSGRATE,OK,RMC,9*4C\r\n") 0 3 [] = .ok (some m) ∧
    parse clock0 (.bytes pb!"$PQTMCFGMSGRATE,OK,RMC,10*74\r\n") 0 3 [] = .ok (some m') ∧
    lookup py!"rate" m.attrs = some a ∧ lookup py!"rate" m'.attrs = some a' ∧ AtMost a a' ∧ ¬ AtMost a' a := by
  obtain ⟨m, m', a, a', h1, h2, h3, h4, h5, h6⟩ := C98_every clock0 clock0 _ _ 3 3 [] [] _ _ _ _
    (rate_wellFormed (.bytes pb!"$PQTMCFGMSGRATE,OK,RMC,9*4C\r\n") py!"PQTMCFGMSGRATE,OK,RMC,9" py!"4C" py!"9"
      ((getParts_sentence _ ⟨_, _, _, _, _⟩).1 (by decide +kernel)) (by decide +kernel) (by decide))
    (rate_wellFormed (.bytes pb!"$PQTMCFGMSGRATE,OK,RMC,10*74\r\n") py!"PQTMCFGMSGRATE,OK,RMC,10" py!"74" py!"10"
      ((getParts_sentence _ ⟨_, _, _, _, _⟩).1 (by decide +kernel)) (by decide +kernel) (by decide))
    _ _ _ _ _ (rate_says py!"9" (by decide)) (rate_says py!"10" (by decide)) (by decide +kernel)
  exact ⟨m, m', a, a', h1, h2, h3, h4, h5, h6 (by decide) (by decide +kernel) (by rintro (h | h) <;> cases h)⟩

end Props.Order
