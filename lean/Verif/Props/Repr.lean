import Verif.Model.Repr
import Verif.Spec.Repr
import Verif.Lemmas.Dec
import Verif.Props.Invariance
/-!
# `repr` of a message (C66)
-/
namespace Props
open Py Nmea Spec

/-! ## Characters -/

theorem hexDigit_lower (d : Nat) (h : d < 16) : hexDigit (digitLower d) = some d := by
  have : ∀ d < 16, hexDigit (digitLower d) = some d := by decide
  exact this d h

theorem hexNum_append (s t : Str) (a b : Nat) (h : hexNum a s = some b) : hexNum a (s ++ t) = hexNum b t := by
  induction s generalizing a with
  | nil => simp only [hexNum, Option.some.injEq] at h; rw [h]; rfl
  | cons c s ih =>
    simp only [List.cons_append, hexNum] at h ⊢
    cases hd : hexDigit c with
    | none => rw [hd] at h; cases h
    | some d => rw [hd] at h; exact ih _ h

theorem hexNum_digits (ds : List Nat) (h : ∀ d ∈ ds, d < 16) (a : Nat) :
    hexNum a (ds.map digitLower) = some (ds.foldl (fun a d => a * 16 + d) a) := by
  induction ds generalizing a with
  | nil => rfl
  | cons d ds ih =>
    simp only [List.map_cons, hexNum, hexDigit_lower d (h d (by simp)), Option.bind_some, List.foldl_cons]
    rw [ih (fun x hx => h x (by simp [hx])), Nat.mul_comm]

theorem hexNum_zeros (n : Nat) : hexNum 0 (List.replicate n 48) = some 0 := by
  induction n with
  | zero => rfl
  | succ n ih => rw [List.replicate_succ, hexNum]; simpa [hexDigit] using ih

theorem digits_length (n k : Nat) (h : n < 16 ^ k) (hk : 0 < k) : (digits 16 n).length ≤ k := by
  exact (digits_length_le 16 n k (by omega) hk).2 h

theorem hexLower_spec (w n : Nat) (h : n < 16 ^ w) (hw : 0 < w) :
    (hexLower w n).length = w ∧ hexNum 0 (hexLower w n) = some n := by
  unfold hexLower
  constructor
  · rw [padZero_length]
    have := digits_length n w h hw
    simp only [List.length_map]; omega
  · unfold padZero
    rw [hexNum_append _ _ 0 0 (hexNum_zeros _), hexNum_digits _ (digits_lt 16 n (by omega))]
    exact congrArg some (ofDigits_digits 16 n (by omega))

/-- The text of one character stands for that character. -/
theorem escChar_lit (pr : Nat → Bool) (q c : Nat) (hq : q = 39 ∨ q = 34) (hc : c ≤ 0x10FFFF) (s v : Str)
    (h : LitBody q s v) : LitBody q (escChar pr q c ++ s) (c :: v) := by
  have hx : ∀ e w, (e, w) ∈ hexEscapes → 0 < w → c < 16 ^ w → LitBody q (92 :: e :: hexLower w c ++ s) (c :: v) := by
    intro e w he hw hlt
    obtain ⟨h1, h2⟩ := hexLower_spec w c hlt hw
    have := LitBody.hex (q := q) e w c (hexLower w c) s v he h1 h2 hc h
    simpa using this
  unfold escChar
  split
  · rename_i hcq
    refine .simple c c s v ?_ h
    have : c = 39 ∨ c = 34 ∨ c = 92 := by omega
    rcases this with rfl | rfl | rfl <;> decide
  · rename_i hcq
    split
    · rename_i e; subst e; exact .simple 116 9 s v (by decide) h
    · split
      · rename_i e; subst e; exact .simple 110 10 s v (by decide) h
      · split
        · rename_i e; subst e; exact .simple 114 13 s v (by decide) h
        · have hp : LitBody q ([c] ++ s) (c :: v) := .plain c s v (by omega) (by omega) (by omega) (by omega) h
          split
          · exact hx 120 2 (by decide) (by omega) (by omega)
          · split
            · exact hp
            · split
              · exact hp
              · split
                · exact hx 120 2 (by decide) (by omega) (by omega)
                · split
                  · exact hx 117 4 (by decide) (by omega) (by omega)
                  · exact hx 85 8 (by decide) (by omega) (by omega)

/-- A string Python can have: code points. -/
def IsText (s : Str) : Prop := ∀ c ∈ s, c ≤ 0x10FFFF

/-- `repr` of a string is a literal of it, whichever characters are printable. -/
theorem C66_string (pr : Nat → Bool) (s : Str) (h : IsText s) : Literal (reprStr pr s) s := by
  have hq : quoteFor s = 39 ∨ quoteFor s = 34 := by unfold quoteFor; split <;> simp
  refine .mk (quoteFor s) _ s hq ?_
  generalize quoteFor s = q at hq
  induction s with
  | nil => exact .nil
  | cons c s ih =>
    rw [List.flatMap_cons]
    exact escChar_lit pr q c hq (h c (by simp)) _ _ (ih (fun x hx => h x (by simp [hx])))

theorem reprItems_text (pr : Nat → Bool) (l : List Str) (h : ∀ s ∈ l, IsText s) : ItemsText (reprItems pr l) l := by
  induction l with
  | nil => exact .nil
  | cons s l ih =>
    have hs := C66_string pr s (h s (by simp))
    cases l with
    | nil => exact .one _ _ hs
    | cons s' l => exact .cons _ _ _ _ _ hs (ih (fun x hx => h x (by simp [hx])))

/-- Text that can be put between quotes as it is. -/
def QuoteSafe (s : Str) : Prop := ∀ c ∈ s, c ∉ [39, 92, 10, 13]

theorem raw_literal (s : Str) (h : QuoteSafe s) : Literal (py!"'" ++ s ++ py!"'") s := by
  have : LitBody 39 s s := by
    induction s with
    | nil => exact .nil
    | cons c s ih =>
      have := h c (by simp)
      simp only [List.mem_cons, List.not_mem_nil, or_false, not_or] at this
      exact .plain c s s this.1 this.2.1 this.2.2.1 this.2.2.2 (ih (fun x hx => h x (by simp [hx])))
  exact .mk 39 s s (.inl rfl) this

/-- `repr` of a message is a call of the constructor with its talker, id, mode and payload, provided
the talker and the id, which are copied as they are, contain no quote, backslash or line end. The
payload may contain anything. -/
theorem C66_repr (pr : Nat → Bool) (m : Msg) (ht : QuoteSafe m.talker) (hi : QuoteSafe m.msgID)
    (hp : ∀ s ∈ m.payload, IsText s) : CallText (m.repr pr) m.talker m.msgID m.mode m.payload := by
  have := CallText.mk _ _ _ _ _ m.mode _ (raw_literal _ ht) (raw_literal _ hi) (reprItems_text pr _ hp)
  unfold Msg.repr reprList
  simpa using this

/-! ## Literals are unambiguous -/

theorem litBody_unique {q : Nat} (hq : q = 39 ∨ q = 34) {b b' v v' : Str} (h : LitBody q b v) (h' : LitBody q b' v')
    {r r' : Str} (e : b ++ q :: r = b' ++ q :: r') : b = b' ∧ v = v' ∧ r = r' := by
  have hne : q ≠ 92 := by omega
  induction h generalizing b' v' with
  | nil =>
    cases h' with
    | nil => simp only [List.nil_append, List.cons.injEq, true_and] at e; exact ⟨rfl, rfl, e⟩
    | plain c s v h1 => simp only [List.nil_append, List.cons_append, List.cons.injEq] at e; exact absurd e.1.symm h1
    | simple => simp only [List.nil_append, List.cons_append, List.cons.injEq] at e; exact absurd e.1 hne
    | hex => simp only [List.nil_append, List.cons_append, List.cons.injEq] at e; exact absurd e.1 hne
  | plain c s v h1 h2 h3 h4 _ ih =>
    cases h' with
    | nil => simp only [List.nil_append, List.cons_append, List.cons.injEq] at e; exact absurd e.1 h1
    | plain c' s' v' _ _ _ _ h' =>
      simp only [List.cons_append, List.cons.injEq] at e
      obtain ⟨rfl, e⟩ := e
      obtain ⟨rfl, rfl, rfl⟩ := ih h' e
      exact ⟨rfl, rfl, rfl⟩
    | simple => simp only [List.cons_append, List.cons.injEq] at e; exact absurd e.1 h2
    | hex => simp only [List.cons_append, List.cons.injEq] at e; exact absurd e.1 h2
  | simple x c s v hm _ ih =>
    cases h' with
    | nil => simp only [List.nil_append, List.cons_append, List.cons.injEq] at e; exact absurd e.1.symm hne
    | plain c' s' v' _ h2 _ _ h' => simp only [List.cons_append, List.cons.injEq] at e; exact absurd e.1.symm h2
    | simple x' c' s' v' hm' h' =>
      simp only [List.cons_append, List.cons.injEq, true_and] at e
      obtain ⟨rfl, e⟩ := e
      obtain ⟨rfl, rfl, rfl⟩ := ih h' e
      have : ∀ p ∈ simpleEscapes, ∀ p' ∈ simpleEscapes, p.1 = p'.1 → p.2 = p'.2 := by decide
      have := this _ hm _ hm' rfl
      simp only at this
      subst this
      exact ⟨rfl, rfl, rfl⟩
    | hex x' k n ds s' v' hm' =>
      simp only [List.cons_append, List.cons.injEq, true_and] at e
      have : ∀ p ∈ simpleEscapes, ∀ p' ∈ hexEscapes, p.1 ≠ p'.1 := by decide
      exact absurd e.1 (this _ hm _ hm')
  | hex x k n ds s v hm hl hn hle _ ih =>
    cases h' with
    | nil => simp only [List.nil_append, List.cons_append, List.cons.injEq] at e; exact absurd e.1.symm hne
    | plain c' s' v' _ h2 _ _ h' => simp only [List.cons_append, List.cons.injEq] at e; exact absurd e.1.symm h2
    | simple x' c' s' v' hm' h' =>
      simp only [List.cons_append, List.cons.injEq, true_and] at e
      have : ∀ p ∈ simpleEscapes, ∀ p' ∈ hexEscapes, p.1 ≠ p'.1 := by decide
      exact absurd e.1.symm (this _ hm' _ hm)
    | hex x' k' n' ds' s' v' hm' hl' hn' hle' h' =>
      simp only [List.cons_append, List.cons.injEq, true_and, List.append_assoc] at e
      obtain ⟨rfl, e⟩ := e
      have : ∀ p ∈ hexEscapes, ∀ p' ∈ hexEscapes, p.1 = p'.1 → p.2 = p'.2 := by decide
      have hk := this _ hm _ hm' rfl
      simp only at hk
      obtain ⟨rfl, e2⟩ := List.append_inj e (by rw [hl, hl', hk])
      obtain ⟨rfl, rfl, rfl⟩ := ih h' e2
      rw [hn] at hn'
      cases hn'
      exact ⟨rfl, rfl, rfl⟩

theorem literal_unique {l l' v v' : Str} (h : Literal l v) (h' : Literal l' v') {r r' : Str} (e : l ++ r = l' ++ r') :
    l = l' ∧ v = v' ∧ r = r' := by
  obtain ⟨q, b, _, hq, hb⟩ := h
  obtain ⟨q', b', _, hq', hb'⟩ := h'
  simp only [List.cons_append, List.cons.injEq, List.append_assoc, List.nil_append] at e
  obtain ⟨rfl, e⟩ := e
  obtain ⟨rfl, rfl, rfl⟩ := litBody_unique hq hb hb' e
  exact ⟨rfl, rfl, rfl⟩

theorem literal_head {l v : Str} (h : Literal l v) : l.head? = some 39 ∨ l.head? = some 34 := by
  obtain ⟨q, b, _, hq, hb⟩ := h
  rcases hq with rfl | rfl
  · exact .inl rfl
  · exact .inr rfl

theorem items_unique {a a' : Str} {v v' : List Str} (h : ItemsText a v) (h' : ItemsText a' v') {r r' : Str}
    (e : a ++ 93 :: r = a' ++ 93 :: r') : v = v' ∧ r = r' := by
  have hnil : ∀ {l v r r' : Str}, Literal l v → l ++ r ≠ 93 :: r' := by
    intro l v r r' hl e
    have : (l ++ r).head? = some 93 := by rw [e]; rfl
    rcases literal_head hl with h | h <;> rw [List.head?_append, h] at this <;> simp at this
  induction h generalizing a' v' with
  | nil =>
    cases h' with
    | nil => simp only [List.nil_append, List.cons.injEq, true_and] at e; exact ⟨rfl, e⟩
    | one l v hl => exact absurd e.symm (hnil hl)
    | cons l v r v' vs hl => rw [List.append_assoc, List.append_assoc] at e; exact absurd e.symm (hnil hl)
  | one l v hl =>
    cases h' with
    | nil => exact absurd e (hnil hl)
    | one l' v' hl' =>
      obtain ⟨-, rfl, e⟩ := literal_unique hl hl' e
      simp only [List.cons.injEq, true_and] at e
      exact ⟨rfl, e⟩
    | cons l' v' r v' vs hl' =>
      rw [List.append_assoc, List.append_assoc] at e
      obtain ⟨-, rfl, e⟩ := literal_unique hl hl' e
      simp at e
  | cons l v x w ws hl _ ih =>
    rw [List.append_assoc, List.append_assoc] at e
    cases h' with
    | nil => exact absurd e (hnil hl)
    | one l' v' hl' =>
      obtain ⟨-, rfl, e⟩ := literal_unique hl hl' e
      simp at e
    | cons l' v' r v' vs hl' h' =>
      rw [List.append_assoc, List.append_assoc] at e
      obtain ⟨-, rfl, e⟩ := literal_unique hl hl' e
      have e := List.append_cancel_left e
      obtain ⟨h1, h2⟩ := ih h' e
      exact ⟨by rw [h1], h2⟩

theorem natDec_end (a b : Nat) (r r' : Str) (hr : ∀ c ∈ r.head?, isAsciiDigit c = false) (hr' : ∀ c ∈ r'.head?, isAsciiDigit c = false)
    (e : natDec a ++ r = natDec b ++ r') : a = b ∧ r = r' := by
  have h1 := natDec_digit a
  have h2 := natDec_digit b
  have key : ∀ x y : Str, (∀ c ∈ x, isAsciiDigit c = true) → (∀ c ∈ y, isAsciiDigit c = true) →
      x ++ r = y ++ r' → x = y ∧ r = r' := by
    intro x
    induction x with
    | nil =>
      intro y _ hy e
      cases y with
      | nil => exact ⟨rfl, e⟩
      | cons c y =>
        rw [List.nil_append, List.cons_append] at e
        have := hr c (by rw [e]; rfl)
        rw [hy c (by simp)] at this; cases this
    | cons c x ih =>
      intro y hx hy e
      cases y with
      | nil =>
        rw [List.nil_append, List.cons_append] at e
        have := hr' c (by rw [← e]; rfl)
        rw [hx c (by simp)] at this; cases this
      | cons d y =>
        simp only [List.cons_append, List.cons.injEq] at e
        obtain ⟨rfl, e⟩ := e
        obtain ⟨rfl, rfl⟩ := ih y (fun c h => hx c (by simp [h])) (fun c h => hy c (by simp [h])) e
        exact ⟨rfl, rfl⟩
  obtain ⟨h3, h4⟩ := key _ _ h1 h2 e
  refine ⟨?_, h4⟩
  rw [← asciiVal_natDec a, h3, asciiVal_natDec]

/-- The text of a call determines the arguments. -/
theorem C66_unambiguous (text t i t' i' : Str) (mode mode' : Nat) (p p' : List Str)
    (h : CallText text t i mode p) (h' : CallText text t' i' mode' p') :
    t = t' ∧ i = i' ∧ mode = mode' ∧ p = p' := by
  obtain ⟨lt, li, items, _, _, _, _, h1, h2, h3⟩ := h
  generalize he : py!"NMEAMessage(" ++ lt ++ py!"," ++ li ++ py!", " ++ natDec mode ++ py!", payload=[" ++ items ++ py!"])" = text at h'
  obtain ⟨lt', li', items', _, _, _, _, h1', h2', h3'⟩ := h'
  simp only [List.append_assoc] at he
  have he := List.append_cancel_left he
  obtain ⟨-, rfl, he⟩ := literal_unique h1 h1' he
  have he := List.append_cancel_left he
  obtain ⟨-, rfl, he⟩ := literal_unique h2 h2' he
  have he := List.append_cancel_left he
  obtain ⟨rfl, he2⟩ := natDec_end _ _ _ _ (by intro c hc; simp at hc; subst hc; decide)
    (by intro c hc; simp at hc; subst hc; decide) he
  have he3 := List.append_cancel_left he2
  obtain ⟨rfl, -⟩ := items_unique h3 h3' he3
  exact ⟨rfl, rfl, rfl, rfl⟩

/-- So messages with the same `repr` have the same talker, id, mode and payload. -/
theorem C66_distinguishes (pr : Nat → Bool) (m m' : Msg) (ht : QuoteSafe m.talker) (hi : QuoteSafe m.msgID)
    (hp : ∀ s ∈ m.payload, IsText s) (ht' : QuoteSafe m'.talker) (hi' : QuoteSafe m'.msgID)
    (hp' : ∀ s ∈ m'.payload, IsText s) (h : m.repr pr = m'.repr pr) :
    m.talker = m'.talker ∧ m.msgID = m'.msgID ∧ m.mode = m'.mode ∧ m.payload = m'.payload := by
  have h1 := C66_repr pr m ht hi hp
  have h2 := C66_repr pr m' ht' hi' hp'
  rw [h] at h1
  exact C66_unambiguous _ _ _ _ _ _ _ _ _ h1 h2

/-! ## What the call makes -/

/-- Evaluating `repr` of a message of a built-in type that was parsed from a sentence (with any
settings) makes a message with the same talker, id, mode, payload, attributes and `str`; its checksum
is the right one, also when the sentence had been accepted with another. -/
theorem C66_rebuild (now now' : Nat → DateTime) (msg : RawMsg) (mode : Int) (v : Nat) (u : UDefs) (m : Msg)
    (h : parse now msg mode v u = .ok (some m)) (hid : m.identity ≠ .ok py!"PSSNSNC")
    (hb : IsStandard m.msgID ∨ IsProprietary m.msgID) (d : PDict)
    (hd : definitionFor mode.toNat u m.msgID m.payload = .ok (some d)) :
    ∃ m', mkMsg now' m.talker m.msgID m.mode false 1 [] none ⟨some m.payload, []⟩ = .ok m' ∧
      m'.talker = m.talker ∧ m'.msgID = m.msgID ∧ m'.mode = m.mode ∧ m'.payload = m.payload ∧
      m'.attrs = m.attrs ∧ m'.str = m.str ∧
      m'.checksum = some (calcChecksum (commaJoin ((m.talker ++ m.msgID) :: m.payload))) := by
  obtain ⟨hm, p, hp, -, -, hcase⟩ := parse_accepted _ _ _ _ _ _ h
  have hs := (getParts_sentence msg p).1 hp
  obtain ⟨g1, g2, g3, g4, g5⟩ := C50_getters _ _ _ _ _ _ _ _ _ _ _ hs h
  have g5 := g5 hid
  rw [g1, g2, g3, g5]
  rw [g2] at hb hd
  rw [g5] at hd
  have hag : AgreeOn u [] p.msgid := hb.elim .inl (fun h => .inr (.inl h))
  rcases hcase with ⟨hn, _, _⟩ | ⟨d', st, hd', hst, hmeq⟩
  · rw [hn] at hd; cases hd
  rw [hd'] at hd
  cases hd
  have hst' : setPDict (ctxOf p.talker p.msgid mode.toNat false 1 [] ⟨some p.payload, []⟩) now' d [] (st0 p.payload) = .ok st := by
    rw [← setPDict_stream_congr (ctxOf p.talker p.msgid mode.toNat false v u ⟨some p.payload, []⟩)
      (ctxOf p.talker p.msgid mode.toNat false 1 [] ⟨some p.payload, []⟩) now now' ⟨rfl, rfl, rfl, rfl, rfl⟩]
    exact hst
  have hpay : st.payload = p.payload := by rw [← g5, hmeq]; rfl
  refine ⟨finish (ctxOf p.talker p.msgid mode.toNat false 1 [] ⟨some p.payload, []⟩) none (some st), ?_, rfl, rfl, ?_, hpay, ?_, ?_, ?_⟩
  · rw [mkMsg_eq _ _ _ _ _ _ _ _ _ hm, if_neg]
    · rw [outcome_received now' _ _ _ _ _ _ _ _ (by omega) noClash_nil, ← agree_definition mode.toNat u [] _ _ hag, hd']
      simp only
      rw [hst']
      rfl
    · rintro ⟨-, h⟩
      revert h; decide
  · rw [hmeq]; rfl
  · rw [hmeq]; rfl
  · rw [hmeq]
    exact str_congr _ _ rfl rfl rfl (agree_source u [] _ hag).symm
  · show some (generateChecksum p.talker p.msgid st.payload) = _
    rw [C01_generate_checksum, hpay]

/-- The hypotheses of `C66_rebuild` are met by an ordinary sentence. -/
example : ∃ m d, parse clock0 (.bytes pb!"$GNROT,1.5,A*2B\r\n") 0 1 [] = .ok (some m) ∧
    m.identity ≠ .ok py!"PSSNSNC" ∧ (IsStandard m.msgID ∨ IsProprietary m.msgID) ∧
    definitionFor 0 [] m.msgID m.payload = .ok (some d) := by
  obtain ⟨m, h, hm⟩ := (acceptedWith_iff (fun m => decide (m.identity ≠ .ok py!"PSSNSNC" ∧ m.msgID = py!"ROT" ∧
      m.payload = [py!"1.5", py!"A"])) _).1
    (by decide +kernel : acceptedWith _ (parse clock0 (.bytes pb!"$GNROT,1.5,A*2B\r\n") 0 1 []) = true)
  obtain ⟨h1, h2, h3⟩ := of_decide_eq_true hm
  have hd : (match definitionFor 0 [] py!"ROT" [py!"1.5", py!"A"] with
      | .ok (some _) => true | _ => false) = true := by decide +kernel
  split at hd
  · exact ⟨m, _, h, h1, by rw [h2]; left; decide +kernel, by rw [h2, h3]; assumption⟩
  · cases hd

/-- The checksum is not part of `repr`: a sentence with a wrong checksum, accepted without validation,
is rebuilt with the right one. -/
theorem C66_checksum_counterexample :
    ∃ m m', parse clock0 (.bytes pb!"$GNROT,1.5,A*00\r\n") 0 0 [] = .ok (some m) ∧
      m.repr (fun _ => true) = py!"NMEAMessage('GN','ROT', 0, payload=['1.5', 'A'])" ∧
      mkMsg clock0 py!"GN" py!"ROT" 0 false 1 [] none ⟨some [py!"1.5", py!"A"], []⟩ = .ok m' ∧
      m.checksum = some py!"00" ∧ m'.checksum = some py!"2B" := by
  obtain ⟨m, h, hm⟩ := (acceptedWith_iff (fun m => decide
      (m.repr (fun _ => true) = py!"NMEAMessage('GN','ROT', 0, payload=['1.5', 'A'])" ∧ m.checksum = some py!"00")) _).1
    (by decide +kernel : acceptedWith _ (parse clock0 (.bytes pb!"$GNROT,1.5,A*00\r\n") 0 0 []) = true)
  obtain ⟨m', h', hm'⟩ : ∃ m', mkMsg clock0 py!"GN" py!"ROT" 0 false 1 [] none ⟨some [py!"1.5", py!"A"], []⟩ = .ok m' ∧
      m'.checksum = some py!"2B" := by
    have h : (match mkMsg clock0 py!"GN" py!"ROT" 0 false 1 [] none ⟨some [py!"1.5", py!"A"], []⟩ with
        | .ok m => decide (m.checksum = some py!"2B") | _ => false) = true := by decide +kernel
    split at h
    · exact ⟨_, by assumption, by simpa using h⟩
    · cases h
  have := of_decide_eq_true hm
  exact ⟨m, m', h, this.1, h', this.2, hm'⟩

/-- A quote in the message id is copied as it is, so that the text is not even a call. -/
theorem C66_quote_counterexample :
    ∃ m, parse clock0 (.bytes pb!"$GNA'B,1*00\r\n") 0 0 [] = .ok (some m) ∧
      ∀ pr t i mode p, ¬ CallText (m.repr pr) t i mode p := by
  obtain ⟨m, h, hm⟩ := (acceptedWith_iff (fun m => decide (m.talker = py!"GN" ∧ m.msgID = py!"A'B")) _).1
    (by decide +kernel : acceptedWith _ (parse clock0 (.bytes pb!"$GNA'B,1*00\r\n") 0 0 []) = true)
  obtain ⟨h1, h2⟩ := of_decide_eq_true hm
  refine ⟨m, h, ?_⟩
  intro pr t i mode p hc
  unfold Msg.repr at hc
  rw [h1, h2] at hc
  generalize he : py!"NMEAMessage('" ++ py!"GN" ++ py!"','" ++ py!"A'B" ++ py!"', " ++ natDec m.mode ++ py!", payload=" ++
    reprList pr m.payload ++ py!")" = text at hc
  obtain ⟨lt, li, items, _, _, _, _, h1, h2, h3⟩ := hc
  simp only [List.append_assoc] at he
  have he := List.append_cancel_left (as := py!"NMEAMessage(") he
  obtain ⟨-, -, he⟩ := literal_unique (raw_literal py!"GN" (by unfold QuoteSafe; decide)) h1 he
  have he := List.append_cancel_left (as := py!",") he
  obtain ⟨-, -, he⟩ := literal_unique (raw_literal py!"A" (by unfold QuoteSafe; decide)) h2 he
  simp at he

end Props
