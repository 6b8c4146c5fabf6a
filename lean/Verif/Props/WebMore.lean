import Verif.Props.WebJson
import Verif.Props.Repr
/-!
# C87: texts and numbers that JSON does not know
-/
namespace Props.Web
open Py Nmea Spec Spec.Web PyFloat

theorem jsonHex_body (n : Nat) (h : n < 65536) {s : Str} {u : List Nat} (hs : JsonBody s u) : JsonBody (jsonHex n ++ s) (n :: u) := by
  obtain ⟨h1, h2⟩ := hexLower_spec 4 n h (by omega)
  have e : jsonHex n = 92 :: 117 :: hexLower 4 n := by
    unfold jsonHex hexLower
    congr 3
  rw [e]
  exact .unit _ n s u h1 h2 hs

theorem jsonChar_body (c : Nat) (h : c ≤ 0x10FFFF) {s : Str} {u : List Nat} (hs : JsonBody s u) :
    JsonBody (jsonChar c ++ s) (utf16 [c] ++ u) := by
  have simple : ∀ e, (e, c) ∈ jsonEscapes → c < 0x10000 → JsonBody (92 :: e :: s) (utf16 [c] ++ u) := by
    intro e he hc
    have : utf16 [c] = [c] := by simp [utf16, hc]
    rw [this]
    exact .escape e c s u he hs
  unfold jsonChar
  split
  · rename_i e; subst e; exact simple 34 (by decide) (by decide)
  split
  · rename_i e; subst e; exact simple 92 (by decide) (by decide)
  split
  · rename_i e; subst e; exact simple 110 (by decide) (by decide)
  split
  · rename_i e; subst e; exact simple 114 (by decide) (by decide)
  split
  · rename_i e; subst e; exact simple 116 (by decide) (by decide)
  split
  · rename_i e; subst e; exact simple 102 (by decide) (by decide)
  split
  · rename_i e; subst e; exact simple 98 (by decide) (by decide)
  split
  · have : utf16 [c] = [c] := by simp [utf16]; omega
    rw [this]
    exact .plain c s u (by omega) (by omega) (by omega) (by omega) hs
  split
  · rename_i hc
    have : utf16 [c] = [c] := by simp [utf16, hc]
    rw [this]
    exact jsonHex_body c hc hs
  · rename_i hc
    have : utf16 [c] = [55296 + (c - 65536) / 1024, 56320 + (c - 65536) % 1024] := by simp [utf16, hc]
    rw [this, List.append_assoc]
    exact jsonHex_body _ (by omega) (jsonHex_body _ (by omega) hs)

/-- Whatever text is an entry of a dictionary, `json.dumps` makes a JSON string of it, in ASCII, that stands for the same
text, in quotes. -/
theorem C87_text (s : Str) (h : ∀ c ∈ s, c ≤ 0x10FFFF) :
    ∃ body, jsonValue (.str s) = .ok (py!"\"" ++ body ++ py!"\"") ∧ JsonBody body (utf16 s) := by
  refine ⟨s.flatMap jsonChar, by simp [jsonValue, jsonString], ?_⟩
  induction s with
  | nil => exact .nil
  | cons c s ih =>
    have := jsonChar_body c (h c (by simp)) (ih (fun x hx => h x (by simp [hx])))
    simpa [utf16] using this

theorem no_u (c : Nat) : (117, c) ∉ jsonEscapes := by simp [jsonEscapes]

/-- The text determines the units. -/
theorem jsonBody_functional {s : Str} {u v : List Nat} (h : JsonBody s u) (h' : JsonBody s v) : u = v := by
  induction h generalizing v with
  | nil => cases h'; rfl
  | plain c s u _ _ _ h92 _ ih =>
    cases h' with
    | plain _ _ v' _ _ _ _ h => rw [ih h]
    | escape => exact absurd rfl h92
    | unit => exact absurd rfl h92
  | escape e c s u he _ ih =>
    cases h' with
    | plain _ _ _ _ _ _ h92 _ => exact absurd rfl h92
    | escape _ c' _ v' he' h =>
      have : c = c' := by
        have : ∀ x ∈ jsonEscapes, ∀ y ∈ jsonEscapes, x.1 = y.1 → x.2 = y.2 := by decide
        exact this _ he _ he' rfl
      rw [ih h, this]
    | unit => exact absurd he (no_u _)
  | unit hx n s u hl hn _ ih =>
    generalize hw : 92 :: 117 :: (hx ++ s) = w at h'
    cases h' with
    | nil => cases hw
    | plain _ _ _ _ _ _ h92 _ => cases hw; exact absurd rfl h92
    | escape e c' _ v' he' h => cases hw; exact absurd he' (no_u _)
    | unit hx' n' s' u' hl' hn' h =>
      simp only [List.cons.injEq, true_and] at hw
      obtain ⟨e1, e2⟩ := List.append_inj hw (by omega)
      subst e1 e2
      rw [hn] at hn'
      cases hn'
      rw [ih h]

/-- Two texts with the same JSON have the same UTF-16 units: nothing is lost. -/
theorem C87_text_distinct (s t : Str) (hs : ∀ c ∈ s, c ≤ 0x10FFFF) (ht : ∀ c ∈ t, c ≤ 0x10FFFF)
    (h : jsonValue (.str s) = jsonValue (.str t)) : utf16 s = utf16 t := by
  obtain ⟨b, h1, h2⟩ := C87_text s hs
  obtain ⟨b', h1', h2'⟩ := C87_text t ht
  rw [h1, h1'] at h
  simp only [Except.ok.injEq] at h
  have : b = b' := by simpa using h
  subst this
  exact jsonBody_functional h2 h2'

theorem jsonValue_word {v : PyVal} (h : Jsonable v) :
    ∃ s, jsonValue v = .ok s ∧ (match PythonWord v with | some w => s = w | none => IsJson s v) := by
  obtain ⟨s, h1, h2⟩ := jsonValue_ok h
  refine ⟨s, h1, ?_⟩
  cases v with
  | float x =>
    cases x with
    | nan => simpa [jsonValue, PythonWord, eq_comm] using h1
    | inf b => cases b <;> simpa [jsonValue, PythonWord, eq_comm] using h1
    | fin b m => exact h2 trivial
  | _ => exact h2 trivial

theorem jsonMembers_word (d : List (Str × PyVal)) (hk : ∀ m ∈ d, ∀ c ∈ m.1, 32 ≤ c ∧ c ≤ 126 ∧ c ≠ 34 ∧ c ≠ 92)
    (hv : ∀ m ∈ d, Jsonable m.2) :
    ∃ ts, jsonMembers d = .ok ts ∧
      List.Forall₂ (fun t (m : Str × PyVal) => ∃ v, (match PythonWord m.2 with | some w => v = w | none => IsJson v m.2) ∧
        t = py!"\"" ++ m.1 ++ py!"\": " ++ v) ts d := by
  induction d with
  | nil => exact ⟨[], rfl, .nil⟩
  | cons m d ih =>
    obtain ⟨k, v⟩ := m
    obtain ⟨ts, h1, h2⟩ := ih (fun m hm => hk m (by simp [hm])) (fun m hm => hv m (by simp [hm]))
    obtain ⟨s, h3, h4⟩ := jsonValue_word (hv (k, v) (by simp))
    refine ⟨(jsonString k ++ py!": " ++ s) :: ts, by simp [jsonMembers, h1, h3, bind, Except.bind, pure, Except.pure], .cons ⟨s, h4, ?_⟩ h2⟩
    rw [jsonString_plain k (hk (k, v) (by simp))]
    simp

variable {σ : Type} {now : Nat → DateTime} {ops : StreamOps σ} {cfg : RCfg} {inw : Nat → Bool}

/-- Every request is answered by the text of an object with the entries of the dictionary, `nan` and the infinities being
written as the words `NaN`, `Infinity` and `-Infinity` (which is not JSON). -/
theorem C87_words (hm : cfg.mode = 0) (s : σ) (sched : List WebAct) :
    ∃ text, ((start s).run now ops cfg inw (sched ++ [.request])).answers =
        ((start s).run now ops cfg inw sched).answers ++ [.ok text] ∧
      IsPythonObject text ((start s).run now ops cfg inw sched).data := by
  obtain ⟨h, -⟩ := json_run (now := now) (ops := ops) (inw := inw) hm s sched
  have hn : ∀ n ∈ page.map Entry.name, ∀ c ∈ n, 32 ≤ c ∧ c ≤ 126 ∧ c ≠ 34 ∧ c ≠ 92 := by decide
  obtain ⟨ts, h1, h2⟩ := jsonMembers_word _ (fun d hd => hn _ (h d hd).1) (fun d hd => (h d hd).2)
  refine ⟨123 :: (List.intercalate py!", " ts ++ [125]), ?_, ts, h2, by simp⟩
  rw [run_append]
  have : getData ((start s).run now ops cfg inw sched).data = .ok (123 :: (List.intercalate py!", " ts ++ [125])) := by
    simp [getData, h1, bind, Except.bind, pure, Except.pure]
  rw [← this]
  rfl

/-- An infinity and a `nan` have no JSON. -/
theorem C87_no_json (v : PyVal) (w : Str) (h : PythonWord v = some w) : ¬ IsNumber w := by
  rintro ⟨minus, int, frac, exp, e, hm, ⟨hi, hd⟩, -⟩
  have hw : w ∈ [py!"NaN", py!"Infinity", py!"-Infinity"] := by
    cases v with
    | float x =>
      cases x with
      | nan => cases h; decide
      | inf b => cases b <;> cases h <;> decide
      | fin b m => cases h
    | _ => cases h
  have hc : w.head? = some 45 ∧ (w.drop 1).head? = some 73 ∨ w.head? = some 78 ∨ w.head? = some 73 := by
    revert hw; generalize w = w; intro hw
    rcases List.mem_cons.1 hw with rfl | hw
    · exact .inr (.inl rfl)
    rcases List.mem_cons.1 hw with rfl | hw
    · exact .inr (.inr rfl)
    rcases List.mem_cons.1 hw with rfl | hw
    · exact .inl ⟨rfl, rfl⟩
    · cases hw
  cases int with
  | nil => exact hi rfl
  | cons c int =>
    have := hd c (by simp)
    rcases hm with rfl | rfl
    · subst e; simp at hc; omega
    · subst e; simp at hc; omega

theorem readMsg_no_library (hq : cfg.quitonerror ≠ 2) (s : σ) (e : Err) (h : (readMsg now ops cfg s).1 = .raised e) :
    ¬ LibraryError e := by
  induction s using ops.rel.wf.induction with
  | _ s ih =>
    have hd := step_dec now ops cfg s
    rw [readMsg_eq] at h
    cases hs : step now ops cfg s with
    | mk ev s1 =>
      rw [hs] at h hd
      cases ev with
      | eof => cases h
      | msg raw m => cases h
      | crash e' => cases h; exact (step_errors now ops cfg s s1 e).2 hs
      | skip => exact ih s1 (hd.resolve_left (by simp)) h
      | err e' =>
        simp only [if_neg hq] at h
        exact ih s1 (hd.resolve_left (by simp)) h

/-- With the settings of the program: every message it reads comes from a sentence with the right checksum, and no exception of
the library reaches the reading thread. -/
theorem C87_settings (s : σ) (sched : List WebAct) (r : ReadResult)
    (hr : r ∈ readsMade now ops webCfg inw (start s) sched) :
    (∀ raw m, r = .item raw (some m) → ∃ text content cksum, TextOf (.bytes raw) text ∧ HasContent text content cksum ∧
      upper cksum = calcChecksum content) ∧
    ∀ e, r = .raised e → ¬ LibraryError e := by
  obtain ⟨n, h1, h2⟩ := C87_reads (now := now) (ops := ops) (cfg := webCfg) (inw := inw) s sched
  rw [h1] at hr
  clear h1 h2
  induction n generalizing s with
  | zero => simp [reads] at hr
  | succ n ih =>
    simp only [reads, List.mem_cons] at hr
    rcases hr with rfl | hr
    · refine ⟨fun raw m h => ?_, fun e h => readMsg_no_library (by decide) s e h⟩
      exact C03_accept_implies_checksum now _ _ _ _ m (by decide) (readMsg_item (cfg := webCfg) s raw (some m) h)
    · exact ih _ hr

/-- Quotes, a backslash, a line end, Umlaut and emoji. -/
example : jsonValue (.str [97, 34, 92, 10, 0xE4, 0x1F600]) = .ok py!"\"a\\\"\\\\\\n\\u00e4\\ud83d\\ude00\"" ∧
    utf16 [97, 34, 92, 10, 0xE4, 0x1F600] = [97, 34, 92, 10, 0xE4, 0xD83D, 0xDE00] := by decide +kernel

end Props.Web
