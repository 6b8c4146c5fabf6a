import Verif.Spec.HttpServer
import Verif.Lemmas.TextChars
import Verif.Lemmas.Utf8
import Verif.Lemmas.Parts
import Verif.Lemmas.Frame
import Verif.Props.WebJson
/-!
# C97: the web server of the examples
-/
namespace Props.HttpServer
open Py Nmea Spec

theorem newlines_block (l : Bytes) (hl : 13 ∉ l) {a b : Bytes} (h : Newlines a b) : Newlines (l ++ a) (l ++ b) := by
  induction l with
  | nil => exact h
  | cons c l ih =>
    simp only [List.mem_cons, not_or] at hl
    exact .other c _ _ (fun e => hl.1 e.symm) (ih hl.2)

theorem enc_no (x : Nat) (hx : x < 128) (c : Nat) (hc : c ≠ x) : ∀ b ∈ utf8EncodeChar c, b ≠ x := by
  intro b hb
  unfold utf8EncodeChar at hb
  repeat' split at hb
  all_goals simp only [List.mem_cons, List.not_mem_nil, or_false] at hb
  all_goals omega

theorem enc_head (c : Nat) : ∃ b r, utf8EncodeChar c = b :: r := by
  unfold utf8EncodeChar
  repeat' split
  all_goals exact ⟨_, _, rfl⟩

theorem byte_ne {x y : Nat} (hx : x < 256) (hy : y < 256) (h : x ≠ y) : UInt8.ofNat x ≠ UInt8.ofNat y := by
  intro e
  apply h
  have := congrArg UInt8.toNat e
  simp only [UInt8.toNat_ofNat'] at this
  rwa [Nat.mod_eq_of_lt hx, Nat.mod_eq_of_lt hy] at this

theorem enc_bytes_no (x : Nat) (hx : x < 128) (c : Nat) (hs : isScalar c = true) (hc : c ≠ x) :
    UInt8.ofNat x ∉ (utf8EncodeChar c).map UInt8.ofNat := by
  intro h
  obtain ⟨b, hb, e⟩ := List.mem_map.1 h
  exact byte_ne (utf8EncodeChar_lt c hs b hb) (by omega) (enc_no x hx c hc b hb) e

/-- The text with its line ends made LF, encoded. -/
theorem uniNl_newlines (s : Str) (h : s.all isScalar = true) :
    (uniNl s).all isScalar = true ∧
      Newlines ((s.flatMap utf8EncodeChar).map UInt8.ofNat) (((uniNl s).flatMap utf8EncodeChar).map UInt8.ofNat) := by
  induction s using uniNl.induct with
  | case1 => exact ⟨rfl, .nil⟩
  | case2 r ih =>
    simp only [List.all_cons, Bool.and_eq_true] at h
    obtain ⟨h1, h2⟩ := ih h.2.2
    refine ⟨?_, ?_⟩
    · simp only [uniNl, List.all_cons, h1, Bool.and_true]; decide
    · simp only [uniNl, List.flatMap_cons, List.map_append]
      exact .crlf _ _ h2
  | case3 r hr ih =>
    simp only [List.all_cons, Bool.and_eq_true] at h
    obtain ⟨h1, h2⟩ := ih h.2
    have e : uniNl (13 :: r) = 10 :: uniNl r := by
      cases r with
      | nil => rfl
      | cons c r =>
        by_cases hc : c = 10
        · subst hc; exact absurd rfl (hr r)
        · rw [uniNl]; intro r' e'; injection e' with e1 e2; exact hc e1
    rw [e]
    refine ⟨?_, ?_⟩
    · simp only [List.all_cons, h1, Bool.and_true]; decide
    · simp only [List.flatMap_cons, List.map_append]
      refine .cr _ _ ?_ h2
      cases r with
      | nil => simp
      | cons c r =>
        have hc : c ≠ 10 := by rintro rfl; exact absurd rfl (hr r)
        have hsc : isScalar c = true := by
          have := h.2
          simp only [List.all_cons, Bool.and_eq_true] at this
          exact this.1
        obtain ⟨b, t, hb⟩ := enc_head c
        have hno := enc_bytes_no 10 (by omega) c hsc hc
        rw [hb] at hno
        simp only [List.flatMap_cons, hb, List.cons_append, List.map_cons, List.head?_cons]
        intro e
        injection e with e
        apply hno
        rw [List.map_cons, e]
        exact List.mem_cons_self
  | case4 c r h1 h2 ih =>
    simp only [List.all_cons, Bool.and_eq_true] at h
    obtain ⟨i1, i2⟩ := ih h.2
    have hc : c ≠ 13 := by rintro rfl; exact h2 rfl
    have e : uniNl (c :: r) = c :: uniNl r := by
      rw [uniNl]
      · exact h1
      · exact h2
    rw [e]
    refine ⟨by simp [h.1, i1], ?_⟩
    simp only [List.flatMap_cons, List.map_append]
    exact newlines_block _ (enc_bytes_no 13 (by omega) c h.1 hc) i2

theorem pages_path (path name : Str) (hp : (path, name) ∈ pages) :
    ∃ path', path' = (if path = py!"/" then HTML else path) ∧ path' ∈ [HTML, JS, CSS, ICON] ∧ path'.drop 1 = name ∧
      path' = 47 :: name := by
  have key : ∀ p ∈ pages, (if p.1 = py!"/" then HTML else p.1) ∈ [HTML, JS, CSS, ICON] ∧
      (if p.1 = py!"/" then HTML else p.1).drop 1 = p.2 ∧ (if p.1 = py!"/" then HTML else p.1) = 47 :: p.2 := by decide +kernel
  exact ⟨_, rfl, key _ hp⟩

/-- **C97, pages.** A request for one of the five paths gets the file it names, if this is there and UTF-8, with
LF for its line ends. -/
theorem C97_page (files : Str → Option Bytes) (guess : Str → Str) (gps : Except Err Str) (path name : Str)
    (hp : (path, name) ∈ pages) (b : Bytes) (hf : files name = some b) (hu : IsUtf8 b) :
    ∃ body, Newlines b body ∧ doGet files guess gps path = .answer 200 (guess (47 :: name)) body := by
  obtain ⟨path', e, hm, hd, hg⟩ := pages_path path name hp
  obtain ⟨s, hs⟩ := hu
  have hdec := utf8Decode_of_encode s b hs
  have hb := utf8Encode_eq s b hs
  obtain ⟨h1, h2⟩ := uniNl_newlines s (utf8Decode_all b s hdec)
  refine ⟨((uniNl s).flatMap utf8EncodeChar).map UInt8.ofNat, ?_, ?_⟩
  · have : b = (s.flatMap utf8EncodeChar).map UInt8.ofNat := by
      have hs' := hs
      unfold utf8Encode at hs'
      rw [if_pos (utf8Decode_all b s hdec)] at hs'
      injection hs' with hs'
      exact hs'.symm
    rw [this]; exact h2
  · simp only [doGet, ← e, if_pos hm, readPage, hd, hf, hdec, sendPage]
    unfold utf8Encode
    rw [if_pos h1, ← hg]

/-- **C97, a file without CR is shown as it is.** -/
theorem C97_verbatim {b body : Bytes} (h : Newlines b body) (hb : 13 ∉ b) : body = b := by
  induction h with
  | nil => rfl
  | crlf a b _ _ => simp at hb
  | cr a b _ _ _ => simp at hb
  | other c a b _ _ ih =>
    simp only [List.mem_cons, not_or] at hb
    rw [ih hb.2]

/-- **C97, files that cannot be shown.** If the file is missing or not UTF-8, there is no answer. -/
theorem C97_no_page (files : Str → Option Bytes) (guess : Str → Str) (gps : Except Err Str) (path name : Str)
    (hp : (path, name) ∈ pages) (hf : ∀ b, files name = some b → ¬ IsUtf8 b) :
    doGet files guess gps path = .raised .noFile ∨ doGet files guess gps path = .raised .notText := by
  obtain ⟨path', e, hm, hd, hg⟩ := pages_path path name hp
  simp only [doGet, ← e, if_pos hm, readPage, hd]
  cases hb : files name with
  | none => exact .inl rfl
  | some b =>
    right
    cases hdec : utf8Decode b with
    | none => simp only [hdec]
    | some s => exact absurd ⟨s, utf8Encode_of_decode b s hdec⟩ (hf b hb)

/-- **C97, other paths.** Any other path but `/gps` gets 501, whatever files there are. -/
theorem C97_unknown (files : Str → Option Bytes) (guess : Str → Str) (gps : Except Err Str) (path : Str)
    (hp : path ∉ pages.map Prod.fst) (hg : path ≠ py!"/gps") :
    doGet files guess gps path = .answer 501 (guess path) pb!"Unknown Request" := by
  have h : path ≠ py!"/" ∧ path ∉ [HTML, JS, CSS, ICON] := by
    have e : pages.map Prod.fst = [py!"/", HTML, JS, CSS, ICON] := rfl
    rw [e] at hp
    simp only [List.mem_cons, not_or] at hp ⊢
    exact hp
  simp only [doGet, if_neg h.1, if_neg h.2, if_neg hg]
  rfl

/-- **C97, nothing else is disclosed.** The answers depend on four files only. -/
theorem C97_isolation (f g : Str → Option Bytes) (guess : Str → Str) (gps : Except Err Str)
    (h : ∀ p ∈ pages, f p.2 = g p.2) (path : Str) : doGet f guess gps path = doGet g guess gps path := by
  by_cases hp : path ∈ pages.map Prod.fst
  · obtain ⟨⟨p, n⟩, hpn, rfl⟩ := List.mem_map.1 hp
    obtain ⟨path', e, hm, hd, hg⟩ := pages_path p n hpn
    simp only [doGet, ← e, if_pos hm, readPage, hd, h _ hpn]
  · by_cases hg : path = py!"/gps"
    · subst hg; rfl
    · rw [C97_unknown f guess gps path hp hg, C97_unknown g guess gps path hp hg]

/-! ## The data -/

def Ascii (s : Str) : Prop := ∀ c ∈ s, c < 128

theorem ascii_append {a b : Str} (ha : Ascii a) (hb : Ascii b) : Ascii (a ++ b) := by
  intro c hc; rcases List.mem_append.1 hc with h | h
  · exact ha c h
  · exact hb c h

theorem ascii_cons {c : Nat} {s : Str} (h : c < 128) (hs : Ascii s) : Ascii (c :: s) := by
  intro x hx; rcases List.mem_cons.1 hx with rfl | hx
  · exact h
  · exact hs x hx

theorem okS_ascii {s : Str} (h : OkS s) : Ascii s := by
  intro c hc; have := h c hc; unfold OkC at this; omega

theorem jsonHex_ascii (n : Nat) : Ascii (jsonHex n) := by
  refine ascii_cons (by omega) (ascii_cons (by omega) ?_)
  intro c hc
  unfold padZero at hc
  rcases List.mem_append.1 hc with h | h
  · rw [List.mem_replicate] at h; omega
  · obtain ⟨d, hd, rfl⟩ := List.mem_map.1 h
    have := digits_lt 16 n (by omega) d hd
    split <;> omega

theorem jsonChar_ascii (c : Nat) : Ascii (jsonChar c) := by
  unfold jsonChar
  repeat' split
  all_goals first
    | (intro x hx; simp only [List.mem_cons, List.not_mem_nil, or_false] at hx; omega)
    | exact jsonHex_ascii _
    | exact ascii_append (jsonHex_ascii _) (jsonHex_ascii _)

theorem jsonString_ascii (s : Str) : Ascii (jsonString s) := by
  refine ascii_cons (by omega) (ascii_append ?_ (by intro x hx; simp at hx; omega))
  intro x hx
  obtain ⟨c, _, h⟩ := List.mem_flatMap.1 hx
  exact jsonChar_ascii c x h

theorem jsonValue_ascii (v : PyVal) (s : Str) (h : jsonValue v = .ok s) : Ascii s := by
  unfold jsonValue at h
  split at h
  · injection h with h; rw [← h]; exact jsonString_ascii _
  · exact okS_ascii (okS_strOfInt _ _ h)
  · injection h with h; rw [← h]; intro c hc; revert c; decide
  · injection h with h; rw [← h]; split <;> (intro c hc; revert c; decide)
  · injection h with h; rw [← h]; exact okS_ascii (okS_reprFloat _)
  · cases h

theorem jsonMembers_ascii (d : List (Str × PyVal)) : ∀ l, jsonMembers d = .ok l → ∀ s ∈ l, Ascii s := by
  induction d with
  | nil => intro l h s hs; simp only [jsonMembers, Except.ok.injEq] at h; subst h; cases hs
  | cons p d ih =>
    intro l h
    obtain ⟨k, v⟩ := p
    simp only [jsonMembers] at h
    cases hv : jsonValue v with
    | error e => rw [hv] at h; cases h
    | ok t =>
      cases hm : jsonMembers d with
      | error e => rw [hv, hm] at h; cases h
      | ok ts =>
        rw [hv, hm] at h
        injection h with h
        subst h
        intro s hs
        rcases List.mem_cons.1 hs with rfl | hs
        · exact ascii_append (ascii_append (jsonString_ascii k) (by intro c hc; revert c; decide)) (jsonValue_ascii v t hv)
        · exact ih ts hm s hs

theorem getData_ascii (d : List (Str × PyVal)) (s : Str) (h : getData d = .ok s) : Ascii s := by
  unfold getData at h
  cases hm : jsonMembers d with
  | error e => rw [hm] at h; cases h
  | ok ms =>
    rw [hm] at h
    injection h with h
    subst h
    have hs := jsonMembers_ascii d ms hm
    refine ascii_cons (by omega) (ascii_append ?_ (by intro x hx; simp at hx; omega))
    intro c hc
    have key : ∀ (l : List Str), (∀ s ∈ l, Ascii s) → Ascii (List.intercalate py!", " l) := by
      intro l
      induction l with
      | nil => intro _ c hc; simp [List.intercalate] at hc
      | cons a l ih =>
        intro hl
        cases l with
        | nil => simpa [List.intercalate] using hl a (by simp)
        | cons b l =>
          have := ih (fun s hs => hl s (by simp [hs]))
          have e : List.intercalate py!", " (a :: b :: l) = a ++ (py!", " ++ List.intercalate py!", " (b :: l)) := by
            simp [List.intercalate]
          rw [e]
          exact ascii_append (hl a (by simp)) (ascii_append (by intro c hc; revert c; decide) this)
    exact key ms hs c hc

/-- **C97, data.** `/gps` gets the JSON text of the data, as it is. If this could not be made (C87: this does not happen
with `nmeaserver.py`), there is no answer. -/
theorem C97_gps (files : Str → Option Bytes) (guess : Str → Str) (d : List (Str × PyVal)) :
    (∀ text, getData d = .ok text →
      doGet files guess (getData d) py!"/gps" = .answer 200 py!"application/json" (text.map UInt8.ofNat) ∧ ∀ c ∈ text, c < 128) ∧
    (∀ e, getData d = .error e → doGet files guess (getData d) py!"/gps" = .raised (.data e)) := by
  refine ⟨fun text h => ?_, fun e h => ?_⟩
  · have ha := getData_ascii d text h
    refine ⟨?_, ha⟩
    have hsc : text.all isScalar = true := by
      rw [List.all_eq_true]
      intro c hc
      have := ha c hc
      unfold isScalar
      simp
      omega
    have hen : text.flatMap utf8EncodeChar = text := by
      clear h hsc
      induction text with
      | nil => rfl
      | cons c t ih =>
        rw [List.flatMap_cons, ih (fun x hx => ha x (by simp [hx]))]
        unfold utf8EncodeChar
        rw [if_pos (ha c (by simp))]
        rfl
    rw [h]
    simp only [doGet]
    rw [if_neg (by decide), if_pos (by decide)]
    simp only [sendPage]
    unfold utf8Encode
    rw [if_pos hsc, hen]
  · rw [h]
    simp only [doGet]
    rw [if_neg (by decide), if_pos (by decide)]

/-- **C97, with `nmeaserver.py`.** A request for `/gps` is answered with status 200 and JSON text in ASCII, at whatever moment
it comes, whatever the receiver has sent; with finite numbers it is a JSON object with the current data. -/
theorem C97_live {σ : Type} (now : Nat → DateTime) (ops : StreamOps σ) (cfg : RCfg) (inw : Nat → Bool) (hm : cfg.mode = 0) (s : σ)
    (sched : List WebAct) (files : Str → Option Bytes) (guess : Str → Str) :
    ∃ text, doGet files guess (getData ((Spec.Web.start s).run now ops cfg inw sched).data) py!"/gps" =
        .answer 200 py!"application/json" (text.map UInt8.ofNat) ∧ (∀ c ∈ text, c < 128) ∧
      ((∀ d ∈ ((Spec.Web.start s).run now ops cfg inw sched).data, Spec.Web.IsFiniteFloat d.2) →
        Spec.Web.IsObject text ((Spec.Web.start s).run now ops cfg inw sched).data) := by
  obtain ⟨h, -⟩ := Props.Web.json_run (now := now) (ops := ops) (inw := inw) hm s sched
  have hn : ∀ n ∈ Spec.Web.page.map Spec.Web.Entry.name, ∀ c ∈ n, 32 ≤ c ∧ c ≤ 126 ∧ c ≠ 34 ∧ c ≠ 92 := by decide
  obtain ⟨text, h1, h2⟩ := Props.Web.getData_ok _ (fun d hd => hn _ (h d hd).1) (fun d hd => (h d hd).2)
  obtain ⟨g1, g2⟩ := (C97_gps files guess _).1 text h1
  exact ⟨text, g1, g2, h2⟩

/-- The first 82 bytes of /repo/examples/webserver/favicon.ico. -/
def favicon : Bytes := [0, 0, 1, 0, 1, 0, 16, 16, 0, 0, 1, 0, 32, 0, 104, 4, 0, 0, 22, 0, 0, 0, 40, 0, 0, 0, 16, 0, 0, 0, 32, 0,
  0, 0, 1, 0, 32, 0, 0, 0, 0, 0, 0, 0, 0, 0, 0, 0, 0, 0, 0, 0, 0, 0, 0, 0, 0, 0, 0, 0, 0, 0, 0, 0, 0, 0, 0, 0, 0, 0, 0, 0, 0,
  0, 0, 0, 0, 0, 2, 2, 219, 34]

/-- **C97, the icon is never shown.** A file that begins like the icon that comes with the program is not UTF-8: a request for it
gets no answer. -/
theorem C97_favicon (files : Str → Option Bytes) (guess : Str → Str) (gps : Except Err Str) (rest : Bytes)
    (h : files py!"favicon.ico" = some (favicon ++ rest)) :
    doGet files guess gps py!"/favicon.ico" = .raised .notText := by
  have hdec : utf8Decode (favicon ++ rest) = none := by
    have e : favicon = favicon.take 80 ++ [219, 34] := by decide
    unfold utf8Decode
    rw [e, List.append_assoc, List.map_append, utf8DecodeN_ascii_prefix _ _ (by decide)]
    simp only [List.map_append, List.map_cons, List.map_nil, List.cons_append, List.nil_append]
    rw [utf8DecodeN_bad _ _ _ (by decide) (by decide)]
    rfl
  simp only [doGet]
  rw [if_pos (by decide), if_neg (by decide)]
  have e : (py!"/favicon.ico").drop 1 = py!"favicon.ico" := rfl
  simp only [readPage, e, h, hdec]

/-- A directory with a page in it, and something else. -/
theorem C97_example (guess : Str → Str) (gps : Except Err Str) :
    let files : Str → Option Bytes := fun n => if n = py!"index.html" then some pb!"<p>\r\n" else if n = py!"secret" then some pb!"x" else none
    doGet files guess gps py!"/" = .answer 200 (guess py!"/index.html") pb!"<p>\n" ∧
      doGet files guess gps py!"/secret" = .answer 501 (guess py!"/secret") pb!"Unknown Request" ∧
      doGet files guess gps py!"/../secret" = .answer 501 (guess py!"/../secret") pb!"Unknown Request" ∧
      doGet files guess gps py!"/styles.css" = .raised .noFile := by
  refine ⟨by rfl, by rfl, by rfl, by rfl⟩

end Props.HttpServer
