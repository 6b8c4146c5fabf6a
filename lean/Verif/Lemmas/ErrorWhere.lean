import Verif.Lemmas.ErrorText
import Verif.Lemmas.ReceivedFirst
import Verif.Lemmas.ParseErr
/-! # Lemmas: which entry of a definition an exception names -/
namespace Nmea
open Py Spec

theorem str2val_unknown (f t : Str) (h : str2val f t = .error .nmeaType) : t ∉ receivedTypes := by
  unfold str2val at h
  split at h
  · cases h
  split at h
  · cases h
  split at h
  · split at h
    · cases hf : floatOfStr f with
      | error e' => rw [hf] at h; have := floatOfStr_error _ _ hf; subst this; cases h
      | ok x => rw [hf] at h; cases h
    · cases h
  split at h
  · cases h
  split at h
  · split at h
    · cases hf : intOfStr f with
      | error e' => rw [hf] at h; have := intOfStr_error _ _ hf; subst this; cases h
      | ok x => rw [hf] at h; cases h
    · cases h
  split at h
  · cases dmm2ddd_error _ _ h
  split at h
  · cases h
  · rename_i h1 h2 h3 h4 h5 h6 h7
    simp only [not_or] at h1 h2 h3 h4 h5 h6 h7
    simp only [receivedTypes, List.mem_cons, List.not_mem_nil, or_false, not_or]
    exact ⟨h1.1, h3, h4.1, h4.2, h2, h5, h6.1, h1.2.2.1, h6.2, h1.2.2.2.1, h1.2.2.2.2, h1.2.1, h7⟩

theorem setSingleStream_unknown (c : Ctx) (k t : Str) (g : List Nat) (st : St)
    (h : setSingleStream c k t g st = .error .nmeaType) : t ∉ receivedTypes := by
  unfold setSingleStream at h
  simp only [bind, Except.bind] at h
  split at h
  · rename_i h1; cases h; cases identityOf_error _ _ _ _ h1
  · split at h
    · cases h
    · split at h
      · cases h
      · split at h
        · rename_i h1; cases h; exact str2val_unknown _ _ h1
        · split at h
          · rename_i h1; cases h; cases setAttr_error _ _ _ _ h1
          · cases h

/-- What an exception raised while setting attributes of the given types says, before it is wrapped. -/
def Says (known types : List Str) (x : TExc) : Prop :=
  x.1 = .nmeaType → ∃ ty ∈ types, ty ∉ known ∧ x.2 = some (ErrorText.type ty).text

/-- Only an attribute of a type not known makes `NMEATypeError`. -/
structure KnownTypes (c : Ctx) (now : Nat → DateTime) (known : List Str) : Prop where
  single : ∀ k t g st x, setSingleT c now k t g st = .error x → Says known [t] x
  count : ∀ rep b st x n, (repCount c rep b st).mapError bare = .error x → Says known n x

theorem setSingleT_says (c : Ctx) (now : Nat → DateTime) (hs : c.streaming = true) (k t : Str) (g : List Nat) (st : St) (x : TExc)
    (h : setSingleT c now k t g st = .error x) : Says receivedTypes [t] x := by
  unfold setSingleT at h
  rw [setSingle_stream _ _ _ _ _ _ hs] at h
  cases hr : setSingleStream c k t g st with
  | ok s => rw [hr] at h; cases h
  | error e =>
    rw [hr] at h
    cases e <;> cases h <;> intro he <;> first | cases he | skip
    exact ⟨t, by simp, setSingleStream_unknown _ _ _ _ _ hr, rfl⟩

theorem repCount_not_nmeaType (c : Ctx) (hs : c.streaming = true) (rep : Rep) (b : PDict) (st : St) (x : TExc) (n)
    (h : (repCount c rep b st).mapError bare = .error x) : Says receivedTypes n x := by
  intro he
  cases hr : repCount c rep b st with
  | ok n => rw [hr] at h; cases h
  | error e =>
    rw [hr] at h
    cases h
    simp only [bare] at he
    subst he
    unfold repCount at hr
    split at hr
    · cases hr
    · rw [if_pos hs] at hr
      split at hr
      · cases hr
      · cases hr
    · unfold getCount at hr
      split at hr
      · cases hr
      · split at hr
        · cases hr
        · split at hr <;> cases hr

theorem knownTypes_received (c : Ctx) (now : Nat → DateTime) (hs : c.streaming = true) : KnownTypes c now receivedTypes :=
  ⟨fun k t g st x => setSingleT_says c now hs k t g st x, fun rep b st x n => repCount_not_nmeaType c hs rep b st x n⟩

theorem loopFrom_says {σ} (f : Nat → σ → Except TExc σ) (P : TExc → Prop) (h : ∀ i s x, f i s = .error x → P x)
    (n i : Nat) (s : σ) (x : TExc) (hx : loopFrom f n i s = .error x) : P x := by
  induction n generalizing i s with
  | zero => cases hx
  | succ n ih =>
    simp only [loopFrom, bind, Except.bind] at hx
    split at hx
    · cases hx; exact h _ _ _ (by assumption)
    · exact ih _ _ hx

theorem Says.mono {a b : List Str} (h : ∀ t ∈ a, t ∈ b) {x : TExc} {known : List Str} (hx : Says known a x) : Says known b x := by
  intro he
  obtain ⟨t, h1, h2⟩ := hx he
  exact ⟨t, h t h1, h2⟩

theorem setPDictT_says (c : Ctx) (now : Nat → DateTime) {known : List Str} (hs : KnownTypes c now known) (d : PDict) (g : List Nat) (st : St) (x : TExc)
    (h : setPDictT c now d g st = .error x) : Says known (allTypes d) x := by
  induction d generalizing g st x with
  | nil => cases h
  | single k t r ih =>
    simp only [setPDictT, bind, Except.bind] at h
    split at h
    · cases h
      exact (hs.single k t g st _ (by assumption)).mono (by simp [allTypes])
    · exact (ih _ _ _ h).mono (by intro t ht; simp [allTypes, ht])
  | group k rep b r ihb ihr =>
    simp only [setPDictT, bind, Except.bind] at h
    split at h
    · cases h
      exact hs.count rep b st _ _ (by assumption)
    · split at h
      · cases h
        exact (loopFrom_says _ _ (fun i s x hx => ihb _ _ _ hx) _ _ _ _ (by assumption)).mono
          (by intro t ht; simp [allTypes, ht])
      · exact (ihr _ _ _ h).mono (by intro t ht; simp [allTypes, ht])

theorem setPDict_nil (c now g st) : setPDict c now .nil g st = .ok st := rfl

/-- Where the loop over the entries stops. -/
theorem entriesT_stops (c : Ctx) (now : Nat → DateTime) {known : List Str} (hs : KnownTypes c now known) (d : PDict) (st : St) (k : Str) (x : TExc)
    (h : entriesT c now d st = .error (k, x)) :
    Says known (allTypes d) x ∧ ∃ n, entryName d n = some k ∧
      (∀ m ≤ n, ∃ s, setPDict c now (firstEntries m d) [] st = .ok s) ∧
      setPDict c now (firstEntries (n + 1) d) [] st = .error x.1 := by
  induction d generalizing st with
  | nil => cases h
  | single key t r ih =>
    simp only [entriesT] at h
    cases hr : setSingleT c now key t [] st with
    | error y =>
      rw [hr] at h
      cases h
      refine ⟨(hs.single _ _ _ _ _ hr).mono (by simp [allTypes]), 0, rfl, ?_, ?_⟩
      · intro m hm
        obtain rfl : m = 0 := by omega
        exact ⟨st, rfl⟩
      · have := setSingleT_erase c now k t [] st
        rw [hr] at this
        simp only [firstEntries, setPDict, ← this]
        rfl
    | ok s =>
      rw [hr] at h
      obtain ⟨h1, n, hn, hb, ha⟩ := ih _ h
      have he := setSingleT_erase c now key t [] st
      rw [hr] at he
      refine ⟨h1.mono (by intro t ht; simp [allTypes, ht]), n + 1, hn, ?_, ?_⟩
      · intro m hm
        rcases m with _ | m
        · exact ⟨st, rfl⟩
        · obtain ⟨s', hs'⟩ := hb m (by omega)
          exact ⟨s', by simp only [firstEntries, setPDict, ← he]; exact hs'⟩
      · simp only [firstEntries, setPDict, ← he]
        exact ha
  | group key rep b r _ ih =>
    simp only [entriesT] at h
    have he := groupT_erase c now rep b st
    cases hr : (do
      let n ← (repCount c rep b st).mapError bare
      loopFrom (fun i st => setPDictT c now b [i] st) n.toNat 1 st) with
    | error y =>
      rw [hr] at h he
      cases h
      refine ⟨?_, 0, rfl, ?_, ?_⟩
      · simp only [bind, Except.bind] at hr
        split at hr
        · cases hr
          exact hs.count rep b st _ _ (by assumption)
        · exact (loopFrom_says _ _ (fun i s x hx => setPDictT_says c now hs _ _ _ _ hx) _ _ _ _ hr).mono
            (by intro t ht; simp [allTypes, ht])
      · intro m hm
        obtain rfl : m = 0 := by omega
        exact ⟨st, rfl⟩
      · simp only [firstEntries, setPDict, List.nil_append]
        simp only [erase, bind, Except.bind] at he ⊢
        cases hc : repCount c rep b st with
        | error e => rw [hc] at he; exact he.symm ▸ rfl
        | ok n =>
          rw [hc] at he
          simp only at he ⊢
          rw [← he]
    | ok s =>
      rw [hr] at h he
      obtain ⟨h1, n, hn, hb, ha⟩ := ih _ h
      have hk : ∀ q, setPDict c now (.group key rep b q) [] st = setPDict c now q [] s := by
        intro q
        simp only [setPDict, List.nil_append]
        simp only [erase, bind, Except.bind] at he ⊢
        cases hc : repCount c rep b st with
        | error e => rw [hc] at he; cases he
        | ok n =>
          rw [hc] at he
          simp only at he ⊢
          rw [← he]
      refine ⟨h1.mono (by intro t ht; simp [allTypes, ht]), n + 1, hn, ?_, ?_⟩
      · intro m hm
        rcases m with _ | m
        · exact ⟨st, rfl⟩
        · obtain ⟨s', hs'⟩ := hb m (by omega)
          exact ⟨s', by simp only [firstEntries]; rw [hk]; exact hs'⟩
      · simp only [firstEntries]; rw [hk]; exact ha

/-- If the loop over the entries ends, every initial part of it does. -/
theorem entriesT_all (c : Ctx) (now : Nat → DateTime) (d : PDict) (st s : St) (h : entriesT c now d st = .ok s) (n : Nat) :
    ∃ s', setPDict c now (firstEntries n d) [] st = .ok s' := by
  induction d generalizing st n with
  | nil => cases n <;> exact ⟨st, rfl⟩
  | single key t r ih =>
    rcases n with _ | n
    · exact ⟨st, rfl⟩
    simp only [entriesT] at h
    have he := setSingleT_erase c now key t [] st
    cases hr : setSingleT c now key t [] st with
    | error y => rw [hr] at h; cases h
    | ok q =>
      rw [hr] at h he
      obtain ⟨s', hs'⟩ := ih _ h n
      exact ⟨s', by simp only [firstEntries, setPDict, ← he]; exact hs'⟩
  | group key rep b r _ ih =>
    rcases n with _ | n
    · exact ⟨st, rfl⟩
    simp only [entriesT] at h
    have he := groupT_erase c now rep b st
    cases hr : (do
      let n ← (repCount c rep b st).mapError bare
      loopFrom (fun i st => setPDictT c now b [i] st) n.toNat 1 st) with
    | error y => rw [hr] at h; cases h
    | ok q =>
      rw [hr] at h he
      obtain ⟨s', hs'⟩ := ih _ h n
      refine ⟨s', ?_⟩
      simp only [firstEntries, setPDict, List.nil_append]
      simp only [erase, bind, Except.bind] at he ⊢
      cases hc : repCount c rep b st with
      | error e => rw [hc] at he; cases he
      | ok n =>
        rw [hc] at he
        simp only at he ⊢
        rw [← he]
        exact hs'

end Nmea
