import Verif.Py.Str
/-! # Lemmas about the string layer -/
namespace Py

/-! ## splitFirst -/

theorem splitFirst_none (c : Nat) (s : Str) : splitFirst c s = none ↔ c ∉ s := by
  induction s with
  | nil => simp [splitFirst]
  | cons x xs ih =>
    simp only [splitFirst]
    by_cases h : x = c
    · simp [h]
    · rw [if_neg h]
      cases hs : splitFirst c xs with
      | none => simp [ih.1 hs, Ne.symm h]
      | some p =>
        have : c ∈ xs := by
          apply Classical.byContradiction; intro hc; rw [ih.2 hc] at hs; cases hs
        simp [this]

theorem splitFirst_some (c : Nat) (s a b : Str) :
    splitFirst c s = some (a, b) ↔ s = a ++ c :: b ∧ c ∉ a := by
  induction s generalizing a with
  | nil => simp [splitFirst]
  | cons x xs ih =>
    simp only [splitFirst]
    by_cases h : x = c
    · subst h
      simp only [↓reduceIte, Option.some.injEq, Prod.mk.injEq]
      constructor
      · rintro ⟨rfl, rfl⟩; simp
      · rintro ⟨he, hn⟩
        cases a with
        | nil => simp at he; exact ⟨rfl, he⟩
        | cons y ys => simp at he hn; exact absurd he.1 hn.1
    · rw [if_neg h]
      cases hs : splitFirst c xs with
      | none =>
        have hn := (splitFirst_none c xs).1 hs
        simp only [reduceCtorEq, false_iff, not_and]
        intro he
        cases a with
        | nil => simp at he; exact absurd he.1 h
        | cons y ys =>
          simp at he
          rw [he.2] at hn
          simp at hn
      | some p =>
        obtain ⟨a', b'⟩ := p
        simp only [Option.some.injEq, Prod.mk.injEq]
        constructor
        · rintro ⟨rfl, rfl⟩
          have := (ih a').1 (by rw [hs])
          simp [this.1, this.2, Ne.symm h]
        · rintro ⟨he, hn⟩
          cases a with
          | nil => simp at he; exact absurd he.1 h
          | cons y ys =>
            simp at he hn
            obtain ⟨rfl, he⟩ := he
            have := (ih ys).2 ⟨he, hn.2⟩
            rw [hs] at this
            simp at this
            simp [this.1, this.2]

theorem splitFirst_of (c : Nat) (a b : Str) (h : c ∉ a) : splitFirst c (a ++ c :: b) = some (a, b) :=
  (splitFirst_some c _ a b).2 ⟨rfl, h⟩

/-! ## splitAll / joinWith -/

theorem splitAll_ne_nil (c : Nat) (s : Str) : splitAll c s ≠ [] := by
  cases s with
  | nil => simp [splitAll]
  | cons x xs => simp only [splitAll]; split; simp; split <;> simp

theorem joinWith_cons (c : Nat) (x : Str) (l : List Str) (h : l ≠ []) :
    joinWith c (x :: l) = x ++ c :: joinWith c l := by
  cases l with
  | nil => exact absurd rfl h
  | cons y ys => rfl

theorem joinWith_cons_cons (c : Nat) (a : Nat) (x : Str) (l : List Str) :
    joinWith c ((a :: x) :: l) = a :: joinWith c (x :: l) := by
  cases l <;> rfl

theorem joinWith_splitAll (c : Nat) (s : Str) : joinWith c (splitAll c s) = s := by
  induction s with
  | nil => rfl
  | cons x xs ih =>
    simp only [splitAll]
    split
    · rename_i h
      rw [joinWith_cons c _ _ (splitAll_ne_nil c xs), ih, h]; rfl
    · split
      · rename_i h; exact absurd h (splitAll_ne_nil c xs)
      · rename_i h t heq
        rw [joinWith_cons_cons, ← heq, ih]

theorem splitAll_free (c : Nat) (s : Str) : ∀ f ∈ splitAll c s, c ∉ f := by
  induction s with
  | nil => simp [splitAll]
  | cons x xs ih =>
    simp only [splitAll]
    split
    · intro f hf
      simp only [List.mem_cons] at hf
      rcases hf with rfl | hf
      · simp
      · exact ih f hf
    · rename_i hx
      split
      · intro f hf; simp at hf; subst hf; simp [Ne.symm hx]
      · rename_i h t heq
        intro f hf
        simp only [List.mem_cons] at hf
        rcases hf with rfl | hf
        · have := ih h (by rw [heq]; simp)
          simp [Ne.symm hx, this]
        · exact ih f (by rw [heq]; simp [hf])

theorem splitAll_append (c : Nat) (a : Str) (h : c ∉ a) (b : Str) :
    splitAll c (a ++ c :: b) = a :: splitAll c b := by
  induction a with
  | nil => simp [splitAll]
  | cons x xs ih =>
    simp at h
    simp only [List.cons_append, splitAll]
    rw [if_neg (Ne.symm h.1), ih h.2]

theorem splitAll_free_eq (c : Nat) (a : Str) (h : c ∉ a) : splitAll c a = [a] := by
  induction a with
  | nil => rfl
  | cons x xs ih =>
    simp at h
    simp only [splitAll]
    rw [if_neg (Ne.symm h.1), ih h.2]

theorem splitAll_joinWith (c : Nat) (l : List Str) (hl : l ≠ []) (h : ∀ f ∈ l, c ∉ f) :
    splitAll c (joinWith c l) = l := by
  induction l with
  | nil => exact absurd rfl hl
  | cons x xs ih =>
    by_cases hx : xs = []
    · subst hx; exact splitAll_free_eq c x (h x (by simp))
    · rw [joinWith_cons c x xs hx, splitAll_append c x (h x (by simp)),
        ih hx (fun f hf => h f (by simp [hf]))]

/-! ## stripBy -/

theorem dropWhile_decomp {α} (p : α → Bool) (s : List α) :
    ∃ pre, s = pre ++ s.dropWhile p ∧ pre.all p = true :=
  ⟨s.takeWhile p, (List.takeWhile_append_dropWhile).symm, by
    simp only [List.all_eq_true]; intro x hx
    induction s with
    | nil => simp at hx
    | cons y ys ih =>
      simp only [List.takeWhile] at hx
      split at hx
      · simp at hx; rcases hx with rfl | hx
        · assumption
        · exact ih hx
      · simp at hx⟩

/-- Empty, or begins and ends with a character not satisfying `p`. -/
def Stripped (p : Nat → Bool) (s : Str) : Prop :=
  (∀ x ∈ s.head?, p x = false) ∧ (∀ x ∈ s.getLast?, p x = false)

theorem dropWhile_append_all {α} (p : α → Bool) (a b : List α) (h : a.all p = true) :
    (a ++ b).dropWhile p = b.dropWhile p := by
  induction a with
  | nil => rfl
  | cons x xs ih => simp at h; simp [h.1]; exact ih (by simpa using h.2)

theorem dropWhile_of_head {α} (p : α → Bool) (s : List α) (h : ∀ x ∈ s.head?, p x = false) :
    s.dropWhile p = s := by
  cases s with
  | nil => rfl
  | cons x xs => simp at h; simp [List.dropWhile, h]

theorem stripBy_of_stripped (p : Nat → Bool) (pre s post : Str) (h : Stripped p s)
    (hpre : pre.all p = true) (hpost : post.all p = true) : stripBy p (pre ++ s ++ post) = s := by
  unfold stripBy
  rw [List.append_assoc, dropWhile_append_all p pre _ hpre]
  by_cases hs : s = []
  · subst hs
    have : ([] ++ post).dropWhile p = [] := by
      have := dropWhile_append_all p post [] hpost
      simpa using this
    rw [this]; rfl
  · rw [dropWhile_of_head p (s ++ post)]
    · rw [List.reverse_append, dropWhile_append_all p _ _ (by simpa using hpost),
        dropWhile_of_head p, List.reverse_reverse]
      intro x hx
      rw [List.head?_reverse] at hx
      exact h.2 x hx
    · intro x hx
      cases s with
      | nil => exact absurd rfl hs
      | cons y ys => exact h.1 x (by simpa using hx)

theorem stripBy_decomp (p : Nat → Bool) (s : Str) :
    ∃ pre post, s = pre ++ stripBy p s ++ post ∧ pre.all p = true ∧ post.all p = true := by
  obtain ⟨pre, h1, h2⟩ := dropWhile_decomp p s
  obtain ⟨post, h3, h4⟩ := dropWhile_decomp p (s.dropWhile p).reverse
  refine ⟨pre, post.reverse, ?_, h2, by simpa using h4⟩
  unfold stripBy
  conv => lhs; rw [h1]
  have := congrArg List.reverse h3
  rw [List.reverse_reverse, List.reverse_append] at this
  rw [List.append_assoc, ← this]

theorem head_dropWhile {α} (p : α → Bool) (s : List α) : ∀ x ∈ (s.dropWhile p).head?, p x = false := by
  induction s with
  | nil => simp
  | cons y ys ih =>
    simp only [List.dropWhile]
    split
    · exact ih
    · intro x hx; simp at hx; subst hx; simpa using ‹_›

theorem stripBy_stripped (p : Nat → Bool) (s : Str) : Stripped p (stripBy p s) := by
  constructor
  · unfold stripBy
    intro x hx
    rw [List.head?_reverse] at hx
    have h1 := head_dropWhile p s
    generalize s.dropWhile p = t at *
    obtain ⟨post, h3, h4⟩ := dropWhile_decomp p t.reverse
    have h5 := congrArg List.reverse h3
    rw [List.reverse_reverse, List.reverse_append] at h5
    have hne : t.reverse.dropWhile p ≠ [] := by intro h; rw [h] at hx; simp at hx
    apply h1 x
    rw [h5, List.head?_append]
    rw [List.head?_reverse]
    simp only [Option.mem_def] at hx ⊢
    rw [hx]; rfl
  · unfold stripBy
    intro x hx
    rw [List.getLast?_reverse] at hx
    exact head_dropWhile p _ x hx

/-! ## findChar / removeChar -/

theorem findChar_append (c : Nat) (a b : Str) (h : c ∉ a) : findChar c (a ++ c :: b) = some a.length := by
  induction a with
  | nil => simp [findChar]
  | cons x xs ih =>
    simp at h
    simp [findChar, Ne.symm h.1, ih h.2]

/-! ## Dictionaries -/

theorem lookup_insert {β} (k k' : Str) (v : β) (d : List (Str × β)) :
    lookup k (insert k' v d) = if k = k' then some v else lookup k d := by
  induction d with
  | nil => simp [insert, lookup]
  | cons p r ih =>
    obtain ⟨a, b⟩ := p
    simp only [insert]
    by_cases h : k' = a
    · subst h; simp only [↓reduceIte, lookup]; by_cases h2 : k = k' <;> simp [h2]
    · rw [if_neg h]; simp only [lookup]
      by_cases h2 : k = a
      · subst h2; simp [Ne.symm h]
      · rw [if_neg h2, if_neg h2]; exact ih

theorem lookup_some_mem {β} (k : Str) (v : β) (d : List (Str × β)) (h : lookup k d = some v) :
    (k, v) ∈ d := by
  induction d with
  | nil => simp [lookup] at h
  | cons p r ih =>
    obtain ⟨a, b⟩ := p
    simp only [lookup] at h
    split at h
    · cases h; subst_vars; simp
    · simp [ih h]

theorem lookup_none_iff {β} (k : Str) (d : List (Str × β)) :
    lookup k d = none ↔ k ∉ d.map Prod.fst := by
  induction d with
  | nil => simp [lookup]
  | cons p r ih =>
    obtain ⟨a, b⟩ := p
    simp only [lookup, List.map_cons, List.mem_cons, not_or]
    split
    · simp_all
    · simp_all

theorem hasKey_iff {β} (k : Str) (d : List (Str × β)) : hasKey k d = true ↔ k ∈ d.map Prod.fst := by
  have := lookup_none_iff k d
  unfold hasKey
  cases h : lookup k d <;> simp_all

theorem insert_keys_of_mem {β} (k : Str) (v : β) (d : List (Str × β)) (h : k ∈ d.map Prod.fst) :
    (insert k v d).map Prod.fst = d.map Prod.fst := by
  induction d with
  | nil => simp at h
  | cons p r ih =>
    obtain ⟨a, b⟩ := p
    simp only [insert]
    split
    · rfl
    · simp only [List.map_cons, List.cons.injEq, true_and]
      apply ih
      simp only [List.map_cons, List.mem_cons] at h
      rcases h with h | h
      · contradiction
      · exact h

theorem insert_not_mem {β} (k : Str) (v : β) (d : List (Str × β)) (h : k ∉ d.map Prod.fst) :
    insert k v d = d ++ [(k, v)] := by
  induction d with
  | nil => rfl
  | cons p r ih =>
    obtain ⟨a, b⟩ := p
    simp only [List.map_cons, List.mem_cons, not_or] at h
    simp only [insert, if_neg h.1, List.cons_append, ih h.2]

theorem insert_length_le {β} (k : Str) (v : β) (d : List (Str × β)) :
    (insert k v d).length ≤ d.length + 1 := by
  induction d with
  | nil => simp [insert]
  | cons p r ih =>
    simp only [insert]; split <;> simp <;> omega

/-! ## Digits -/

theorem digitsAux_val (b : Nat) (hb : 2 ≤ b) (fuel n : Nat) (acc : List Nat) (h : n < fuel) (v : Nat) :
    (digitsAux b fuel n acc).foldl (fun a d => a * b + d) v =
      acc.foldl (fun a d => a * b + d) (v * b ^ (digitsAux b fuel n []).length + n) := by
  induction fuel generalizing n acc v with
  | zero => omega
  | succ f ih =>
    simp only [digitsAux]
    split
    · simp
    · rename_i hn
      have hlt : n / b < n := Nat.div_lt_self (by omega) hb
      have key : (digitsAux b f (n / b) [n % b]).length = (digitsAux b f (n / b) []).length + 1 := by
        have gen : ∀ (f n : Nat) (acc : List Nat),
            n < f → (digitsAux b f n acc).length = (digitsAux b f n []).length + acc.length := by
          intro f
          induction f with
          | zero => intros; omega
          | succ f ih2 =>
            intro n acc hn
            simp only [digitsAux]
            split
            · simp; omega
            · have : n / b < n := Nat.div_lt_self (by omega) hb
              rw [ih2 (n / b) (n % b :: acc) (by omega), ih2 (n / b) [n % b] (by omega)]
              simp; omega
        rw [gen f (n / b) [n % b] (by omega)]; rfl
      rw [ih (n / b) (n % b :: acc) (by omega) v, key]
      simp only [List.foldl_cons]
      congr 1
      rw [Nat.add_mul, Nat.pow_succ, Nat.add_assoc, Nat.mul_comm (n / b) b, Nat.div_add_mod,
        Nat.mul_assoc]

theorem ofDigits_digits (b n : Nat) (hb : 2 ≤ b) : ofDigits b (digits b n) = n := by
  unfold ofDigits digits
  rw [digitsAux_val b hb (n + 1) n [] (by omega) 0]
  simp

theorem digitsAux_lt (b : Nat) (hb : 2 ≤ b) (fuel n : Nat) (acc : List Nat)
    (hacc : ∀ d ∈ acc, d < b) : ∀ d ∈ digitsAux b fuel n acc, d < b := by
  induction fuel generalizing n acc with
  | zero => exact hacc
  | succ f ih =>
    simp only [digitsAux]
    split
    · intro d hd; simp at hd; rcases hd with rfl | hd
      · assumption
      · exact hacc d hd
    · apply ih
      intro d hd; simp at hd; rcases hd with rfl | hd
      · exact Nat.mod_lt _ (by omega)
      · exact hacc d hd

theorem digits_lt (b n : Nat) (hb : 2 ≤ b) : ∀ d ∈ digits b n, d < b :=
  digitsAux_lt b hb _ _ _ (by simp)

theorem digitsAux_ne_nil (b fuel n : Nat) (acc : List Nat) (h : n < fuel) :
    digitsAux b fuel n acc ≠ [] := by
  induction fuel generalizing n acc with
  | zero => omega
  | succ f ih =>
    simp only [digitsAux]
    split
    · simp
    · by_cases hf : n / b < f
      · exact ih _ _ hf
      · -- then the accumulator is non-empty already
        have gen : ∀ (f n : Nat) (acc : List Nat), acc ≠ [] → digitsAux b f n acc ≠ [] := by
          intro f
          induction f with
          | zero => intro n acc h; exact h
          | succ f ih2 => intro n acc h; simp only [digitsAux]; split; simp; exact ih2 _ _ (by simp)
        exact gen _ _ _ (by simp)

theorem digits_ne_nil (b n : Nat) : digits b n ≠ [] := digitsAux_ne_nil b _ _ _ (by omega)

/-- Extensionality step: the digits of `n` are those of `n / b` followed by `n % b`. -/
theorem digitsAux_append (b fuel n : Nat) (acc : List Nat) (hb : 2 ≤ b) (h : n < fuel) :
    digitsAux b fuel n acc = digitsAux b fuel n [] ++ acc := by
  induction fuel generalizing n acc with
  | zero => omega
  | succ f ih =>
    simp only [digitsAux]
    split
    · simp
    · have : n / b < n := Nat.div_lt_self (by omega) hb
      rw [ih (n / b) (n % b :: acc) (by omega), ih (n / b) [n % b] (by omega)]
      simp

theorem digitsAux_fuel (b f g n : Nat) (acc : List Nat) (hb : 2 ≤ b) (h : n < f) (h' : n < g) :
    digitsAux b f n acc = digitsAux b g n acc := by
  induction f generalizing n acc g with
  | zero => omega
  | succ f ih =>
    cases g with
    | zero => omega
    | succ g =>
      simp only [digitsAux]
      split
      · rfl
      · have : n / b < n := Nat.div_lt_self (by omega) hb
        exact ih _ _ _ (by omega) (by omega)

theorem digits_small (b n : Nat) (h : n < b) : digits b n = [n] := by
  simp [digits, digitsAux, h]

theorem digits_step (b n : Nat) (hb : 2 ≤ b) (h : b ≤ n) : digits b n = digits b (n / b) ++ [n % b] := by
  have hlt : n / b < n := Nat.div_lt_self (by omega) hb
  unfold digits
  conv => lhs; unfold digitsAux
  rw [if_neg (by omega), digitsAux_append b n (n / b) _ hb hlt]
  rw [digitsAux_fuel b n (n / b + 1) (n / b) [] hb hlt (by omega)]

theorem digits_length_le (b n k : Nat) (hb : 2 ≤ b) (hk : 1 ≤ k) :
    (digits b n).length ≤ k ↔ n < b ^ k := by
  induction k generalizing n with
  | zero => omega
  | succ k ih =>
    by_cases h : n < b
    · rw [digits_small b n h]
      have : b ^ 1 ≤ b ^ (k + 1) := Nat.pow_le_pow_right (by omega) (by omega)
      simp at this ⊢; omega
    · rw [digits_step b n hb (by omega)]
      simp only [List.length_append, List.length_cons, List.length_nil]
      by_cases hk0 : k = 0
      · subst hk0
        have := List.length_pos_iff.2 (digits_ne_nil b (n / b))
        simp only [Nat.zero_add, Nat.pow_one]; omega
      · have := ih (n / b) (by omega)
        rw [Nat.pow_succ, ← Nat.div_lt_iff_lt_mul (by omega), ← this]
        omega

theorem digits_head_ne_zero (b n : Nat) (hb : 2 ≤ b) (h : 0 < n) : ∀ d ∈ (digits b n).head?, d ≠ 0 := by
  induction n using Nat.strongRecOn with
  | _ n ih =>
    by_cases hn : n < b
    · rw [digits_small b n hn]; simp; omega
    · rw [digits_step b n hb (by omega)]
      have h1 : n / b < n := Nat.div_lt_self (by omega) hb
      have h2 : 0 < n / b := Nat.div_pos (by omega) (by omega)
      have := ih (n / b) h1 h2
      intro d hd
      apply this d
      rw [List.head?_append] at hd
      cases hh : (digits b (n / b)).head? with
      | none => simp [digits_ne_nil] at hh
      | some x => rw [hh] at hd; simpa using hd

theorem digitVal_digitUpper (d : Nat) (h : d < 16) : digitVal (digitUpper d) = some d := by
  have : ∀ d : Fin 16, digitVal (digitUpper d.val) = some d.val := by decide
  exact this ⟨d, h⟩

theorem digitUpper_inj (a b : Nat) (ha : a < 16) (hb : b < 16) (h : digitUpper a = digitUpper b) :
    a = b := by
  have h1 := digitVal_digitUpper a ha
  have h2 := digitVal_digitUpper b hb
  rw [h] at h1
  rw [h1] at h2
  exact Option.some.inj h2

end Py
