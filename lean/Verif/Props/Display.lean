import Verif.Props.Generate
/-!
# Display of messages: `str` and `repr` (C49, C52)
-/
set_option linter.unusedSimpArgs false
namespace Props
open Py Nmea Spec

/-! ## C52: `str` -/

/-- What `str(msg)` lists: `, name=value` for every attribute whose name does not begin with an
underscore, in the order in which the attributes were set. -/
inductive ShownAs : Attrs → Str → Prop
  | nil : ShownAs [] []
  | hidden (k : Str) (v : PyVal) (r : Attrs) (s : Str) : k.head? = some 95 → ShownAs r s →
      ShownAs ((k, v) :: r) s
  | shown (k : Str) (v : PyVal) (r : Attrs) (s text : Str) : k ≠ [] → k.head? ≠ some 95 →
      v.toStr = .ok text → ShownAs r s →
      ShownAs ((k, v) :: r) (py!", " ++ k ++ py!"=" ++ text ++ s)

theorem strAttrs_iff (a : Attrs) (s : Str) : strAttrs a = .ok s ↔ ShownAs a s := by
  induction a generalizing s with
  | nil =>
    simp only [strAttrs, Except.ok.injEq]
    constructor
    · rintro rfl; exact .nil
    · intro h; cases h; rfl
  | cons kv r ih =>
    obtain ⟨k, v⟩ := kv
    cases k with
    | nil =>
      simp only [strAttrs]
      constructor
      · intro h; cases h
      · intro h; cases h with
        | hidden _ _ _ _ h _ => cases h
        | shown _ _ _ _ _ h _ _ _ => exact absurd rfl h
    | cons k0 ks =>
      simp only [strAttrs, bind, Except.bind, pure, Except.pure]
      by_cases h0 : k0 = 95
      · rw [if_pos h0]
        simp only [List.nil_append]
        constructor
        · intro h
          cases hr : strAttrs r with
          | error e => rw [hr] at h; cases h
          | ok b =>
            rw [hr] at h
            simp only [Except.ok.injEq] at h
            exact .hidden _ _ _ _ (by rw [h0]; rfl) ((ih s).1 (by rw [hr, h]))
        · intro h
          cases h with
          | hidden _ _ _ _ _ h => rw [(ih s).2 h]
          | shown _ _ _ _ _ _ hn _ _ => exact absurd (by rw [h0]; rfl) hn
      · rw [if_neg h0]
        constructor
        · intro h
          cases hv : v.toStr with
          | error e => rw [hv] at h; cases h
          | ok text =>
            rw [hv] at h
            cases hr : strAttrs r with
            | error e => rw [hr] at h; cases h
            | ok b =>
              rw [hr] at h
              simp only [Except.ok.injEq] at h
              rw [← h]
              have := ShownAs.shown (k0 :: ks) v r b text (by simp) (by simp [h0]) hv ((ih b).1 hr)
              simpa using this
        · intro h
          cases h with
          | hidden _ _ _ _ h _ => simp at h; exact absurd h h0
          | shown _ _ _ b text _ _ hv hb =>
            rw [hv, (ih b).2 hb]
            simp

/-- `str(msg)`: the identity, the marker `NOMINAL` exactly for unrecognised ids, and every public
attribute in order. -/
theorem C52_str (m : Msg) (hm : Built m) (s : Str) :
    m.str = .ok s ↔ ∃ id body, m.identity = .ok id ∧ ShownAs m.attrs body ∧
      s = py!"<NMEA(" ++ id ++ (if m.defsource = .unkn then py!", NOMINAL" else []) ++ body ++ py!")>" := by
  unfold Msg.str
  simp only [bind, Except.bind, pure, Except.pure]
  constructor
  · intro h
    cases hi : m.identity with
    | error e => rw [hi] at h; cases h
    | ok id =>
      rw [hi] at h
      simp only at h
      cases hb : strAttrs m.attrs with
      | error e => rw [hb] at h; cases h
      | ok body =>
        rw [hb] at h
        simp only [Except.ok.injEq] at h
        exact ⟨id, body, rfl, (strAttrs_iff _ _).1 hb, h.symm⟩
  · rintro ⟨id, body, hi, hb, rfl⟩
    rw [hi, (strAttrs_iff _ _).2 hb]

/-- Messages made by the constructor or by `parse`: facts proved for the constructor hold for all. -/
theorem built_ind (P : Msg → Prop)
    (h : ∀ now t i mode hp v u ck kw m, mkMsg now t i mode hp v u ck kw = .ok m → P m) (m : Msg) (hm : Built m) : P m := by
  cases hm with
  | make now t i mode hp v u ck kw _ hh => exact h _ _ _ _ _ _ _ _ _ _ hh
  | parse now msg mode v u _ hh =>
    obtain ⟨_, p, _, _, hmk⟩ := parse_accept now msg mode v u m hh
    exact h _ _ _ _ _ _ _ _ _ _ hmk

/-- `NOMINAL` marks exactly the messages whose id is neither built-in nor user-defined. -/
theorem C52_nominal (m : Msg) (hm : Built m) : m.defsource = .unkn ↔ ¬ Recognised m.udefs m.msgID := by
  refine built_ind (fun m => m.defsource = .unkn ↔ ¬ Recognised m.udefs m.msgID) ?_ m hm
  intro now t i mode hp v u ck kw m h
  obtain ⟨_, _, o, _, rfl⟩ := mkMsg_ok _ _ _ _ _ _ _ _ _ _ h
  cases o <;> exact sourceOf_unkn i u

theorem insert_all {β} (P : Str × β → Prop) (k : Str) (v : β) (d : List (Str × β)) (h : ∀ x ∈ d, P x)
    (hk : P (k, v)) : ∀ x ∈ Py.insert k v d, P x := by
  induction d with
  | nil => intro x hx; simp [Py.insert] at hx; rw [hx]; exact hk
  | cons p r ih =>
    obtain ⟨a, b⟩ := p
    simp only [Py.insert]
    split
    · rename_i e
      intro x hx
      rcases List.mem_cons.1 hx with rfl | hx
      · rw [← e]; exact hk
      · exact h x (by simp [hx])
    · intro x hx
      rcases List.mem_cons.1 hx with rfl | hx
      · exact h _ (by simp)
      · exact ih (fun x hx => h x (by simp [hx])) x hx

theorem insert_nodup {β} (k : Str) (v : β) (d : List (Str × β)) (h : (d.map Prod.fst).Nodup) :
    ((Py.insert k v d).map Prod.fst).Nodup := by
  by_cases hk : k ∈ d.map Prod.fst
  · rw [insert_keys_of_mem _ _ _ hk]; exact h
  · rw [insert_not_mem _ _ _ hk, List.map_append, List.nodup_append]
    refine ⟨h, by simp, ?_⟩
    intro a ha b hb
    simp at hb
    rw [hb]; intro e; rw [e] at ha; exact hk ha

/-- Attribute names are distinct: each attribute is shown once. -/
theorem C52_once (m : Msg) (hm : Built m) : (m.attrs.map Prod.fst).Nodup := by
  refine built_ind (fun m => (m.attrs.map Prod.fst).Nodup) ?_ m hm
  intro now t i mode hp v u ck kw m h
  obtain ⟨_, _, o, ho, rfl⟩ := mkMsg_ok _ _ _ _ _ _ _ _ _ _ h
  cases o with
  | none =>
    simp only [finish]
    split
    · have : ∀ (i : Nat) (fs : List Str) (a : Attrs), (a.map Prod.fst).Nodup →
          ((nominalFrom i fs a).map Prod.fst).Nodup := by
        intro i fs
        induction fs generalizing i with
        | nil => exact fun _ h => h
        | cons f fs ih => exact fun a h => ih _ _ (insert_nodup _ _ _ h)
      exact this _ _ _ (by simp)
    · simp
  | some st =>
    simp only [finish]
    have hset : ∀ a n v a', setAttr a n v = .ok a' → (a.map Prod.fst).Nodup → (a'.map Prod.fst).Nodup := by
      intro a n v a' h hn
      unfold setAttr at h
      split at h
      · cases h
      · cases h; exact insert_nodup _ _ _ hn
    unfold outcome at ho
    have hraw : rawOutcome (ctxOf t i mode.toNat hp v u kw) now = .ok (some st) := by
      cases hr : rawOutcome (ctxOf t i mode.toNat hp v u kw) now with
      | error e => rw [hr, wrapErr_error] at ho; cases ho
      | ok o => rw [hr, wrapErr_ok] at ho; exact ho
    unfold rawOutcome at hraw
    split at hraw
    · cases hraw
    · cases hraw
    · rename_i d _
      split at hraw
      · cases hraw
      · have := setPDict_inv (ctxOf t i mode.toNat hp v u kw) now (fun st => (st.attrs.map Prod.fst).Nodup)
          (fun _ => True) d (by
            intro k ty g st _ hn
            cases hs : setSingle (ctxOf t i mode.toNat hp v u kw) now k ty g st with
            | error e => exact trivial
            | ok st' =>
              show (st'.attrs.map Prod.fst).Nodup
              unfold setSingle at hs
              split at hs
              · unfold setSingleStream at hs
                simp only [bind, Except.bind, pure, Except.pure] at hs
                repeat' split at hs
                all_goals first
                  | (cases hs; done)
                  | (cases hs; exact hn)
                  | (cases hs
                     have h1 := hset _ _ _ _ ‹setAttr _ _ _ = .ok _› hn
                     simp only [signOverride]
                     repeat' split
                     all_goals first
                      | exact insert_nodup _ _ _ h1
                      | exact h1)
              · unfold setSingleGen at hs
                simp only [bind, Except.bind, pure, Except.pure] at hs
                repeat' split at hs
                all_goals first
                  | (cases hs; done)
                  | (cases hs
                     exact hset _ _ _ _ ‹setAttr _ _ _ = .ok _› hn)) (fun _ _ _ _ _ _ _ => trivial) [] 
          { pindex := 0, payload := (ctxOf t i mode.toNat hp v u kw).payload0, attrs := [], tick := 0 } (by simp)
        cases hsp : setPDict (ctxOf t i mode.toNat hp v u kw) now d []
          { pindex := 0, payload := (ctxOf t i mode.toNat hp v u kw).payload0, attrs := [], tick := 0 } with
        | error e => rw [hsp] at hraw; cases hraw
        | ok st' =>
          rw [hsp] at this hraw
          simp only [Except.map, Except.ok.injEq, Option.some.injEq] at hraw
          rw [← hraw]
          exact this

/-- A value that can be printed: everything except integers of more than 4300 digits. -/
def Printable (v : PyVal) : Prop := ∀ i, v = .int i → i.natAbs < 10 ^ 4300

theorem printable_toStr (v : PyVal) (h : Printable v) : ∃ s, v.toStr = .ok s := by
  cases v with
  | int i => exact strOfInt_ok i (h i rfl)
  | _ => exact ⟨_, rfl⟩

theorem scanDigits_lt (b : Nat) (prev : Bool) (s : Str) (ds : List Nat) (h : scanDigits b prev s = some ds) :
    ∀ d ∈ ds, d < b := by
  induction s generalizing prev ds with
  | nil =>
    unfold scanDigits at h
    split at h <;> cases h
    intro d hd; cases hd
  | cons c cs ih =>
    unfold scanDigits at h
    split at h
    · split at h
      · exact ih _ _ h
      · cases h
    · split at h
      · rename_i d hd
        obtain ⟨r, hr, rfl⟩ := Option.map_eq_some_iff.1 h
        intro x hx
        rcases List.mem_cons.1 hx with rfl | hx
        · unfold digitValB at hd
          split at hd
          · split at hd
            · cases hd; assumption
            · cases hd
          · cases hd
        · exact ih _ _ hr x hx
      · cases h

theorem ofDigits_lt (b : Nat) (ds : List Nat) (hb : 0 < b) (h : ∀ d ∈ ds, d < b) : ofDigits b ds < b ^ ds.length := by
  induction ds using snoc_ind with
  | h0 => simp [ofDigits]
  | h1 ds d ih =>
    rw [ofDigits_append]
    have h1 := ih (fun x hx => h x (by simp [hx]))
    have h2 := h d (by simp)
    simp only [List.length_append, List.length_singleton, Nat.pow_succ, Nat.pow_zero, Nat.one_mul]
    have e : ofDigits b [d] = d := by simp [ofDigits]
    rw [e]
    calc ofDigits b ds * b + d < ofDigits b ds * b + b := by omega
      _ = (ofDigits b ds + 1) * b := by rw [Nat.add_mul, Nat.one_mul]
      _ ≤ b ^ ds.length * b := Nat.mul_le_mul_right _ h1

theorem intOfStr_printable (s : Str) (i : Int) (h : intOfStr s = .ok i) : i.natAbs < 10 ^ 4300 := by
  unfold intOfStr at h
  simp only at h
  split at h
  · rename_i ds hds
    split at h
    · cases h
    · rename_i hl
      simp only [Except.ok.injEq] at h
      have h1 := ofDigits_lt 10 ds (by omega) (scanDigits_lt 10 _ _ _ hds)
      have h2 : (10 : Nat) ^ ds.length ≤ 10 ^ 4300 :=
        Nat.pow_le_pow_right (by omega) (by unfold maxStrDigits at hl; omega)
      have h3 : i.natAbs = ofDigits 10 ds := by
        rw [← h]; unfold applySign; split <;> omega
      rw [h3]
      exact Nat.lt_of_lt_of_le h1 h2
  · cases h

theorem dmm2ddd_printable (f : Str) (v : PyVal) (h : dmm2ddd f = .ok v) : Printable v := by
  intro i hi
  subst hi
  exfalso
  unfold dmm2ddd at h
  simp only at h
  repeat' split at h
  all_goals cases h

theorem str2val_printable (f ty : Str) (v : PyVal) (h : str2val f ty = .ok v) : Printable v := by
  unfold str2val at h
  split at h
  · cases h; intro i hi; cases hi
  split at h
  · cases h; intro i hi; cases hi
  split at h
  · split at h
    · cases hf : floatOfStr f with
      | error e => rw [hf] at h; cases h
      | ok x => rw [hf] at h; cases h; intro i hi; cases hi
    · cases h; intro i hi; cases hi
  split at h
  · cases h
    intro i hi
    unfold date2utc at hi
    simp only at hi
    repeat' split at hi
    all_goals first | (cases hi; done) | (split at hi <;> cases hi)
  split at h
  · split at h
    · cases hf : intOfStr f with
      | error e => rw [hf] at h; cases h
      | ok x => rw [hf] at h; cases h; intro i hi; cases hi; exact intOfStr_printable _ _ hf
    · cases h; intro i hi; cases hi
  split at h
  · exact dmm2ddd_printable f v h
  split at h
  · cases h
    intro i hi
    unfold time2utc at hi
    simp only at hi
    repeat' split at hi
    all_goals first | (cases hi; done) | (split at hi <;> cases hi)
  · cases h

theorem printable_abs (v : PyVal) (h : Printable v) : Printable v.absV ∧ Printable v.absV.negV := by
  cases v with
  | int i =>
    have := h i rfl
    constructor <;> intro j hj <;> simp only [PyVal.absV, PyVal.negV, PyVal.int.injEq] at hj <;> rw [← hj] <;> omega
  | bool b =>
    have h1 : (1 : Nat) < 10 ^ 4300 := Nat.one_lt_pow (by omega) (by omega)
    constructor <;> intro j hj <;> simp only [PyVal.absV, PyVal.negV, PyVal.int.injEq] at hj <;> rw [← hj] <;>
      cases b <;> simp <;> omega
  | _ => constructor <;> intro j hj <;> cases hj

/-- A name that `str` shows. -/
def ShownName (k : Str) : Prop := k ≠ [] ∧ k.head? ≠ some 95

instance (k : Str) : Decidable (ShownName k) := by unfold ShownName; infer_instance

theorem shownName_append (k s : Str) (h : ShownName k) : ShownName (k ++ s) := by
  cases k with
  | nil => exact absurd rfl h.1
  | cons c cs => exact ⟨by simp, h.2⟩

theorem suffixed_ext (k : Str) (g : List Nat) : ∃ s, suffixed k g = k ++ s := by
  have : ∀ g k, ∃ s, List.foldl (fun k i => if i > 0 then k ++ 95 :: fmt02d i else k) k g = k ++ s := by
    intro g
    induction g with
    | nil => intro k; exact ⟨[], by simp⟩
    | cons i g ih =>
      intro k
      rw [List.foldl_cons]
      split
      · obtain ⟨s, hs⟩ := ih (k ++ 95 :: fmt02d i)
        exact ⟨95 :: fmt02d i ++ s, by rw [hs]; simp⟩
      · exact ih k
  exact this g k

/-- Everything set from a payload can be shown. -/
def AllShown (a : Attrs) : Prop := ∀ kv ∈ a, ShownName kv.1 ∧ Printable kv.2

theorem allShown_str (a : Attrs) (h : AllShown a) : ∃ s, ShownAs a s := by
  induction a with
  | nil => exact ⟨_, .nil⟩
  | cons kv r ih =>
    obtain ⟨k, v⟩ := kv
    obtain ⟨h1, h2⟩ := h (k, v) (by simp)
    obtain ⟨s, hs⟩ := ih (fun x hx => h x (by simp [hx]))
    obtain ⟨t, ht⟩ := printable_toStr v h2
    exact ⟨_, .shown k v r s t h1.1 h1.2 ht hs⟩

theorem stream_shown (c : Ctx) (now : Nat → DateTime) (hs : c.streaming = true) (d : PDict)
    (hd : ∀ k ∈ allNames d, ShownName k) (st st' : St) (h0 : AllShown st.attrs)
    (h : setPDict c now d [] st = .ok st') : AllShown st'.attrs := by
  have := setPDict_inv c now (fun st => AllShown st.attrs) (fun _ => True) d (by
    intro k ty g st hk hn
    rw [setSingle_stream _ _ _ _ _ _ hs]
    cases hss : setSingleStream c k ty g st with
    | error e => exact trivial
    | ok st'' =>
      show AllShown st''.attrs
      unfold setSingleStream at hss
      simp only [bind, Except.bind, pure, Except.pure] at hss
      split at hss
      · cases hss
      split at hss
      · cases hss; exact hn
      split at hss
      · cases hss
      split at hss
      · cases hss
      rename_i val hval
      split at hss
      · cases hss
      rename_i a ha
      cases hss
      have hp := str2val_printable _ _ _ hval
      have hname : ShownName (suffixed k g) := by
        obtain ⟨s, e⟩ := suffixed_ext k g
        rw [e]; exact shownName_append _ _ (hd k (entries_names d k ty hk))
      have ha' : AllShown a := by
        unfold setAttr at ha
        split at ha
        · cases ha
        · cases ha; exact insert_all _ _ _ _ hn ⟨hname, hp⟩
      have hsign : ∀ x v (b : Bool), ShownName x → lookup x a = some v →
          AllShown (Py.insert x (if b then v.absV.negV else v.absV) a) := by
        intro x v b hx hl
        have := (ha' _ (lookup_some_mem _ _ _ hl)).2
        refine insert_all _ _ _ _ ha' ⟨hx, ?_⟩
        cases b
        · exact (printable_abs v this).1
        · exact (printable_abs v this).2
      simp only [signOverride]
      split
      · split
        · rename_i v hv
          split
          · have := hsign py!"lon" v (decide (val = .str py!"W")) (by decide) hv
            simpa using this
          · exact ha'
        · exact ha'
      · split
        · split
          · rename_i v hv
            split
            · have := hsign py!"lat" v (decide (val = .str py!"S")) (by decide) hv
              simpa using this
            · exact ha'
          · exact ha'
        · exact ha') (fun _ _ _ _ _ _ _ => trivial) [] st h0
  rw [h] at this
  exact this

theorem tables_shown : (∀ mode, ∀ kd ∈ standardDefs mode, ∀ k ∈ allNames kd.2, ShownName k) ∧
    (∀ mode, ∀ kd ∈ proprietaryDefs mode, ∀ k ∈ allNames kd.2, ShownName k) := by
  constructor
  · intro mode
    unfold standardDefs
    split <;> decide +kernel
  · intro mode
    unfold proprietaryDefs
    split <;> decide +kernel

/-- `str` never fails for a parsed sentence (user-defined attribute names must be non-empty and not
begin with an underscore): every attribute is public and printable. -/
theorem C52_total (now : Nat → DateTime) (msg : RawMsg) (mode : Int) (v : Nat) (u : UDefs) (m : Msg)
    (hu : ∀ kd ∈ u, SaneNames kd.2 ∧ ∀ k ∈ allNames kd.2, ShownName k)
    (h : parse now msg mode v u = .ok (some m)) :
    (∀ kv ∈ m.attrs, ShownName kv.1) ∧ ∃ s, m.str = .ok s := by
  have hall : AllShown m.attrs := by
    obtain ⟨hm, p, hp, _, _, hcase⟩ := parse_accepted _ _ _ _ _ _ h
    rcases hcase with ⟨_, _, rfl⟩ | ⟨d, st, hd, hst, rfl⟩
    · show AllShown (nominalFrom 1 p.payload [])
      have : ∀ (fs : List Str) (i : Nat) (a : Attrs), AllShown a → AllShown (nominalFrom i fs a) := by
        intro fs
        induction fs with
        | nil => exact fun _ _ h => h
        | cons f fs ih =>
          exact fun i a h => ih _ _ (insert_all _ _ _ _ h
            ⟨shownName_append py!"field_" _ (by decide), by intro i hi; cases hi⟩)
      exact this _ _ _ (by intro kv hkv; cases hkv)
    · refine stream_shown _ _ rfl d ?_ _ _ (by intro kv hkv; cases hkv) hst
      rcases definitionFor_mem _ _ _ _ _ hd with ⟨k, hk⟩ | ⟨k, hk⟩ | ⟨⟨k, hk⟩, _⟩
      · exact tables_shown.1 _ _ hk
      · exact tables_shown.2 _ _ hk
      · exact (hu _ hk).2
  refine ⟨fun kv hkv => (hall kv hkv).1, ?_⟩
  obtain ⟨body, hb⟩ := allShown_str _ hall
  have hb' := Built.parse now msg mode v u m h
  obtain ⟨text, ht, hc⟩ : ∃ text, TextOf msg text ∧ 42 ∈ text := by
    obtain ⟨_, p, hp, _⟩ := parse_accepted _ _ _ _ _ _ h
    apply Classical.byContradiction
    intro hn
    have := (getParts_error msg .nmeaMessage).2 ⟨rfl, hn⟩
    rw [hp] at this; cases this
  obtain ⟨c, t, i, f, k, hs⟩ := C12_total msg text ht hc
  obtain ⟨id, _, hid⟩ := C50_identity _ _ _ _ _ _ _ _ _ _ _ hs h
  exact ⟨_, (C52_str m hb' _).2 ⟨_, body, hid, hb, rfl⟩⟩

example : acceptedWith (fun m => match m.str with
    | .ok s => s == py!"<NMEA(GNROT, rot=1.5, valid=A)>"
    | .error _ => false) (parse clock0 (.str py!"$GNROT,1.5,A*2B\r\n") 0 1 []) = true := by
  decide +kernel

/-- An empty attribute name in a user-defined payload makes `str` raise `IndexError`. -/
theorem C52_empty_name_counterexample : acceptedWith (fun m => match m.str with
    | .error .index => true
    | _ => false) (parse clock0 (.str py!"$GNXYZ,1*00\r\n") 0 0 [(py!"XYZ", .single [] py!"ST" .nil)]) = true := by
  decide +kernel

/-! ## C49: `repr` -/

/-- The constructor call printed by `repr` (/repo/src/pynmeagps/nmeamessage.py:593-606):
`NMEAMessage(talker, msgID, mode, payload=payload)`, all other parameters at their defaults
(/repo/src/pynmeagps/nmeamessage.py:42-53). The quoting of strings is the subject of C66. -/
def evalRepr (now : Nat → DateTime) (m : Msg) : Except Err Msg :=
  mkMsg now m.talker m.msgID m.mode false 1 [] none ⟨some m.payload, []⟩

theorem definitionFor_builtin (mode : Nat) (u : UDefs) (i : Str) (f : List Str)
    (h : IsStandard i ∨ IsProprietary i) : definitionFor mode u i f = definitionFor mode [] i f := by
  unfold definitionFor
  by_cases h1 : IsStandard i
  · simp only [if_pos h1]
  · have h2 := h.resolve_left h1
    simp only [if_neg h1, if_pos h2]

/-- A parsed sentence with a built-in id and a definition: evaluating its `repr` gives a message with
the same header, mode, payload and attributes. If the sentence carried the correct (upper-case)
checksum, the checksum and the wire form are the same too. -/
theorem C49_rebuild (now now' : Nat → DateTime) (msg : RawMsg) (mode : Int) (v : Nat) (u : UDefs) (m : Msg)
    (c t i k : Str) (f : List Str) (hs : IsSentence msg c t i f k)
    (h : parse now msg mode v u = .ok (some m)) (hb : IsStandard i ∨ IsProprietary i)
    (hd : definitionFor mode.toNat u i f ≠ .ok none) (hid : m.identity ≠ .ok py!"PSSNSNC") :
    ∃ m', evalRepr now' m = .ok m' ∧ m'.talker = m.talker ∧ m'.msgID = m.msgID ∧ m'.mode = m.mode ∧
      m'.payload = m.payload ∧ m'.attrs = m.attrs ∧ m'.identity = m.identity ∧
      (k = calcChecksum c → m'.checksum = m.checksum ∧ m'.serialize = m.serialize) := by
  obtain ⟨hm, p, hp, _, _, hcase⟩ := parse_accepted _ _ _ _ _ _ h
  have := sentence_parts _ _ _ _ _ _ hs p hp
  subst this
  simp only at hcase
  obtain ⟨_, _, hmode, _, hpay⟩ := C50_getters _ _ _ _ _ _ _ _ _ _ _ hs h
  have hpay := hpay hid
  rcases hcase with ⟨hn, _⟩ | ⟨d, st, hd', hst, hfin⟩
  · exact absurd hn hd
  · have ht : m.talker = t := by rw [hfin]; rfl
    have hi : m.msgID = i := by rw [hfin]; rfl
    have hpst : st.payload = f := by rw [← hpay, hfin]; rfl
    have hst' : setPDict (ctxOf t i mode.toNat false 1 [] ⟨some f, []⟩) now' d [] (st0 f) = .ok st := by
      rw [← hst]
      exact setPDict_stream_congr (ctxOf t i mode.toNat false 1 [] ⟨some f, []⟩)
        (ctxOf t i mode.toNat false v u ⟨some f, []⟩) now' now ⟨rfl, rfl, rfl, rfl, rfl⟩ _ _ _
    have hmk : evalRepr now' m = .ok (finish (ctxOf t i mode.toNat false 1 [] ⟨some f, []⟩) none (some st)) := by
      unfold evalRepr
      rw [ht, hi, hmode, hpay, mkMsg_eq _ _ _ _ _ _ _ _ _ hm, if_neg ((not_rejected _ _ _ _).2 (by
        intro hv; exact absurd hv (by decide))),
        outcome_received now' t i mode.toNat false 1 [] f [] (by omega) noClash_nil,
        ← definitionFor_builtin mode.toNat u i f hb, hd']
      simp only
      rw [hst']
      rfl
    refine ⟨_, hmk, ?_⟩
    rw [hfin]
    refine ⟨rfl, rfl, rfl, rfl, rfl, rfl, ?_⟩
    intro hk
    obtain ⟨_, _, _, hf⟩ := hs
    have hck : generateChecksum t i st.payload = k := by
      rw [C01_generate_checksum, hpst, ← hf.1, hk]
    have h1 : (finish (ctxOf t i mode.toNat false 1 [] ⟨some f, []⟩) none (some st)).checksum =
        (finish (ctxOf t i mode.toNat false v u ⟨some f, []⟩) (some k) (some st)).checksum := by
      simp only [finish, Option.getD_none, Option.getD_some, ctxOf]
      rw [hck]
    refine ⟨h1, ?_⟩
    unfold Msg.serialize Msg.text
    rw [h1]
    rfl

example : definitionFor 0 [] py!"GLL" [py!"5327.04319", py!"S", py!"00214.41396", py!"E",
    py!"223232.00", py!"A", py!"A"] ≠ .ok none ∧ IsStandard py!"GLL" ∧
    py!"68" = calcChecksum py!"GNGLL,5327.04319,S,00214.41396,E,223232.00,A,A" := by
  refine ⟨?_, by decide +kernel, by decide +kernel⟩
  have : ∃ d, definitionFor 0 [] py!"GLL" [py!"5327.04319", py!"S", py!"00214.41396", py!"E",
    py!"223232.00", py!"A", py!"A"] = .ok (some d) := ⟨_, by rfl⟩
  obtain ⟨d, e⟩ := this
  rw [e]; intro h; cases h

/-- Without a definition the checksum is lost. -/
theorem C49_no_definition_counterexample : acceptedWith (fun m => madeWith
    (fun m' => m'.text == py!"$GNXYZ,1*None\r\n" && m.text == py!"$GNXYZ,1*4F\r\n") (evalRepr clock0 m))
    (parse clock0 (.str py!"$GNXYZ,1*4F\r\n") 0 1 []) = true := by
  decide +kernel

/-- User-defined messages lose their attributes. -/
theorem C49_user_defined_counterexample : acceptedWith (fun m => madeWith
    (fun m' => (lookup py!"speed" m.attrs == some (.int 1)) && (lookup py!"speed" m'.attrs).isNone) (evalRepr clock0 m))
    (parse clock0 (.str py!"$GNXYZ,1*4F\r\n") 0 1 [(py!"XYZ", .single py!"speed" py!"IN" .nil)]) = true := by
  decide +kernel

end Props
