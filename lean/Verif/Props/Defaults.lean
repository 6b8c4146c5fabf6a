import Verif.Spec.Defaults
import Verif.Props.Generate
import Verif.Lemmas.DateText
import Verif.Props.Values
import Verif.Props.Lookup
/-!
# Attributes without a keyword (C69)
-/
namespace Props
open Py Nmea Spec

theorem nomval_default (ty : Str) (mode : Nat) (hm : mode = 0 ∨ mode = 1 ∨ mode = 2) (t : DateTime)
    (ht : t.time.Valid) (hp : Bool) (v : PyVal) (text : Str) (h : nomval ty mode t = .ok v)
    (h' : val2str v ty hp = .ok text) : Default mode t ty v text := by
  by_cases hty : ty ∈ attributeTypes
  · simp only [attributeTypes, List.mem_cons, List.not_mem_nil, or_false] at hty
    rcases hty with rfl | rfl | rfl | rfl | rfl | rfl | rfl | rfl | rfl | rfl | rfl | rfl | rfl | rfl
    · cases Except.ok.inj h; cases Except.ok.inj h'; exact .character
    · cases Except.ok.inj h
      have : val2str (.float (.fin false 0)) DE hp = .ok py!"0.0" := by cases hp <;> decide +kernel
      cases Except.ok.inj (this.symm.trans h'); exact .decimal
    · cases Except.ok.inj h; cases Except.ok.inj h'; exact .date
    · cases Except.ok.inj h; cases Except.ok.inj h'; exact .long
    · cases Except.ok.inj h; cases Except.ok.inj h'; exact .monthFirst
    · cases Except.ok.inj h; cases Except.ok.inj h'; exact .hexadecimal
    · cases Except.ok.inj h
      have : val2str (.int 0) IN hp = .ok py!"0" := by cases hp <;> decide +kernel
      cases Except.ok.inj (this.symm.trans h'); exact .whole
    · cases Except.ok.inj h
      have : val2str (.str []) LA hp = .ok [] := by cases hp <;> decide +kernel
      cases Except.ok.inj (this.symm.trans h'); exact .latitude
    · cases Except.ok.inj h; cases Except.ok.inj h'; exact .north
    · cases Except.ok.inj h
      have : val2str (.str []) LN hp = .ok [] := by cases hp <;> decide +kernel
      cases Except.ok.inj (this.symm.trans h'); exact .longitude
    · cases Except.ok.inj h; cases Except.ok.inj h'; exact .east
    · rcases hm with rfl | rfl | rfl
      · cases Except.ok.inj h; cases Except.ok.inj h'; exact .answer rfl
      · cases Except.ok.inj h; cases Except.ok.inj h'; exact .command rfl
      · cases Except.ok.inj h; cases Except.ok.inj h'; exact .query rfl
    · cases Except.ok.inj h; cases Except.ok.inj h'; exact .string
    · cases Except.ok.inj h
      have e : text = t.time.hmsf.take 9 := (Except.ok.inj h').symm
      rw [hmsf_take ht] at e
      subst e
      have := Default.time (mode := mode) (t := t)
      simpa using this
  · rw [(C06_unknown ty hty).2.2 mode t] at h; cases h

/-- In a message made from keywords, every attribute for which the keywords say nothing has the documented
default, and so has its field. -/
theorem C69_default (now : Nat → DateTime) (hnow : ∀ n, (now n).time.Valid) (t i : Str) (mode : Int) (hp : Bool)
    (v : Nat) (u : UDefs) (kw : List (Str × PyVal)) (m : Msg) (hkw : PlainKeywords i kw) (d : PDict)
    (hd : KwDefinition mode.toNat u i kw d) (hsane : SaneGen d)
    (h : mkMsg now t i mode hp v u none ⟨none, kw⟩ = .ok m) :
    ∃ ws, Emit kw mode.toNat hp now d [] [] ws ∧ m.payload = ws.map Written.text ∧ m.attrs = attrsOf ws ∧
      ∀ (q : Nat) (w : Written), ws[q]? = some w → LeftOpen kw (ws.take q) w.name w.ty →
        ∃ n, Default mode.toNat (now n) w.ty w.val w.text := by
  obtain ⟨hm, hrej, _⟩ := mkMsg_ok _ _ _ _ _ _ _ _ _ _ h
  obtain ⟨ws, he, hpay, hattrs⟩ := (C05_generate now t i mode hp v u kw hm ((not_rejected _ _ _ _).1 hrej) hkw d hd hsane
    m.payload m.attrs).1 ⟨m, h, rfl, rfl⟩
  refine ⟨ws, he, hpay, hattrs, ?_⟩
  intro q w hq ⟨hno, hdir⟩
  obtain ⟨h1, h2⟩ := emit_each he (by intro q w hq; simp at hq) q w hq
  refine ⟨clockReads (ws.take q), nomval_default w.ty _ (by omega) _ (hnow _) hp _ _ ?_ h2⟩
  have hk : ∀ x, keywordOr kw w.name x = x := by
    intro x
    unfold keywordOr
    cases hl : lookup w.name kw with
    | none => rfl
    | some y => exact absurd (List.mem_map.2 ⟨_, lookup_some_mem _ _ _ hl, rfl⟩) hno
  have hmap : ∀ r : Except Err PyVal, r.map (keywordOr kw w.name) = r := by
    intro r; cases r with
    | error => rfl
    | ok x => exact congrArg Except.ok (hk x)
  unfold chosen at h1
  simp only [hmap] at h1
  split at h1
  · exact h1
  · rename_i axis ng ot hd'
    rw [hdir axis ng ot hd'] at h1
    exact h1

/-! ## No keywords at all -/

/-- Definitions that can be written without keywords: all types are known, counters are numbers that come
before their group, groups of constant size are flat, and `msgId` is a string. -/
def defaultable : PDict → List Str → Bool
  | .nil, _ => true
  | .single k t r, seen =>
    attributeTypes.contains t && (k != py!"msgId" || t == py!"ST") &&
      defaultable r (if t = IN then k :: seen else seen.filter (· != k))
  | .group _ (.fixed _) b r, _ => IsFlat b && defaultable b [] && defaultable r []
  | .group _ .indet _ r, seen => defaultable r seen
  | .group _ (.named k) _ r, seen => seen.contains k && k != py!"msgmode" && defaultable r seen

/-- The only keyword, if any, is the name of a proprietary sentence. -/
def OnlyName (kw : List (Str × PyVal)) : Prop := kw = [] ∨ ∃ s : Str, kw = [(py!"msgId", .str s)]

theorem OnlyName.lookup {kw} (h : OnlyName kw) (name : Str) :
    Py.lookup name kw = none ∨ name = py!"msgId" ∧ ∃ s, Py.lookup name kw = some (.str s) := by
  rcases h with rfl | ⟨s, rfl⟩
  · exact .inl rfl
  · by_cases hn : name = py!"msgId"
    · subst hn; exact .inr ⟨rfl, s, rfl⟩
    · refine .inl ?_
      simp [Py.lookup, hn]

theorem nominal_written (ty : Str) (h : ty ∈ attributeTypes) (mode : Nat) (t : DateTime) (hp : Bool) :
    ∃ v text, nomval ty mode t = .ok v ∧ val2str v ty hp = .ok text ∧ (ty = IN → v = .int 0) := by
  simp only [attributeTypes, List.mem_cons, List.not_mem_nil, or_false] at h
  rcases h with rfl | rfl | rfl | rfl | rfl | rfl | rfl | rfl | rfl | rfl | rfl | rfl | rfl | rfl
  · exact ⟨_, _, rfl, rfl, fun h => absurd h (by decide)⟩
  · exact ⟨.float (.fin false 0), py!"0.0", rfl, by cases hp <;> decide +kernel, fun h => absurd h (by decide)⟩
  · exact ⟨_, _, rfl, rfl, fun h => absurd h (by decide)⟩
  · exact ⟨_, _, rfl, rfl, fun h => absurd h (by decide)⟩
  · exact ⟨_, _, rfl, rfl, fun h => absurd h (by decide)⟩
  · exact ⟨_, _, rfl, rfl, fun h => absurd h (by decide)⟩
  · exact ⟨.int 0, py!"0", rfl, by cases hp <;> decide +kernel, fun _ => rfl⟩
  · exact ⟨.str [], [], rfl, by cases hp <;> decide +kernel, by decide⟩
  · exact ⟨_, _, rfl, rfl, fun h => absurd h (by decide)⟩
  · exact ⟨.str [], [], rfl, by cases hp <;> decide +kernel, by decide⟩
  · exact ⟨_, _, rfl, rfl, fun h => absurd h (by decide)⟩
  · exact ⟨_, _, rfl, rfl, fun h => absurd h (by decide)⟩
  · exact ⟨_, _, rfl, rfl, fun h => absurd h (by decide)⟩
  · exact ⟨_, _, rfl, rfl, fun h => absurd h (by decide)⟩

theorem chosen_nothing {kw} (hk : OnlyName kw) (mode : Nat) (now : Nat → DateTime) (pre : List Written)
    (name ty : Str) (hp : Bool) (h : ty ∈ attributeTypes) (hn : name = py!"msgId" → ty = py!"ST") :
    ∃ v text, chosen kw mode now pre name ty = .ok v ∧ val2str v ty hp = .ok text ∧ (ty = IN → v = .int 0) := by
  rcases hk.lookup name with hl | ⟨rfl, s, hl⟩
  · obtain ⟨v, text, h1, h2, h3⟩ := nominal_written ty h mode (now (clockReads pre)) hp
    have hn : (nomval ty mode (now (clockReads pre))).map (keywordOr kw name) = .ok v := by
      rw [h1]; simp [Except.map, keywordOr, hl]
    by_cases hdir : directionOf ty = none
    · exact ⟨v, text, by unfold chosen; simp only [hdir, hn], h2, h3⟩
    · have hty : ty = LND ∨ ty = LAD := by
        unfold directionOf at hdir
        split at hdir
        · exact .inl ‹_›
        · split at hdir
          · exact .inr ‹_›
          · exact absurd rfl hdir
      obtain ⟨⟨axis, ng, ot⟩, he⟩ := Option.ne_none_iff_exists'.1 hdir
      cases hl : lastValue axis pre with
      | none => exact ⟨v, text, by unfold chosen; simp only [he, hl, hn], h2, h3⟩
      | some x =>
        refine ⟨.str (if IsNegative x then ng else ot), if IsNegative x then ng else ot,
          by unfold chosen; simp only [he, hl], ?_, ?_⟩
        · rcases hty with rfl | rfl <;> rfl
        · rcases hty with rfl | rfl <;> exact fun h => absurd h (by decide)
  · cases hn rfl
    refine ⟨.str s, s, ?_, rfl, fun h => absurd h (by decide)⟩
    have : directionOf py!"ST" = none := by decide
    unfold chosen; simp only [this]
    show (Except.ok (keywordOr kw py!"msgId" _) : Except Err PyVal) = _
    simp [keywordOr, hl]

theorem lastValue_snoc (k : Str) (pre : List Written) (w : Written) :
    lastValue k (pre ++ [w]) = if w.name = k then some w.val else lastValue k pre := by
  unfold lastValue
  rw [List.filter_append]
  by_cases h : w.name = k <;> simp [h]

theorem suffixed_name (k : Str) (i : Nat) : k ++ groupSuffix i ≠ py!"msgId" := by
  intro h
  have : 95 ∈ py!"msgId" := by
    rw [← h]; exact List.mem_append_right _ (by unfold groupSuffix; exact List.mem_cons_self)
  exact absurd this (by decide)

theorem emit_flat {kw} (hk : OnlyName kw) (mode : Nat) (hp : Bool) (now : Nat → DateTime) (d : PDict)
    (hf : IsFlat d = true) (seen : List Str) (hd : defaultable d seen = true) (i : Nat) (pre : List Written) :
    ∃ post, Emit kw mode hp now d (groupSuffix i) pre post := by
  induction d generalizing seen pre with
  | nil => exact ⟨pre, .nil _ _⟩
  | single k t r ih =>
    simp only [defaultable, Bool.and_eq_true, List.contains_eq_mem, decide_eq_true_eq] at hd
    obtain ⟨v, text, h1, h2, _⟩ := chosen_nothing hk mode now pre (k ++ groupSuffix i) t hp hd.1.1
      (fun e => absurd e (suffixed_name k i))
    obtain ⟨post, hp'⟩ := ih hf _ hd.2 (pre ++ [⟨k ++ groupSuffix i, t, v, text⟩])
    exact ⟨post, .single k t r _ pre post v text h1 h2 hp'⟩
  | group => cases hf

theorem emit_nothing {kw} (hk : OnlyName kw) (mode : Nat) (hp : Bool) (now : Nat → DateTime) (d : PDict)
    (seen : List Str) (hd : defaultable d seen = true) (pre : List Written)
    (hseen : ∀ k ∈ seen, lastValue k pre = some (.int 0)) :
    ∃ post, Emit kw mode hp now d [] pre post := by
  induction d generalizing seen pre with
  | nil => exact ⟨pre, .nil _ _⟩
  | single k t r ih =>
    simp only [defaultable, Bool.and_eq_true, List.contains_eq_mem, decide_eq_true_eq, Bool.or_eq_true,
      bne_iff_ne, beq_iff_eq] at hd
    obtain ⟨v, text, h1, h2, h3⟩ := chosen_nothing hk mode now pre (k ++ []) t hp hd.1.1
      (fun e => hd.1.2.resolve_left (fun h => h (by simpa using e)))
    obtain ⟨post, hp'⟩ := ih _ hd.2 (pre ++ [⟨k ++ [], t, v, text⟩]) (by
      intro k' hk'
      rw [lastValue_snoc]
      simp only [List.append_nil]
      split at hk'
      · rename_i hin
        split
        · rw [h3 hin]
        · rename_i hne
          rcases List.mem_cons.1 hk' with rfl | hk'
          · exact absurd rfl hne
          · exact hseen k' hk'
      · simp only [List.mem_filter, bne_iff_ne] at hk'
        rw [if_neg (fun e => hk'.2 e.symm)]
        exact hseen k' hk'.1)
    exact ⟨post, .single k t r _ pre post v text h1 h2 hp'⟩
  | group k rep body r ihb ihr =>
    cases rep with
    | fixed z =>
      simp only [defaultable, Bool.and_eq_true] at hd
      have hstep : ∀ (i : Nat) (p : List Written), ∃ q, Emit kw mode hp now body ([] ++ groupSuffix (i + 1)) p q :=
        fun i p => emit_flat hk mode hp now body hd.1.1 [] hd.1.2 (i + 1) p
      let at_ : Nat → List Written := fun n => n.rec pre (fun i p => (hstep i p).choose)
      obtain ⟨post, h⟩ := ihr [] hd.2 (at_ z.toNat) (by simp)
      exact ⟨post, .group k _ body r [] pre post z.toNat at_ (.fixed z) rfl
        (fun i _ => (hstep i (at_ i)).choose_spec) h⟩
    | indet =>
      obtain ⟨post, h⟩ := ihr seen hd pre hseen
      have hg : groupsize (kw.map Prod.fst) = .ok 0 := by
        rcases hk with rfl | ⟨s, rfl⟩
        · decide
        · show groupsize [py!"msgId"] = .ok 0
          decide
      exact ⟨post, .group k _ body r [] pre post 0 (fun _ => pre) (.indet 0 hg) rfl (by simp) h⟩
    | named c =>
      simp only [defaultable, Bool.and_eq_true, List.contains_eq_mem, decide_eq_true_eq, bne_iff_ne] at hd
      obtain ⟨post, h⟩ := ihr seen hd.2 pre hseen
      exact ⟨post, .group k _ body r [] pre post 0 (fun _ => pre) (.named c 0 hd.1.2 (hseen c hd.1.1)) rfl
        (by simp) h⟩

theorem Default.nonneg {mode t ty v text} (h : Default mode t ty v text) : IsNegative v = false := by
  cases h <;> rfl

theorem each_default {kw} (hkw : OnlyName kw) (mode : Nat) (hm : mode = 0 ∨ mode = 1 ∨ mode = 2) (hp : Bool)
    (now : Nat → DateTime) (hnow : ∀ n, (now n).time.Valid) (ws : List Written) (he : EachChosen kw mode hp now ws)
    (q : Nat) : ∀ w, ws[q]? = some w → w.name ∉ kw.map Prod.fst → ∃ n, Default mode (now n) w.ty w.val w.text := by
  induction q using Nat.strongRecOn with
  | ind q ih =>
    intro w hq hno
    obtain ⟨h1, h2⟩ := he q w hq
    refine ⟨clockReads (ws.take q), nomval_default w.ty _ hm _ (hnow _) hp _ _ ?_ h2⟩
    have hk : ∀ x, keywordOr kw w.name x = x := by
      intro x
      unfold keywordOr
      cases hl : lookup w.name kw with
      | none => rfl
      | some y => exact absurd (List.mem_map.2 ⟨_, lookup_some_mem _ _ _ hl, rfl⟩) hno
    have hmap : ∀ r : Except Err PyVal, r.map (keywordOr kw w.name) = r := by
      intro r; cases r with
      | error => rfl
      | ok x => exact congrArg Except.ok (hk x)
    unfold chosen at h1
    simp only [hmap] at h1
    split at h1
    · exact h1
    · rename_i axis ng ot hd'
      have hax : axis ∈ [py!"lon", py!"lat"] ∧ nomval w.ty mode (now (clockReads (ws.take q))) = .ok (.str ot) := by
        unfold directionOf at hd'
        split at hd'
        · rename_i ht
          cases hd'
          exact ⟨by decide, by rw [ht]; rfl⟩
        · split at hd'
          · rename_i ht
            cases hd'
            exact ⟨by decide, by rw [ht]; rfl⟩
          · cases hd'
      split at h1
      · exact h1
      · rename_i x hx
        rw [hax.2, ← h1]
        obtain ⟨w', hw', rfl⟩ : ∃ w', w' ∈ (ws.take q).filter (fun w => w.name = axis) ∧ w'.val = x := by
          unfold lastValue at hx
          obtain ⟨w', h, rfl⟩ := Option.map_eq_some_iff.1 hx
          exact ⟨w', List.mem_of_getLast? h, rfl⟩
        simp only [List.mem_filter, decide_eq_true_eq] at hw'
        obtain ⟨j, hj⟩ := List.mem_iff_getElem?.1 hw'.1
        rw [List.getElem?_take] at hj
        split at hj
        · rename_i hlt
          obtain ⟨n, hdef⟩ := ih j hlt w' hj (by
            rw [hw'.2]
            rcases hkw with rfl | ⟨s, rfl⟩
            · simp
            · intro hc
              have hc : axis = py!"msgId" := List.mem_singleton.1 hc
              rw [hc] at hax
              exact absurd hax.1 (by decide))
          rw [Props.Default.nonneg hdef]; rfl
        · cases hj

theorem tables_defaultable :
    (∀ mode, ∀ kd ∈ standardDefs mode, kd.1 = py!"FOO" ∨ defaultable kd.2 [] = true) ∧
    (∀ mode, ∀ kd ∈ proprietaryDefs mode, defaultable kd.2 [] = true) := by
  constructor
  · intro mode
    unfold standardDefs
    split <;> decide +kernel
  · intro mode
    unfold proprietaryDefs
    split <;> decide +kernel

/-- Every sentence type of the library except the test type `FOO` can be made in every mode in which it is
defined, with no keywords at all, or with only the name of the proprietary sentence; all other attributes
then have their defaults (a direction that follows its coordinate is `N` or `E` as well). -/
theorem C69_made (now : Nat → DateTime) (hnow : ∀ n, (now n).time.Valid) (t i : Str) (mode : Int) (hp : Bool) (v : Nat)
    (kw : List (Str × PyVal)) (hkw : OnlyName kw) (hm : mode = 0 ∨ mode = 1 ∨ mode = 2) (hi : KnownIds v [] t i)
    (d : PDict) (hd : KwDefinition mode.toNat [] i kw d) (hfoo : upper i ≠ py!"FOO") :
    ∃ m ws, mkMsg now t i mode hp v [] none ⟨none, kw⟩ = .ok m ∧ m.payload = ws.map Written.text ∧
      m.attrs = attrsOf ws ∧ Emit kw mode.toNat hp now d [] [] ws ∧
      ∀ w ∈ ws, w.name ∉ kw.map Prod.fst → ∃ n, Default mode.toNat (now n) w.ty w.val w.text := by
  have hdd : defaultable d [] = true ∧ SaneGen d := by
    obtain ⟨id, hid, h⟩ := hd
    have hst : lookup (upper id) (standardDefs mode.toNat) = some d → i ∉ NMEA_PREFIX_PROP → defaultable d [] = true ∧ SaneGen d := by
      intro h hne
      have hmem := lookup_some_mem _ _ _ h
      refine ⟨(tables_defaultable.1 _ _ hmem).resolve_left ?_, tables_sane_gen.1 _ _ hmem⟩
      rw [kwFullId, if_neg hne] at hid
      cases hid
      exact hfoo
    have hdis : IsStandard i → i ∉ NMEA_PREFIX_PROP := by
      intro h hp
      have : ∀ x ∈ NMEA_PREFIX_PROP, ¬ IsStandard x := by decide
      exact this i hp h
    split at h
    · exact hst h (hdis ‹_›)
    · split at h
      · rcases h with ⟨s, _, h⟩ | ⟨_, _, h⟩ <;>
          exact ⟨tables_defaultable.2 _ _ (lookup_some_mem _ _ _ h), tables_sane_gen.2 _ _ (lookup_some_mem _ _ _ h)⟩
      · rename_i hnp
        split at h
        · cases h
        · exact hst h (fun hp => hnp (.inr hp))
  have hplain : PlainKeywords i kw := by
    rcases hkw with rfl | ⟨s, rfl⟩
    · intro k hk; cases hk
    · intro k hk
      have hk : k = py!"msgId" := List.mem_singleton.1 hk
      subst hk
      exact ⟨by decide, fun _ => by decide⟩
  obtain ⟨post, he⟩ := emit_nothing hkw mode.toNat hp now d [] hdd.1 [] (by simp)
  obtain ⟨m, h, h1, h2⟩ := (C05_generate now t i mode hp v [] kw hm hi hplain d hd hdd.2 _ _).2 ⟨post, he, rfl, rfl⟩
  refine ⟨m, post, h, h1, h2, he, ?_⟩
  intro w hw hno
  obtain ⟨q, hq⟩ := List.mem_iff_getElem?.1 hw
  exact each_default hkw mode.toNat (by omega) hp now hnow post (emit_each he (by intro q w hq; simp at hq)) q w hq hno

/-- A position message without keywords. -/
example : (mkMsg clock0 py!"GN" py!"GLL" 0 false 1 [] none ⟨none, []⟩).map Msg.payload =
    .ok [[], py!"N", [], py!"E", py!"030405.67", [], []] := by decide +kernel

example : ∃ d, KwDefinition 1 [] py!"QTMCFGNMEADP" [] d ∧ KnownIds 1 [] py!"P" py!"QTMCFGNMEADP" ∧
    upper py!"QTMCFGNMEADP" ≠ py!"FOO" := by
  refine ⟨SET_PROP.QTMCFGNMEADP, ⟨_, rfl, ?_⟩, fun _ => by decide +kernel, by decide⟩
  rw [if_neg (by decide +kernel), if_pos (by decide +kernel)]
  refine .inr ⟨?_, by decide, rfl⟩
  intro s h
  generalize hn : upper py!"QTMCFGNMEADP" = n at h
  cases h <;> exact absurd hn (by decide)

end Props
