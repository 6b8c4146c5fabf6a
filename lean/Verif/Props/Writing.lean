import Verif.Lemmas.Writing
import Verif.Lemmas.Reading
import Verif.Props.RoundTrip
import Verif.Props.Standard
import Verif.Props.Helpers
import Verif.Props.Vendor
/-!
# Sentences are written as the standard says (C76)
-/
namespace Props
open Py Nmea Spec Spec.Nmea0183

theorem slotsW_length (ws : List Written) : (slotsW ws).length = ws.length := by simp [slotsW]

theorem loop_slots {kw mode hp now body} {n : Nat} {at_ : Nat → List Written}
    (hb : ∀ i < n, Emit kw mode hp now body ([] ++ groupSuffix (i + 1)) (at_ i) (at_ (i + 1)))
    (hst : IsStatic body = true) :
    ∀ i ≤ n, slotsW (at_ i) = slotsW (at_ 0) ++ (List.range i).flatMap fun i => slotsOf body (groupSuffix (i + 1)) := by
  intro i
  induction i with
  | zero => intro _; simp
  | succ i ih =>
    intro hi
    rw [emit_static' (hb i (by omega)) hst, ih (by omega), List.range_succ, List.flatMap_append]
    simp

theorem lastValue_unique (ws : List Written) (hn : ((slotsW ws).map Prod.fst).Nodup) (p : Nat) (w : Written)
    (hp : ws[p]? = some w) : lastValue w.name ws = some w.val := by
  cases h : lastValue w.name ws with
  | none =>
    exfalso
    unfold lastValue at h
    simp only [Option.map_eq_none_iff, List.getLast?_eq_none_iff, List.filter_eq_nil_iff] at h
    exact h w (List.mem_of_getElem? hp) (by simp)
  | some v =>
    obtain ⟨a, w', b, e, h1, h2, h3⟩ := lastValue_some _ _ _ h
    have hmap : ((slotsW ws).map Prod.fst) = ws.map Written.name := by simp [slotsW, Function.comp_def]
    rw [hmap] at hn
    have hp' : (ws.map Written.name)[p]? = some w.name := by rw [List.getElem?_map, hp]; rfl
    have hq' : (ws.map Written.name)[a.length]? = some w.name := by
      rw [e, List.map_append, List.getElem?_append_right (by simp)]
      simp [h1]
    have hpq : p = a.length := by
      obtain ⟨l1, g1⟩ := List.getElem?_eq_some_iff.1 hp'
      obtain ⟨l2, g2⟩ := List.getElem?_eq_some_iff.1 hq'
      exact (List.Nodup.getElem_inj_iff hn).1 (g1.trans g2.symm)
    subst hpq
    rw [e] at hp
    simp at hp
    rw [← h2, hp]

/-- The attributes of a generated message are those of the layout. -/
theorem emit_layout {kw mode hp now} (total : List Written) (heach : EachChosen kw mode hp now total)
    (d : PDict) : ∀ (lay : List Item) (acc : Option (List Slot)), layoutMatches acc d lay = true → Determinate d = true →
    ∀ pre, Emit kw mode hp now d [] pre total → (∀ a, acc = some a → slotsW pre = a) →
      CountsGiven (total.map Written.text) lay →
      ∃ S, slotsW total = slotsW pre ++ S ∧ Agree S (fields (total.map Written.text) lay pre.length) := by
  induction d with
  | nil =>
    intro lay acc h _ pre he _ _
    cases lay with
    | cons x l => cases acc <;> cases x <;> cases h
    | nil =>
      cases he
      exact ⟨[], by simp, rfl⟩
  | single k t r ih =>
    intro lay acc h hdet pre he hacc hcnt
    cases lay with
    | nil => cases acc <;> cases h
    | cons x lay =>
      cases x with
      | times => cases acc <;> cases h
      | many => cases acc <;> cases h
      | counted => cases acc <;> cases h
      | one n kd =>
        simp only [layoutMatches, Bool.and_eq_true, beq_iff_eq] at h
        obtain ⟨⟨rfl, h2⟩, h3⟩ := h
        cases he with
        | single _ _ _ _ _ _ v text hc hv he =>
          obtain ⟨S, e1, e2⟩ := ih lay _ h3 hdet _ he (by
            intro a ha
            cases acc with
            | none => cases ha
            | some a0 =>
              cases ha
              rw [← hacc a0 rfl]
              simp [slotsW]) (fun p b hb => hcnt p b (List.mem_cons_of_mem _ hb))
          refine ⟨(k, t) :: S, ?_, ?_⟩
          · rw [e1]; simp [slotsW]
          · unfold Agree at e2 ⊢
            simp only [fields, List.map_cons, h2]
            rw [List.length_append] at e2
            rw [e2]
            rfl
  | group k rep body r ihb ihr =>
    intro lay acc h hdet pre he hacc hcnt
    cases he with
    | group _ _ _ _ _ _ _ n at_ hr h0 hb hrest =>
    have hpfx : pre <+: total := by
      have hat : ∀ m ≤ n, pre <+: at_ m := by
        intro m
        induction m with
        | zero => intro _; rw [h0]
        | succ m ihm => intro hm; exact (ihm (by omega)).trans (emit_prefix (hb m (by omega)))
      exact (hat n (le_refl n)).trans (emit_prefix hrest)
    have main : ∀ (b : List (Str × Kind)) (rest : List Item), bodyMatches body b = true →
        layoutMatches none r rest = true → Determinate r = true → CountsGiven (total.map Written.text) rest →
        ∃ S, slotsW total = slotsW pre ++ S ∧
          Agree S (repeated n b ++ fields (total.map Written.text) rest (pre.length + n * b.length)) := by
      intro b rest hbm hrm hdr hcnt'
      have hag := repeated_agree body b hbm n
      have hs := loop_slots hb (body_agree body b hbm).1 n (le_refl n)
      rw [h0] at hs
      obtain ⟨S, e1, e2⟩ := ihr rest none hrm hdr _ hrest (fun a ha => by cases ha) hcnt'
      have hlen : (at_ n).length = pre.length + n * b.length := by
        have := congrArg List.length hs
        rw [slotsW_length, List.length_append, slotsW_length, hag.length, repeated_length] at this
        exact this
      refine ⟨((List.range n).flatMap fun i => slotsOf body (groupSuffix (i + 1))) ++ S, ?_, ?_⟩
      · rw [e1, hs, List.append_assoc]
      · rw [hlen] at e2
        exact hag.append e2
    cases lay with
    | nil => cases rep <;> cases acc <;> cases h
    | cons x lay =>
      have hcnt' : CountsGiven (total.map Written.text) lay := fun p b hb => hcnt p b (List.mem_cons_of_mem _ hb)
      cases x with
      | one => cases rep <;> cases acc <;> cases h
      | times n' b =>
        cases rep with
        | fixed z =>
          simp only [layoutMatches, Bool.and_eq_true, beq_iff_eq] at h
          obtain ⟨⟨rfl, h2⟩, h3⟩ := h
          simp only [Determinate, Bool.and_eq_true] at hdet
          cases hr
          simp only [fields]
          exact main b lay h2 h3 hdet.2 hcnt'
        | indet => cases acc <;> cases h
        | named => cases acc <;> cases h
      | many b =>
        cases rep with
        | fixed z => cases acc <;> cases h
        | indet =>
          simp only [layoutMatches, Bool.and_eq_true, bne_iff_ne, ne_eq] at h
          obtain ⟨⟨h1, h2⟩, h3⟩ := h
          simp only [Determinate, Bool.and_eq_true, decide_eq_true_eq] at hdet
          obtain ⟨⟨hf, hs⟩, hl⟩ := hdet
          rw [keysOf_length] at hl
          obtain ⟨hst, hbl, _⟩ := body_agree body b h2
          have hdr : Determinate r = true := by
            clear * - hs
            induction r with
            | nil => rfl
            | single k t r ih => exact ih hs
            | group k rep b r ihb ihr =>
              cases rep with
              | fixed z =>
                simp only [IsStatic, Bool.and_eq_true] at hs
                simp only [Determinate, Bool.and_eq_true]
                exact ⟨hs.1, ihr hs.2⟩
              | indet => simp [IsStatic] at hs
              | named => simp [IsStatic] at hs
          have hlen1 := loop_length hb hf n (le_refl n)
          rw [h0] at hlen1
          have hlen2 := congrArg List.length (emit_static' hrest hs)
          simp only [slotsW_length, List.length_append] at hlen2
          have hn : (total.length - pre.length) / b.length = n := by
            rw [hlen2, hlen1, ← hbl]
            rw [show pre.length + n * body.len + (slotsOf r []).length - pre.length =
              (slotsOf r []).length + n * body.len by omega, Nat.add_mul_div_right _ _ (by omega), Nat.div_eq_of_lt hl]
            omega
          simp only [fields, List.length_map, hn]
          exact main b lay h2 h3 hdr hcnt'
        | named => cases acc <;> cases h
      | counted p b =>
        cases rep with
        | fixed z => cases acc <;> cases h
        | indet => cases acc <;> cases h
        | named c =>
          cases acc with
          | none => cases h
          | some a =>
            simp only [layoutMatches, Bool.and_eq_true, beq_iff_eq, bne_iff_ne, ne_eq, decide_eq_true_eq] at h
            obtain ⟨⟨⟨⟨⟨⟨h1, h2⟩, h3⟩, h4⟩, h5⟩, h6⟩, h7⟩ := h
            simp only [Determinate, Bool.and_eq_true] at hdet
            have ha := hacc a rfl
            subst ha
            obtain ⟨w, hw, hwe⟩ : ∃ w, pre[p]? = some w ∧ (w.name, w.ty) = (c, IN) := by
              simpa [slotsW] using h1
            simp only [Prod.mk.injEq] at hwe
            obtain ⟨hwn, hwt⟩ := hwe
            have hlast := lastValue_unique pre h2 p w hw
            have hwt' : total[p]? = some w := by
              obtain ⟨c', rfl⟩ := hpfx
              rw [List.getElem?_append_left (List.getElem?_eq_some_iff.1 hw).1]; exact hw
            obtain ⟨ds, e1, e2, e3⟩ := hcnt p b (by simp)
            rw [List.getElem?_map, hwt', Option.map_some, Option.some.injEq] at e1
            have htext := (heach p w hwt').2
            rw [hwt] at htext
            have hn : number ((total.map Written.text).getD p []) = n := by
              rw [List.getD_eq_getElem?_getD, List.getElem?_map, hwt']
              simp only [Option.map_some, Option.getD_some]
              rw [e1]
              rw [hwn] at hlast
              cases hr with
              | mode => exact absurd rfl h5
              | flag _ bb _ hl =>
                exfalso
                rw [hlast] at hl
                cases hl' : w.val with
                | bool b' =>
                  rw [hl'] at htext
                  cases b' with
                  | false =>
                    have : w.text = py!"False" := (Except.ok.inj htext).symm
                    rw [← e1, this] at e3; exact absurd e3 (by decide)
                  | true =>
                    have : w.text = py!"True" := (Except.ok.inj htext).symm
                    rw [← e1, this] at e3; exact absurd e3 (by decide)
                | _ => rw [hl'] at hl; cases hl
              | named _ z _ hl =>
                rw [hlast] at hl
                rw [Option.some.inj hl] at htext
                have htx : strOfInt z = .ok w.text := htext
                unfold strOfInt at htx
                simp only at htx
                split at htx
                · cases htx
                · have htx := Except.ok.inj htx
                  split at htx
                  · rw [← e1, ← htx] at e3
                    exact absurd (e3 45 (by simp)) (by omega)
                  · rw [← e1, ← htx, number_eq, asciiVal_natDec]; omega
            simp only [fields, hn]
            exact main b lay h6 h7 hdet.2 hcnt'

theorem nominal_suits {ty : Str} {kind : Kind} (hk : kindOf ty = some kind) (mode : Nat)
    (now : Nat → DateTime) (hnow : ClockOk now) (n : Nat) (v : PyVal) (h : nomval ty mode (now n) = .ok v) :
    Suits kind v ∧ Unset mode now kind v := by
  obtain ⟨h1, h2, h3, h4⟩ := hnow n
  have hty := kindOf_cases hk
  rcases hty with ⟨rfl, h'⟩ | ⟨rfl, rfl⟩ | ⟨rfl, rfl⟩ | ⟨rfl, rfl⟩ | ⟨rfl, rfl⟩ | ⟨rfl, rfl⟩ | ⟨rfl, rfl⟩ | ⟨rfl, rfl⟩ |
    ⟨rfl, rfl⟩ | ⟨rfl, rfl⟩
  · simp only [List.mem_cons, List.not_mem_nil, or_false] at h'
    rcases h' with rfl | rfl | rfl | rfl <;> cases (Except.ok.inj h)
    · exact ⟨.text _, .text⟩
    · exact ⟨.text _, .text⟩
    · exact ⟨.text _, .hexadecimal⟩
    · exact ⟨.text _, .status⟩
  · cases (Except.ok.inj h)
    exact ⟨.whole 0 (by norm_num), .whole⟩
  · cases (Except.ok.inj h)
    exact ⟨.decimal false 0 ⟨0, 0, by norm_num, by norm_num, by norm_num, by norm_num⟩ (.inl rfl), .decimal⟩
  · cases (Except.ok.inj h); exact ⟨.time _ h2, .time n⟩
  · cases (Except.ok.inj h); exact ⟨.date _ _ (.inl rfl) h1 h3 h4, .date n⟩
  · cases (Except.ok.inj h); exact ⟨.date _ _ (.inr rfl) h1 h3 h4, .usdate n⟩
  · cases (Except.ok.inj h); exact ⟨.empty _, .latitude⟩
  · cases (Except.ok.inj h); exact ⟨.empty _, .longitude⟩
  · cases (Except.ok.inj h); exact ⟨.north _, .north⟩
  · cases (Except.ok.inj h); exact ⟨.east _, .east⟩

/-- The kinds of direction fields, and the field they follow. -/
theorem kind_direction {ty : Str} {kind : Kind} (hk : kindOf ty = some kind) :
    (directionOf ty = none ∧ kind ≠ .north ∧ kind ≠ .east) ∨
    (directionOf ty = some (py!"lat", py!"S", py!"N") ∧ kind = .north) ∨
    (directionOf ty = some (py!"lon", py!"W", py!"E") ∧ kind = .east) := by
  have hty := kindOf_cases hk
  rcases hty with ⟨rfl, h'⟩ | ⟨rfl, rfl⟩ | ⟨rfl, rfl⟩ | ⟨rfl, rfl⟩ | ⟨rfl, rfl⟩ | ⟨rfl, rfl⟩ | ⟨rfl, rfl⟩ | ⟨rfl, rfl⟩ |
    ⟨rfl, rfl⟩ | ⟨rfl, rfl⟩
  · left
    simp only [List.mem_cons, List.not_mem_nil, or_false] at h'
    rcases h' with rfl | rfl | rfl | rfl <;> exact ⟨by decide, by decide, by decide⟩
  · exact .inl ⟨by decide, by decide, by decide⟩
  · exact .inl ⟨by decide, by decide, by decide⟩
  · exact .inl ⟨by decide, by decide, by decide⟩
  · exact .inl ⟨by decide, by decide, by decide⟩
  · exact .inl ⟨by decide, by decide, by decide⟩
  · exact .inl ⟨by decide, by decide, by decide⟩
  · exact .inl ⟨by decide, by decide, by decide⟩
  · exact .inr (.inl ⟨by decide, rfl⟩)
  · exact .inr (.inr ⟨by decide, rfl⟩)

/-- A message whose definition agrees with a layout is written as the layout says. -/
theorem writing_core (now : Nat → DateTime) (t i : Str) (mode : Int) (hp : Bool) (v : Nat) (u : UDefs)
    (kw : List (Str × PyVal)) (m : Msg) (hkw : PlainKeywords i kw) (d : PDict)
    (hd : KwDefinition mode.toNat u i kw d) (hsane : SaneGen d)
    (h : mkMsg now t i mode hp v u none ⟨none, kw⟩ = .ok m) (hnow : ClockOk now)
    (lay : List Item) (hok : layoutOk d lay = true) (hdet : Determinate d = true) (hcnt : CountsGiven m.payload lay)
    (hsuit : ∀ name kind x, (name, kind) ∈ fields m.payload lay 0 → lookup name kw = some x → Suits kind x) :
    m.payload.length = (fields m.payload lay 0).length ∧ m.attrs.map Prod.fst = (fields m.payload lay 0).map Prod.fst ∧
    ∀ (p : Nat) name kind, (fields m.payload lay 0)[p]? = some (name, kind) →
      ∃ x text, lookup name m.attrs = some x ∧ m.payload[p]? = some text ∧ WrittenAs hp kind x text ∧
        FieldValue mode.toNat now kw m ((fields m.payload lay 0).take p) name kind x ∧ ∃ val, Denotes kind text val := by
  obtain ⟨hm, hrej, _⟩ := mkMsg_ok _ _ _ _ _ _ _ _ _ _ h
  obtain ⟨ws, he, hpay, hattrs⟩ := (C05_generate now t i mode hp v u kw hm ((not_rejected _ _ _ _).1 hrej) hkw d hd
    hsane _ _).1 ⟨m, h, rfl, rfl⟩
  have heach := emit_each he (by intro q w hq; simp at hq)
  have hun : (baseNames lay).all (fun n => stem n == n) = true → ∀ x ∈ baseNames lay, stem x = x := by
    intro h x hx
    have := List.all_eq_true.1 h x hx
    simpa using this
  simp only [layoutOk, Bool.and_eq_true, Bool.or_eq_true, decide_eq_true_eq] at hok
  obtain ⟨⟨⟨⟨hmatch, hnd⟩, hflat⟩, _⟩, _⟩ := hok
  have hfn : ((fields m.payload lay 0).map Prod.fst).Nodup := by
    rcases hflat with h | h
    · rw [fields_flat _ lay 0 h]; exact hnd
    · exact fields_nodup _ _ _ hnd (hun h)
  obtain ⟨S, e1, hag⟩ := emit_layout ws heach d lay (some []) hmatch hdet [] he
    (fun a ha => by cases ha; rfl) (by rw [← hpay]; exact hcnt)
  simp only [slotsW, List.map_nil, List.nil_append, List.length_nil] at e1 hag
  subst e1
  rw [← hpay] at hag
  have hnames : ws.map Written.name = (fields m.payload lay 0).map Prod.fst := by
    have := congrArg (List.map Prod.fst) hag
    simpa [List.map_map, Function.comp_def] using this
  have hS : ∀ (p : Nat) name kind, (fields m.payload lay 0)[p]? = some (name, kind) →
      ∃ w, ws[p]? = some w ∧ w.name = name ∧ kindOf w.ty = some kind := by
    intro p name kind hp
    have := congrArg (fun l => l[p]?) hag
    simp only [List.getElem?_map, hp, Option.map_some] at this
    cases hq : ws[p]? with
    | none => rw [hq] at this; cases this
    | some w =>
      rw [hq] at this
      simp only [Option.map_some, Option.some.injEq, Prod.mk.injEq] at this
      exact ⟨w, rfl, this.1, this.2⟩
  have hlookup : ∀ (p : Nat) w, ws[p]? = some w → lookup w.name m.attrs = some w.val := by
    intro p w hw
    obtain ⟨hlt, hget⟩ := List.getElem?_eq_some_iff.1 hw
    have hsp : ws = ws.take p ++ w :: ws.drop (p + 1) := by
      rw [← hget, ← List.drop_eq_getElem_cons hlt, List.take_append_drop]
    rw [hattrs, hsp]
    apply lookup_attrsOf
    intro x hx e
    have hn : (ws.map Written.name).Nodup := by rw [hnames]; exact hfn
    rw [hsp, List.map_append, List.map_cons, List.nodup_append, List.nodup_cons] at hn
    exact hn.2.1.1 (List.mem_map.2 ⟨x, hx, e⟩)
  refine ⟨?_, ?_, ?_⟩
  · have := congrArg List.length hnames
    simp only [List.length_map] at this
    rw [← this, hpay, List.length_map]
  · rw [hattrs, ← hnames]
    have hn : (ws.map Written.name).Nodup := by rw [hnames]; exact hfn
    clear * - hn
    induction ws using snoc_ind with
    | h0 => rfl
    | h1 ws w ih =>
      rw [List.map_append, List.nodup_append] at hn
      rw [attrsOf_snoc, List.map_append, ← ih hn.1]
      have hnot : w.name ∉ (attrsOf ws).map Prod.fst := by
        rw [ih hn.1]
        intro hx
        exact hn.2.2 _ hx w.name (by simp) rfl
      rw [insert_not_mem _ _ _ hnot, List.map_append]
      rfl
  intro p name kind hp'
  obtain ⟨w, hw, rfl, hk⟩ := hS p name kind hp'
  obtain ⟨hch, htx⟩ := heach p w hw
  have hkey : ∀ x, (nomval w.ty mode.toNat (now (clockReads (ws.take p)))).map (keywordOr kw w.name) = .ok x →
      Suits kind x ∧ ((lookup w.name kw = some x) ∨ (lookup w.name kw = none ∧ Unset mode.toNat now kind x)) := by
    intro x hx
    cases hn : nomval w.ty mode.toNat (now (clockReads (ws.take p))) with
    | error e => rw [hn] at hx; cases hx
    | ok y =>
      rw [hn] at hx
      obtain rfl := Except.ok.inj hx
      unfold keywordOr
      split
      · rename_i z hz
        exact ⟨hsuit _ _ _ (List.mem_of_getElem? hp') hz, .inl hz⟩
      · rename_i hz
        obtain ⟨g1, g2⟩ := nominal_suits hk mode.toNat now hnow _ _ hn
        exact ⟨g1, .inr ⟨hz, g2⟩⟩
  have hpre : ∀ axis, axis ∈ ((fields m.payload lay 0).take p).map Prod.fst → ∃ c, lastValue axis (ws.take p) = some c ∧
      lookup axis m.attrs = some c := by
    intro axis hax
    rw [List.map_take, ← hnames, ← List.map_take] at hax
    obtain ⟨w', hw', rfl⟩ := List.mem_map.1 hax
    obtain ⟨q, hq⟩ := List.mem_iff_getElem?.1 hw'
    have hn : (ws.map Written.name).Nodup := by rw [hnames]; exact hfn
    refine ⟨w'.val, lastValue_unique _ ?_ q w' hq, hlookup q w' ?_⟩
    · have : (slotsW (ws.take p)).map Prod.fst = (ws.map Written.name).take p := by
        simp [slotsW, Function.comp_def, List.map_take]
      rw [this]
      exact hn.sublist (List.take_sublist _ _)
    · rw [List.getElem?_take] at hq
      split at hq
      · exact hq
      · cases hq
  have hpre' : ∀ axis, axis ∉ ((fields m.payload lay 0).take p).map Prod.fst → lastValue axis (ws.take p) = none := by
    intro axis hax
    cases hl : lastValue axis (ws.take p) with
    | none => rfl
    | some c =>
      exfalso
      obtain ⟨a, w', b, e, h1, _, _⟩ := lastValue_some _ _ _ hl
      apply hax
      rw [List.map_take, ← hnames, ← List.map_take, e]
      simp [h1]
  have hres : Suits kind w.val ∧ FieldValue mode.toNat now kw m ((fields m.payload lay 0).take p) w.name kind w.val := by
    have hgen : chosen kw mode.toNat now (ws.take p) w.name w.ty =
        (nomval w.ty mode.toNat (now (clockReads (ws.take p)))).map (keywordOr kw w.name) →
        ¬ Follows ((fields m.payload lay 0).take p) kind →
        Suits kind w.val ∧ FieldValue mode.toNat now kw m ((fields m.payload lay 0).take p) w.name kind w.val := by
      intro e hf
      obtain ⟨g1, g2⟩ := hkey _ (e ▸ hch)
      refine ⟨g1, ?_⟩
      rcases g2 with g | ⟨g, g'⟩
      · exact .keyword hf g
      · exact .unset hf g g'
    rcases kind_direction hk with ⟨e, n1, n2⟩ | ⟨e, rfl⟩ | ⟨e, rfl⟩
    · refine hgen (by unfold chosen; simp only [e]) ?_
      rintro (⟨a, _⟩ | ⟨a, _⟩)
      · exact n1 a
      · exact n2 a
    · by_cases hin : py!"lat" ∈ ((fields m.payload lay 0).take p).map Prod.fst
      · obtain ⟨c, c1, c2⟩ := hpre _ hin
        unfold chosen at hch
        simp only [e, c1] at hch
        rw [← Except.ok.inj hch]
        exact ⟨.north _, .north hin c2⟩
      · refine hgen (by unfold chosen; simp only [e, hpre' _ hin]) ?_
        rintro (⟨_, a⟩ | ⟨a, _⟩)
        · exact hin a
        · cases a
    · by_cases hin : py!"lon" ∈ ((fields m.payload lay 0).take p).map Prod.fst
      · obtain ⟨c, c1, c2⟩ := hpre _ hin
        unfold chosen at hch
        simp only [e, c1] at hch
        rw [← Except.ok.inj hch]
        exact ⟨.east _, .east hin c2⟩
      · refine hgen (by unfold chosen; simp only [e, hpre' _ hin]) ?_
        rintro (⟨a, _⟩ | ⟨_, a⟩)
        · cases a
        · exact hin a
  obtain ⟨text, t1, t2⟩ := value_written hp hk hres.1
  rw [htx] at t1
  cases t1
  exact ⟨w.val, w.text, hlookup p w hw, by rw [hpay, List.getElem?_map, hw]; rfl, t2.1, hres.2, t2.2⟩

/-! ## Construction succeeds -/

theorem slot_exists {kw : List (Str × PyVal)} {mode : Nat} {hp : Bool} {now : Nat → DateTime} (hnow : ClockOk now)
    {ty : Str} {kind : Kind} (hk : kindOf ty = some kind) (name : Str)
    (hs : ∀ x, lookup name kw = some x → Suits kind x) (pre : List Written) :
    ∃ v text, chosen kw mode now pre name ty = .ok v ∧ val2str v ty hp = .ok text := by
  have hkey : ∃ v, (nomval ty mode (now (clockReads pre))).map (keywordOr kw name) = .ok v ∧ Suits kind v := by
    obtain ⟨n, hn⟩ : ∃ n, nomval ty mode (now (clockReads pre)) = .ok n := by
      rcases kindOf_cases hk with ⟨rfl, h'⟩ | ⟨rfl, rfl⟩ | ⟨rfl, rfl⟩ | ⟨rfl, rfl⟩ | ⟨rfl, rfl⟩ | ⟨rfl, rfl⟩ | ⟨rfl, rfl⟩ |
        ⟨rfl, rfl⟩ | ⟨rfl, rfl⟩ | ⟨rfl, rfl⟩
      · simp only [List.mem_cons, List.not_mem_nil, or_false] at h'
        rcases h' with rfl | rfl | rfl | rfl <;> exact ⟨_, rfl⟩
      all_goals exact ⟨_, rfl⟩
    rw [hn]
    refine ⟨_, rfl, ?_⟩
    unfold keywordOr
    split
    · exact hs _ ‹_›
    · exact (nominal_suits hk mode now hnow _ _ hn).1
  have hmain : ∃ v, chosen kw mode now pre name ty = .ok v ∧ Suits kind v := by
    rcases kind_direction hk with ⟨e, _, _⟩ | ⟨e, rfl⟩ | ⟨e, rfl⟩
    · obtain ⟨v, h1, h2⟩ := hkey
      exact ⟨v, by unfold chosen; simp only [e]; exact h1, h2⟩
    · unfold chosen
      simp only [e]
      split
      · exact hkey
      · exact ⟨_, rfl, .north _⟩
    · unfold chosen
      simp only [e]
      split
      · exact hkey
      · exact ⟨_, rfl, .east _⟩
  obtain ⟨v, h1, h2⟩ := hmain
  obtain ⟨text, h3, _⟩ := value_written hp hk h2
  exact ⟨v, text, h1, h3⟩

theorem body_exists {kw : List (Str × PyVal)} {mode : Nat} {hp : Bool} {now : Nat → DateTime} (hnow : ClockOk now)
    (body : PDict) (sfx : Str) : ∀ (b : List (Str × Kind)), bodyMatches body b = true →
      (∀ name kind x, (name, kind) ∈ b → lookup (name ++ sfx) kw = some x → Suits kind x) →
      ∀ pre, ∃ post, Emit kw mode hp now body sfx pre post := by
  induction body with
  | nil => intro b _ _ pre; exact ⟨pre, .nil _ _⟩
  | single k t r ih =>
    intro b hb hs pre
    cases b with
    | nil => cases hb
    | cons x b =>
      obtain ⟨n, kd⟩ := x
      simp only [bodyMatches, Bool.and_eq_true, beq_iff_eq] at hb
      obtain ⟨⟨rfl, h2⟩, h3⟩ := hb
      obtain ⟨v, text, c1, c2⟩ := slot_exists (mode := mode) (hp := hp) hnow h2 (k ++ sfx)
        (fun x hx => hs k kd x (by simp) hx) pre
      obtain ⟨post, e⟩ := ih b h3 (fun n k x h => hs n k x (by simp [h])) (pre ++ [⟨k ++ sfx, t, v, text⟩])
      exact ⟨post, .single _ _ _ _ _ _ _ _ c1 c2 e⟩
  | group => intro b hb; cases b <;> cases hb

theorem loop_exists {kw : List (Str × PyVal)} {mode : Nat} {hp : Bool} {now : Nat → DateTime} (hnow : ClockOk now)
    (body : PDict) (b : List (Str × Kind)) (hb : bodyMatches body b = true) (n : Nat)
    (hs : ∀ j < n, ∀ name kind x, (name, kind) ∈ b → lookup (name ++ groupSuffix (j + 1)) kw = some x → Suits kind x)
    (pre : List Written) :
    ∃ at_ : Nat → List Written, at_ 0 = pre ∧
      ∀ i < n, Emit kw mode hp now body ([] ++ groupSuffix (i + 1)) (at_ i) (at_ (i + 1)) := by
  classical
  let step : Nat → List Written → List Written := fun i p =>
    if h : ∃ post, Emit kw mode hp now body ([] ++ groupSuffix (i + 1)) p post then h.choose else []
  refine ⟨fun i => Nat.rec pre step i, rfl, fun i hi => ?_⟩
  have h : ∃ post, Emit kw mode hp now body ([] ++ groupSuffix (i + 1)) (Nat.rec pre step i) post :=
    body_exists hnow body _ b hb (by simpa using hs i hi) _
  show Emit kw mode hp now body _ _ (step i (Nat.rec pre step i))
  simp only [step, dif_pos h]
  exact h.choose_spec

theorem emit_exists {kw : List (Str × PyVal)} {mode : Nat} {hp : Bool} {now : Nat → DateTime} (hnow : ClockOk now)
    (full : List Item) (hkw : SuitableKeywords kw full) (d : PDict) :
    ∀ (lay done : List Item) (acc : Option (List Slot)), full = done ++ lay → layoutMatches acc d lay = true →
    ∀ pre, EachChosen kw mode hp now pre → (∀ a, acc = some a → slotsW pre = a ∧
      done = a.map (fun s => Item.one s.1 ((kindOf s.2).getD .text))) →
      ∃ post, Emit kw mode hp now d [] pre post ∧
        CountsGiven (post.map Written.text) lay := by
  induction d with
  | nil =>
    intro lay done acc _ h pre _ _
    cases lay with
    | cons x l => cases acc <;> cases x <;> cases h
    | nil => exact ⟨pre, .nil _ _, by intro _ _ h; cases h⟩
  | single k t r ih =>
    intro lay done acc hfull h pre heach hacc
    cases lay with
    | nil => cases acc <;> cases h
    | cons x lay =>
      cases x with
      | times => cases acc <;> cases h
      | many => cases acc <;> cases h
      | counted => cases acc <;> cases h
      | one n kd =>
        simp only [layoutMatches, Bool.and_eq_true, beq_iff_eq] at h
        obtain ⟨⟨rfl, h2⟩, h3⟩ := h
        obtain ⟨v, text, c1, c2⟩ := slot_exists (mode := mode) (hp := hp) hnow h2 (k ++ [])
          (fun x hx => hkw.suits k kd x (.one (by rw [hfull]; simp)) (by simpa using hx)) pre
        have heach' : EachChosen kw mode hp now (pre ++ [⟨k ++ [], t, v, text⟩]) :=
          emit_each (.single k t .nil [] pre _ v text c1 c2 (.nil _ _)) heach
        obtain ⟨post, e, hc⟩ := ih lay (done ++ [.one k kd]) _ (by simpa using hfull) h3 _ heach' (by
          intro a ha
          cases acc with
          | none => cases ha
          | some a0 =>
            cases ha
            obtain ⟨q1, q2⟩ := hacc a0 rfl
            constructor
            · rw [← q1]; simp [slotsW]
            · rw [q2]; simp [h2])
        refine ⟨post, .single _ _ _ _ _ _ _ _ c1 c2 e, ?_⟩
        intro p b hb
        rcases List.mem_cons.1 hb with hb | hb
        · cases hb
        · exact hc p b hb
  | group k rep body r ihb ihr =>
    intro lay done acc hfull h pre heach hacc
    have main : ∀ (n : Nat) (x : Item) (b : List (Str × Kind)) (rest : List Item), full = done ++ x :: rest →
        bodyMatches body b = true →
        layoutMatches none r rest = true → GenRepeats kw mode pre rep n →
        (∀ j < n, ∀ name kind x, (name, kind) ∈ b → lookup (name ++ groupSuffix (j + 1)) kw = some x → Suits kind x) →
        ∃ post, Emit kw mode hp now (.group k rep body r) [] pre post ∧ CountsGiven (post.map Written.text) rest := by
      intro n x b rest hfull hbm hrm hrep hs
      obtain ⟨at_, h0, hat⟩ := loop_exists (mode := mode) (hp := hp) hnow body b hbm n hs pre
      have he : ∀ i ≤ n, EachChosen kw mode hp now (at_ i) := by
        intro i
        induction i with
        | zero => intro _; rw [h0]; exact heach
        | succ i ih => intro hi; exact emit_each (hat i (by omega)) (ih (by omega))
      obtain ⟨post, e, hc⟩ := ihr rest (done ++ [x]) none (by simpa using hfull) hrm (at_ n) (he n (le_refl n))
        (fun a ha => by cases ha)
      exact ⟨post, .group _ _ _ _ _ _ _ n at_ hrep h0 hat e, hc⟩
    cases lay with
    | nil => cases rep <;> cases acc <;> cases h
    | cons x lay =>
      cases x with
      | one => cases rep <;> cases acc <;> cases h
      | times n' b =>
        cases rep with
        | fixed z =>
          simp only [layoutMatches, Bool.and_eq_true, beq_iff_eq] at h
          obtain ⟨⟨rfl, h2⟩, h3⟩ := h
          obtain ⟨post, e, hc⟩ := main n' _ b lay hfull h2 h3 (.fixed (n' : Int)) (by
            intro j hj name kind x hx hl
            exact hkw.suits _ kind x (.times j (by rw [hfull]; simp) hx hj) hl)
          refine ⟨post, e, fun p b hb => ?_⟩
          rcases List.mem_cons.1 hb with hb | hb
          · cases hb
          · exact hc p b hb
        | indet => cases acc <;> cases h
        | named => cases acc <;> cases h
      | many b =>
        cases rep with
        | fixed z => cases acc <;> cases h
        | indet =>
          simp only [layoutMatches, Bool.and_eq_true, bne_iff_ne, ne_eq] at h
          obtain ⟨⟨h1, h2⟩, h3⟩ := h
          obtain ⟨z, hz⟩ : ∃ z, groupsize (kw.map Prod.fst) = .ok z := by
            cases hg : groupsize (kw.map Prod.fst) with
            | ok z => exact ⟨z, rfl⟩
            | error e =>
              exfalso
              obtain ⟨name, hn, sfx, ⟨a, g1, g2⟩, g3⟩ := ((C40_error _ _).1 hg).2
              obtain ⟨q1, q2, q3⟩ := hkw.indexed b (by rw [hfull]; simp) name hn a sfx g1 g2
              have := (intOfStr_digits sfx (sfx.map (· - 48)) (digits_upper q2) (by
                intro x hx
                obtain ⟨c, hc, rfl⟩ := List.mem_map.1 hx
                have := q2 c hc
                omega) (by simpa using q1) (by simpa [maxStrDigits] using q3)).1
              rw [g3] at this
              cases this
          obtain ⟨post, e, hc⟩ := main z.toNat _ b lay hfull h2 h3 (.indet z hz) (by
            intro j hj name kind x hx hl
            exact hkw.suits _ kind x (.many j (by rw [hfull]; simp) hx) hl)
          refine ⟨post, e, fun p b hb => ?_⟩
          rcases List.mem_cons.1 hb with hb | hb
          · cases hb
          · exact hc p b hb
        | named => cases acc <;> cases h
      | counted p b =>
        cases rep with
        | fixed z => cases acc <;> cases h
        | indet => cases acc <;> cases h
        | named c =>
          cases acc with
          | none => cases h
          | some a =>
            simp only [layoutMatches, Bool.and_eq_true, beq_iff_eq, bne_iff_ne, ne_eq, decide_eq_true_eq] at h
            obtain ⟨⟨⟨⟨⟨⟨h1, h2⟩, h3⟩, h4⟩, h5⟩, h6⟩, h7⟩ := h
            obtain ⟨ha, hdone⟩ := hacc a rfl
            subst ha
            obtain ⟨w, hw, hwe⟩ : ∃ w, pre[p]? = some w ∧ (w.name, w.ty) = (c, IN) := by
              simpa [slotsW] using h1
            simp only [Prod.mk.injEq] at hwe
            obtain ⟨hwn, hwt⟩ := hwe
            have hlast := lastValue_unique pre h2 p w hw
            obtain ⟨hch, htx⟩ := heach p w hw
            have hat : full[p]? = some (.one c .whole) := by
              have hlt : p < done.length := by
                rw [hdone]
                simpa [slotsW] using (List.getElem?_eq_some_iff.1 hw).1
              rw [hfull, List.getElem?_append_left hlt, hdone, List.getElem?_map, h1]
              rfl
            obtain ⟨n, hn, hn'⟩ : ∃ n : Nat, w.val = .int n ∧ n < 10 ^ 4300 := by
              rw [hwn, hwt] at hch
              unfold chosen at hch
              have hdn : directionOf IN = none := by decide
              simp only [hdn] at hch
              have hnom : nomval IN mode (now (clockReads (pre.take p))) = .ok (.int 0) := rfl
              rw [hnom] at hch
              have hch := Except.ok.inj hch
              unfold keywordOr at hch
              split at hch
              · rename_i z hz
                subst hch
                obtain ⟨n, hn⟩ := hkw.counts p b c .whole _ (by rw [hfull]; simp) hat hz
                refine ⟨n, hn, ?_⟩
                rw [hn] at hz
                have := hkw.suits c .whole _ (.one (List.mem_of_getElem? hat)) hz
                cases this with
                | whole _ h => simpa using h
                | _ => contradiction
              · exact ⟨0, hch.symm, by positivity⟩
            rw [hwn, hn] at hlast
            obtain ⟨post, e, hc⟩ := main (n : Int).toNat _ b lay hfull h6 h7 (.named c n h5 hlast) (by
              intro j hj name kind x hx hl
              exact hkw.suits _ kind x (.counted (at_ := p) j (by rw [hfull]; simp) hx) hl)
            refine ⟨post, e, fun q b' hb => ?_⟩
            rcases List.mem_cons.1 hb with hb | hb
            · cases hb
              obtain ⟨c', rfl⟩ := emit_prefix e
              refine ⟨w.text, ?_, ?_⟩
              · rw [List.getElem?_map, List.getElem?_append_left (List.getElem?_eq_some_iff.1 hw).1, hw]; rfl
              · obtain ⟨text, t1, t2, _⟩ := value_written (ty := IN) hp (by decide) (Suits.whole (n : Int) (by simpa using hn'))
                rw [hwt, hn] at htx
                have : w.text = text := Except.ok.inj (htx.symm.trans t1)
                rw [this]
                cases t2 with
                | whole _ ds d1 d2 _ _ =>
                  rw [show decide ((n : Int) < 0) = false by simp]
                  exact ⟨d1, d2⟩
            · exact hc q b' hb

theorem fields_hasField (f : List Str) (name : Str) (kind : Kind) : ∀ (lay : List Item) (pos : Nat),
    (name, kind) ∈ fields f lay pos → HasField lay name kind := by
  have mono : ∀ (x : Item) (lay : List Item), HasField lay name kind → HasField (x :: lay) name kind := by
    intro x lay h
    cases h with
    | one h => exact .one (List.mem_cons_of_mem _ h)
    | times j h h1 h2 => exact .times j (List.mem_cons_of_mem _ h) h1 h2
    | many j h h1 => exact .many j (List.mem_cons_of_mem _ h) h1
    | counted j h h1 => exact .counted j (List.mem_cons_of_mem _ h) h1
  have rep : ∀ (n : Nat) (b : List (Str × Kind)), (name, kind) ∈ repeated n b →
      ∃ j < n, ∃ base, (base, kind) ∈ b ∧ name = base ++ groupSuffix (j + 1) := by
    intro n b h
    obtain ⟨j, hj, h⟩ := List.mem_flatMap.1 h
    obtain ⟨y, hy, e⟩ := List.mem_map.1 h
    obtain ⟨y1, y2⟩ := y
    simp only [Prod.mk.injEq] at e
    obtain ⟨e1, rfl⟩ := e
    exact ⟨j, List.mem_range.1 hj, y1, hy, e1.symm⟩
  intro lay
  induction lay with
  | nil => intro pos h; cases h
  | cons x lay ih =>
    intro pos h
    cases x with
    | one n k =>
      rcases List.mem_cons.1 h with h | h
      · cases h; exact .one (by simp)
      · exact mono _ _ (ih _ h)
    | times n b =>
      rcases List.mem_append.1 h with h | h
      · obtain ⟨j, hj, base, hb, rfl⟩ := rep _ _ h
        exact .times j (by simp) hb hj
      · exact mono _ _ (ih _ h)
    | many b =>
      rcases List.mem_append.1 h with h | h
      · obtain ⟨j, hj, base, hb, rfl⟩ := rep _ _ h
        exact .many j (by simp) hb
      · exact mono _ _ (ih _ h)
    | counted a b =>
      rcases List.mem_append.1 h with h | h
      · obtain ⟨j, hj, base, hb, rfl⟩ := rep _ _ h
        exact .counted (at_ := a) j (by simp) hb
      · exact mono _ _ (ih _ h)

/-- The bytes of the message are a sentence with its header and fields and the right checksum. -/
def OnTheWire (t i : Str) (m : Msg) : Prop :=
  ∃ raw ck, m.serialize = .ok raw ∧ IsSentence (.bytes raw) (commaJoin ((t ++ i) :: m.payload)) t i m.payload ck ∧
    upper ck = calcChecksum (commaJoin ((t ++ i) :: m.payload))

/-- Suitable keywords give a message written as the layout says. -/
theorem writing_made (now : Nat → DateTime) (t i : Str) (mode : Int) (hm : mode = 0 ∨ mode = 1 ∨ mode = 2) (hp : Bool)
    (v : Nat) (u : UDefs) (kw : List (Str × PyVal)) (hids : KnownIds v u t i) (hkw : PlainKeywords i kw) (d : PDict)
    (hd : KwDefinition mode.toNat u i kw d) (hsane : SaneGen d) (hnow : ClockOk now)
    (lay : List Item) (hok : layoutOk d lay = true) (hdet : Determinate d = true) (hs : SuitableKeywords kw lay) :
    ∃ m, mkMsg now t i mode hp v u none ⟨none, kw⟩ = .ok m ∧ IsWritten hp mode.toNat now kw lay m ∧
      (PlainStrings kw → PlainText (t ++ i) → SplitsBack t i → OnTheWire t i m) := by
  have hmatch : layoutMatches (some []) d lay = true := by
    simp only [layoutOk, Bool.and_eq_true] at hok
    exact hok.1.1.1.1
  obtain ⟨ws, he, hc⟩ := emit_exists (mode := mode.toNat) (hp := hp) hnow lay hs d lay [] (some []) rfl hmatch []
    (by intro q w hq; simp at hq) (fun a ha => by cases ha; exact ⟨rfl, rfl⟩)
  obtain ⟨m, h, h1, h2⟩ := (C05_generate now t i mode hp v u kw hm hids hkw d hd hsane _ _).2 ⟨ws, he, rfl, rfl⟩
  refine ⟨m, h, ?_, fun w1 w2 w3 => ?_⟩
  swap
  · obtain ⟨raw, ck, a1, _, a3, a4, _⟩ := C05_accepted now t i mode hp v u kw m hkw d hd hsane h w1 w2 w3
    exact ⟨raw, ck, a1, a3, a4⟩
  obtain ⟨r1, r2, r3⟩ := writing_core now t i mode hp v u kw m hkw d hd hsane h hnow lay hok hdet (by rw [h1]; exact hc)
    (fun name kind x hf => hs.suits name kind x (fields_hasField _ _ _ _ _ hf))
  exact ⟨r1, r2, r3⟩

/-! ## The theorems -/

/-- What is checked of the definition of each of the standard sentences. -/
theorem sentences_determinate : ∀ x ∈ sentences,
    (match lookup (upper x.1) (standardDefs 0) with | some d => Determinate d | none => true) = true := by decide +kernel

/-- What is checked of the definition of each of the proprietary sentences. -/
theorem vendor_determinate : ∀ x ∈ Vendor.sentences ++ Vendor.others,
    (match lookup (Vendor.keyOf x.1 x.2.1) (proprietaryDefs 0) with | some d => Determinate d | none => true) = true ∧
    Vendor.keyOf x.1 x.2.1 ∉ [py!"QTMCFGUART", py!"QTMCFGMSGRATE", py!"QTMCFGPPS", py!"QTMCFGSAT", py!"QTMCFGGEOFENCE",
      py!"STMDRSENMSG"] := by decide +kernel

/-- The constructor, given keywords that suit a sentence of the standard, succeeds, and the message has the
fields of that sentence, in the order of the standard and each written the way the standard says: digits and
signs of numbers, times with hundredths of seconds, dates, degrees and minutes with the chosen number of
decimals and their hemisphere; omitted keywords are left at their defaults. A reader following the standard
finds every field well-formed. If no text among the keywords has a reserved character, the bytes of the message
are a sentence with these fields and the right checksum. -/
theorem C76_writing (now : Nat → DateTime) (t i : Str) (hp : Bool) (v : Nat) (u : UDefs) (kw : List (Str × PyVal))
    (lay : List Item) (hl : (i, lay) ∈ sentences) (hids : KnownIds v u t i) (hkw : PlainKeywords i kw)
    (hnow : ClockOk now) (hs : SuitableKeywords kw lay) :
    ∃ m, mkMsg now t i 0 hp v u none ⟨none, kw⟩ = .ok m ∧ IsWritten hp 0 now kw lay m ∧
      (PlainStrings kw → PlainText (t ++ i) → SplitsBack t i → OnTheWire t i m) := by
  obtain ⟨d, hd, hok, hstd, hpre, _, _⟩ := sentence_facts hl
  have hdet := sentences_determinate _ hl
  simp only [hd] at hdet
  have hmem : (upper i, d) ∈ standardDefs 0 := lookup_some_mem _ _ _ hd
  refine writing_made now t i 0 (.inl rfl) hp v u kw hids hkw d ?_ (tables_sane_gen.1 0 _ hmem) hnow lay hok hdet hs
  refine ⟨i, by unfold kwFullId; rw [if_neg hpre], ?_⟩
  rw [if_pos hstd]
  exact hd

/-- The same for proprietary sentences, as their manufacturers lay them out. Where the first field says which
sentence it is, this is the keyword `msgId`. -/
theorem C76_vendor (now : Nat → DateTime) (t i : Str) (hp : Bool) (v : Nat) (u : UDefs) (kw : List (Str × PyVal))
    (sel : Vendor.Select) (lay : List Item) (hl : (i, sel, lay) ∈ Vendor.sentences ++ Vendor.others) (hsel : Vendor.SelectsBy kw sel)
    (hids : KnownIds v u t i) (hkw : PlainKeywords i kw) (hnow : ClockOk now) (hs : SuitableKeywords kw lay) :
    ∃ m, mkMsg now t i 0 hp v u none ⟨none, kw⟩ = .ok m ∧ IsWritten hp 0 now kw lay m ∧
      (PlainStrings kw → PlainText (t ++ i) → SplitsBack t i → OnTheWire t i m) := by
  have hok : Vendor.vendorOk (i, sel, lay) = true := by
    rcases List.mem_append.1 hl with h | h
    · exact Vendor.vendor_ok _ h
    · exact Vendor.others_ok _ h
  obtain ⟨hdet, hnk⟩ := vendor_determinate _ hl
  unfold Vendor.vendorOk at hok
  simp only at hok hdet hnk
  cases hd : lookup (Vendor.keyOf i sel) (proprietaryDefs 0) with
  | none => rw [hd] at hok; cases hok
  | some d =>
    rw [hd] at hok
    simp only [hd] at hdet
    simp only [Bool.and_eq_true, decide_eq_true_eq, Bool.or_eq_true] at hok
    obtain ⟨⟨⟨⟨⟨⟨⟨h1, h2⟩, h3⟩, h4⟩, h5⟩, h6⟩, h7⟩, h8⟩ := hok
    have hmem : (Vendor.keyOf i sel, d) ∈ proprietaryDefs 0 := lookup_some_mem _ _ _ hd
    obtain ⟨id, e1, e2⟩ : ∃ id, kwFullId i kw = .ok id ∧ upper id = Vendor.keyOf i sel := by
      unfold kwFullId
      cases sel with
      | always =>
        simp only [Vendor.selectOk, Bool.and_eq_true, decide_eq_true_eq] at h4
        exact ⟨i, by rw [if_neg h4.1], rfl⟩
      | data =>
        simp only [Vendor.selectOk, decide_eq_true_eq] at h4
        exact ⟨i, by rw [if_neg h4], rfl⟩
      | word w =>
        simp only [Vendor.selectOk, Bool.and_eq_true, decide_eq_true_eq] at h4
        have : lookup py!"msgId" kw = some (.str w) := hsel
        exact ⟨i ++ w, by rw [if_pos h4.1.1.1, this], rfl⟩
      | time =>
        simp only [Vendor.selectOk, decide_eq_true_eq] at h4
        have : lookup py!"msgId" kw = some (.str []) := hsel
        subst h4
        exact ⟨py!"ASHR", by rw [if_pos (by decide), this]; rfl, rfl⟩
    refine writing_made now t i 0 (.inl rfl) hp v u kw hids hkw d ?_ (tables_sane_gen.2 0 _ hmem) hnow lay h1 hdet hs
    refine ⟨id, e1, ?_⟩
    rw [if_neg h2, if_pos h3, e2]
    refine .inr ⟨?_, ?_, hd⟩
    · intro sfx hk
      apply hnk
      generalize Vendor.keyOf i sel = key at hk
      cases hk <;> simp
    · intro e
      apply hnk
      rw [e]
      simp

/-- Decimal numbers are written with an exponent, which the standard does not know, exactly if they are not
zero and below `0.0001` or from `10 ** 16`. -/
theorem C76_exponents (hp negative : Bool) (a : ℚ) (hx : IsDouble (.fin negative a)) :
    ∃ text, val2str (.float (.fin negative a)) DE hp = .ok text ∧
      (py!"e".head! ∈ text ↔ a ≠ 0 ∧ (a < 1 / 10 ^ 4 ∨ 10 ^ 16 ≤ a)) :=
  ⟨_, rfl, exponent_iff negative a hx⟩

example : val2str (.float (PyFloat.ofMag false (1 / 10 ^ 7))) DE false = .ok py!"1e-07" ∧
    val2str (.float (PyFloat.ofMag false (1 / 10 ^ 4))) DE false = .ok py!"0.0001" := by decide +kernel

/-! ## Examples -/

/-- Keywords for a position report. -/
def writeGll : List (Str × PyVal) := [(py!"lat", .int (-53)), (py!"lon", .float (.fin true (9 / 4))),
  (py!"time", .time ⟨22, 32, 32, 123456⟩), (py!"status", .str py!"A")]

theorem writeGll_suitable : SuitableKeywords writeGll [.one py!"lat" .latitude, .one py!"NS" .north,
    .one py!"lon" .longitude, .one py!"EW" .east, .one py!"time" .time, .one py!"status" .text,
    .one py!"posMode" .text] where
  suits := by
    intro name kind x hf hl
    cases hf with
    | one h =>
      simp only [List.mem_cons, Item.one.injEq, List.not_mem_nil, or_false] at h
      rcases h with ⟨rfl, rfl⟩ | ⟨rfl, rfl⟩ | ⟨rfl, rfl⟩ | ⟨rfl, rfl⟩ | ⟨rfl, rfl⟩ | ⟨rfl, rfl⟩ | ⟨rfl, rfl⟩
      · cases hl; exact .latitude _ _ (.int _) (by norm_num)
      · cases hl
      · cases hl
        exact .longitude _ _ (.float true (9 / 4) ⟨9, -2, by norm_num, by norm_num, by norm_num, by norm_num⟩)
          (by norm_num)
      · cases hl
      · cases hl; exact .time _ (by decide)
      · cases hl; exact .text _
      · cases hl
    | times _ h => simp at h
    | many _ h => simp at h
    | counted _ h => simp at h
  counts := by intro a b c d e h; simp at h
  indexed := by intro b h; simp at h

/-- The hypotheses of `C76_writing` are met, and the message is what the theorem says. -/
example : ∃ m, mkMsg clock0 py!"GN" py!"GLL" 0 false 3 [] none ⟨none, writeGll⟩ = .ok m ∧
    IsWritten false 0 clock0 writeGll [.one py!"lat" .latitude, .one py!"NS" .north,
    .one py!"lon" .longitude, .one py!"EW" .east, .one py!"time" .time, .one py!"status" .text,
    .one py!"posMode" .text] m ∧ OnTheWire py!"GN" py!"GLL" m ∧
    m.payload = [py!"5300.00000", py!"S", py!"00215.00000", py!"W", py!"223232.12", py!"A", []] := by
  obtain ⟨m, h1, h2, h3⟩ := C76_writing clock0 py!"GN" py!"GLL" false 3 [] writeGll _ (by decide +kernel)
    (fun _ => ⟨by decide +kernel, by decide +kernel⟩) (by decide +kernel) (fun n => by unfold clock0; decide) writeGll_suitable
  refine ⟨m, h1, h2, h3 ?_ (by decide +kernel) (by decide +kernel), ?_⟩
  · intro k s hk
    simp only [writeGll, List.mem_cons, Prod.mk.injEq, List.not_mem_nil, or_false, reduceCtorEq, and_false, false_or,
      PyVal.str.injEq] at hk
    obtain ⟨_, rfl⟩ := hk
    decide +kernel
  · have : (mkMsg clock0 py!"GN" py!"GLL" 0 false 3 [] none ⟨none, writeGll⟩).map Msg.payload =
        .ok [py!"5300.00000", py!"S", py!"00215.00000", py!"W", py!"223232.12", py!"A", []] := by decide +kernel
    rw [h1] at this
    exact Except.ok.inj this

/-- Keywords for the status of two satellites. -/
def writeUbx03 : List (Str × PyVal) := [(py!"msgId", .str py!"03"), (py!"numSv", .int 2), (py!"svid_01", .int 23),
  (py!"azi_02", .float (.fin false (9 / 4)))]

theorem writeUbx03_suitable : SuitableKeywords writeUbx03 Vendor.ubx03Layout where
  suits := by
    intro name kind x hf hl
    have hm := lookup_some_mem _ _ _ hl
    clear hl
    cases hf with
    | one h =>
      simp only [Vendor.ubx03Layout, List.mem_cons, Item.one.injEq, List.not_mem_nil, or_false, reduceCtorEq] at h
      rcases h with ⟨rfl, rfl⟩ | ⟨rfl, rfl⟩
      · simp only [writeUbx03, List.mem_cons, Prod.mk.injEq, List.not_mem_nil, or_false, List.cons.injEq,
          Nat.reduceEqDiff, false_and, true_and] at hm
        rw [hm]; exact .text _
      · simp only [writeUbx03, List.mem_cons, Prod.mk.injEq, List.not_mem_nil, or_false, List.cons.injEq,
          Nat.reduceEqDiff, false_and, true_and, false_or] at hm
        rw [hm]; exact .whole 2 (by decide +kernel)
    | times _ h => simp [Vendor.ubx03Layout] at h
    | many _ h => simp [Vendor.ubx03Layout] at h
    | counted j h hb =>
      simp only [Vendor.ubx03Layout, List.mem_cons, reduceCtorEq, false_or, List.not_mem_nil, or_false,
        Item.counted.injEq] at h
      obtain ⟨_, rfl⟩ := h
      simp only [List.mem_cons, Prod.mk.injEq, List.not_mem_nil, or_false] at hb
      rcases hb with ⟨rfl, rfl⟩ | ⟨rfl, rfl⟩ | ⟨rfl, rfl⟩ | ⟨rfl, rfl⟩ | ⟨rfl, rfl⟩ | ⟨rfl, rfl⟩ <;>
        simp only [writeUbx03, List.mem_cons, Prod.mk.injEq, List.not_mem_nil, or_false, List.cons.injEq,
          List.cons_append, Nat.reduceEqDiff, false_and, true_and, false_or] at hm
      · rw [hm.2]; exact .whole 23 (by decide +kernel)
      · rw [hm.2]
        exact .decimal false (9 / 4) ⟨9, -2, by norm_num, by norm_num, by norm_num, by norm_num⟩ (.inr (by norm_num))
  counts := by
    intro a b name kind x h1 h2 h3
    simp only [Vendor.ubx03Layout, List.mem_cons, reduceCtorEq, false_or, List.not_mem_nil, or_false,
      Item.counted.injEq] at h1
    obtain ⟨rfl, _⟩ := h1
    simp only [Vendor.ubx03Layout, List.getElem?_cons_succ, List.getElem?_cons_zero, Option.some.injEq,
      Item.one.injEq] at h2
    obtain ⟨rfl, rfl⟩ := h2
    cases h3
    exact ⟨2, rfl⟩
  indexed := by intro b h; simp [Vendor.ubx03Layout] at h

/-- The hypotheses of `C76_vendor` are met: two satellites are written. -/
example : ∃ m, mkMsg clock0 py!"P" py!"UBX" 0 false 3 [] none ⟨none, writeUbx03⟩ = .ok m ∧
    IsWritten false 0 clock0 writeUbx03 Vendor.ubx03Layout m ∧
    m.payload = [py!"03", py!"2", py!"23", [], py!"0.0", py!"0.0", py!"0", py!"0",
      py!"0", [], py!"2.25", py!"0.0", py!"0", py!"0"] := by
  obtain ⟨m, h1, h2, _⟩ := C76_vendor clock0 py!"P" py!"UBX" false 3 [] writeUbx03 (.word py!"03") Vendor.ubx03Layout
    (by decide +kernel) rfl (fun _ => ⟨by decide +kernel, by decide +kernel⟩) (by decide +kernel)
    (fun n => by unfold clock0; decide) writeUbx03_suitable
  refine ⟨m, h1, h2, ?_⟩
  have : (mkMsg clock0 py!"P" py!"UBX" 0 false 3 [] none ⟨none, writeUbx03⟩).map Msg.payload =
      .ok [py!"03", py!"2", py!"23", [], py!"0.0", py!"0.0", py!"0", py!"0",
        py!"0", [], py!"2.25", py!"0.0", py!"0", py!"0"] := by decide +kernel
  rw [h1] at this
  exact Except.ok.inj this

end Props
