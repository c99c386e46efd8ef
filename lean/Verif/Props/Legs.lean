import Verif.Props.Payoff

/-! # Leg lists, calls, copies and default arguments of cashflow lists: C47, C87, C89, C90 -/

set_option linter.unusedSectionVars false
set_option linter.unusedSimpArgs false
set_option linter.unusedVariables false

namespace Dcf

open Spec

section
variable {D P : Type} [LinearOrder D] {cal : Cal D P}

/-- The dates with a stored flow are those of the domain. -/
def CFList.Keyed (l : CFList D P) : Prop := ∀ d, l.flows.get d = none ↔ d ∉ l.domain

theorem CFList.keyed_ofPayoffs {dates : List D} {ps : List (PayOff D P)} {o : Option D} {arg : ModelArg D} {b : Bool}
    {l : CFList D P} (h : CFList.ofPayoffs dates ps o arg b = .ok l) : l.Keyed := by
  unfold CFList.ofPayoffs at h
  split_ifs at h with hl
  obtain rfl := Except.ok.inj h
  intro d
  rw [Dict.get_none, Dict.mem_ofPairs_keys, List.map_fst_zip (by omega)]

theorem CFList.keyed_setFixedRate {l : CFList D P} (h : l.Keyed) (v : Option ℝ) : (l.setFixedRate v).Keyed := by
  intro d
  refine Iff.trans ?_ (h d)
  simp only [CFList.setFixedRate, Dict.get_map, Option.map_eq_none_iff]

/-- The cashflow lists that can be built: flat ones by the constructors of the package, leg lists from such ones. -/
inductive CF.Built : CF D P → Prop
  | flat {l : CFList D P} (h : l.Keyed) : CF.Built (.flat l)
  | legs {ls : List (CF D P)} {c : CF D P} (h : ∀ l ∈ ls, CF.Built l) (hc : CF.newLegs ls = .ok c) : CF.Built c

theorem CF.newLegs_eq {ls : List (CF D P)} {c : CF D P} (hc : CF.newLegs ls = .ok c) :
    ∃ o, c = .legs ls (sortedSet (ls.map CF.domain).flatten) o ∧ minOrigin (ls.map CF.origin) = .ok o := by
  simp only [CF.newLegs, Py.bind_eq_ok] at hc
  obtain ⟨o, ho, h⟩ := hc
  exact ⟨o, (Except.ok.inj h).symm, ho⟩

/-- C47: the domain of a leg list is the sorted set of all leg dates. -/
theorem C47_domain {ls : List (CF D P)} {c : CF D P} (hc : CF.newLegs ls = .ok c) :
    c.domain.Pairwise (· < ·) ∧ ∀ d, d ∈ c.domain ↔ ∃ l ∈ ls, d ∈ l.domain := by
  obtain ⟨o, rfl, -⟩ := CF.newLegs_eq hc
  refine ⟨sortedSet_strict _, fun d => ?_⟩
  simp only [CF.domain, sortedSet_mem, List.mem_flatten, List.mem_map]
  constructor
  · rintro ⟨_, ⟨l, hl, rfl⟩, hd⟩; exact ⟨l, hl, hd⟩
  · rintro ⟨l, hl, hd⟩; exact ⟨_, ⟨l, hl, rfl⟩, hd⟩

theorem legItems_none {ls : List (CF D P)} {d : D} (h : ∀ l ∈ ls, d ∉ l.domain) : CF.legItems cal ls d = .ok [] := by
  induction ls with
  | nil => simp [CF.legItems]
  | cons l ls ih =>
    rw [CF.legItems, if_neg (h l (by simp))]
    exact ih fun l hl => h l (by simp [hl])

/-- A date without flow. -/
theorem CF.Built.off {c : CF D P} (h : c.Built) {d : D} (hd : d ∉ c.domain) : c.getitem cal d = .ok 0 := by
  cases h with
  | flat h =>
    rename_i l
    simp only [CF.getitem, CFList.getitem, (h d).2 hd]
  | legs h hc =>
    have hm := (C47_domain hc).2 d
    obtain ⟨o, rfl, -⟩ := CF.newLegs_eq hc
    rw [CF.getitem, legItems_none fun l hl hd' => hd (hm.2 ⟨l, hl, hd'⟩)]
    simp

theorem legItems_sum {ls : List (CF D P)} (h : ∀ l ∈ ls, l.Built) (d : D) :
    (List.sum <$> CF.legItems cal ls d) = List.sum <$> pyMap (fun l => CF.getitem cal l d) ls := by
  induction ls with
  | nil => simp [CF.legItems, pyMap]
  | cons l ls ih =>
    have ih := ih fun l hl => h l (by simp [hl])
    rw [CF.legItems, pyMap_cons]
    split_ifs with hd
    · cases CF.getitem cal l d with
      | error e => rfl
      | ok x =>
        simp only [Py.ok_bind]
        cases h1 : CF.legItems cal ls d <;> cases h2 : pyMap (fun l => CF.getitem cal l d) ls <;>
          simp [h1, h2] at ih ⊢
        · exact ih
        · exact ih
    · rw [(h l (by simp)).off hd]
      simp only [Py.ok_bind]
      rw [ih]
      cases pyMap (fun l => CF.getitem cal l d) ls <;> simp

/-- C47: the flow of a leg list at any date (of its domain or not) is the sum of the flows of all legs there; it raises
what a leg raises. -/
theorem C47_flow {ls : List (CF D P)} {c : CF D P} (h : ∀ l ∈ ls, l.Built) (hc : CF.newLegs ls = .ok c) (d : D) :
    c.getitem cal d = List.sum <$> pyMap (fun l => CF.getitem cal l d) ls := by
  obtain ⟨o, rfl, -⟩ := CF.newLegs_eq hc
  rw [← legItems_sum h, CF.getitem]
  cases CF.legItems cal ls d <;> simp

/-- C47: no legs, no list. -/
theorem C47_no_legs : CF.newLegs ([] : List (CF D P)) = .error .value := rfl

theorem minOrigin_ok {os : List (Option D)} (hne : os ≠ []) (h : ∀ o ∈ os, o ≠ none) :
    ∃ o, minOrigin os = .ok (some o) ∧ some o ∈ os ∧ ∀ a, some a ∈ os → o ≤ a := by
  induction os with
  | nil => exact absurd rfl hne
  | cons x os ih =>
    obtain ⟨b, rfl⟩ := Option.ne_none_iff_exists'.1 (h x (by simp))
    cases os with
    | nil => exact ⟨b, rfl, by simp, fun a ha => by simp at ha; simp [ha]⟩
    | cons y os =>
      obtain ⟨o, ho, hm, hle⟩ := ih (by simp) fun o ho => h o (by simp [ho])
      refine ⟨min b o, ?_, ?_, ?_⟩
      · rw [minOrigin, ho]; rfl
        simp
      · rcases min_choice b o with e | e <;> rw [e]
        · simp
        · exact List.mem_cons_of_mem _ hm
      · intro a ha
        rcases List.mem_cons.1 ha with ha | ha
        · obtain rfl := Option.some.inj ha; exact min_le_left _ _
        · exact (min_le_right _ _).trans (hle a ha)

/-- C47: legs that all have an origin (a given one or a first date) give a list, whose origin is their earliest. -/
theorem C47_origin {ls : List (CF D P)} (hne : ls ≠ []) (h : ∀ l ∈ ls, l.origin ≠ none) :
    ∃ c o, CF.newLegs ls = .ok c ∧ c.origin = some o ∧ (∃ l ∈ ls, l.origin = some o) ∧
      ∀ l ∈ ls, ∀ a, l.origin = some a → o ≤ a := by
  obtain ⟨o, ho, hm, hle⟩ := minOrigin_ok (os := ls.map CF.origin) (by simpa using hne) (by simpa using h)
  refine ⟨.legs ls (sortedSet (ls.map CF.domain).flatten) (some o), o, by simp [CF.newLegs, ho], rfl, ?_, ?_⟩
  · obtain ⟨l, hl, e⟩ := List.mem_map.1 hm; exact ⟨l, hl, e⟩
  · intro l hl a ha; exact hle a (ha ▸ List.mem_map_of_mem hl)

/-! ## C87: calling a list -/

theorem mem_zip_map {α β : Type} {f : α → β} {l : List α} {a : α} {b : β} (h : (a, b) ∈ l.zip (l.map f)) :
    a ∈ l ∧ b = f a := by
  induction l with
  | nil => simp at h
  | cons x l ih =>
    simp only [List.map_cons, List.zip_cons_cons, List.mem_cons] at h
    rcases h with h | h
    · obtain ⟨rfl, rfl⟩ := Prod.mk.inj h; simp
    · exact ⟨List.mem_cons_of_mem _ (ih h).1, (ih h).2⟩

theorem CFList.new_of {dates : List D} {x : D → ℝ} (o : Option D) :
    ∃ l : CFList D P, CFList.new dates (.list (dates.map x)) o = .ok l ∧ l.domain = dates ∧ l.origin? = o ∧
      ∀ d, l.getitem cal d = .ok (if d ∈ dates then x d else 0) := by
  refine ⟨⟨o, dates, Dict.ofPairs (dates.zip ((dates.map x).map .num)), .fwd .none, false⟩, ?_, rfl, rfl, fun d => ?_⟩
  · simp [CFList.new, CFList.ofPayoffs, NumArg.expand]
  · simp only [CFList.getitem]
    cases hg : Dict.get (Dict.ofPairs (dates.zip ((dates.map x).map (PayOff.num (D := D) (P := P))))) d with
    | none =>
      rw [Dict.get_none, Dict.mem_ofPairs_keys, List.map_fst_zip (by simp)] at hg
      simp [hg]
    | some p =>
      have := Dict.mem_of_ofPairs (Dict.get_mem hg)
      rw [List.map_map] at this
      obtain ⟨hd', rfl⟩ := mem_zip_map this
      simp [PayOff.eval, hd']

/-- The same list with another model or curve, if one is given (`None` is none). -/
def CFList.withArg (l : CFList D P) : Option (ModelArg D) → CFList D P
  | none => l
  | some (.fwd .none) => l
  | some a => { l with arg := a }

/-- C87: calling a flat list (with no argument, or with a model or curve `a`) gives a plain list with the same dates and origin, whose
flows are those of the list (with `a` in place of its own model or curve). -/
theorem C87_flat {l : CFList D P} (hk : l.Keyed) {a : Option (ModelArg D)} {x : D → ℝ}
    (hx : ∀ d ∈ l.domain, (l.withArg a).getitem cal d = .ok (x d)) :
    ∃ l', l.call cal a = .ok l' ∧ l'.domain = l.domain ∧ l'.origin = l.origin ∧
      ∀ d, l'.getitem cal d = (l.withArg a).getitem cal d := by
  obtain ⟨l', h1, h2, h3, h4⟩ := CFList.new_of (P := P) (cal := cal) (dates := l.domain) (x := x) l.origin?
  refine ⟨l', ?_, h2, by simp only [CFList.origin, h2, h3], fun d => ?_⟩
  · have h5 := pyMap_ok hx
    have : l.call cal a = (pyMap ((l.withArg a).getitem cal) l.domain >>= fun flows =>
        CFList.new l.domain (NumArg.list flows) l.origin?) := by
      rcases a with _ | (f | m)
      · rfl
      · cases f <;> rfl
      · rfl
    rw [this, h5]
    exact h1
  · rw [h4]
    by_cases hd : d ∈ l.domain
    · rw [if_pos hd]; exact (hx d hd).symm
    · rw [if_neg hd]
      have : (l.withArg a).flows.get d = none := by
        rw [← (hk d).2 hd]
        unfold CFList.withArg
        split <;> rfl
      simp only [CFList.getitem, this]

/-- C87: calling a leg list gives zeros. -/
theorem C87_legs_zero {ls : List (CF D P)} {c : CF D P} (hc : CF.newLegs ls = .ok c) (a : Option (ModelArg D)) :
    ∃ l', c.call cal a = .ok l' ∧ l'.domain = c.domain ∧ ∀ d, l'.getitem cal d = .ok 0 := by
  obtain ⟨o, rfl, -⟩ := CF.newLegs_eq hc
  obtain ⟨l', h1, h2, -, h4⟩ := CFList.new_of (P := P) (cal := cal)
    (dates := sortedSet (ls.map CF.domain).flatten) (x := fun _ => 0) o
  refine ⟨l', ?_, h2, fun d => by rw [h4]; simp⟩
  rw [← h1]
  simp [CF.call, List.map_const']

/-- C87: whenever a leg list has a flow that is not 0, its call has other flows. -/
theorem C87_legs_violated {ls : List (CF D P)} {c : CF D P} (hc : CF.newLegs ls = .ok c) (a : Option (ModelArg D)) {d : D} {x : ℝ}
    (hx : c.getitem cal d = .ok x) (h0 : x ≠ 0) : ∃ l', c.call cal a = .ok l' ∧ l'.getitem cal d ≠ c.getitem cal d := by
  obtain ⟨l', h, -, h'⟩ := C87_legs_zero (cal := cal) hc a
  refine ⟨l', h, ?_⟩
  rw [h', hx]
  exact fun e => h0 (Except.ok.inj e).symm

/-! ## C89: defaults -/

/-- C89: without payoffs a contingent list exists exactly for one pay date. -/
theorem C89_payoffs_violated (dates : List D) (o : Option D) (arg : ModelArg D) :
    ((∃ l : CFList D P, CFList.newContingent dates none o arg = .ok l) ↔ dates.length = 1) ∧
    (dates.length ≠ 1 → (CFList.newContingent dates none o arg : Py (CFList D P)) = .error .value) := by
  simp only [CFList.newContingent, CFList.ofPayoffs, Option.getD_none, List.length_singleton]
  by_cases h : dates.length = 1
  · simp [h]
  · simp [h, Ne.symm h]

/-- C89: without strikes there is no option list with a pay date. -/
theorem C89_strikes_violated {dates : List D} (hne : dates ≠ []) (amounts : NumArg) (isPut : BoolArg) (fo po : Option P)
    (o : Option D) (arg : ModelArg D) :
    CFList.newOption cal dates amounts (.list []) isPut fo po o arg = .error .value := by
  simp [CFList.newOption, NumArg.expand, pyMap, CFList.newContingent, CFList.ofPayoffs]
  intro h
  exact hne (List.length_eq_zero_iff.1 h.symm)

/-- C89: with a strike or a list of strikes of the length of the dates (same for the other arguments) the default offsets give a list. -/
theorem C89_options_partial {dates : List D} {amounts strikes : NumArg} {isPut : BoolArg}
    (h1 : (amounts.expand dates.length).length = dates.length) (h2 : (strikes.expand dates.length).length = dates.length)
    (h3 : (isPut.expand dates.length).length = dates.length) (o : Option D) (arg : ModelArg D) :
    ∃ l, CFList.newOption cal dates amounts strikes isPut none none o arg = .ok l ∧ l.domain = dates := by
  have : ∃ l, CFList.newOption cal dates amounts strikes isPut none none o arg = .ok l := ?_
  · obtain ⟨l, hl⟩ := this
    refine ⟨l, hl, ?_⟩
    simp only [CFList.newOption, Py.bind_eq_ok, CFList.newContingent, CFList.ofPayoffs] at hl
    obtain ⟨ps, -, h⟩ := hl
    split_ifs at h
    rw [← Except.ok.inj h]
  simp only [CFList.newOption]
  rw [pyMap_ok (g := fun x : D × ℝ × ℝ × Bool => PayOff.option ⟨x.1, x.2.1, some x.2.2.1, x.2.2.2⟩)
    fun x _ => by simp [Cal.minus]]
  simp only [Py.ok_bind, CFList.newContingent, CFList.ofPayoffs, Option.getD_some]
  rw [if_pos (by simp [h1, h2, h3])]
  exact ⟨_, rfl⟩

/-! ## C90: copies with fixed flows -/

theorem CFList.newFixed_of {dates : List D} {x : D → ℝ} (o : Option D) :
    ∃ l : CFList D P, CFList.newFixed dates (.list (dates.map x)) o = .ok l ∧ l.domain = dates ∧ l.origin? = o ∧
      ∀ d arg, CFList.getitem cal { l with arg := arg } d = .ok (if d ∈ dates then x d else 0) := by
  refine ⟨⟨o, dates, Dict.ofPairs (dates.zip ((dates.map x).map .fixed)), .fwd .none, false⟩, ?_, rfl, rfl, fun d arg => ?_⟩
  · simp [CFList.newFixed, CFList.ofPayoffs, NumArg.expand]
  · simp only [CFList.getitem]
    cases hg : Dict.get (Dict.ofPairs (dates.zip ((dates.map x).map (PayOff.fixed (D := D) (P := P))))) d with
    | none =>
      rw [Dict.get_none, Dict.mem_ofPairs_keys, List.map_fst_zip (by simp)] at hg
      simp [hg]
    | some p =>
      have := Dict.mem_of_ofPairs (Dict.get_mem hg)
      rw [List.map_map] at this
      obtain ⟨hd', rfl⟩ := mem_zip_map this
      simp [PayOff.eval, hd']

/-- C90: a fixed copy of any list (flat or of legs) has the same dates, the same flows at every date, whatever happens later to
the model or curve, and the same origin. -/
theorem C90_copy {c : CF D P} (hb : c.Built) {x : D → ℝ} (hx : ∀ d ∈ c.domain, c.getitem cal d = .ok (x d)) :
    ∃ l, c.fix cal none = .ok l ∧ l.domain = c.domain ∧ l.origin = c.origin ∧
      ∀ d arg, CFList.getitem cal { l with arg := arg } d = c.getitem cal d := by
  obtain ⟨l, h1, h2, h3, h4⟩ := CFList.newFixed_of (P := P) (cal := cal) (dates := c.domain) (x := x)
    (cal.or none c.origin?)
  refine ⟨l, ?_, h2, ?_, fun d arg => ?_⟩
  · unfold CF.fix
    rw [pyMap_ok hx]
    exact h1
  · simp only [CFList.origin, h2, h3]
    cases c <;> simp [CF.origin, CF.origin?, CFList.origin, CF.domain, Cal.or]
  · rw [h4]
    by_cases hd : d ∈ c.domain
    · rw [if_pos hd, hx d hd]
    · rw [if_neg hd, hb.off hd]

/-- C90: an explicit origin is used if it is not falsy. -/
theorem C90_origin_partial {c : CF D P} {x : D → ℝ} (hx : ∀ d ∈ c.domain, c.getitem cal d = .ok (x d)) {o : D}
    (ho : cal.falsy o = false) : ∃ l, c.fix cal (some o) = .ok l ∧ l.origin = some o := by
  obtain ⟨l, h1, h2, h3, h4⟩ := CFList.newFixed_of (P := P) (cal := cal) (dates := c.domain) (x := x)
    (cal.or (some o) c.origin?)
  refine ⟨l, ?_, ?_⟩
  · unfold CF.fix
    rw [pyMap_ok hx]
    exact h1
  · simp [CFList.origin, h3, Cal.or, ho]

/-- C90: an explicit falsy origin (0 or 0.0) is dropped in favour of the one of the list. -/
theorem C90_origin_violated {c : CF D P} {x : D → ℝ} (hx : ∀ d ∈ c.domain, c.getitem cal d = .ok (x d)) {o : D}
    (ho : cal.falsy o = true) : ∃ l, c.fix cal (some o) = .ok l ∧ l.origin = c.origin := by
  obtain ⟨l, h1, h2, h3, h4⟩ := CFList.newFixed_of (P := P) (cal := cal) (dates := c.domain) (x := x)
    (cal.or (some o) c.origin?)
  refine ⟨l, ?_, ?_⟩
  · unfold CF.fix
    rw [pyMap_ok hx]
    exact h1
  · simp only [CFList.origin, h2, h3]
    cases c <;> simp [CF.origin, CF.origin?, CFList.origin, CF.domain, Cal.or, ho]

/-! ## Examples -/

/-- Two legs over different dates. -/
example : ∃ (a b : CFList ℝ FloatPeriod) (c : CF ℝ FloatPeriod), CFList.new [1, 2] (.list [5, 7]) none = .ok a ∧
    CFList.new [2, 3] (.list [1, 1]) (some 0) = .ok b ∧ CF.newLegs [.flat a, .flat b] = .ok c ∧ c.origin = some 0 ∧
    c.getitem floatCal 2 = .ok 8 ∧ c.Built := by
  have hl (ds : List ℝ) (xs : List ℝ) (o : Option ℝ) (h : xs.length = ds.length) :
      ∃ a : CFList ℝ FloatPeriod, CFList.new ds (.list xs) o = .ok a ∧ a.Keyed ∧ a.domain = ds ∧ a.origin? = o := by
    refine ⟨⟨o, ds, Dict.ofPairs (ds.zip (xs.map .num)), .fwd .none, false⟩, ?_, ?_, rfl, rfl⟩
    · simp only [CFList.new, CFList.ofPayoffs, NumArg.expand, List.length_map, if_pos h]
    · exact CFList.keyed_ofPayoffs (o := o) (arg := .fwd .none) (b := false) (dates := ds) (ps := xs.map .num)
        (by simp only [CFList.ofPayoffs, List.length_map, if_pos h])
  obtain ⟨a, ha, hka, hda, hoa⟩ := hl [1, 2] [5, 7] none rfl
  obtain ⟨b, hb, hkb, hdb, hob⟩ := hl [2, 3] [1, 1] (some 0) rfl
  obtain ⟨c, o, hc, ho, ⟨l, hm, hlo⟩, hle⟩ := C47_origin (ls := [.flat a, .flat b]) (by simp)
    (by simp [CF.origin, CFList.origin, hoa, hob, hda])
  have h0 : o = 0 := by
    have h1 := hle (.flat b) (by simp) 0 (by simp [CF.origin, CFList.origin, hob])
    simp only [List.mem_cons, List.not_mem_nil, or_false] at hm
    rcases hm with rfl | rfl
    · simp [CF.origin, CFList.origin, hoa, hda] at hlo; linarith
    · simp [CF.origin, CFList.origin, hob] at hlo; linarith
  have hB : ∀ l ∈ [CF.flat a, .flat b], l.Built := by
    simp only [List.mem_cons, List.not_mem_nil, or_false, forall_eq_or_imp, forall_eq]
    exact ⟨.flat hka, .flat hkb⟩
  refine ⟨a, b, c, ha, hb, hc, h0 ▸ ho, ?_, .legs hB hc⟩
  rw [C47_flow hB hc]
  simp only [CFList.new, CFList.ofPayoffs, NumArg.expand, List.length_map, List.length_cons, List.length_nil, if_true] at ha hb
  obtain rfl := Except.ok.inj ha
  obtain rfl := Except.ok.inj hb
  simp [pyMap, CF.getitem, CFList.getitem, Dict.ofPairs, Dict.set, Dict.get, PayOff.eval]
  norm_num

end

/-! ### The hypotheses can be met: each theorem applied -/

theorem exFlows (ds xs : List ℝ) (o : Option ℝ) (h : xs.length = ds.length) :
    ∃ a : CFList ℝ FloatPeriod, CFList.new ds (.list xs) o = .ok a ∧ a.Keyed ∧ a.domain = ds ∧ a.origin? = o := by
  refine ⟨⟨o, ds, Dict.ofPairs (ds.zip (xs.map .num)), .fwd .none, false⟩, ?_, ?_, rfl, rfl⟩
  · simp only [CFList.new, CFList.ofPayoffs, NumArg.expand, List.length_map, if_pos h]
  · exact CFList.keyed_ofPayoffs (o := o) (arg := .fwd .none) (b := false) (dates := ds) (ps := xs.map .num)
      (by simp only [CFList.ofPayoffs, List.length_map, if_pos h])

/-- One leg, and a list with one leg: calling a leg list loses its flows. -/
example : ∃ (a : CFList ℝ FloatPeriod) (c : CF ℝ FloatPeriod), CFList.new [1, 2] (.list [5, 7]) none = .ok a ∧ CF.newLegs [.flat a] = .ok c ∧
    c.getitem floatCal 2 = .ok 7 ∧
    (∃ l', a.call floatCal none = .ok l' ∧ l'.domain = a.domain ∧ l'.getitem floatCal 2 = .ok 7) ∧
    (∃ l', c.call floatCal none = .ok l' ∧ l'.domain = c.domain ∧ ∀ d, l'.getitem floatCal d = .ok 0) ∧
    (∃ l', c.call floatCal none = .ok l' ∧ l'.getitem floatCal 2 ≠ c.getitem floatCal 2) ∧
    (∃ l, c.fix floatCal none = .ok l ∧ l.domain = c.domain ∧ l.origin = c.origin) ∧
    (∃ l, c.fix floatCal (some 5) = .ok l ∧ l.origin = some 5) ∧
    ∃ l, c.fix floatCal (some 0) = .ok l ∧ l.origin = c.origin := by
  obtain ⟨a, ha, hka, hda, hoa⟩ := exFlows [1, 2] [5, 7] none rfl
  obtain ⟨c, o, hc, ho, -, -⟩ := C47_origin (ls := [.flat a]) (by simp) (by simp [CF.origin, CFList.origin, hoa, hda])
  have hB : ∀ l ∈ [CF.flat a], l.Built := by
    simp only [List.mem_cons, List.not_mem_nil, or_false, forall_eq]
    exact .flat hka
  have ha' := ha
  simp only [CFList.new, CFList.ofPayoffs, NumArg.expand, List.length_map, List.length_cons, List.length_nil, if_true] at ha'
  obtain rfl := Except.ok.inj ha'
  have hval : ∀ d, c.getitem floatCal d = .ok (if d = 1 then 5 else if d = 2 then 7 else 0) := by
    intro d
    rw [C47_flow hB hc]
    by_cases h1 : d = 1 <;> by_cases h2 : d = 2 <;>
      simp [pyMap, CF.getitem, CFList.getitem, Dict.ofPairs, Dict.set, Dict.get, PayOff.eval, h1, h2, Ne.symm, eq_comm]
  have hlist : ∀ d ∈ ([1, 2] : List ℝ), CFList.getitem floatCal (CFList.withArg
      (⟨none, [1, 2], Dict.ofPairs (List.zip [1, 2] (List.map .num [5, 7])), .fwd .none, false⟩ : CFList ℝ FloatPeriod) none) d =
        .ok (if d = 1 then 5 else 7) := by
    intro d hd
    simp only [List.mem_cons, List.not_mem_nil, or_false] at hd
    rcases hd with rfl | rfl <;>
      simp [CFList.getitem, CFList.withArg, Dict.ofPairs, Dict.set, Dict.get, PayOff.eval]
  refine ⟨_, c, ha, hc, by rw [hval]; norm_num, ?_, C87_legs_zero hc none, C87_legs_violated hc none (hval 2) (by norm_num),
    ?_, C90_origin_partial (fun d _ => hval d) (by simp [floatCal]), C90_origin_violated (fun d _ => hval d) (by simp [floatCal])⟩
  · obtain ⟨l', h1, h2, -, h4⟩ := C87_flat hka hlist
    exact ⟨l', h1, h2, by rw [h4, hlist 2 (by simp)]; norm_num⟩
  · obtain ⟨l, h1, h2, h3, -⟩ := C90_copy (.legs hB hc) (fun d _ => hval d)
    exact ⟨l, h1, h2, h3⟩

example := C89_strikes_violated (cal := floatCal) (dates := [1, 2]) (by simp) (.scalar 1) (.scalar true) none none none (.fwd .none)
example := C89_options_partial (cal := floatCal) (dates := [1, 2]) (amounts := .scalar 1) (strikes := .list [3, 4]) (isPut := .scalar true)
  (by simp [NumArg.expand]) (by simp [NumArg.expand]) (by simp [BoolArg.expand]) none (.fwd .none)

end Dcf
