import Verif.Props.CreditCurve

/-! # Spread setter, hazard rates, casts with arguments, empty periods: C91-C96 -/

set_option linter.unusedSectionVars false
set_option linter.unusedSimpArgs false
set_option linter.unusedVariables false

namespace Dcf

open Spec

section
variable {D P : Type} [LinearOrder D] {cal : Cal D P}

/-! ## C91: the spread setter -/

/-- C91: on a curve without spread every spread curve can be set, and is added to the values from then on. -/
theorem C91_set {c : RateCurve D P} (h : c.spread = none) {f : D → Py (Option ℝ)} {x : D} {y s : ℝ}
    (hy : c.call cal x = .ok y) (hs : f x = .ok (some s)) :
    ∃ c', c.setSpread (some f) = .ok c' ∧ c'.base = c.base ∧ c'.tenor = c.tenor ∧ c'.call cal x = .ok (y + s) := by
  refine ⟨{ c with spread := some f }, by simp [RateCurve.setSpread, h], rfl, rfl, ?_⟩
  simp only [RateCurve.call, h, Py.bind_eq_ok, hs, Py.ok_bind, pyNum] at hy ⊢
  obtain ⟨b, hb, b', hb', hy⟩ := hy
  refine ⟨b, hb, b', hb', ?_⟩
  rw [← Except.ok.inj hy, add_zero]

/-- C91: while there is one, another spread is rejected. -/
theorem C91_reset {c : RateCurve D P} (h : c.spread ≠ none) (f : D → Py (Option ℝ)) : c.setSpread (some f) = .error .type := by
  simp [RateCurve.setSpread, Option.isSome_iff_ne_none, h]

/-- C91: a spread can always be removed; afterwards the curve is what it was before the spread was set, and another spread can
be set. -/
theorem C91_remove (c : RateCurve D P) :
    ∃ c', c.setSpread none = .ok c' ∧ c'.spread = none ∧ c'.base = c.base ∧ c'.tenor = c.tenor ∧
      ∀ f, c.spread = none → ∃ c₁, c.setSpread (some f) = .ok c₁ ∧ c₁.setSpread none = .ok c := by
  refine ⟨{ c with spread := none }, by simp [RateCurve.setSpread], rfl, rfl, rfl, fun f h => ?_⟩
  refine ⟨{ c with spread := some f }, by simp [RateCurve.setSpread, h], ?_⟩
  simp only [RateCurve.setSpread]
  cases c; simp_all

end

/-! ## C92: hazard rates -/

section
variable {D P : Type} [LinearOrder D] {cal : Cal D P} {c : CRCurve D P}

/-- C92 (hazard rate curves): the stored value. -/
theorem C92_hazard (hc : c.cls = .hazard) (same : Bool) (limit : ℕ) (x : D) :
    c.hazardRate cal same (limit + 1) x = c.call cal x := by
  unfold CRCurve.hazardRate; simp [hc]

/-- C92 (inside the grid): the hazard rate at a date is the flat intensity between the neighbouring grid dates. -/
theorem C92_inside (hc : c.cls ≠ .hazard) (same : Bool) (limit : ℕ) {x a b : D} (hx : Around c.base.domain x a b) :
    c.hazardRate cal same (limit + 1) x = c.rate cal same a b := by
  have hne : c.base.domain ≠ [] := List.ne_nil_of_mem hx.mema
  obtain ⟨lo, hlo, hlo'⟩ : ∃ m ∈ c.base.domain, ∀ y ∈ c.base.domain, m ≤ y := by
    obtain ⟨m, hm⟩ := Option.isSome_iff_exists.1 (List.isSome_min?_of_ne_nil hne)
    exact ⟨m, List.min?_eq_some_iff.1 hm⟩
  obtain ⟨hi, hhi, hhi'⟩ : ∃ m ∈ c.base.domain, ∀ y ∈ c.base.domain, y ≤ m := by
    obtain ⟨m, hm⟩ := Option.isSome_iff_exists.1 (List.isSome_max?_of_ne_nil hne)
    exact ⟨m, List.max?_eq_some_iff.1 hm⟩
  have e1 : maxDate (c.base.domain.filter (· ≤ x)) = .ok a := by
    apply maxDate_eq
    · simp [hx.mema, hx.le]
    · intro y hy
      simp only [List.mem_filter, decide_eq_true_eq] at hy
      rcases hx.between y hy.1 with h | h
      · exact h
      · exact absurd (hx.lt.trans_le h) hy.2.not_gt
  have e2 : minDate (c.base.domain.filter (x < ·)) = .ok b := by
    apply minDate_eq
    · simp [hx.memb, hx.lt]
    · intro y hy
      simp only [List.mem_filter, decide_eq_true_eq] at hy
      rcases hx.between y hy.1 with h | h
      · exact absurd (h.trans hx.le) hy.2.not_ge
      · exact h
  have n1 : ¬ x < lo := not_lt.2 ((hlo' a hx.mema).trans hx.le)
  have n2 : ¬ hi ≤ x := not_le.2 (hx.lt.trans_le (hhi' b hx.memb))
  unfold CRCurve.hazardRate
  cases hcl : c.cls with
  | hazard => exact absurd hcl hc
  | _ => simp [minDate_eq hlo hlo', maxDate_eq hhi hhi', n1, n2, e1, e2, hx.le, not_lt.2 hx.lt.le,
      not_le.2 (hx.le.trans_lt hx.lt)]

/-- C92 (before the grid): the hazard rate at the first grid date. -/
theorem C92_before (hc : c.cls ≠ .hazard) (same : Bool) (limit : ℕ) {lo x : D} (hlo : lo ∈ c.base.domain)
    (hmin : ∀ y ∈ c.base.domain, lo ≤ y) (hx : x < lo) :
    c.hazardRate cal same (limit + 1) x = c.hazardRate cal same limit lo := by
  conv_lhs => unfold CRCurve.hazardRate
  cases hcl : c.cls with
  | hazard => exact absurd hcl hc
  | _ => simp [minDate_eq hlo hmin, hx]

/-- C92 (from the last grid date on): for marginal probabilities the flat intensity of the day after the last grid date ... -/
theorem C92_after_marginal (hc : c.cls = .marginal ∨ c.cls = .marginalDefault) (same : Bool) (limit : ℕ) {hi d x : D}
    (hhi : hi ∈ c.base.domain) (hmax : ∀ y ∈ c.base.domain, y ≤ hi) (hd : cal.add hi cal.oneDay = .ok d) (hx : hi ≤ x) :
    c.hazardRate cal same (limit + 1) x = c.rate cal same hi d := by
  obtain ⟨lo, hlo, hmin⟩ : ∃ m ∈ c.base.domain, ∀ y ∈ c.base.domain, m ≤ y := by
    obtain ⟨m, hm⟩ := Option.isSome_iff_exists.1 (List.isSome_min?_of_ne_nil (List.ne_nil_of_mem hhi))
    exact ⟨m, List.min?_eq_some_iff.1 hm⟩
  unfold CRCurve.hazardRate
  rcases hc with hcl | hcl <;>
    simp [hcl, minDate_eq hlo hmin, maxDate_eq hhi hmax, hx, not_lt.2 ((hmin hi hhi).trans hx), hd]

/-- C92 ... and for the others the hazard rate of the day before it. -/
theorem C92_after (hc : c.cls = .survival ∨ c.cls = .default ∨ c.cls = .flat) (same : Bool) (limit : ℕ) {hi d x : D}
    (hhi : hi ∈ c.base.domain) (hmax : ∀ y ∈ c.base.domain, y ≤ hi) (hd : cal.sub hi cal.oneDay = .ok d) (hx : hi ≤ x) :
    c.hazardRate cal same (limit + 1) x = c.hazardRate cal same limit d := by
  obtain ⟨lo, hlo, hmin⟩ : ∃ m ∈ c.base.domain, ∀ y ∈ c.base.domain, m ≤ y := by
    obtain ⟨m, hm⟩ := Option.isSome_iff_exists.1 (List.isSome_min?_of_ne_nil (List.ne_nil_of_mem hhi))
    exact ⟨m, List.min?_eq_some_iff.1 hm⟩
  conv_lhs => unfold CRCurve.hazardRate
  rcases hc with hcl | hcl | hcl <;>
    simp [hcl, minDate_eq hlo hmin, maxDate_eq hhi hmax, hx, not_lt.2 ((hmin hi hhi).trans hx), hd]

/-- C92 (refuted on a single date): for survival, default probabilities and flat intensities no date has a hazard rate, whatever
the recursion limit. -/
theorem C92_single_violated (hc : c.cls = .survival ∨ c.cls = .default ∨ c.cls = .flat) (same : Bool) {g d : D}
    (hg : c.base.domain = [g]) (hd : cal.sub g cal.oneDay = .ok d) (hlt : d < g) (limit : ℕ) (x : D) :
    c.hazardRate cal same limit x = .error .recursion := by
  have hne : c.cls ≠ .hazard := by rcases hc with h | h | h <;> simp [h]
  induction limit generalizing x with
  | zero => rfl
  | succ n ih =>
    rcases lt_or_ge x g with h | h
    · rw [C92_before hne same n (lo := g) (by simp [hg]) (by simp [hg]) h, ih]
    · rw [C92_after hc same n (hi := g) (by simp [hg]) (by simp [hg]) hd h, ih]

/-- C92 (partial): on wider grids the hazard rate of every date is the flat intensity between two neighbouring grid dates (for
marginal probabilities from the last date on: of the next day). -/
theorem C92_partial (hc : c.cls ≠ .hazard) (same : Bool) (limit : ℕ) {lo hi d n : D} (hlo : lo ∈ c.base.domain)
    (hhi : hi ∈ c.base.domain) (hmin : ∀ y ∈ c.base.domain, lo ≤ y) (hmax : ∀ y ∈ c.base.domain, y ≤ hi)
    (hd : cal.sub hi cal.oneDay = .ok d) (hn : cal.add hi cal.oneDay = .ok n) (h1 : lo ≤ d) (h2 : d < hi) (x : D) :
    ∃ a ∈ c.base.domain, ∃ b, (Around c.base.domain (min (max x lo) d) a b ∨ a = hi ∧ b = n ∨ Around c.base.domain x a b) ∧
      c.hazardRate cal same (limit + 3) x = c.rate cal same a b := by
  have hlh : lo < hi := h1.trans_lt h2
  rcases lt_or_ge x lo with hx | hx
  · obtain ⟨a, b, h⟩ := exists_around hlo hhi le_rfl hlh
    refine ⟨a, h.mema, b, .inl ?_, by rw [C92_before hc same _ hlo hmin hx, C92_inside hc same _ h]⟩
    rwa [max_eq_right hx.le, min_eq_left h1]
  · rcases lt_or_ge x hi with hx2 | hx2
    · obtain ⟨a, b, h⟩ := exists_around hlo hhi hx hx2
      exact ⟨a, h.mema, b, .inr (.inr h), C92_inside hc same _ h⟩
    · by_cases hm : c.cls = .marginal ∨ c.cls = .marginalDefault
      · exact ⟨hi, hhi, n, .inr (.inl ⟨rfl, rfl⟩), C92_after_marginal hm same _ hhi hmax hn hx2⟩
      · have hs : c.cls = .survival ∨ c.cls = .default ∨ c.cls = .flat := by
          cases hcl : c.cls <;> simp_all
        obtain ⟨a, b, h⟩ := exists_around hlo hhi h1 h2
        refine ⟨a, h.mema, b, .inl ?_, by rw [C92_after hs same _ hhi hmax hd hx2, C92_inside hc same _ h]⟩
        rwa [max_eq_left hx, min_eq_right (h2.le.trans hx2)]

end

/-! ## C93, C97: casts with and without arguments -/

section
variable {D P : Type} [LinearOrder D] {cal : Cal D P}

theorem DateCurve.new_ok {dom : List D} {data : List ℝ} {i : Option FuncSpec} {o : Option D} {dc : DayCountArg D} {f : FuncSpec}
    {c : DateCurve D} (h : DateCurve.new cal dom data i o dc f = .ok c) : c.origin? = o ∧ c.domain = dom ∧ c.dc = dc := by
  by_cases hl : dom.length = data.length
  · simp only [DateCurve.new, hl, DateCurve.update, Py.bind_eq_ok] at h
    simp only [not_true_eq_false, if_false, Py.pure_eq, Py.ok_bind, Py.bind_eq_ok] at h
    obtain ⟨_, -, _, -, h⟩ := h
    obtain rfl := Except.ok.inj h
    exact ⟨rfl, rfl, rfl⟩
  · simp [DateCurve.new, hl] at h

theorem castOn_ok {cls : IRClass} {limit : ℕ} {same : D → Bool} {dom : List D} {c d : IRCurve D P} {i : Option FuncSpec}
    {o : Option D} {dc : DayCountArg D} {tenor : Option P} (h : IRCurve.castOn cal cls limit same dom c i o dc tenor = .ok d) :
    d.base.origin? = cal.or o c.base.origin? ∧ d.base.domain = dom ∧ d.base.dc = dc.or c.base.dc.kwarg ∧ d.tenor = tenor := by
  simp only [IRCurve.castOn, IRCurve.new, Py.bind_eq_ok] at h
  obtain ⟨_, -, b, hb, h⟩ := h
  obtain rfl := Except.ok.inj h
  obtain ⟨h1, h2, h3⟩ := DateCurve.new_ok hb
  exact ⟨h1, h2, h3, rfl⟩

theorem cr_castOn_ok {cls : CRClass} {limit : ℕ} {same : D → Bool} {dom : List D} {c d : CRCurve D P} {i : Option FuncSpec}
    {o : Option D} {dc : DayCountArg D} {tenor : Option P} (h : CRCurve.castOn cal cls limit same dom c i o dc tenor = .ok d) :
    d.base.origin? = cal.or o c.base.origin? ∧ d.base.domain = dom ∧ d.base.dc = dc.or c.base.dc.kwarg ∧ d.tenor = tenor := by
  simp only [CRCurve.castOn, CRCurve.make, Py.bind_eq_ok] at h
  obtain ⟨_, -, b, hb, h⟩ := h
  obtain rfl := Except.ok.inj h
  obtain ⟨h1, h2, h3⟩ := DateCurve.new_ok hb
  exact ⟨h1, h2, h3, rfl⟩

/-- What a cast does with origin, day count and tenor. -/
theorem cast_ok {cls : IRClass} {limit : ℕ} {same : D → Bool} {c d : IRCurve D P} {i : Option FuncSpec}
    {o : Option D} {dc : DayCountArg D} {tenor : Option P} (h : IRCurve.cast cal cls limit same c i o dc tenor = .ok d) :
    d.base.origin? = cal.or (if cls = .discount ∨ cls = .cash then o.or c.base.origin else o) c.base.origin? ∧
    d.base.dc = dc.or c.base.dc.kwarg ∧ d.tenor = (if cls = .cash then some (tenor.getD (c.forwardTenor cal)) else tenor) ∧
    (cls = .zero ∨ cls = .short → d.base.domain = c.base.domain) := by
  cases cls with
  | discount =>
    simp only [IRCurve.cast, Py.bind_eq_ok] at h
    obtain ⟨_, -, _, -, _, -, _, -, h⟩ := h
    obtain ⟨h1, h2, h3, h4⟩ := castOn_ok h
    exact ⟨by simpa using h1, h3, by simpa using h4, by simp⟩
  | cash =>
    simp only [IRCurve.cast, Py.bind_eq_ok] at h
    obtain ⟨_, -, h⟩ := h
    obtain ⟨h1, h2, h3, h4⟩ := castOn_ok h
    exact ⟨by simpa using h1, h3, by simpa using h4, by simp⟩
  | zero =>
    obtain ⟨h1, h2, h3, h4⟩ := castOn_ok (show IRCurve.castOn cal .zero limit same c.base.domain c i o dc tenor = .ok d from h)
    exact ⟨by simpa using h1, h3, by simpa using h4, fun _ => h2⟩
  | short =>
    obtain ⟨h1, h2, h3, h4⟩ := castOn_ok (show IRCurve.castOn cal .short limit same c.base.domain c i o dc tenor = .ok d from h)
    exact ⟨by simpa using h1, h3, by simpa using h4, fun _ => h2⟩

theorem cr_cast_ok {cls : CRClass} {limit : ℕ} {same : D → Bool} {c d : CRCurve D P} {i : Option FuncSpec}
    {o : Option D} {dc : DayCountArg D} {tenor : Option P} (h : CRCurve.cast cal cls limit same c i o dc tenor = .ok d) :
    d.base.origin? = cal.or (if cls.isProb then o.or c.base.origin else o) c.base.origin? ∧
    d.base.dc = dc.or c.base.dc.kwarg ∧ d.tenor = tenor := by
  unfold CRCurve.cast at h
  split_ifs at h with hp
  · simp only [Py.bind_eq_ok] at h
    obtain ⟨_, -, _, -, _, -, _, -, h⟩ := h
    obtain ⟨h1, h2, h3, h4⟩ := cr_castOn_ok h
    exact ⟨by simpa [hp] using h1, h3, h4⟩
  · simp only [Py.bind_eq_ok] at h
    obtain ⟨_, -, _, -, h⟩ := h
    obtain ⟨h1, h2, h3, h4⟩ := cr_castOn_ok h
    exact ⟨by simpa [hp] using h1, h3, h4⟩

theorem castOn_interp {cls : IRClass} {limit : ℕ} {same : D → Bool} {dom : List D} {c d : IRCurve D P} {i : Option FuncSpec}
    {o : Option D} {dc : DayCountArg D} {tenor : Option P} (h : IRCurve.castOn cal cls limit same dom c i o dc tenor = .ok d) :
    d.base.interp = i ∧ d.base.dflt = cls.dflt ∧ d.cls = cls := by
  simp only [IRCurve.castOn, IRCurve.new, Py.bind_eq_ok] at h
  obtain ⟨_, -, b, hb, h⟩ := h
  obtain rfl := Except.ok.inj h
  have hf := DateCurve_new_fields cal hb
  exact ⟨hf.2.2.2.1, hf.2.2.2.2.1, rfl⟩

theorem cr_castOn_interp {cls : CRClass} {limit : ℕ} {same : D → Bool} {dom : List D} {c d : CRCurve D P} {i : Option FuncSpec}
    {o : Option D} {dc : DayCountArg D} {tenor : Option P} (h : CRCurve.castOn cal cls limit same dom c i o dc tenor = .ok d) :
    d.base.interp = i ∧ d.base.dflt = cls.dflt ∧ d.cls = cls := by
  simp only [CRCurve.castOn, CRCurve.make, Py.bind_eq_ok] at h
  obtain ⟨_, -, b, hb, h⟩ := h
  obtain rfl := Except.ok.inj h
  have hf := DateCurve_new_fields cal hb
  exact ⟨hf.2.2.2.1, hf.2.2.2.2.1, rfl⟩

/-- C127 (casts of interest rate curves): a cast interpolates as told, else by the default of its own class: linear for zero and cash
rates, constant for short rates, loglinear in rates for discount factors. The interpolation of the original is not kept. -/
theorem C127_cast {cls : IRClass} {limit : ℕ} {same : D → Bool} {c d : IRCurve D P} {i : Option FuncSpec} {o : Option D}
    {dc : DayCountArg D} {tenor : Option P} (h : IRCurve.cast cal cls limit same c i o dc tenor = .ok d) :
    d.cls = cls ∧ d.base.interp = i ∧ d.base.dflt = (match cls with
      | .discount => .scheme .logconstantrate .loglinearrate .logconstantrate false
      | .zero | .cash => .scheme .constant .linear .constant false
      | .short => .base .constant) := by
  have key : ∀ {dom o dc tenor}, IRCurve.castOn cal cls limit same dom c i o dc tenor = .ok d →
      d.cls = cls ∧ d.base.interp = i ∧ d.base.dflt = cls.dflt := by
    intro dom o dc tenor h
    obtain ⟨h1, h2, h3⟩ := castOn_interp h
    exact ⟨h3, h1, h2⟩
  cases cls with
  | discount =>
    simp only [IRCurve.cast, Py.bind_eq_ok] at h
    obtain ⟨_, -, _, -, _, -, _, -, h⟩ := h
    exact key h
  | cash =>
    simp only [IRCurve.cast, Py.bind_eq_ok] at h
    obtain ⟨_, -, h⟩ := h
    exact key h
  | zero => exact key h
  | short => exact key h

/-- C127 (casts of credit curves): the same. -/
theorem C127_credit_cast {cls : CRClass} {limit : ℕ} {same : D → Bool} {c d : CRCurve D P} {i : Option FuncSpec} {o : Option D}
    {dc : DayCountArg D} {tenor : Option P} (h : CRCurve.cast cal cls limit same c i o dc tenor = .ok d) :
    d.cls = cls ∧ d.base.interp = i ∧ d.base.dflt = (match cls with
      | .survival | .default => .scheme .logconstantrate .loglinearrate .logconstantrate false
      | .flat => .scheme .constant .linear .constant false
      | .hazard => .base .constant
      | .marginal | .marginalDefault => .scheme .constant .loglinear .constant false) := by
  suffices d.cls = cls ∧ d.base.interp = i ∧ d.base.dflt = cls.dflt by
    cases cls <;> exact this
  unfold CRCurve.cast at h
  split_ifs at h with hp
  · simp only [Py.bind_eq_ok] at h
    obtain ⟨_, -, _, -, _, -, _, -, h⟩ := h
    obtain ⟨h1, h2, h3⟩ := cr_castOn_interp h
    exact ⟨h3, h1, h2⟩
  · simp only [Py.bind_eq_ok] at h
    obtain ⟨_, -, _, -, h⟩ := h
    obtain ⟨h1, h2, h3⟩ := cr_castOn_interp h
    exact ⟨h3, h1, h2⟩

/-- C93: a cast with an explicit origin that is not falsy has this origin (interest rate curves). -/
theorem C93_rate_partial {cls : IRClass} {limit : ℕ} {same : D → Bool} {c d : IRCurve D P} {i : Option FuncSpec}
    {o : D} {dc : DayCountArg D} {tenor : Option P} (ho : cal.falsy o = false)
    (h : IRCurve.cast cal cls limit same c i (some o) dc tenor = .ok d) : d.base.origin = some o := by
  have := (cast_ok h).1
  rw [DateCurve.origin, this]
  split_ifs <;> simp [Cal.or, ho]

/-- C93: the same for credit curves. -/
theorem C93_credit_partial {cls : CRClass} {limit : ℕ} {same : D → Bool} {c d : CRCurve D P} {i : Option FuncSpec}
    {o : D} {dc : DayCountArg D} {tenor : Option P} (ho : cal.falsy o = false)
    (h : CRCurve.cast cal cls limit same c i (some o) dc tenor = .ok d) : d.base.origin = some o := by
  have := (cr_cast_ok h).1
  rw [DateCurve.origin, this]
  split_ifs <;> simp [Cal.or, ho]

/-- C93: an explicit falsy origin (0 or 0.0) is dropped in favour of the explicit origin of the curve. -/
theorem C93_violated {cls : IRClass} {limit : ℕ} {same : D → Bool} {c d : IRCurve D P} {i : Option FuncSpec}
    {o o' : D} {dc : DayCountArg D} {tenor : Option P} (ho : cal.falsy o = true) (hc : c.base.origin? = some o')
    (h : IRCurve.cast cal cls limit same c i (some o) dc tenor = .ok d) : d.base.origin = some o' := by
  have := (cast_ok h).1
  rw [DateCurve.origin, this]
  split_ifs <;> simp [Cal.or, ho, hc]

/-- C93: without origin the origin of the curve is kept, explicit or not (unless it is implicit and falsy). -/
theorem C93_kept_partial {cls : IRClass} {limit : ℕ} {same : D → Bool} {c d : IRCurve D P} {i : Option FuncSpec}
    {o : D} {dc : DayCountArg D} {tenor : Option P} (ho : c.base.origin = some o)
    (hf : cal.falsy o = true → c.base.origin? = some o)
    (h : IRCurve.cast cal cls limit same c i none dc tenor = .ok d) : d.base.origin = some o := by
  obtain ⟨h1, -, -, h4⟩ := cast_ok h
  cases cls with
  | discount | cash =>
    simp only [true_or, or_true, if_true, Option.none_or, ho, Cal.or] at h1
    rw [DateCurve.origin, h1]
    split_ifs with hfo
    · simp [hf hfo]
    · simp
  | zero | short =>
    have h1' : d.base.origin? = c.base.origin? := by simpa [Cal.or] using h1
    rw [DateCurve.origin, h1', h4 (by simp), ← ho, DateCurve.origin]

/-- C97: casts without day count keep the day count of the curve, if given by name or not at all (else see C75). -/
theorem C97_day_count_partial {cls : IRClass} {limit : ℕ} {same : D → Bool} {c d : IRCurve D P} {i : Option FuncSpec}
    {o : Option D} {tenor : Option P} (hk : c.base.dc.kwarg = c.base.dc)
    (h : IRCurve.cast cal cls limit same c i o .default tenor = .ok d) (s e : D) : d.dayCount cal s e = c.dayCount cal s e := by
  have := (cast_ok h).2.1
  rw [hk] at this
  have e : (DayCountArg.default : DayCountArg D).or c.base.dc = c.base.dc := rfl
  rw [e] at this
  simp only [IRCurve.dayCount, DateCurve.dayCount, this]

/-- C97: cash rate curves keep the tenor of the curve they are cast from. -/
theorem C97_cash_tenor_partial {limit : ℕ} {same : D → Bool} {c d : IRCurve D P} {i : Option FuncSpec}
    {o : Option D} {dc : DayCountArg D} (h : IRCurve.cast cal .cash limit same c i o dc none = .ok d) :
    d.forwardTenor cal = c.forwardTenor cal := by
  have := (cast_ok h).2.2.1
  simp [IRCurve.forwardTenor, this]

/-- C97: all other interest rate curves forget it: the tenor is three months again. -/
theorem C97_tenor_violated {cls : IRClass} (hcl : cls ≠ .cash) {limit : ℕ} {same : D → Bool} {c d : IRCurve D P}
    {i : Option FuncSpec} {o : Option D} {dc : DayCountArg D} (h : IRCurve.cast cal cls limit same c i o dc none = .ok d)
    {p : P} (hp : c.tenor = some p) (hne : p ≠ cal.threeMonths) :
    d.forwardTenor cal = cal.threeMonths ∧ d.forwardTenor cal ≠ c.forwardTenor cal := by
  have := (cast_ok h).2.2.1
  rw [if_neg hcl] at this
  simp [IRCurve.forwardTenor, this, hp, Ne.symm hne]

/-- C97: credit curves forget it as well, also marginal probabilities, whose data refer to the tenor. -/
theorem C97_credit_violated {cls : CRClass} {limit : ℕ} {same : D → Bool} {c d : CRCurve D P}
    {i : Option FuncSpec} {o : Option D} {dc : DayCountArg D} (h : CRCurve.cast cal cls limit same c i o dc none = .ok d)
    {p : P} (hp : c.tenor = some p) (hne : p ≠ cal.oneYear) :
    d.forwardTenor cal = cal.oneYear ∧ d.forwardTenor cal ≠ c.forwardTenor cal := by
  have := (cr_cast_ok h).2.2
  simp [CRCurve.forwardTenor, this, hp, Ne.symm hne]

end

/-! ## C95: rates over empty periods -/

section
variable {D P : Type} [LinearOrder D] {cal : Cal D P}

/-- C95 (zero rates): off the origin the rate over an empty period is that of the next day. -/
theorem C95_zero {c : IRCurve D P} (hc : c.cls = .zero) {s n : D} (hs : c.base.origin ≠ some s)
    (hn : cal.add s cal.oneDay = .ok n) (hne : s ≠ n) : c.rate cal false s s = c.rate cal false s n := by
  simp [IRCurve.rate, hc, IRCurve.zeroRateOf, hs, hn, hne]

/-- C95 (zero rates): at the origin it is the stored rate. -/
theorem C95_zero_origin {c : IRCurve D P} (hc : c.cls = .zero) (same : Bool) {s : D} (hs : c.base.origin = some s) :
    c.rate cal same s s = c.call cal s := by
  simp [IRCurve.rate, hc, IRCurve.zeroRateOf, hs]

/-- C95 (short rates, cash rates): the stored rate. -/
theorem C95_stored {c : IRCurve D P} (hc : c.cls = .short ∨ c.cls = .cash) (same : Bool) (s : D) :
    c.rate cal same s s = c.call cal s := by
  rcases hc with hc | hc <;> simp [IRCurve.rate, hc, IRCurve.shortRateOf, IRCurve.cashRateOf]

/-- C95 (discount factors): off the origin that of the next day. -/
theorem C95_discount {c : IRCurve D P} (hc : c.cls = .discount) (same : Bool) {s n : D} (hs : c.base.origin ≠ some s)
    (hn : cal.add s cal.oneDay = .ok n) (hne : s ≠ n) : c.rate cal same s s = c.rate cal same s n := by
  simp [IRCurve.rate, hc, IRCurve.discountRateOf, hs, hn, hne]

/-- C95 (discount factors): at the origin that until the first grid date after it. -/
theorem C95_discount_origin {c : IRCurve D P} (hc : c.cls = .discount) (same : Bool) {s m : D} (hs : c.base.origin = some s)
    (hm : m ∈ c.base.domain) (hsm : s < m) (hmin : ∀ y ∈ c.base.domain, s < y → m ≤ y) :
    c.rate cal same s s = c.rate cal same s m := by
  have : minDate (c.base.domain.filter (s < ·)) = .ok m :=
    minDate_eq (by simp [hm, hsm]) fun y hy => by
      simp only [List.mem_filter, decide_eq_true_eq] at hy; exact hmin y hy.1 hy.2
  simp [IRCurve.rate, hc, IRCurve.discountRateOf, hs, this, hsm.ne]

/-- C95 (credit curves of probabilities): off the origin that of the next day. -/
theorem C95_prob {c : CRCurve D P} (hc : c.cls.isProb = true) (same : Bool) {s n : D} (hs : c.base.origin ≠ some s)
    (hn : cal.add s cal.oneDay = .ok n) (hne : s ≠ n) : c.rate cal same s s = c.rate cal same s n := by
  cases hcl : c.cls <;> simp [hcl, CRClass.isProb] at hc <;>
    simp [CRCurve.rate, hcl, CRCurve.rateStop, hs, hn, hne]

/-- C95 (hazard rates): the stored rate. -/
theorem C95_hazard {c : CRCurve D P} (hc : c.cls = .hazard) (same : Bool) (s : D) : c.rate cal same s s = c.call cal s := by
  simp [CRCurve.rate, hc, CRCurve.hazardRateOf]

end

/-! ## C94, C96: casts to cash rates -/

section
variable {D P : Type} [LinearOrder D] {cal : Cal D P}

theorem cashGrid_eq {tenor : P} {sh : D → D} (hs : ∀ d, cal.sub d tenor = .ok (sh d)) {o : D} {n : ℕ} {x : D}
    (h1 : ∀ k < n, o < sh^[k] x) (h2 : sh^[n] x ≤ o) : cashGrid cal o tenor x = .ok ((List.range n).map (sh^[·] x)) := by
  have key : ∀ n x (acc : List D), (∀ k < n, o < sh^[k] x) → sh^[n] x ≤ o →
      pyWhile (fun s : D × List D => .ok (decide (o < s.1))) (fun s => do
        let y ← cal.sub s.1 tenor
        .ok (y, s.2 ++ [s.1])) (x, acc) = .ok (sh^[n] x, acc ++ (List.range n).map (sh^[·] x)) := by
    intro n
    induction n with
    | zero =>
      intro x acc _ h2
      rw [pyWhile_step]
      have h2' : ¬ o < x := not_lt.2 h2
      simp [h2']
    | succ n ih =>
      intro x acc h1 h2
      rw [pyWhile_step]
      have h0 : o < x := h1 0 (Nat.succ_pos _)
      simp only [h0, decide_true, Py.ok_bind, if_true]
      rw [hs, Py.ok_bind, Py.ok_bind, ih (sh x) (acc ++ [x]) (fun k hk => h1 (k + 1) (by omega)) h2, List.range_succ_eq_map]
      simp [Function.comp_def]
  unfold cashGrid
  rw [key n x [] h1 h2]
  simp

/-- The dates a cash rate cast adds: `x` rolled back by the tenor as long as after the origin. -/
def Rolled (sh : D → D) (o : D) (dom : List D) (y : D) : Prop := ∃ x ∈ dom, ∃ k, y = sh^[k] x ∧ ∀ j ≤ k, o < sh^[j] x

/-- C94: the grid of a cash rate curve cast from a curve consists of the dates of the curve and all these dates rolled back by
the tenor, as long as they are after the origin, in order and without repetition. -/
theorem C94_grid {limit : ℕ} {same : D → Bool} {c d : IRCurve D P} {i : Option FuncSpec} {o? : Option D}
    {dc : DayCountArg D} {tenor : Option P} {sh : D → D} {o : D}
    (hs : ∀ d, cal.sub d (tenor.getD (c.forwardTenor cal)) = .ok (sh d)) (ho : o?.or c.base.origin = some o)
    (hend : ∀ x ∈ c.base.domain, ∃ n, sh^[n] x ≤ o)
    (h : IRCurve.cast cal .cash limit same c i o? dc tenor = .ok d) :
    d.base.domain.Pairwise (· < ·) ∧ ∀ y, y ∈ d.base.domain ↔ y ∈ c.base.domain ∨ Rolled sh o c.base.domain y := by
  classical
  have hfirst : ∀ x ∈ c.base.domain, ∃ n, (∀ k < n, o < sh^[k] x) ∧ sh^[n] x ≤ o := by
    intro x hx
    refine ⟨Nat.find (hend x hx), fun k hk => not_le.1 (Nat.find_min (hend x hx) hk), Nat.find_spec (hend x hx)⟩
  choose! n hn1 hn2 using hfirst
  have hg : pyMap (fun x => do
      let o ← pyDate (o?.or c.base.origin)
      cashGrid cal o (tenor.getD (c.forwardTenor cal)) x) c.base.domain =
      .ok (c.base.domain.map fun x => (List.range (n x)).map (sh^[·] x)) := by
    refine pyMap_ok fun x hx => ?_
    rw [ho]
    exact cashGrid_eq hs (hn1 x hx) (hn2 x hx)
  simp only [IRCurve.cast, hg, Py.ok_bind] at h
  rw [(castOn_ok h).2.1]
  refine ⟨sortedSet_strict _, fun y => ?_⟩
  rw [sortedSet_mem, List.mem_append]
  refine or_congr_right ?_
  simp only [List.mem_flatten, List.mem_map, exists_exists_and_eq_and, List.mem_range, Rolled]
  constructor
  · rintro ⟨x, hx, k, hk, rfl⟩
    exact ⟨x, hx, k, rfl, fun j hj => hn1 x hx j (by omega)⟩
  · rintro ⟨x, hx, k, rfl, hk⟩
    refine ⟨x, hx, k, ?_, rfl⟩
    by_contra hlt
    exact (hn2 x hx).not_gt (hk _ (by omega))

/-- C96: whatever tenor is asked for, the cash rate curve cast from a curve stores at each grid date the cash rate of that curve
over the tenor of that curve, and returns it as its own cash rate over the new tenor. -/
theorem C96_stored {limit limit' : ℕ} {same : D → Bool} {c d : IRCurve D P} {o? : Option D}
    {dc : DayCountArg D} {tenor : Option P} {o x e : D} (hd : (dc.or c.base.dc.kwarg).Usable)
    (hτ : GoodDayCount ((dc.or c.base.dc.kwarg).fn cal))
    (h : IRCurve.cast cal .cash limit same c none o? dc tenor = .ok d) (ho : d.base.origin = some o) (hx : x ∈ d.base.domain)
    (he : cal.add x (tenor.getD (c.forwardTenor cal)) = .ok e) (s : Bool) :
    d.cashRate cal s (limit' + 1) x none none = c.cashRate cal (same x) limit x none none := by
  have h0 := cast_ok h
  have ht : d.tenor = some (tenor.getD (c.forwardTenor cal)) := by simpa using h0.2.2.1
  simp only [IRCurve.cast, Py.bind_eq_ok] at h
  obtain ⟨ex, -, h⟩ := h
  have h1 := castOn_ok h
  have hcl : d.cls = .cash := by
    simp only [IRCurve.castOn, IRCurve.new, Py.bind_eq_ok] at h
    obtain ⟨_, -, b, -, h⟩ := h
    rw [← Except.ok.inj h]
  have hw : ∃ w : D → ℝ, ∀ y ∈ d.base.domain, IRClass.cash.storage cal limit same c y = .ok (w y) := by
    rw [h1.2.1]
    simp only [IRCurve.castOn, Py.bind_eq_ok] at h
    obtain ⟨data, hdata, -⟩ := h
    have := pyMap_eq_ok.1 hdata
    have hall : ∀ y ∈ sortedSet (c.base.domain ++ ex.flatten), ∃ r, IRClass.cash.storage cal limit same c y = .ok r := by
      intro y hy
      obtain ⟨k, hk, rfl⟩ := List.getElem_of_mem hy
      exact ⟨_, this.get hk (this.length_eq ▸ hk)⟩
    choose! w hw using hall
    exact ⟨w, hw⟩
  obtain ⟨w, hw⟩ := hw
  have hdom := h1.2.1
  rw [hdom] at hw hx
  have hcast := castOn_eq (cal := cal) (cls := .cash) (i := none) (origin := o?.or c.base.origin) (o := o)
    (tenor := some (tenor.getD (c.forwardTenor cal))) hw ((sortedSet_strict _).imp fun h => h.ne)
    (by intro h; simp [IRClass.dflt, linearScheme, FuncSpec.isLog, Kind.isLog] at h) (by
      rw [DateCurve.origin, h1.1, h1.2.1] at ho; exact ho) hd hτ
  rw [h] at hcast
  have hdeq := Except.ok.inj hcast
  have hval : d.call cal x = .ok (w x) := by
    rw [hdeq]
    have ho' : (cal.or (o?.or c.base.origin) c.base.origin?).or
        (sortedSet (c.base.domain ++ ex.flatten)).head? = some o := by
      rw [DateCurve.origin, h1.1, h1.2.1] at ho; exact ho
    refine irOf_node cal (by rw [graph_fst]; exact ho') hd hτ (by rw [graph_fst]; exact (sortedSet_strict _).imp fun h => h.ne)
      ?_ ?_ (List.mem_map.2 ⟨x, hx, rfl⟩)
    · intro h; simp [IRClass.dflt, linearScheme, FuncSpec.isLog, Kind.isLog] at h
    · intro h; simp [IRClass.dflt, linearScheme, FuncSpec.needsNonzero, Kind.isRate] at h
  rw [C34_partial hcl s limit' (.tenor e (by rw [ht]; exact he)) (by rw [ht]; exact he), hval, ← hw x hx]
  rfl

/-- C96: with the tenor of the curve (or none given) the cash rates of the cast are those of the curve, over this tenor. -/
theorem C96_partial {limit limit' : ℕ} {same : D → Bool} {c d : IRCurve D P} {o? : Option D}
    {dc : DayCountArg D} {tenor : Option P} {o x e : D} (hd : (dc.or c.base.dc.kwarg).Usable)
    (hτ : GoodDayCount ((dc.or c.base.dc.kwarg).fn cal)) (hten : tenor = none ∨ tenor = some (c.forwardTenor cal))
    (h : IRCurve.cast cal .cash (limit + 1) same c none o? dc tenor = .ok d) (ho : d.base.origin = some o) (hx : x ∈ d.base.domain)
    (he : cal.add x (c.forwardTenor cal) = .ok e) (s : Bool) :
    d.cashRate cal s (limit' + 1) x none none = c.cashRate cal (same x) (limit + 1) x none (some (c.forwardTenor cal)) := by
  have ht : tenor.getD (c.forwardTenor cal) = c.forwardTenor cal := by rcases hten with rfl | rfl <;> rfl
  rw [C96_stored (limit' := limit') hd hτ h ho hx (by rw [ht]; exact he) s]
  unfold IRCurve.cashRate
  simp [IRCurve.cashStop, he]

/-- C96: a flat zero rate curve with tenor 1/2 cast to cash rates of tenor 1 has wrong one-year cash rates. -/
theorem C96_violated (limit limit' : ℕ) (same : ℝ → Bool) (s : Bool) (hsame : same 0 = false) :
    ∃ (c d : IRCurve ℝ FloatPeriod) (x y : ℝ),
      IRCurve.new floatCal .zero [0] [1] none (some 0) .default (some (.num (1 / 2))) = .ok c ∧
      IRCurve.cast floatCal .cash (limit + 1) same c none none .default (some (.num 1)) = .ok d ∧
      d.cashRate floatCal s (limit' + 1) 0 none none = .ok x ∧
      c.cashRate floatCal false (limit + 1) 0 none (some (.num 1)) = .ok y ∧ x ≠ y := by
  set pts : List (ℝ × ℝ) := [(0, 1)] with hpts
  have hτ : GoodDayCount ((DayCountArg.default : DayCountArg ℝ).fn floatCal) := goodDayCount_real
  have ho : (some (0 : ℝ)).or (pts.map Prod.fst).head? = some 0 := rfl
  have hnew := IRCurve_new_eq floatCal (pts := pts) (i := none) (o? := some 0) (dc := .default) (o := 0) (cls := .zero)
    (tenor := some (FloatPeriod.num (1 / 2))) (by simp [hpts]) (by simp [hpts]) ho trivial hτ
  set c : IRCurve ℝ FloatPeriod := irOf floatCal 0 (some 0) .default none .zero (some (.num (1 / 2))) pts with hc
  have hans : Answers floatCal c (linVal (DayCountArg.fn floatCal .default) 0 pts) (DayCountArg.fn floatCal .default) 0 :=
    zero_answers (by simp [hpts]) (by simp [hpts]) ho trivial hτ
  have hv : ∀ t, linVal (DayCountArg.fn floatCal .default) 0 pts t = 1 := by
    intro t; simp [linVal, hpts, timePts, sortPairs, flin]
  obtain ⟨df, -, hdf, hfac, -⟩ := C28_zero hans rfl
  have hF : ∀ t : ℝ, c.factor floatCal false 0 t = .ok (Real.exp (-t)) := by
    intro t
    rw [hfac false 0 t (by simp), hdf, hv, hv]
    have h1 : DayCountArg.fn floatCal .default (0 : ℝ) t = t := by simp [DayCountArg.fn, floatCal]
    have h2 : DayCountArg.fn floatCal .default (0 : ℝ) 0 = 0 := hτ.self 0
    rw [h1, h2]; norm_num
  have hcash : ∀ (st : Option FloatPeriod) (t : ℝ), 0 < t → CashEnd c floatCal 0 none st t →
      c.cashRate floatCal false (limit + 1) 0 none st = .ok ((Real.exp t - 1) / t) := by
    intro st t ht he
    rw [cashRate_eq hans (by simp [hc, irOf]) false limit he.stop_eq, hF]
    have h1 : DayCountArg.fn floatCal .default (0 : ℝ) t = t := by simp [DayCountArg.fn, floatCal]
    rw [h1]
    simp only [Py.ok_bind, simpleRate, pyDiv_ok (Real.exp_pos (-t)).ne', pyDiv_ok ht.ne']
    rw [Real.exp_neg, one_div, inv_inv]
  have h1 := hcash none (1 / 2) (by norm_num) (.tenor _ (by simp [hc, irOf, floatCal]))
  have h2 := hcash (some (.num 1)) 1 (by norm_num) (.step _ _ (by simp [floatCal]))
  have hcast : ∃ d, IRCurve.cast floatCal .cash (limit + 1) same c none none .default (some (.num 1)) = .ok d ∧
      d.base.origin = some 0 ∧ 0 ∈ d.base.domain := by
    have hdom : c.base.domain = [0] := rfl
    have hor : c.base.origin = some 0 := rfl
    have hg : cashGrid floatCal (0 : ℝ) (.num 1) 0 = .ok [] :=
      cashGrid_eq (sh := fun d => d - 1) (n := 0) (fun d => rfl) (by simp) (by simp)
    have hw : ∀ x ∈ [(0 : ℝ)], IRClass.cash.storage floatCal (limit + 1) same c x = .ok ((Real.exp (1 / 2) - 1) / (1 / 2)) := by
      intro x hx
      obtain rfl := List.mem_singleton.1 hx
      rw [← h1, ← hsame]; rfl
    have := castOn_eq (cal := floatCal) (cls := .cash) (limit := limit + 1) (same := same) (dom := [0]) (c := c) (i := none)
      (origin := some 0) (dc := .default) (tenor := some (FloatPeriod.num 1)) (w := fun _ => (Real.exp (1 / 2) - 1) / (1 / 2)) (o := 0) hw
      (by simp) (by intro h; simp [IRClass.dflt, linearScheme, FuncSpec.isLog, Kind.isLog] at h)
      (by simp [Cal.or, floatCal, hc, irOf, dateCurveOf]) trivial hτ
    refine ⟨irOf floatCal 0 (some 0) .default none .cash (some (.num 1)) [(0, (Real.exp (1 / 2) - 1) / (1 / 2))], ?_, ?_, ?_⟩
    · simp only [IRCurve.cast, hdom, hor, Option.none_or, pyMap, pyDate, Py.ok_bind, Option.getD_some, hg]
      have hss : sortedSet ([(0 : ℝ)] ++ [[]].flatten) = [0] := by simp [sortedSet]
      rw [hss]
      rw [this]
      have e1 : floatCal.or (some (0 : ℝ)) c.base.origin? = some 0 := by simp [Cal.or, floatCal, hc, irOf, dateCurveOf]
      have e2 : (DayCountArg.default : DayCountArg ℝ).or c.base.dc.kwarg = .default := rfl
      rw [e1, e2]
      rfl
    · rfl
    · simp [irOf, dateCurveOf]
  obtain ⟨d, hd, hdo, hdd⟩ := hcast
  refine ⟨c, d, (Real.exp (1 / 2) - 1) / (1 / 2), _, hnew, hd, ?_, h2, ?_⟩
  · rw [C96_stored (c := c) (dc := .default) (limit' := limit') (x := 0) (e := 0 + 1) trivial hτ hd hdo hdd (by simp [floatCal]) s, hsame, h1]
  · intro e
    have h3 : Real.exp 1 = Real.exp (1 / 2) * Real.exp (1 / 2) := by rw [← Real.exp_add]; norm_num
    have h4 : 1 < Real.exp (1 / 2 : ℝ) := by rw [← Real.exp_zero]; exact Real.exp_lt_exp.2 (by norm_num)
    rw [h3] at e
    nlinarith

/-- A rate at half of the first segment of a grid. -/
example : Around [(0 : ℝ), 1, 3] (1 / 2) 0 1 :=
  ⟨by simp, by simp, by norm_num, by norm_num, by simp⟩

/-- Two dates rolled back by 90 days to day 0: days 180, 90 and 100, 10. -/
example (y : ℤ) : Rolled (fun d => d - 90) 0 [100, 180] y ↔ y = 100 ∨ y = 10 ∨ y = 180 ∨ y = 90 := by
  have hit : ∀ k x, (fun d : ℤ => d - 90)^[k] x = x - 90 * k := by
    intro k
    induction k with
    | zero => simp
    | succ k ih => intro x; rw [Function.iterate_succ_apply, ih]; push_cast; ring
  simp only [Rolled, hit, List.mem_cons, List.not_mem_nil, or_false]
  constructor
  · rintro ⟨x, rfl | rfl, k, rfl, hk⟩ <;> have := hk k le_rfl <;> omega
  · rintro (rfl | rfl | rfl | rfl)
    · exact ⟨100, .inl rfl, 0, by norm_num, fun j hj => by omega⟩
    · exact ⟨100, .inl rfl, 1, by norm_num, fun j hj => by omega⟩
    · exact ⟨180, .inr rfl, 0, by norm_num, fun j hj => by omega⟩
    · exact ⟨180, .inr rfl, 1, by norm_num, fun j hj => by omega⟩

end

end Dcf
