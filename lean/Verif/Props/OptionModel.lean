import Verif.Props.Bumps

/-! # What an option model reads from its curves: C123, and C71 for time sensitivities -/

set_option linter.unusedSectionVars false
set_option linter.unusedSimpArgs false
set_option linter.unusedVariables false

namespace Dcf

open Spec

namespace Spec

/-- The forward a model shall use: the forward price of a price curve, the cash rate of a rate curve, the number itself,
the value of any other function, all at the expiry date. -/
inductive ForwardOf {D : Type} (date : D) : Fwd D → ℝ → Prop
  | price {f g : D → Py ℝ} {dc : D → D → Py ℝ} {x : ℝ} (h : f date = .ok x) : ForwardOf date (.price f g dc) x
  | cash {r : D → Py ℝ} {dc : D → D → Py ℝ} {x : ℝ} (h : r date = .ok x) : ForwardOf date (.cash r dc) x
  | num {x : ℝ} (h : x ≠ 0) : ForwardOf date (.num x) x
  | fn {f : D → Py ℝ} {x : ℝ} (h : f date = .ok x) : ForwardOf date (.fn f) x

/-- The volatility a model shall use: terminal volatility of a volatility curve, the number itself, the value of any
other function, and 0 without a curve. -/
inductive VolOf {D : Type} (date : D) : Vol D → ℝ → Prop
  | none : VolOf date .none 0
  | num (x : ℝ) : VolOf date (.num x) x
  | terminal {f : D → Py ℝ} {dc : D → D → Py ℝ} {x : ℝ} (h : f date = .ok x) : VolOf date (.terminal f dc) x
  | fn {f : D → Py ℝ} {dc : Option (D → D → Py ℝ)} {x : ℝ} (h : f date = .ok x) : VolOf date (.fn f dc) x

/-- A volatility curve with a day count. -/
inductive VolDays {D : Type} : Vol D → (D → D → Py ℝ) → Prop
  | terminal {f : D → Py ℝ} {dc : D → D → Py ℝ} : VolDays (.terminal f dc) dc
  | fn {f : D → Py ℝ} {dc : D → D → Py ℝ} : VolDays (.fn f (some dc)) dc

/-- A forward curve with a day count. -/
inductive FwdDays {D : Type} : Fwd D → (D → D → Py ℝ) → Prop
  | price {f g : D → Py ℝ} {dc : D → D → Py ℝ} : FwdDays (.price f g dc) dc
  | cash {r : D → Py ℝ} {dc : D → D → Py ℝ} : FwdDays (.cash r dc) dc

/-- The time to expiry a model shall use: from the valuation date to the expiry date, by its own day count, else by the
one of its volatility curve, else by the one of its forward curve, else by the default one. -/
inductive TimeOf {D P : Type} (cal : Cal D P) (m : OptModel D) (v date : D) : ℝ → Prop
  | own {dc : D → D → ℝ} (h : m.dayCount = some dc) : TimeOf cal m v date (dc v date)
  | vol {dc : D → D → Py ℝ} {t : ℝ} (h : m.dayCount = none) (hv : VolDays m.vol dc) (ht : dc v date = .ok t) :
      TimeOf cal m v date t
  | forward {dc : D → D → Py ℝ} {t : ℝ} (h : m.dayCount = none) (hv : ∀ dc, ¬ VolDays m.vol dc)
      (hf : FwdDays m.forward dc) (ht : dc v date = .ok t) : TimeOf cal m v date t
  | default (h : m.dayCount = none) (hv : ∀ dc, ¬ VolDays m.vol dc) (hf : ∀ dc, ¬ FwdDays m.forward dc) :
      TimeOf cal m v date (cal.dayCount v date)

end Spec

section
variable {D P : Type} {cal : Cal D P} {num : AsNumber D} {m : OptModel D} {v date : D} {F σ t : ℝ}

theorem Spec.ForwardOf.eval {f : Fwd D} (h : ForwardOf date f F) : f.optionForward date = .ok (some F) := by
  cases h with
  | price h => simp [Fwd.optionForward, Fwd.truthy, h]
  | cash h => simp [Fwd.optionForward, Fwd.truthy, h]
  | num h => simp [Fwd.optionForward, Fwd.truthy, h]
  | fn h => simp [Fwd.optionForward, Fwd.truthy, h]

theorem Spec.VolOf.eval {f : Vol D} (h : VolOf date f σ) : ∃ o, f.eval date = .ok o ∧ o.getD 0 = σ := by
  cases h with
  | none => exact ⟨_, rfl, rfl⟩
  | num x =>
    refine ⟨_, rfl, ?_⟩
    split_ifs with h
    · simp [h]
    · rfl
  | terminal h => exact ⟨some σ, by simp [Vol.eval, h], rfl⟩
  | fn h => exact ⟨some σ, by simp [Vol.eval, h], rfl⟩

theorem Spec.VolDays.eval {f : Vol D} {dc : D → D → Py ℝ} : VolDays f dc ↔ f.dayCount = some dc := by
  constructor
  · intro h; cases h <;> rfl
  · intro h
    cases f with
    | none => simp [Vol.dayCount] at h
    | num x => simp [Vol.dayCount] at h
    | terminal f d => simp only [Vol.dayCount, Option.some.injEq] at h; subst h; exact .terminal
    | fn f d => simp only [Vol.dayCount] at h; subst h; exact .fn

theorem Spec.FwdDays.eval {f : Fwd D} {dc : D → D → Py ℝ} : FwdDays f dc ↔ f.dayCount = some dc := by
  constructor
  · intro h; cases h <;> rfl
  · intro h
    cases f with
    | none => simp [Fwd.dayCount] at h
    | num x => simp [Fwd.dayCount] at h
    | fn f => simp [Fwd.dayCount] at h
    | price f g d => simp only [Fwd.dayCount, Option.some.injEq] at h; subst h; exact .price
    | cash f d => simp only [Fwd.dayCount, Option.some.injEq] at h; subst h; exact .cash

theorem none_of_forall_ne {α : Type} {o : Option α} (h : ∀ a, ¬ o = some a) : o = none := by
  cases o with
  | none => rfl
  | some a => exact absurd rfl (h a)

theorem Spec.TimeOf.eval (hv : m.valuation = some v) (h : TimeOf cal m v date t) : m.time cal date = .ok t := by
  cases h with
  | own h => simp [OptModel.time, hv, h]
  | vol h hd ht => simp [OptModel.time, hv, h, VolDays.eval.1 hd, ht]
  | forward h hd hf ht =>
    simp [OptModel.time, hv, h, none_of_forall_ne fun dc => mt VolDays.eval.2 (hd dc), FwdDays.eval.1 hf, ht]
  | default h hd hf =>
    simp [OptModel.time, hv, h, none_of_forall_ne fun dc => mt VolDays.eval.2 (hd dc),
      none_of_forall_ne fun dc => mt FwdDays.eval.2 (hf dc)]

theorem details_read (hv : m.valuation = some v) (hF : ForwardOf date m.forward F) (hσ : VolOf date m.vol σ)
    (ht : TimeOf cal m v date t) (strike : Option ℝ) :
    ∃ d, m.details cal date strike = .ok d ∧ d.forward = some F ∧ d.strike = strike.getD F ∧ d.volatility.getD 0 = σ ∧
      d.time = t := by
  obtain ⟨o, h1, h2⟩ := hσ.eval
  cases strike with
  | none => exact ⟨_, by simp only [OptModel.details, hF.eval, h1, ht.eval hv, Py.ok_bind]; rfl, rfl, rfl, h2, rfl⟩
  | some k => exact ⟨_, by simp only [OptModel.details, hF.eval, h1, ht.eval hv, Py.ok_bind]; rfl, rfl, rfl, h2, rfl⟩

/-- C123: with volatility and time, the value of a call is the formula of the model's class at time to expiry, strike,
forward and volatility as read from the curves; a missing strike is the forward. -/
theorem C123_call (hv : m.valuation = some v) (hF : ForwardOf date m.forward F) (hσ : VolOf date m.vol σ)
    (ht : TimeOf cal m v date t) (h0 : σ ≠ 0) (ht0 : t ≠ 0) (K : ℝ) :
    m.callValue cal date (some K) = m.formula.price (.ok t) K F σ ∧
    m.callValue cal date none = m.formula.price (.ok t) F F σ := by
  constructor
  · obtain ⟨d, h1, h2, h3, h4, h5⟩ := details_read hv hF hσ ht (some K)
    simp only [Option.getD_some] at h3
    simp [OptModel.callValue, h1, OptDetails.fwd, h2, h3, h4, h5, OptDetails.flat, h0, ht0]
  · obtain ⟨d, h1, h2, h3, h4, h5⟩ := details_read hv hF hσ ht none
    simp only [Option.getD_none] at h3
    simp [OptModel.callValue, h1, OptDetails.fwd, h2, h3, h4, h5, OptDetails.flat, h0, ht0]

/-- C123: with volatility and time, the value of a put is strike minus forward plus the call; at the money it is the
call. -/
theorem C123_put (hv : m.valuation = some v) (hF : ForwardOf date m.forward F) (hσ : VolOf date m.vol σ)
    (ht : TimeOf cal m v date t) (h0 : σ ≠ 0) (ht0 : t ≠ 0) (K : ℝ) :
    m.putValue cal date (some K) = (fun p => K - F + p) <$> m.formula.price (.ok t) K F σ ∧
    m.putValue cal date none = m.formula.price (.ok t) F F σ := by
  constructor
  · obtain ⟨d, h1, h2, h3, h4, h5⟩ := details_read hv hF hσ ht (some K)
    simp only [Option.getD_some] at h3
    simp only [OptModel.putValue, h1, OptDetails.fwd, h2, h3, h4, h5, OptDetails.flat, h0, ht0, Py.ok_bind, or_self,
      decide_false, Bool.false_eq_true, if_false]
    cases m.formula.price (.ok t) K F σ <;> rfl
  · obtain ⟨d, h1, h2, h3, h4, h5⟩ := details_read hv hF hσ ht none
    simp only [Option.getD_none] at h3
    simp only [OptModel.putValue, h1, OptDetails.fwd, h2, h3, h4, h5, OptDetails.flat, h0, ht0, Py.ok_bind, or_self,
      decide_false, Bool.false_eq_true, if_false]
    cases m.formula.price (.ok t) F F σ <;> simp

/-- C123: without volatility, or at expiry, call and put have their intrinsic values, whatever the formula. -/
theorem C123_flat (hv : m.valuation = some v) (hF : ForwardOf date m.forward F) (hσ : VolOf date m.vol σ)
    (ht : TimeOf cal m v date t) (h0 : σ = 0 ∨ t = 0) (K : ℝ) :
    m.callValue cal date (some K) = .ok (max (F - K) 0) ∧ m.putValue cal date (some K) = .ok (max (K - F) 0) ∧
    m.callValue cal date none = .ok 0 ∧ m.putValue cal date none = .ok 0 := by
  obtain ⟨d, h1, h2, h3, h4, h5⟩ := details_read hv hF hσ ht (some K)
  obtain ⟨d', h1', h2', h3', h4', h5'⟩ := details_read hv hF hσ ht none
  simp only [Option.getD_some] at h3
  simp only [Option.getD_none] at h3'
  have hfl : d.flat = true := by simp [OptDetails.flat, h4, h5, h0]
  have hfl' : d'.flat = true := by simp [OptDetails.flat, h4', h5', h0]
  refine ⟨?_, ?_, ?_, ?_⟩
  · simp [OptModel.callValue, h1, OptDetails.fwd, h2, h3, hfl]
  · simp [OptModel.putValue, h1, OptDetails.fwd, h2, h3, hfl]
  · simp [OptModel.callValue, h1', OptDetails.fwd, h2', h3', hfl']
  · simp [OptModel.putValue, h1', OptDetails.fwd, h2', h3', hfl']

/-- C123: without a valuation date there is no value, not even without volatility. -/
theorem C123_no_valuation (hv : m.valuation = none) (hF : ForwardOf date m.forward F) (hσ : VolOf date m.vol σ)
    (strike : Option ℝ) :
    m.callValue cal date strike = .error .type ∧ m.putValue cal date strike = .error .type := by
  obtain ⟨o, h1, h2⟩ := hσ.eval
  constructor
  · simp [OptModel.callValue, OptModel.details, hF.eval, h1, OptModel.time, hv]
  · simp [OptModel.putValue, OptModel.details, hF.eval, h1, OptModel.time, hv]

/-- C123: the base class `OptionPayOffModel` has no formula: with volatility and time its values end in a recursion
error, without they are intrinsic (`C123_flat`). -/
theorem C123_base (hv : m.valuation = some v) (hF : ForwardOf date m.forward F) (hσ : VolOf date m.vol σ)
    (ht : TimeOf cal m v date t) (h0 : σ ≠ 0) (ht0 : t ≠ 0) (hb : m.formula = baseFormula) (strike : Option ℝ) :
    m.callValue cal date strike = .error .recursion ∧ m.putValue cal date strike = .error .recursion ∧
    m.callDelta cal date strike = .error .recursion := by
  obtain ⟨d, h1, h2, h3, h4, h5⟩ := details_read hv hF hσ ht strike
  have hfl : d.flat = false := by simp [OptDetails.flat, h4, h5, h0, ht0]
  refine ⟨?_, ?_, ?_⟩
  · simp [OptModel.callValue, h1, OptDetails.fwd, h2, hfl, hb, baseFormula]
  · simp [OptModel.putValue, h1, OptDetails.fwd, h2, hfl, hb, baseFormula]
  · cases hbp : m.bump <;> simp [OptModel.callDelta, h1, OptDetails.fwd, h2, hfl, hb, baseFormula, noGreek, hbp]

/-! ## Call spread models -/

variable (inner : OptModel D) (s : Option ℝ) (val : Option D) (f : Fwd D) (vol : Vol D) (dc : Option (D → D → ℝ))

/-- C123: a binary model takes every parameter that is given, where a date, number or curve counts as given unless it is
`None` or zero. -/
theorem C123_binary_given {x : D} {y : ℝ} {g : D → D → ℝ} (hx : cal.falsy x = false) (hy : y ≠ 0) :
    (OptModel.binary cal inner s (some x) f vol dc).valuation = some x ∧
    (OptModel.binary cal inner s val (.num y) vol dc).forward = .num y ∧
    (OptModel.binary cal inner s val f (.num y) dc).vol = .num y ∧
    (∀ a b c, (OptModel.binary cal inner s val (.price a b c) vol dc).forward = .price a b c) ∧
    (∀ a b, (OptModel.binary cal inner s val (.cash a b) vol dc).forward = .cash a b) ∧
    (∀ a, (OptModel.binary cal inner s val (.fn a) vol dc).forward = .fn a) ∧
    (∀ a b, (OptModel.binary cal inner s val f (.terminal a b) dc).vol = .terminal a b) ∧
    (∀ a b, (OptModel.binary cal inner s val f (.fn a b) dc).vol = .fn a b) ∧
    (OptModel.binary cal inner s val f vol (some g)).dayCount = some g := by
  simp [OptModel.binary, Cal.or, hx, hy, Fwd.truthy]

/-- C123: a binary model takes every other parameter from its inner model; a float date 0, a forward of 0 and a
volatility of 0 count as missing. -/
theorem C123_binary_inherited {x : D} (hx : cal.falsy x = true) :
    (OptModel.binary cal inner s none f vol dc).valuation = inner.valuation ∧
    (OptModel.binary cal inner s (some x) f vol dc).valuation = inner.valuation ∧
    (OptModel.binary cal inner s val .none vol dc).forward = inner.forward ∧
    (OptModel.binary cal inner s val (.num 0) vol dc).forward = inner.forward ∧
    (OptModel.binary cal inner s val f .none dc).vol = inner.vol ∧
    (OptModel.binary cal inner s val f (.num 0) dc).vol = inner.vol ∧
    (OptModel.binary cal inner s val f vol none).dayCount = inner.dayCount := by
  simp [OptModel.binary, Cal.or, hx, Fwd.truthy]

/-- C123: the value of a binary model on top of a model is the call spread of that model's calls, one basis point wide
around the strike, when time and volatility are those of the inner model; and its delta is bumped, whatever the inner
model does. -/
theorem C123_binary_value (hv : inner.valuation = some v) (hF : ForwardOf date inner.forward F)
    (hσ : VolOf date inner.vol σ) (ht : TimeOf cal inner v date t) (h0 : σ ≠ 0) (ht0 : t ≠ 0) (K : ℝ) {lo hi : ℝ}
    (h1 : inner.callValue cal date (some (K - 0.00005)) = .ok lo)
    (h2 : inner.callValue cal date (some (K + 0.00005)) = .ok hi) :
    (OptModel.binary cal inner s none .none .none none).callValue cal date (some K) = .ok ((lo - hi) / 0.0001) := by
  have e1 := (C123_call hv hF hσ ht h0 ht0 (K - 0.00005)).1
  have e2 := (C123_call hv hF hσ ht h0 ht0 (K + 0.00005)).1
  have hm : (OptModel.binary cal inner s none .none .none none).valuation = some v := hv
  have hF' : ForwardOf date (OptModel.binary cal inner s none .none .none none).forward F := by
    simpa [OptModel.binary, Fwd.truthy] using hF
  have hσ' : VolOf date (OptModel.binary cal inner s none .none .none none).vol σ := hσ
  have ht' : TimeOf cal (OptModel.binary cal inner s none .none .none none) v date t := by
    have ed : (OptModel.binary cal inner s none .none .none none).dayCount = inner.dayCount := rfl
    have ev : (OptModel.binary cal inner s none .none .none none).vol = inner.vol := rfl
    have ef : (OptModel.binary cal inner s none .none .none none).forward = inner.forward := by
      simp [OptModel.binary, Fwd.truthy]
    cases ht with
    | own h => exact .own (ed ▸ h)
    | vol h a b => exact .vol (ed ▸ h) (ev ▸ a) b
    | forward h a b c => exact .forward (ed ▸ h) (ev ▸ a) (ef.symm ▸ b) c
    | default h a b => exact .default (ed ▸ h) (ev ▸ a) (ef.symm ▸ b)
  rw [(C123_call hm hF' hσ' ht' h0 ht0 K).1]
  have e3 : K - 0.0001 / 2 = K - 0.00005 := by norm_num
  have e4 : K + 0.0001 / 2 = K + 0.00005 := by norm_num
  show (binaryFormula inner.formula s).price (.ok t) K F σ = _
  simp only [binaryFormula, e3, e4, ← e1, ← e2, h1, h2, Py.ok_bind, pyDiv_ok (show (0.0001 : ℝ) ≠ 0 by norm_num)]

/-- C123: a binary model always bumps: its delta is the difference quotient of its own call values, one basis point
apart in the forward, also on top of a model with analytic sensitivities. -/
theorem C123_binary_bumps (inner : OptModel D) (hv : inner.valuation = some v) (hn : inner.forward = .num F) (hF0 : F ≠ 0)
    (hF1 : F + 0.0001 ≠ 0) (hσ : VolOf date inner.vol σ) (hd : inner.dayCount = some g) (h0 : σ ≠ 0)
    (ht0 : g v date ≠ 0) (K : ℝ) {a b : ℝ}
    (h1 : (OptModel.binary cal inner s none .none .none none).callValue cal date (some K) = .ok a)
    (h2 : (OptModel.binary cal inner s none (.num (F + 0.0001)) .none none).callValue cal date (some K) = .ok b) :
    (OptModel.binary cal inner s none .none .none none).callDelta cal date (some K) =
      .ok ((b - a) / 0.0001 * 0.0001) ∧
    (OptModel.binary cal inner s none .none .none none).bump = true := by
  refine ⟨?_, rfl⟩
  set m := OptModel.binary cal inner s none .none .none none with hmdef
  set m' := OptModel.binary cal inner s none (.num (F + 0.0001)) .none none with hmdef'
  have ef : m.forward = .num F := by simp [hmdef, OptModel.binary, Fwd.truthy, hn]
  have ef' : m'.forward = .num (F + 0.0001) := by simp [hmdef', OptModel.binary, Fwd.truthy, hF1]
  have e1 := (C123_call (cal := cal) (m := m) (date := date) (show m.valuation = some v from hv)
    (show ForwardOf date m.forward F by rw [ef]; exact .num hF0) (show VolOf date m.vol σ from hσ)
    (show TimeOf cal m v date (g v date) from .own hd) h0 ht0 K).1
  have e2 := (C123_call (cal := cal) (m := m') (date := date) (show m'.valuation = some v from hv)
    (show ForwardOf date m'.forward (F + 0.0001) by rw [ef']; exact .num hF1) (show VolOf date m'.vol σ from hσ)
    (show TimeOf cal m' v date (g v date) from .own hd) h0 ht0 K).1
  obtain ⟨d, g1, g2, g3, g4, g5⟩ := details_read (cal := cal) (m := m) (date := date) (show m.valuation = some v from hv)
    (show ForwardOf date m.forward F by rw [ef]; exact .num hF0) (show VolOf date m.vol σ from hσ)
    (show TimeOf cal m v date (g v date) from .own hd) (some K)
  simp only [Option.getD_some] at g3
  have hfl : d.flat = false := by simp [OptDetails.flat, g4, g5, h0, ht0]
  have hb : m.bump = true := rfl
  rw [h1] at e1
  rw [h2] at e2
  have hff : m'.formula = m.formula := rfl
  rw [hff] at e2
  simp only [OptModel.callDelta, g1, Py.ok_bind, OptDetails.fwd, g2, g3, g4, g5, hfl, hb, if_true, Bool.false_eq_true,
    if_false, ← e1, ← e2, pyDiv_ok (show (0.0001 : ℝ) ≠ 0 by norm_num)]

end

/-! ## C71: time sensitivities -/

section
variable {D P : Type} {cal : Cal D P} {num : AsNumber D} {m : OptModel D} {date : D} {strike : Option ℝ}
  {d : OptDetails D} {F : ℝ}

/-- C71 fails for time sensitivities of any formula that has one: it is evaluated at the expiry date in place of the time
to expiry, which raises for calendar dates. -/
theorem C71_theta_violated (hd : m.details cal date strike = .ok d) (hF : d.forward = some F) (hfl : d.flat = false)
    (hb : m.bump = false) {θ : ℝ → ℝ}
    (hθ : ∀ x, m.formula.theta x d.strike F (d.volatility.getD 0) = (x >>= fun t => .ok (some (θ t)))) :
    m.callTheta cal num date strike = (num date >>= fun t => .ok (θ t * (1 / 365.25))) ∧
    (num date = .error .type → m.callTheta cal num date strike = .error .type) := by
  have key : m.callTheta cal num date strike = (num date >>= fun t => .ok (θ t * (1 / 365.25))) := by
    simp only [OptModel.callTheta, hd, Py.ok_bind, OptDetails.fwd, hF, hfl, hb, Bool.false_eq_true, if_false, hθ]
    cases num date <;> simp
  exact ⟨key, fun h => by rw [key, h, Py.error_bind]⟩

end

/-- C71: a user formula with a time sensitivity. -/
noncomputable def thetaFormula : OptFormula :=
  { normalFormula codeDist with theta := fun x _ _ _ => x >>= fun t => .ok (some (t ^ 2)) }

/-- C71: the hypotheses hold, and the time sensitivity is off: 9 in place of 1, up to scale, three years after the
valuation date 2. -/
example : ∃ d, (OptModel.mk (some 2) (.num 100) (.num 20) none false thetaFormula).details floatCal 3 (some 100) = .ok d ∧
    d.forward = some 100 ∧ d.flat = false ∧ d.time = 1 ∧
    (OptModel.mk (some 2) (.num 100) (.num 20) none false thetaFormula).callTheta floatCal .ok 3 (some 100) =
      .ok (9 * (1 / 365.25)) := by
  have hd : (OptModel.mk (some 2) (.num 100) (.num 20) none false thetaFormula).details floatCal 3 (some 100) =
      .ok ⟨some 2, some 3, some 100, 100, some 20, 1⟩ := by
    norm_num [OptModel.details, Fwd.optionForward, Fwd.truthy, Vol.eval, OptModel.time, Vol.dayCount, Fwd.dayCount, floatCal]
  refine ⟨_, hd, rfl, by norm_num [OptDetails.flat], rfl, ?_⟩
  rw [(C71_theta_violated (num := .ok) (θ := fun t => t ^ 2) hd rfl (by norm_num [OptDetails.flat]) rfl fun x => rfl).1]
  norm_num

/-- C123: a model with a price curve, a volatility curve with its own day count, and no day count of its own. -/
example : ForwardOf (3 : ℝ) (.price (fun _ => .ok 100) (fun _ => .ok 1) fun _ _ => .ok 7) 100 ∧
    VolOf (3 : ℝ) (.terminal (fun _ => .ok 20) fun a b => .ok (2 * (b - a))) 20 ∧
    TimeOf floatCal (OptModel.mk (some 2) (.price (fun _ => .ok 100) (fun _ => .ok 1) fun _ _ => .ok 7)
      (.terminal (fun _ => .ok 20) fun a b => .ok (2 * (b - a))) none false (normalFormula codeDist)) 2 3 2 := by
  refine ⟨.price rfl, .terminal rfl, ?_⟩
  exact .vol rfl .terminal (by norm_num)

/-- C123: binary values: the hypotheses hold for the normal model. -/
example : ∃ lo hi, (flatNormal 0 false).callValue floatCal 1 (some (100 - 0.00005)) = .ok lo ∧
    (flatNormal 0 false).callValue floatCal 1 (some (100 + 0.00005)) = .ok hi ∧
    (OptModel.binary floatCal (flatNormal 0 false) none none .none .none none).callValue floatCal 1 (some 100) =
      .ok ((lo - hi) / 0.0001) := by
  have ht : TimeOf floatCal (flatNormal 0 false) 0 1 1 := by
    have := TimeOf.default (cal := floatCal) (m := flatNormal 0 false) (v := 0) (date := 1) rfl
      (fun dc h => by cases h) fun dc h => by cases h
    simpa [floatCal] using this
  have hp := fun K => (C123_call (cal := floatCal) (m := flatNormal 0 false) (v := 0) (date := 1) (F := 100) rfl
    (.num (by norm_num)) (.num 20) ht (by norm_num) one_ne_zero K).1
  have hn := fun K => normal_price codeDist (t := 1) (σ := 20) one_pos (by norm_num) K 100
  refine ⟨_, _, (hp _).trans (hn _), (hp _).trans (hn _), ?_⟩
  exact C123_binary_value (flatNormal 0 false) none (v := 0) rfl (.num (by norm_num)) (.num 20) ht (by norm_num) one_ne_zero
    100 ((hp _).trans (hn _)) ((hp _).trans (hn _))

/-! ### The hypotheses can be met: each theorem applied -/

/-- A model with own day count: forward 100, volatility 20, one year. -/
noncomputable def exOwnTime (σ : ℝ) (val : Option ℝ) (f : OptFormula) : OptModel ℝ := ⟨val, .num 100, .num σ, some fun a b => b - a, false, f⟩

theorem exOwnTime_time (σ : ℝ) (f : OptFormula) : TimeOf floatCal (exOwnTime σ (some 0) f) 0 1 (1 - 0) :=
  .own (dc := fun a b => b - a) rfl

example := C123_put (m := exOwnTime 20 (some 0) (normalFormula codeDist)) (F := 100) (σ := 20) rfl (.num (by norm_num)) (.num 20) (exOwnTime_time _ _) (by norm_num) (by norm_num) 90
example := C123_flat (m := exOwnTime 0 (some 0) (normalFormula codeDist)) (F := 100) (σ := 0) rfl (.num (by norm_num)) (.num 0) (exOwnTime_time _ _) (.inl rfl) 90
example := C123_no_valuation (cal := floatCal) (date := 1) (m := exOwnTime 20 none (normalFormula codeDist)) (F := 100) (σ := 20) rfl (.num (by norm_num)) (.num 20) (some 90)
example := C123_base (m := exOwnTime 20 (some 0) baseFormula) (F := 100) (σ := 20) rfl (.num (by norm_num)) (.num 20) (exOwnTime_time _ _) (by norm_num) (by norm_num) rfl (some 90)
example := C123_binary_given (cal := floatCal) (exOwnTime 20 (some 0) (normalFormula codeDist)) none none .none .none none (x := 3) (y := 2)
  (g := fun a b => b - a) (by simp [floatCal]) (by norm_num)
example := C123_binary_inherited (cal := floatCal) (exOwnTime 20 (some 0) (normalFormula codeDist)) none none .none .none none (x := 0) (by simp [floatCal])

/-- The sensitivity of a binary option is a difference of two values. -/
example := fun a b h1 h2 => C123_binary_bumps (cal := floatCal) (date := 1) (s := none) (g := fun a b => b - a) (exOwnTime 20 (some 0) (normalFormula codeDist))
  (F := 100) (σ := 20) rfl rfl (by norm_num) (by norm_num) (.num 20) rfl (by norm_num) (by norm_num) 90 (a := a) (b := b) h1 h2

end Dcf
