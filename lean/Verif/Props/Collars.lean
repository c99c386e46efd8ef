import Verif.Props.OptionShape
import Verif.Props.OptionLists

/-! # Capped and floored coupons: C148, and option strategies: C149 -/

set_option linter.unusedSectionVars false
set_option linter.unusedSimpArgs false
set_option linter.unusedVariables false

namespace Dcf

open Spec

namespace Spec

/-- A model `m` at an expiry `fix`: it reads from its curves the forward `F`, the volatility `σ` and the time `t` from its
valuation date `v` to the expiry. -/
structure ModelAt {D P : Type} (cal : Cal D P) (m : OptModel D) (v fix : D) (F σ t : ℝ) : Prop where
  valuation : m.valuation = some v
  forward : ForwardOf fix m.forward F
  vol : VolOf fix m.vol σ
  time : TimeOf cal m v fix t

/-- A coupon `p` in a model `m`: it fixes at `fix` and pays `c` above the rate, which is the forward `F` of the model. -/
structure CouponIn {D P : Type} [LinearOrder D] (cal : Cal D P) (m : OptModel D) (p : RatePay D P) (v fix : D)
    (c F σ t : ℝ) : Prop extends ModelAt cal m v fix F σ t where
  fixing : MovedBack cal p.fixingOffset p.start fix
  fixed : p.fixedRate = some c
  quotes : Quotes m.forward fix F

end Spec

section
variable {D P : Type} [LinearOrder D] {cal : Cal D P} {m : OptModel D} {p : RatePay D P} {v fix : D} {c F σ t : ℝ}

theorem Spec.ForwardOf.truthy {f : Fwd D} (h : ForwardOf fix f F) : f.truthy = true := by
  cases h with
  | num h => simp [Fwd.truthy, h]
  | _ => rfl

theorem Spec.ModelAt.put (h : ModelAt cal m v fix F σ t) (k : ℝ) :
    m.putValue cal fix (some k) = (fun x => k - F + x) <$> m.callValue cal fix (some k) := by
  obtain ⟨d, h1, h2, h3, -, -⟩ := details_read h.valuation h.forward h.vol h.time (some k)
  rw [C53_value h1 h2, h3]; rfl

/-- C148: a coupon with cap and floor in any model: fixed rate plus forward, plus the put at the floor, minus the call at
the cap, times year fraction and amount. -/
theorem C148_formula (h : CouponIn cal m p v fix c F σ t) {floor cap : Option ℝ} {C Q : ℝ → ℝ}
    (hC : ∀ l, cap = some l → m.callValue cal fix (some l) = .ok (C l))
    (hQ : ∀ k, floor = some k → m.putValue cal fix (some k) = .ok (Q k)) :
    (PayOff.contingentRate ⟨p, floor, cap⟩).eval cal (.model m) =
      .ok ((c + F + (floor.map Q).getD 0 - (cap.map C).getD 0) *
        ((p.dayCount.getD cal.dayCount) p.start p.stop * p.amount)) := by
  obtain ⟨x, hx, hF, hx'⟩ := forwardAt_quotes (cal := cal) (p := p) (arg := .fwd m.forward) h.quotes ((C48_offset _ _ _).2 h.fixing)
  have hx2 := hx' (by simpa [ModelArg.truthy] using h.forward.truthy)
  subst hx2
  have hfl : ∀ s, optlet cal m (m.putValue cal) fix s floor = .ok ((floor.map Q).getD 0 * s) := by
    intro s
    cases floor with
    | none => simp [optlet]
    | some k =>
      obtain ⟨d, hd, -⟩ := details_read h.valuation h.forward h.vol h.time (some k)
      simp [optlet, hd, hQ k rfl]
  have hcp : ∀ s, optlet cal m (m.callValue cal) fix s cap = .ok ((cap.map C).getD 0 * s) := by
    intro s
    cases cap with
    | none => simp [optlet]
    | some k =>
      obtain ⟨d, hd, -⟩ := details_read h.valuation h.forward h.vol h.time (some k)
      simp [optlet, hd, hC k rfl]
  simp only [PayOff.eval, ContingentRatePay.cashflow, ModelArg.curve, RatePay.details, hx, Py.ok_bind, h.fixed, pyKey, hfl, hcp,
    Option.getD_some, RatePay.tau, Except.ok.injEq]
  ring

/-- C148: with equal strikes for cap and floor the coupon is fixed: in every model, whatever forward, volatility and time,
it pays fixed rate plus strike (and raises exactly if the model does not value the call). -/
theorem C148_equal (h : CouponIn cal m p v fix c F σ t) (k : ℝ) :
    (PayOff.contingentRate ⟨p, some k, some k⟩).eval cal (.model m) =
      (fun _ => (c + k) * ((p.dayCount.getD cal.dayCount) p.start p.stop * p.amount)) <$> m.callValue cal fix (some k) := by
  cases hc : m.callValue cal fix (some k) with
  | ok x =>
    rw [C148_formula h (C := fun _ => x) (Q := fun k => k - F + x) (fun l e => by cases e; exact hc)
      (fun l e => by cases e; rw [h.put, hc]; rfl), Py.map_ok, Except.ok.injEq]
    simp only [Option.map_some, Option.getD_some]
    ring
  | error e =>
    obtain ⟨x, hx, hF, hx'⟩ := forwardAt_quotes (cal := cal) (p := p) (arg := .fwd m.forward) h.quotes ((C48_offset _ _ _).2 h.fixing)
    have hx2 := hx' (by simpa [ModelArg.truthy] using h.forward.truthy)
    subst hx2
    obtain ⟨d, hd, -⟩ := details_read h.valuation h.forward h.vol h.time (some k)
    simp only [PayOff.eval, ContingentRatePay.cashflow, ModelArg.curve, RatePay.details, hx, Py.ok_bind, h.fixed, pyKey,
      Option.getD_some, RatePay.tau, optlet, hd, h.put, hc, Py.map_error, Py.error_bind]

/-- C148: cap and floor split: a collared coupon and the plain one pay together what the capped and the floored one pay; and
the capped and the floored coupon with the same strike pay together what the plain coupon and the fixed one at the strike
pay. -/
theorem C148_parity (h : CouponIn cal m p v fix c F σ t) {k l x y : ℝ} (hk : m.callValue cal fix (some k) = .ok x)
    (hl : m.callValue cal fix (some l) = .ok y) :
    ∃ collar plain capped floored floored', (PayOff.contingentRate ⟨p, some k, some l⟩).eval cal (.model m) = .ok collar ∧
      (PayOff.contingentRate ⟨p, none, none⟩).eval cal (.model m) = .ok plain ∧
      (PayOff.contingentRate ⟨p, none, some l⟩).eval cal (.model m) = .ok capped ∧
      (PayOff.contingentRate ⟨p, some k, none⟩).eval cal (.model m) = .ok floored ∧
      (PayOff.contingentRate ⟨p, some l, none⟩).eval cal (.model m) = .ok floored' ∧
      (PayOff.rate p).eval cal (.fwd m.forward) = .ok plain ∧
      collar + plain = capped + floored ∧
      capped + floored' = plain + (c + l) * ((p.dayCount.getD cal.dayCount) p.start p.stop * p.amount) := by
  have hk' : m.putValue cal fix (some k) = .ok (k - F + x) := by rw [h.put, hk]; rfl
  have hl' : m.putValue cal fix (some l) = .ok (l - F + y) := by rw [h.put, hl]; rfl
  refine ⟨_, _, _, _, _,
    C148_formula h (C := fun _ => y) (Q := fun _ => k - F + x) (fun _ e => by cases e; exact hl) (fun _ e => by cases e; exact hk'),
    C148_formula h (C := fun _ => y) (Q := fun _ => k - F + x) (fun _ e => by cases e) (fun _ e => by cases e),
    C148_formula h (C := fun _ => y) (Q := fun _ => k - F + x) (fun _ e => by cases e; exact hl) (fun _ e => by cases e),
    C148_formula h (C := fun _ => y) (Q := fun _ => k - F + x) (fun _ e => by cases e) (fun _ e => by cases e; exact hk'),
    C148_formula h (C := fun _ => y) (Q := fun _ => l - F + y) (fun _ e => by cases e) (fun _ e => by cases e; exact hl'),
    ?_, ?_, ?_⟩
  · rw [C50_formula (.inl rfl) h.quotes ((C48_offset _ _ _).2 h.fixing) h.fixed]
    simp only [Option.map_none, Option.getD_none, Except.ok.injEq]
    ring
  · simp only [Option.map_some, Option.map_none, Option.getD_none, Option.getD_some]; ring
  · simp only [Option.map_some, Option.map_none, Option.getD_none, Option.getD_some]; ring

/-! ## Bounds -/

/-- C148: without volatility, or once fixed, a floored coupon pays the greater of rate and floor, a capped one the lesser of
rate and cap. -/
theorem C148_intrinsic (h : CouponIn cal m p v fix c F σ t) (h0 : σ = 0 ∨ t = 0) (k l : ℝ) :
    (PayOff.contingentRate ⟨p, some k, none⟩).eval cal (.model m) =
      .ok ((c + max F k) * ((p.dayCount.getD cal.dayCount) p.start p.stop * p.amount)) ∧
    (PayOff.contingentRate ⟨p, none, some l⟩).eval cal (.model m) =
      .ok ((c + min F l) * ((p.dayCount.getD cal.dayCount) p.start p.stop * p.amount)) := by
  have hk := C123_flat h.valuation h.forward h.vol h.time h0 k
  have hl := C123_flat h.valuation h.forward h.vol h.time h0 l
  constructor
  · rw [C148_formula h (C := fun _ => 0) (Q := fun k => max (k - F) 0) (fun _ e => by cases e) (fun _ e => by cases e; exact hk.2.1),
      Except.ok.injEq]
    simp only [Option.map_some, Option.map_none, Option.getD_none, Option.getD_some]
    congr 1
    rcases le_total k F with h | h
    · rw [max_eq_right (by linarith), max_eq_left h]; ring
    · rw [max_eq_left (by linarith), max_eq_right h]; ring
  · rw [C148_formula h (C := fun l => max (F - l) 0) (Q := fun k => 0) (fun _ e => by cases e; exact hl.1) (fun _ e => by cases e),
      Except.ok.injEq]
    simp only [Option.map_some, Option.map_none, Option.getD_none, Option.getD_some]
    congr 1
    rcases le_total l F with h | h
    · rw [max_eq_left (by linarith), min_eq_right h]; ring
    · rw [max_eq_right (by linarith), min_eq_left h]; ring

/-- Bounds of capped, floored and collared coupons from the values of the calls. -/
theorem coupon_bounds (h : CouponIn cal m p v fix c F σ t) {k l x y ε δ : ℝ}
    (hp : 0 < (p.dayCount.getD cal.dayCount) p.start p.stop * p.amount) (hk : m.callValue cal fix (some k) = .ok x)
    (hl : m.callValue cal fix (some l) = .ok y) (hx : max (F - k) 0 - ε < x) (hy : max (F - l) 0 - δ < y)
    (h1 : -(ε + δ) < x - y) (h2 : x - y < l - k + (ε + δ)) :
    ∃ collar capped floored, (PayOff.contingentRate ⟨p, some k, some l⟩).eval cal (.model m) = .ok collar ∧
      (PayOff.contingentRate ⟨p, none, some l⟩).eval cal (.model m) = .ok capped ∧
      (PayOff.contingentRate ⟨p, some k, none⟩).eval cal (.model m) = .ok floored ∧
      capped < (c + min F l + δ) * ((p.dayCount.getD cal.dayCount) p.start p.stop * p.amount) ∧
      (c + max F k - ε) * ((p.dayCount.getD cal.dayCount) p.start p.stop * p.amount) < floored ∧
      (c + k - (ε + δ)) * ((p.dayCount.getD cal.dayCount) p.start p.stop * p.amount) < collar ∧
      collar < (c + l + (ε + δ)) * ((p.dayCount.getD cal.dayCount) p.start p.stop * p.amount) := by
  have hk' : m.putValue cal fix (some k) = .ok (k - F + x) := by rw [h.put, hk]; rfl
  refine ⟨_, _, _,
    C148_formula h (C := fun _ => y) (Q := fun _ => k - F + x) (fun _ e => by cases e; exact hl) (fun _ e => by cases e; exact hk'),
    C148_formula h (C := fun _ => y) (Q := fun _ => k - F + x) (fun _ e => by cases e; exact hl) (fun _ e => by cases e),
    C148_formula h (C := fun _ => y) (Q := fun _ => k - F + x) (fun _ e => by cases e) (fun _ e => by cases e; exact hk'),
    ?_, ?_, ?_, ?_⟩ <;>
    refine mul_lt_mul_of_pos_right ?_ hp <;>
    simp only [Option.map_some, Option.map_none, Option.getD_none, Option.getD_some]
  · have h1 := le_max_left (F - l) 0
    have h2 := le_max_right (F - l) 0
    rcases min_choice F l with e | e <;> rw [e] <;> linarith
  · have h1 := le_max_left (F - k) 0
    have h2 := le_max_right (F - k) 0
    rcases max_choice F k with e | e <;> rw [e] <;> linarith
  · linarith
  · linarith

/-- C148: with the exact distribution, in the normal model with volatility and time a capped coupon pays less than the plain
coupon and less than fixed rate plus cap, a floored one more than the plain coupon and fixed rate plus floor, and a collared
one stays between floor and cap. -/
theorem C148_normal (h : CouponIn cal m p v fix c F σ t) (hm : m.formula = normalFormula exactDist) (hσ : 0 < σ) (ht : 0 < t)
    (hp : 0 < (p.dayCount.getD cal.dayCount) p.start p.stop * p.amount) {k l : ℝ} (hkl : k < l) :
    ∃ collar capped floored, (PayOff.contingentRate ⟨p, some k, some l⟩).eval cal (.model m) = .ok collar ∧
      (PayOff.contingentRate ⟨p, none, some l⟩).eval cal (.model m) = .ok capped ∧
      (PayOff.contingentRate ⟨p, some k, none⟩).eval cal (.model m) = .ok floored ∧
      capped < (c + min F l) * ((p.dayCount.getD cal.dayCount) p.start p.stop * p.amount) ∧
      (c + max F k) * ((p.dayCount.getD cal.dayCount) p.start p.stop * p.amount) < floored ∧
      (c + k) * ((p.dayCount.getD cal.dayCount) p.start p.stop * p.amount) < collar ∧
      collar < (c + l) * ((p.dayCount.getD cal.dayCount) p.start p.stop * p.amount) := by
  have hcall := fun K => (C123_call h.valuation h.forward h.vol h.time hσ.ne' ht.ne' K).1
  obtain ⟨x, y, -, h1, h2, -, h3, h4, -⟩ := C125_normal_strike ht hσ F hkl (w := 1 / 2) (by norm_num) (by norm_num)
  obtain ⟨x', hx, hx'⟩ := C102_normal ht hσ k F
  obtain ⟨y', hy, hy'⟩ := C102_normal ht hσ l F
  obtain rfl : x = x' := Except.ok.inj (h1.symm.trans hx)
  obtain rfl : y = y' := Except.ok.inj (h2.symm.trans hy)
  have := coupon_bounds h (ε := 0) (δ := 0) hp (by rw [hcall, hm, h1]) (by rw [hcall, hm, h2]) (by linarith) (by linarith)
    (by linarith) (by linarith)
  simpa using this

/-- C148: the same in the log-normal model. -/
theorem C148_log_normal (h : CouponIn cal m p v fix c F σ t) (hm : m.formula = logNormalFormula exactDist) (hσ : 0 < σ)
    (ht : 0 < t) (hF : 0 < F) (hp : 0 < (p.dayCount.getD cal.dayCount) p.start p.stop * p.amount) {k l : ℝ} (hk : 0 < k)
    (hkl : k < l) :
    ∃ collar capped floored, (PayOff.contingentRate ⟨p, some k, some l⟩).eval cal (.model m) = .ok collar ∧
      (PayOff.contingentRate ⟨p, none, some l⟩).eval cal (.model m) = .ok capped ∧
      (PayOff.contingentRate ⟨p, some k, none⟩).eval cal (.model m) = .ok floored ∧
      capped < (c + min F l) * ((p.dayCount.getD cal.dayCount) p.start p.stop * p.amount) ∧
      (c + max F k) * ((p.dayCount.getD cal.dayCount) p.start p.stop * p.amount) < floored ∧
      (c + k) * ((p.dayCount.getD cal.dayCount) p.start p.stop * p.amount) < collar ∧
      collar < (c + l) * ((p.dayCount.getD cal.dayCount) p.start p.stop * p.amount) := by
  have hcall := fun K => (C123_call h.valuation h.forward h.vol h.time hσ.ne' ht.ne' K).1
  obtain ⟨x, y, -, h1, h2, -, h3, h4, -⟩ := C125_log_normal_strike ht hσ hF hk hkl (w := 1 / 2) (by norm_num) (by norm_num)
  obtain ⟨x', hx, hx', -⟩ := C102_log_normal ht hσ hF hk
  obtain ⟨y', hy, hy', -⟩ := C102_log_normal ht hσ hF (hk.trans hkl)
  obtain rfl : x = x' := Except.ok.inj (h1.symm.trans hx)
  obtain rfl : y = y' := Except.ok.inj (h2.symm.trans hy)
  have := coupon_bounds h (ε := 0) (δ := 0) hp (by rw [hcall, hm, h1]) (by rw [hcall, hm, h2]) (by linarith) (by linarith)
    (by linarith) (by linarith)
  simpa using this

/-- C148, partial: with the distribution of the code the bounds of the normal model hold up to its accuracy.  Full claim: as
`C148_normal`.  Missing: the accuracy, see `C148_normal_violated`. -/
theorem C148_normal_partial (h : CouponIn cal m p v fix c F σ t) (hm : m.formula = normalFormula codeDist) (hσ : 0 < σ)
    (ht : 0 < t) (hp : 0 < (p.dayCount.getD cal.dayCount) p.start p.stop * p.amount) {k l : ℝ} (hkl : k < l) :
    ∃ collar capped floored, (PayOff.contingentRate ⟨p, some k, some l⟩).eval cal (.model m) = .ok collar ∧
      (PayOff.contingentRate ⟨p, none, some l⟩).eval cal (.model m) = .ok capped ∧
      (PayOff.contingentRate ⟨p, some k, none⟩).eval cal (.model m) = .ok floored ∧
      capped < (c + min F l + (0.00001 * |F - l| + 0.0000000001 * (σ * Real.sqrt t))) *
        ((p.dayCount.getD cal.dayCount) p.start p.stop * p.amount) ∧
      (c + max F k - (0.00001 * |F - k| + 0.0000000001 * (σ * Real.sqrt t))) *
        ((p.dayCount.getD cal.dayCount) p.start p.stop * p.amount) < floored ∧
      (c + k - (0.00001 * (|F - k| + |F - l|) + 0.0000000002 * (σ * Real.sqrt t))) *
        ((p.dayCount.getD cal.dayCount) p.start p.stop * p.amount) < collar ∧
      collar < (c + l + (0.00001 * (|F - k| + |F - l|) + 0.0000000002 * (σ * Real.sqrt t))) *
        ((p.dayCount.getD cal.dayCount) p.start p.stop * p.amount) := by
  have hcall := fun K => (C123_call h.valuation h.forward h.vol h.time hσ.ne' ht.ne' K).1
  obtain ⟨x, y, h1, h2, h3, h4⟩ := C125_normal_partial ht hσ F hkl
  have key : ∀ K z, (normalFormula codeDist).price (.ok t) K F σ = .ok z →
      max (F - K) 0 - (0.00001 * |F - K| + 0.0000000001 * (σ * Real.sqrt t)) < z := by
    intro K z hz
    obtain ⟨z', q, e1, e2, e3⟩ := C101_normal_price ht hσ K F
    obtain rfl : z = z' := Except.ok.inj (hz.symm.trans e1)
    obtain ⟨q', e4, e5⟩ := C102_normal ht hσ K F
    obtain rfl : q = q' := Except.ok.inj (e2.symm.trans e4)
    linarith [(abs_le.1 e3).1]
  obtain ⟨a, b, d, g1, g2, g3, g4, g5, g6, g7⟩ := coupon_bounds h hp (by rw [hcall, hm, h1]) (by rw [hcall, hm, h2]) (key _ _ h1) (key _ _ h2)
    (by linarith) (by linarith)
  refine ⟨a, b, d, g1, g2, g3, g4, g5, lt_of_eq_of_lt ?_ g6, lt_of_lt_of_eq g7 ?_⟩ <;> ring

/-- C148, partial: the same in the log-normal model. -/
theorem C148_log_normal_partial (h : CouponIn cal m p v fix c F σ t) (hm : m.formula = logNormalFormula codeDist) (hσ : 0 < σ)
    (ht : 0 < t) (hF : 0 < F) (hp : 0 < (p.dayCount.getD cal.dayCount) p.start p.stop * p.amount) {k l : ℝ} (hk : 0 < k)
    (hkl : k < l) :
    ∃ collar capped floored, (PayOff.contingentRate ⟨p, some k, some l⟩).eval cal (.model m) = .ok collar ∧
      (PayOff.contingentRate ⟨p, none, some l⟩).eval cal (.model m) = .ok capped ∧
      (PayOff.contingentRate ⟨p, some k, none⟩).eval cal (.model m) = .ok floored ∧
      capped < (c + min F l + 0.00001 * (F + l)) * ((p.dayCount.getD cal.dayCount) p.start p.stop * p.amount) ∧
      (c + max F k - 0.00001 * (F + k)) * ((p.dayCount.getD cal.dayCount) p.start p.stop * p.amount) < floored ∧
      (c + k - 0.00001 * (2 * F + k + l)) * ((p.dayCount.getD cal.dayCount) p.start p.stop * p.amount) < collar ∧
      collar < (c + l + 0.00001 * (2 * F + k + l)) * ((p.dayCount.getD cal.dayCount) p.start p.stop * p.amount) := by
  have hcall := fun K => (C123_call h.valuation h.forward h.vol h.time hσ.ne' ht.ne' K).1
  obtain ⟨x, y, h1, h2, h3, h4⟩ := C125_log_normal_partial ht hσ hF hk hkl
  have key : ∀ K z, 0 < K → (logNormalFormula codeDist).price (.ok t) K F σ = .ok z →
      max (F - K) 0 - 0.00001 * (F + K) < z := by
    intro K z hK hz
    obtain ⟨z', q, e1, e2, e3⟩ := C101_log_normal_price ht hσ.ne' hF hK
    obtain rfl : z = z' := Except.ok.inj (hz.symm.trans e1)
    obtain ⟨q', e4, e5, -⟩ := C102_log_normal ht hσ hF hK
    obtain rfl : q = q' := Except.ok.inj (e2.symm.trans e4)
    linarith [(abs_le.1 e3).1]
  obtain ⟨a, b, d, g1, g2, g3, g4, g5, g6, g7⟩ := coupon_bounds h hp (by rw [hcall, hm, h1]) (by rw [hcall, hm, h2]) (key _ _ hk h1)
    (key _ _ (hk.trans hkl) h2) (by linarith) (by linarith)
  refine ⟨a, b, d, g1, g2, g3, g4, g5, lt_of_eq_of_lt ?_ g6, lt_of_lt_of_eq g7 ?_⟩ <;> ring

/-- C148 fails: in the normal model of the code a cap more than 9 standard deviations above the forward makes the coupon pay
more than the plain coupon. -/
theorem C148_normal_violated (h : CouponIn cal m p v fix c F σ t) (hm : m.formula = normalFormula codeDist) (hσ : 0 < σ)
    (ht : 0 < t) (hp : 0 < (p.dayCount.getD cal.dayCount) p.start p.stop * p.amount) {l : ℝ}
    (hl : F - l ≤ -9 * (σ * Real.sqrt t)) :
    ∃ capped plain, (PayOff.contingentRate ⟨p, none, some l⟩).eval cal (.model m) = .ok capped ∧
      (PayOff.rate p).eval cal (.fwd m.forward) = .ok plain ∧ plain < capped := by
  have hcall := fun K => (C123_call h.valuation h.forward h.vol h.time hσ.ne' ht.ne' K).1
  obtain ⟨x, h1, h2⟩ := C70_price_violated ht hσ hl
  refine ⟨_, _, C148_formula h (C := fun _ => x) (Q := fun _ => 0) (fun _ e => by cases e; rw [hcall, hm, h1]) (fun _ e => by cases e),
    C50_formula (.inl rfl) h.quotes ((C48_offset _ _ _).2 h.fixing) h.fixed, ?_⟩
  simp only [Option.map_some, Option.map_none, Option.getD_none, Option.getD_some]
  rw [mul_assoc]
  exact mul_lt_mul_of_pos_right (by linarith) hp

/-- C148 fails: in the normal model of the code a coupon collared between 10 and 11 standard deviations above the forward pays
less than its floor. -/
theorem C148_collar_violated (h : CouponIn cal m p v fix c F σ t) (hm : m.formula = normalFormula codeDist) (hσ : 0 < σ)
    (ht : 0 < t) (hp : 0 < (p.dayCount.getD cal.dayCount) p.start p.stop * p.amount) :
    ∃ collar, (PayOff.contingentRate ⟨p, some (F + 10 * (σ * Real.sqrt t)), some (F + 11 * (σ * Real.sqrt t))⟩).eval cal (.model m) =
        .ok collar ∧
      collar < (c + (F + 10 * (σ * Real.sqrt t))) * ((p.dayCount.getD cal.dayCount) p.start p.stop * p.amount) := by
  have hcall := fun K => (C123_call h.valuation h.forward h.vol h.time hσ.ne' ht.ne' K).1
  obtain ⟨x, y, h1, h2, h3⟩ := C125_normal_violated ht hσ F
  refine ⟨_, C148_formula h (C := fun _ => y) (Q := fun k => k - F + x) (fun _ e => by cases e; rw [hcall, hm, h2])
    (fun _ e => by cases e; rw [h.put, hcall, hm, h1]; rfl), ?_⟩
  simp only [Option.map_some, Option.map_none, Option.getD_none, Option.getD_some]
  exact mul_lt_mul_of_pos_right (by linarith) hp

/-- C148 fails: in the log-normal model of the code, whatever forward, volatility and time, there is a collared coupon that
pays less than its floor. -/
theorem C148_log_normal_violated (h : CouponIn cal m p v fix c F σ t) (hm : m.formula = logNormalFormula codeDist) (hσ : 0 < σ)
    (ht : 0 < t) (hF : 0 < F) (hp : 0 < (p.dayCount.getD cal.dayCount) p.start p.stop * p.amount) :
    ∃ k l collar, 0 < k ∧ k < l ∧ (PayOff.contingentRate ⟨p, some k, some l⟩).eval cal (.model m) = .ok collar ∧
      collar < (c + k) * ((p.dayCount.getD cal.dayCount) p.start p.stop * p.amount) := by
  have hcall := fun K => (C123_call h.valuation h.forward h.vol h.time hσ.ne' ht.ne' K).1
  obtain ⟨k, l, x, y, hk, hkl, h1, h2, h3⟩ := C125_log_normal_violated ht hσ hF
  refine ⟨k, l, _, hk, hkl, C148_formula h (C := fun _ => y) (Q := fun k => k - F + x) (fun _ e => by cases e; rw [hcall, hm, h2])
    (fun _ e => by cases e; rw [h.put, hcall, hm, h1]; rfl), ?_⟩
  simp only [Option.map_some, Option.map_none, Option.getD_none, Option.getD_some]
  exact mul_lt_mul_of_pos_right (by linarith) hp

/-! ## Lists -/

/-- C148: a list of coupons with equal strikes for cap and floor pays on every date what a list of fixed coupons at fixed rate
plus strike pays, in every model that values the calls. -/
theorem C148_list (back : D → D → Py D) {dates : List D} {amounts : NumArg} {o : D} (dc : Option (D → D → ℝ)) (fo : Option P)
    {po : Option P} {sh fx : D → D} {Fw vo tm : D → ℝ} (k : ℝ) (ho : cal.falsy o = false)
    (hs : ∀ d ∈ o :: dates, MovedBack cal po d (sh d)) (hfx : ∀ d ∈ o :: dates.dropLast, MovedBack cal fo (sh d) (fx d))
    (hd : dates ≠ []) (hl : (amounts.expand dates.length).length = dates.length) (hn : dates.Nodup)
    (hm : ∀ d ∈ o :: dates.dropLast, Quotes m.forward (fx d) (Fw d) ∧
      ModelAt cal m v (fx d) (Fw d) (vo d) (tm d) ∧ ∃ x, m.callValue cal (fx d) (some k) = .ok x) :
    ∃ l l', CFList.newContingentRate cal back dates amounts (some o) dc fo po c (some k) (some k) (.model m) = .ok l ∧
      CFList.newRate cal back dates amounts (some o) dc fo po (c + k) .none = .ok l' ∧ l.domain = dates ∧ l'.domain = dates ∧
      ∀ d, ∃ x, l.getitem cal d = .ok x ∧ l'.getitem cal d = .ok x := by
  have hs' : ∀ d, d ∈ o :: dates.dropLast ∨ d ∈ dates → cal.minus po d = .ok (sh d) :=
    fun d hd => (C48_offset _ _ _).2 (hs d (mem_starts hd))
  have e1 := fun c f => newRate_eq (amounts := amounts) (dc := dc) (fo := fo) (c := c) (f := f) (back := back) (o := some o)
    (starts := o :: dates.dropLast) rfl (dropLast_cons_length o hd) hs' hl hn
  refine ⟨_, _, by rw [C49_same_partial (f := .none) (ho := fun d e => by cases e; exact ho), e1, Py.map_ok], e1 _ _, rfl, rfl, fun d => ?_⟩
  simp only [CFList.getitem, Dict.get_map]
  by_cases hmem : d ∈ dates
  · obtain ⟨i, hi, rfl⟩ := List.getElem_of_mem hmem
    rw [zip_dropLast, rateFlow_get (by simp) hl hn i hi, rateFlow_get (by simp) hl hn i hi]
    have hi' : (o :: dates)[i]'(by simp; omega) ∈ o :: dates.dropLast := by
      cases i with
      | zero => simp
      | succ i =>
        refine List.mem_cons_of_mem _ ?_
        rw [List.getElem_cons_succ, ← List.getElem_dropLast (by simp; omega)]
        exact List.getElem_mem _
    obtain ⟨h1, h2, x, hx⟩ := hm _ hi'
    refine ⟨_, ?_, C50_no_curve rfl⟩
    simp only [Option.map_some, PayOff.collar]
    rw [C148_equal (v := v) (c := c) ⟨h2, hfx _ hi', rfl, h1⟩, hx, Py.map_ok]
    simp only [mul_assoc]
  · have hnone : ∀ c, Dict.get (((o :: dates.dropLast).zip (dates.zip (amounts.expand dates.length))).map (rateFlow (P := P) sh dc fo c)) d = none := by
      intro c
      refine Dict.get_none.2 fun hh => hmem ?_
      obtain ⟨y, hy, rfl⟩ := List.mem_map.1 hh
      obtain ⟨z, hz, rfl⟩ := List.mem_map.1 hy
      exact (List.of_mem_zip (List.of_mem_zip hz).2).1
    rw [hnone, hnone]
    exact ⟨0, rfl, rfl⟩

/-! ## C149: option strategies -/

/-- What is needed to build a list of option strategies: distinct dates, each with an expiry. -/
structure StrategyDates (cal : Cal D P) (dates : List D) (fo po : Option P) (ex : D → D) : Prop where
  nodup : dates.Nodup
  expiry : ∀ d ∈ dates, ∃ e, MovedBack cal po d e ∧ MovedBack cal fo e (ex d)

variable {dates : List D} {fo po : Option P} {ex : D → D}

/-- C149: a long call and a short put with the same strike pay forward minus strike, in every model that values the call. -/
theorem C149_forward (hd : StrategyDates cal dates fo po ex) (a k : ℝ) (o : Option D) :
    ∃ l, CFList.newStrategy cal dates (.scalar a) [k] (.scalar (-a)) [k] fo po o (.model m) = .ok l ∧ l.domain = dates ∧
      ∀ d ∈ dates, ∀ (v : D) (F σ t x : ℝ), ModelAt cal m v (ex d) F σ t → m.callValue cal (ex d) (some k) = .ok x →
        l.getitem cal d = .ok (a * (F - k)) := by
  obtain ⟨l, hl, h1, -, harg, h2⟩ := C114_strategies (cs := [k]) (ps := [k]) (by simp) hd.nodup hd.expiry (.scalar a) (.scalar (-a)) o (.model m)
  refine ⟨l, hl, h1, fun d hdm v F σ t x hm hx => ?_⟩
  have := (h2 m).2 d hdm (fun _ => x) (fun _ => k - F + x) (by simpa using hx) (by simp [hm.put, hx])
  rw [show l = { l with arg := .model m } by rw [← harg], this]
  simp [NumArg.expand]
  ring

/-- What the strategies pay in terms of the calls. -/
theorem strategies_pay (hd : StrategyDates cal dates fo po ex) (a w k l : ℝ) (o : Option D) :
    (∃ L, CFList.newStrategy cal dates (.list [a, -a]) [k, l] (.list []) [] fo po o (.model m) = .ok L ∧ L.domain = dates ∧
      ∀ d ∈ dates, ∀ x y : ℝ, m.callValue cal (ex d) (some k) = .ok x → m.callValue cal (ex d) (some l) = .ok y →
        L.getitem cal d = .ok (a * (x - y))) ∧
    (∃ L, CFList.newStrategy cal dates (.list [w * a, -a, (1 - w) * a]) [k, w * k + (1 - w) * l, l] (.list []) [] fo po o (.model m) = .ok L ∧
      L.domain = dates ∧ ∀ d ∈ dates, ∀ x y z : ℝ, m.callValue cal (ex d) (some k) = .ok x → m.callValue cal (ex d) (some l) = .ok y →
        m.callValue cal (ex d) (some (w * k + (1 - w) * l)) = .ok z → L.getitem cal d = .ok (a * (w * x + (1 - w) * y - z))) ∧
    (∃ L, CFList.newStrategy cal dates (.scalar a) [k] (.scalar a) [k] fo po o (.model m) = .ok L ∧ L.domain = dates ∧
      ∀ d ∈ dates, ∀ (v : D) (F σ t x : ℝ), ModelAt cal m v (ex d) F σ t → m.callValue cal (ex d) (some k) = .ok x →
        L.getitem cal d = .ok (a * (k - F + 2 * x))) := by
  refine ⟨?_, ?_, ?_⟩
  · obtain ⟨L, hl, h1, -, harg, h2⟩ := C114_strategies (cs := [k, l]) (ps := []) (by simp) hd.nodup hd.expiry (.list [a, -a]) (.list []) o (.model m)
    refine ⟨L, hl, h1, fun d hdm x y hx hy => ?_⟩
    have hv : ∀ K, ∃ z, (K = k ∨ K = l) → m.callValue cal (ex d) (some K) = .ok z := by
      intro K
      by_cases h : K = k
      · exact ⟨x, fun _ => h ▸ hx⟩
      · exact ⟨y, fun h' => (h'.resolve_left h) ▸ hy⟩
    choose C hC using hv
    have := (h2 m).2 d hdm C (fun _ => 0) (by simpa using ⟨hC k (.inl rfl), hC l (.inr rfl)⟩) (by simp)
    rw [show L = { L with arg := .model m } by rw [← harg], this]
    have e1 : x = C k := Except.ok.inj (hx.symm.trans (hC k (.inl rfl)))
    have e2 : y = C l := Except.ok.inj (hy.symm.trans (hC l (.inr rfl)))
    simp [NumArg.expand, e1, e2]
    ring
  · obtain ⟨L, hl, h1, -, harg, h2⟩ := C114_strategies (cs := [k, w * k + (1 - w) * l, l]) (ps := []) (by simp) hd.nodup hd.expiry
      (.list [w * a, -a, (1 - w) * a]) (.list []) o (.model m)
    refine ⟨L, hl, h1, fun d hdm x y z hx hy hz => ?_⟩
    have hv : ∀ K, ∃ u, (K = k ∨ K = w * k + (1 - w) * l ∨ K = l) → m.callValue cal (ex d) (some K) = .ok u := by
      intro K
      by_cases h : K = k
      · exact ⟨x, fun _ => h ▸ hx⟩
      by_cases h' : K = l
      · exact ⟨y, fun _ => h' ▸ hy⟩
      · exact ⟨z, fun hh => ((hh.resolve_left h).resolve_right h') ▸ hz⟩
    choose C hC using hv
    have := (h2 m).2 d hdm C (fun _ => 0) (by
      intro K hK
      simp only [List.mem_cons, List.not_mem_nil, or_false] at hK
      exact hC K hK) (by simp)
    rw [show L = { L with arg := .model m } by rw [← harg], this]
    have e1 : x = C k := Except.ok.inj (hx.symm.trans (hC k (.inl rfl)))
    have e2 : y = C l := Except.ok.inj (hy.symm.trans (hC l (.inr (.inr rfl))))
    have e3 : z = C (w * k + (1 - w) * l) := Except.ok.inj (hz.symm.trans (hC _ (.inr (.inl rfl))))
    simp only [NumArg.expand, List.zip_cons_cons, List.zip_nil_right, List.map_cons, List.map_nil, List.sum_cons, List.sum_nil,
      Except.ok.injEq, List.zip_nil_left, e1, e2, e3]
    ring
  · obtain ⟨L, hl, h1, -, harg, h2⟩ := C114_strategies (cs := [k]) (ps := [k]) (by simp) hd.nodup hd.expiry (.scalar a) (.scalar a) o (.model m)
    refine ⟨L, hl, h1, fun d hdm v F σ t x hm hx => ?_⟩
    have := (h2 m).2 d hdm (fun _ => x) (fun _ => k - F + x) (by simpa using hx) (by simp [hm.put, hx])
    rw [show L = { L with arg := .model m } by rw [← harg], this]
    simp [NumArg.expand]
    ring

/-- A model with volatility and time and one of the two exact formulas at strikes above `k`. -/
def Spec.ExactModel (m : OptModel D) (F k : ℝ) : Prop :=
  m.formula = normalFormula exactDist ∨ m.formula = logNormalFormula exactDist ∧ 0 < F ∧ 0 < k

theorem exact_strike {k l w : ℝ} (he : ExactModel m F k) (h : ModelAt cal m v fix F σ t) (hσ : 0 < σ) (ht : 0 < t) (hkl : k < l)
    (hw : 0 < w) (hw' : w < 1) : ∃ x y z, m.callValue cal fix (some k) = .ok x ∧ m.callValue cal fix (some l) = .ok y ∧
      m.callValue cal fix (some (w * k + (1 - w) * l)) = .ok z ∧ 0 < x - y ∧ x - y < l - k ∧ z < w * x + (1 - w) * y ∧
      max (F - k) 0 < x := by
  have hcall := fun K => (C123_call h.valuation h.forward h.vol h.time hσ.ne' ht.ne' K).1
  rcases he with he | ⟨he, hF, hk⟩
  · obtain ⟨x, y, z, h1, h2, h3, h4, h5, h6⟩ := C125_normal_strike ht hσ F hkl hw hw'
    obtain ⟨x', hx, hx'⟩ := C102_normal ht hσ k F
    obtain rfl : x = x' := Except.ok.inj (h1.symm.trans hx)
    exact ⟨x, y, z, by rw [hcall, he, h1], by rw [hcall, he, h2], by rw [hcall, he, h3], h4, h5, h6, hx'⟩
  · obtain ⟨x, y, z, h1, h2, h3, h4, h5, h6⟩ := C125_log_normal_strike ht hσ hF hk hkl hw hw'
    obtain ⟨x', hx, hx', -⟩ := C102_log_normal ht hσ hF hk
    obtain rfl : x = x' := Except.ok.inj (h1.symm.trans hx)
    exact ⟨x, y, z, by rw [hcall, he, h1], by rw [hcall, he, h2], by rw [hcall, he, h3], h4, h5, h6, hx'⟩

/-- C149: with the exact distribution, in the normal and the log-normal model with volatility and time, a list of call spreads
pays on every date more than nothing and less than the width of the spread, a list of butterflies more than nothing, and a
list of straddles more than the distance of forward and strike. -/
theorem C149_exact (hd : StrategyDates cal dates fo po ex) {a w k l : ℝ} (ha : 0 < a) (hw : 0 < w) (hw' : w < 1) (hkl : k < l)
    (o : Option D) :
    ∃ spread butterfly straddle : CFList D P,
      CFList.newStrategy cal dates (.list [a, -a]) [k, l] (.list []) [] fo po o (.model m) = .ok spread ∧
      CFList.newStrategy cal dates (.list [w * a, -a, (1 - w) * a]) [k, w * k + (1 - w) * l, l] (.list []) [] fo po o (.model m) = .ok butterfly ∧
      CFList.newStrategy cal dates (.scalar a) [k] (.scalar a) [k] fo po o (.model m) = .ok straddle ∧
      ∀ d ∈ dates, ∀ (v : D) (F σ t : ℝ), ModelAt cal m v (ex d) F σ t → ExactModel m F k → 0 < σ → 0 < t →
        ∃ x y z, spread.getitem cal d = .ok x ∧ butterfly.getitem cal d = .ok y ∧ straddle.getitem cal d = .ok z ∧
          0 < x ∧ x < a * (l - k) ∧ 0 < y ∧ a * |F - k| < z := by
  obtain ⟨⟨L1, e1, -, h1⟩, ⟨L2, e2, -, h2⟩, ⟨L3, e3, -, h3⟩⟩ := strategies_pay (m := m) hd a w k l o
  refine ⟨L1, L2, L3, e1, e2, e3, fun d hdm v F σ t hm he hσ ht => ?_⟩
  obtain ⟨x, y, z, g1, g2, g3, g4, g5, g6, g7⟩ := exact_strike he hm hσ ht hkl hw hw'
  refine ⟨_, _, _, h1 d hdm x y g1 g2, h2 d hdm x y z g1 g2 g3, h3 d hdm v F σ t x hm g1, mul_pos ha g4,
    mul_lt_mul_of_pos_left g5 ha, mul_pos ha (by linarith), mul_lt_mul_of_pos_left ?_ ha⟩
  have := (le_max_left (F - k) 0).trans_lt g7
  have := (le_max_right (F - k) 0).trans_lt g7
  rw [abs_lt]
  constructor <;> linarith

/-- C149: without volatility, or at expiry, in any model: a call spread pays the forward between the strikes above the lower
one, a butterfly is never negative, a straddle pays the distance of forward and strike. -/
theorem C149_flat (hd : StrategyDates cal dates fo po ex) {a w k l : ℝ} (ha : 0 ≤ a) (hw : 0 ≤ w) (hw' : w ≤ 1) (hkl : k ≤ l)
    (o : Option D) :
    ∃ spread butterfly straddle : CFList D P,
      CFList.newStrategy cal dates (.list [a, -a]) [k, l] (.list []) [] fo po o (.model m) = .ok spread ∧
      CFList.newStrategy cal dates (.list [w * a, -a, (1 - w) * a]) [k, w * k + (1 - w) * l, l] (.list []) [] fo po o (.model m) = .ok butterfly ∧
      CFList.newStrategy cal dates (.scalar a) [k] (.scalar a) [k] fo po o (.model m) = .ok straddle ∧
      ∀ d ∈ dates, ∀ (v : D) (F σ t : ℝ), ModelAt cal m v (ex d) F σ t → (σ = 0 ∨ t = 0) →
        spread.getitem cal d = .ok (a * (max k (min F l) - k)) ∧ (∃ y, butterfly.getitem cal d = .ok y ∧ 0 ≤ y) ∧
        straddle.getitem cal d = .ok (a * |F - k|) := by
  obtain ⟨⟨L1, e1, -, h1⟩, ⟨L2, e2, -, h2⟩, ⟨L3, e3, -, h3⟩⟩ := strategies_pay (m := m) hd a w k l o
  refine ⟨L1, L2, L3, e1, e2, e3, fun d hdm v F σ t hm h0 => ?_⟩
  have g := fun K => (C123_flat hm.valuation hm.forward hm.vol hm.time h0 K).1
  refine ⟨?_, ⟨_, h2 d hdm _ _ _ (g k) (g l) (g _), mul_nonneg ha ?_⟩, ?_⟩
  · rw [h1 d hdm _ _ (g k) (g l)]
    congr 2
    rcases le_total F l with h | h
    · rw [max_eq_right (show F - l ≤ 0 by linarith), min_eq_left h]
      rcases le_total F k with h' | h'
      · rw [max_eq_right (by linarith), max_eq_left h']; ring
      · rw [max_eq_left (by linarith), max_eq_right h']; ring
    · rw [max_eq_left (show 0 ≤ F - k by linarith), max_eq_left (show 0 ≤ F - l by linarith), min_eq_right h, max_eq_right hkl]; ring
  · have i1 := le_max_left (F - k) 0
    have i2 := le_max_right (F - k) 0
    have i3 := le_max_left (F - l) 0
    have i4 := le_max_right (F - l) 0
    have : max (F - (w * k + (1 - w) * l)) 0 ≤ w * max (F - k) 0 + (1 - w) * max (F - l) 0 := by
      refine max_le ?_ ?_
      · nlinarith [mul_le_mul_of_nonneg_left i1 hw, mul_le_mul_of_nonneg_left i3 (sub_nonneg.2 hw')]
      · have := sub_nonneg.2 hw'
        positivity
    linarith
  · rw [h3 d hdm v F σ t _ hm (g k)]
    congr 2
    rcases le_total F k with h | h
    · rw [max_eq_right (by linarith), abs_of_nonpos (by linarith)]; ring
    · rw [max_eq_left (by linarith), abs_of_nonneg (by linarith)]; ring

/-- C149, partial: in the normal model of the code a call spread stays within its bounds up to the accuracy of the
distribution.  Full claim: as `C149_exact`.  Missing: the accuracy, see `C149_violated`. -/
theorem C149_normal_partial (hd : StrategyDates cal dates fo po ex) {a k l : ℝ} (ha : 0 < a) (hkl : k < l) (o : Option D)
    (hf : m.formula = normalFormula codeDist) :
    ∃ spread : CFList D P, CFList.newStrategy cal dates (.list [a, -a]) [k, l] (.list []) [] fo po o (.model m) = .ok spread ∧
      ∀ d ∈ dates, ∀ (v : D) (F σ t : ℝ), ModelAt cal m v (ex d) F σ t → 0 < σ → 0 < t →
        ∃ x, spread.getitem cal d = .ok x ∧
          -(a * (0.00001 * (|F - k| + |F - l|) + 0.0000000002 * (σ * Real.sqrt t))) < x ∧
          x < a * (l - k) + a * (0.00001 * (|F - k| + |F - l|) + 0.0000000002 * (σ * Real.sqrt t)) := by
  obtain ⟨⟨L1, e1, -, h1⟩, -, -⟩ := strategies_pay (m := m) hd a 0 k l o
  refine ⟨L1, e1, fun d hdm v F σ t hm hσ ht => ?_⟩
  have hcall := fun K => (C123_call hm.valuation hm.forward hm.vol hm.time hσ.ne' ht.ne' K).1
  obtain ⟨x, y, g1, g2, g3, g4⟩ := C125_normal_partial ht hσ F hkl
  refine ⟨_, h1 d hdm x y (by rw [hcall, hf, g1]) (by rw [hcall, hf, g2]), ?_, ?_⟩
  · have := mul_lt_mul_of_pos_left g3 ha
    linarith
  · have := mul_lt_mul_of_pos_left g4 ha
    linarith

/-- C149, partial: the same in the log-normal model. -/
theorem C149_log_normal_partial (hd : StrategyDates cal dates fo po ex) {a k l : ℝ} (ha : 0 < a) (hk : 0 < k) (hkl : k < l)
    (o : Option D) (hf : m.formula = logNormalFormula codeDist) :
    ∃ spread : CFList D P, CFList.newStrategy cal dates (.list [a, -a]) [k, l] (.list []) [] fo po o (.model m) = .ok spread ∧
      ∀ d ∈ dates, ∀ (v : D) (F σ t : ℝ), ModelAt cal m v (ex d) F σ t → 0 < F → 0 < σ → 0 < t →
        ∃ x, spread.getitem cal d = .ok x ∧ -(a * (0.00001 * (2 * F + k + l))) < x ∧
          x < a * (l - k) + a * (0.00001 * (2 * F + k + l)) := by
  obtain ⟨⟨L1, e1, -, h1⟩, -, -⟩ := strategies_pay (m := m) hd a 0 k l o
  refine ⟨L1, e1, fun d hdm v F σ t hm hF hσ ht => ?_⟩
  have hcall := fun K => (C123_call hm.valuation hm.forward hm.vol hm.time hσ.ne' ht.ne' K).1
  obtain ⟨x, y, g1, g2, g3, g4⟩ := C125_log_normal_partial ht hσ hF hk hkl
  refine ⟨_, h1 d hdm x y (by rw [hcall, hf, g1]) (by rw [hcall, hf, g2]), ?_, ?_⟩
  · have := mul_lt_mul_of_pos_left g3 ha
    linarith
  · have := mul_lt_mul_of_pos_left g4 ha
    linarith

/-- C149 fails: with the distribution of the code, on any date and whatever forward, volatility and time, the call spread
between 10 and 11 standard deviations above the forward of a normal model has a negative value, and so has some call spread of
a log-normal model. -/
theorem C149_violated (hd : StrategyDates cal dates fo po ex) {a : ℝ} (ha : 0 < a) (o : Option D) {d : D} (hdm : d ∈ dates)
    (h : ModelAt cal m v (ex d) F σ t) (hσ : 0 < σ) (ht : 0 < t)
    (hf : m.formula = normalFormula codeDist ∨ m.formula = logNormalFormula codeDist ∧ 0 < F) :
    ∃ (k l x : ℝ) (spread : CFList D P), k < l ∧
      CFList.newStrategy cal dates (.list [a, -a]) [k, l] (.list []) [] fo po o (.model m) = .ok spread ∧
      spread.getitem cal d = .ok x ∧ x < 0 := by
  have hcall := fun K => (C123_call h.valuation h.forward h.vol h.time hσ.ne' ht.ne' K).1
  rcases hf with hf | ⟨hf, hF⟩
  · obtain ⟨x, y, g1, g2, g3⟩ := C125_normal_violated ht hσ F
    obtain ⟨⟨L1, e1, -, h1⟩, -, -⟩ := strategies_pay (m := m) hd a 0 (F + 10 * (σ * Real.sqrt t)) (F + 11 * (σ * Real.sqrt t)) o
    have : 0 < σ * Real.sqrt t := mul_pos hσ (Real.sqrt_pos.2 ht)
    exact ⟨_, _, _, L1, by linarith, e1, h1 d hdm x y (by rw [hcall, hf, g1]) (by rw [hcall, hf, g2]),
      mul_neg_of_pos_of_neg ha (by linarith)⟩
  · obtain ⟨k, l, x, y, hk, hkl, g1, g2, g3⟩ := C125_log_normal_violated ht hσ hF
    obtain ⟨⟨L1, e1, -, h1⟩, -, -⟩ := strategies_pay (m := m) hd a 0 k l o
    exact ⟨_, _, _, L1, hkl, e1, h1 d hdm x y (by rw [hcall, hf, g1]) (by rw [hcall, hf, g2]),
      mul_neg_of_pos_of_neg ha (by linarith)⟩

end

/-! ## Examples -/

/-- A normal model with forward 2%, volatility 1%, at time 0. -/
noncomputable def exRateModel (dist : NormalDist) : OptModel ℝ :=
  ⟨some 0, .num (1 / 50), .num (1 / 100), some fun a b => b - a, false, normalFormula dist⟩

theorem exRateModel_at (dist : NormalDist) (x : ℝ) : ModelAt floatCal (exRateModel dist) 0 x (1 / 50) (1 / 100) (x - 0) :=
  ⟨rfl, .num (by norm_num), .num _, .own (dc := fun a b => b - a) rfl⟩

/-- Hypotheses of C148 are met: a coupon of 100 from 1 to 2 with a margin of 1%. -/
example (dist : NormalDist) : CouponIn floatCal (exRateModel dist) ⟨1, 2, 100, some fun a b => b - a, none, some (1 / 100)⟩ 0 1
    (1 / 100) (1 / 50) (1 / 100) (1 - 0) ∧ (0 : ℝ) < (2 - 1) * 100 :=
  ⟨⟨exRateModel_at dist 1, rfl, rfl, .num _ _⟩, by norm_num⟩

/-- A list of such coupons, with cap and floor at 3%. -/
example : ∃ l l', CFList.newContingentRate floatCal (fun a b => .ok (a - (b - a))) [2, 3] (.scalar 100) (some 1) none none none (1 / 100)
      (some (3 / 100)) (some (3 / 100)) (.model (exRateModel codeDist)) = .ok l ∧
    CFList.newRate floatCal (fun a b => .ok (a - (b - a))) [2, 3] (.scalar 100) (some 1) none none none (1 / 100 + 3 / 100) .none = .ok l' ∧
    l.domain = [2, 3] ∧ l'.domain = [2, 3] ∧ ∀ d, ∃ x, l.getitem floatCal d = .ok x ∧ l'.getitem floatCal d = .ok x := by
  refine C148_list (v := 0) (sh := id) (fx := id) (Fw := fun _ => 1 / 50) (vo := fun _ => 1 / 100) (tm := fun d => d - 0) _ none none
    (3 / 100) (by simp [floatCal]) (fun _ _ => rfl) (fun _ _ => rfl) (by simp) (by simp [NumArg.expand]) (by norm_num) fun d hd => ?_
  have h := exRateModel_at codeDist d
  have hd' : 0 < d - 0 := by
    simp at hd
    rcases hd with rfl | rfl <;> norm_num
  refine ⟨.num _ _, h, ?_⟩
  rw [id, (C123_call h.valuation h.forward h.vol h.time (by norm_num) hd'.ne' _).1]
  exact ⟨_, normal_price codeDist hd' (by norm_num) _ _⟩

/-- Hypotheses of C149 are met: strategies that expire half a year before they are paid. -/
example (dist : NormalDist) : StrategyDates floatCal [1, 2] none (some (.num (1 / 2))) (fun d => d - 1 / 2) ∧
    (∀ d ∈ [(1 : ℝ), 2], ModelAt floatCal (exRateModel dist) 0 (d - 1 / 2) (1 / 50) (1 / 100) (d - 1 / 2 - 0) ∧ 0 < d - 1 / 2 - 0) ∧
    ExactModel (exRateModel exactDist) (1 / 50) (1 / 100) :=
  ⟨⟨by norm_num, fun d _ => ⟨d - 1 / 2, (C48_offset _ _ _).1 (C48_offset_years _ _), rfl⟩⟩,
    fun d hd => ⟨exRateModel_at dist _, by simp at hd; rcases hd with rfl | rfl <;> norm_num⟩, .inl rfl⟩

/-! ### The hypotheses can be met: each theorem applied -/

/-- A log-normal model with forward 2%, volatility 20%, at time 0. -/
noncomputable def exRateModelLog (dist : NormalDist) : OptModel ℝ :=
  ⟨some 0, .num (1 / 50), .num (1 / 5), some fun a b => b - a, false, logNormalFormula dist⟩

theorem exRateModelLog_at (dist : NormalDist) (x : ℝ) : ModelAt floatCal (exRateModelLog dist) 0 x (1 / 50) (1 / 5) (x - 0) :=
  ⟨rfl, .num (by norm_num), .num _, .own (dc := fun a b => b - a) rfl⟩

/-- A coupon of 100 from 1 to 2 with a margin of 1%. -/
noncomputable def exMargin : RatePay ℝ FloatPeriod := ⟨1, 2, 100, some fun a b => b - a, none, some (1 / 100)⟩

theorem exMargin_in (dist : NormalDist) : CouponIn floatCal (exRateModel dist) exMargin 0 1 (1 / 100) (1 / 50) (1 / 100) (1 - 0) :=
  ⟨exRateModel_at dist 1, rfl, rfl, .num _ _⟩

theorem exMargin_in_log (dist : NormalDist) : CouponIn floatCal (exRateModelLog dist) exMargin 0 1 (1 / 100) (1 / 50) (1 / 5) (1 - 0) :=
  ⟨exRateModelLog_at dist 1, rfl, rfl, .num _ _⟩

theorem exMargin_amount : (0 : ℝ) < (exMargin.dayCount.getD floatCal.dayCount) exMargin.start exMargin.stop * exMargin.amount := by
  norm_num [exMargin]

theorem exMargin_call (dist : NormalDist) (k : ℝ) : ∃ x, (exRateModel dist).callValue floatCal 1 (some k) = .ok x := by
  have h := exRateModel_at dist 1
  rw [(C123_call h.valuation h.forward h.vol h.time (by norm_num) (by norm_num) _).1]
  exact ⟨_, normal_price dist (by norm_num) (by norm_num) _ _⟩

example := C148_formula (exMargin_in codeDist) (floor := none) (cap := none) (C := fun _ => 0) (Q := fun _ => 0) (by simp) (by simp)
example := C148_formula (exMargin_in codeDist) (floor := none) (cap := some (3 / 100)) (C := fun k => (exMargin_call codeDist k).choose)
  (Q := fun _ => 0) (fun l _ => (exMargin_call codeDist l).choose_spec) (by simp)
example := C148_equal (exMargin_in codeDist) (3 / 100)
example := C148_parity (exMargin_in codeDist) (exMargin_call codeDist (1 / 100)).choose_spec (exMargin_call codeDist (3 / 100)).choose_spec
example := C148_intrinsic (m := ⟨some 0, .num (1 / 50), .num 0, some fun a b => b - a, false, normalFormula codeDist⟩) (v := 0) (σ := 0)
  (cal := floatCal) (p := exMargin) (fix := 1) (F := 1 / 50) (c := 1 / 100) (t := 1 - 0)
  ⟨⟨rfl, .num (by norm_num), .num _, .own (dc := fun a b => b - a) rfl⟩, rfl, rfl, .num _ _⟩ (.inl rfl) (1 / 100) (3 / 100)
example := C148_normal (exMargin_in exactDist) rfl (by norm_num) (by norm_num) exMargin_amount (k := 1 / 100) (l := 3 / 100) (by norm_num)
example := C148_log_normal (exMargin_in_log exactDist) rfl (by norm_num) (by norm_num) (by norm_num) exMargin_amount (k := 1 / 100) (l := 3 / 100)
  (by norm_num) (by norm_num)
example := C148_normal_partial (exMargin_in codeDist) rfl (by norm_num) (by norm_num) exMargin_amount (k := 1 / 100) (l := 3 / 100) (by norm_num)
example := C148_log_normal_partial (exMargin_in_log codeDist) rfl (by norm_num) (by norm_num) (by norm_num) exMargin_amount (k := 1 / 100)
  (l := 3 / 100) (by norm_num) (by norm_num)
example := C148_normal_violated (exMargin_in codeDist) rfl (by norm_num) (by norm_num) exMargin_amount (l := 11 / 100) (by norm_num)
example := C148_collar_violated (exMargin_in codeDist) rfl (by norm_num) (by norm_num) exMargin_amount
example := C148_log_normal_violated (exMargin_in_log codeDist) rfl (by norm_num) (by norm_num) (by norm_num) exMargin_amount

/-- Strategies that expire half a year before they are paid. -/
theorem exExpiries : StrategyDates floatCal [1, 2] none (some (.num (1 / 2))) (fun d => d - 1 / 2) :=
  ⟨by norm_num, fun d _ => ⟨d - 1 / 2, (C48_offset _ _ _).1 (C48_offset_years _ _), rfl⟩⟩

example (m : OptModel ℝ) := C149_forward (m := m) exExpiries 100 (1 / 100) none
example : True := by
  obtain ⟨s, b, d, -, -, -, h⟩ := C149_exact (m := exRateModel exactDist) exExpiries (a := 100) (w := 1 / 2) (k := 1 / 100) (l := 3 / 100) (by norm_num)
    (by norm_num) (by norm_num) (by norm_num) none
  have := h 1 (by simp) _ _ _ _ (exRateModel_at exactDist _) (.inl rfl) (by norm_num) (by norm_num)
  trivial
example : True := by
  obtain ⟨s, b, d, -, -, -, h⟩ := C149_flat (m := ⟨some 0, .num (1 / 50), .num 0, some fun a b => b - a, false, normalFormula codeDist⟩) exExpiries
    (a := 100) (w := 1 / 2) (k := 1 / 100) (l := 3 / 100) (by norm_num) (by norm_num) (by norm_num) (by norm_num) none
  have := h 1 (by simp) 0 (1 / 50) 0 (1 - 1 / 2 - 0) ⟨rfl, .num (by norm_num), .num _, .own (dc := fun a b => b - a) rfl⟩ (.inl rfl)
  trivial
example : True := by
  obtain ⟨s, -, h⟩ := C149_normal_partial (m := exRateModel codeDist) exExpiries (a := 100) (k := 1 / 100) (l := 3 / 100) (by norm_num) (by norm_num) none rfl
  have := h 1 (by simp) _ _ _ _ (exRateModel_at codeDist _) (by norm_num) (by norm_num)
  trivial
example : True := by
  obtain ⟨s, -, h⟩ := C149_log_normal_partial (m := exRateModelLog codeDist) exExpiries (a := 100) (k := 1 / 100) (l := 3 / 100) (by norm_num)
    (by norm_num) (by norm_num) none rfl
  have := h 1 (by simp) _ _ _ _ (exRateModelLog_at codeDist _) (by norm_num) (by norm_num) (by norm_num)
  trivial
example := C149_violated exExpiries (a := 100) (by norm_num) none (d := 1) (by simp) (exRateModel_at codeDist _) (by norm_num) (by norm_num) (.inl rfl)

end Dcf
