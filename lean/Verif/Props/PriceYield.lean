import Verif.Props.Yield
import Mathlib.Analysis.Convex.SpecificFunctions.Basic

/-! # Prices and yields: C120 -/

set_option linter.unusedSectionVars false
set_option linter.unusedVariables false

namespace Dcf

open Spec

section
variable {D P : Type} [LinearOrder D] {cal : Cal D P}
variable {o? : Option D} {dc : DayCountArg D} {tenor : Option P} {p : Product D} {w : World D P} {v : D}
  {L : List (D × ℝ)} {same : Bool}

theorem pv_flat (hd : dc.Usable) (hτ : GoodDayCount (dc.fn cal)) (hs : same = true → v = o?.getD v) (hp : Pays cal w v p L)
    {z x : ℝ} {w' : World D P} {c : IRCurve D P} (hc : IRCurve.new cal .zero [v] [z] none o? dc tenor = .ok c)
    (hx : pv cal c.obj same (some v) p w = (.ok x, w')) : x = yieldValue (dc.fn cal) v L z := by
  rw [flatZero_new cal hd hτ] at hc
  cases hc
  have hpv := C54_flows hp (c := (flatZero cal o? dc tenor v z).obj) (same := same)
    (df := fun t => Real.exp (-(z * dc.fn cal v t))) fun q _ => by
      exact flatZero_factor cal hd hτ v z same v q.1 hs
  rw [hpv] at hx
  simp only [Prod.mk.injEq, Except.ok.injEq] at hx
  exact hx.1.symm

theorem yieldValue_bounds {τ : D → D → ℝ} {a b : ℝ} (hL : ∀ q ∈ L, a ≤ τ v q.1 ∧ τ v q.1 ≤ b ∧ 0 ≤ q.2) {y z : ℝ} (h : y ≤ z) :
    Real.exp (-((z - y) * b)) * yieldValue τ v L y ≤ yieldValue τ v L z ∧
      yieldValue τ v L z ≤ Real.exp (-((z - y) * a)) * yieldValue τ v L y := by
  unfold yieldValue
  rw [← List.sum_map_mul_left, ← List.sum_map_mul_left]
  constructor <;> refine List.sum_le_sum fun q hq => ?_ <;> obtain ⟨h1, h2, h3⟩ := hL q hq <;>
    rw [← mul_assoc, ← Real.exp_add] <;> refine mul_le_mul_of_nonneg_right (Real.exp_le_exp.2 ?_) h3
  · have := mul_le_mul_of_nonneg_left h2 (sub_nonneg.2 h); linarith
  · have := mul_le_mul_of_nonneg_left h1 (sub_nonneg.2 h); linarith

theorem yieldValue_convex {τ : D → D → ℝ} (hL : ∀ q ∈ L, 0 ≤ q.2) {y z s : ℝ} (h0 : 0 ≤ s) (h1 : s ≤ 1) :
    yieldValue τ v L ((1 - s) * y + s * z) ≤ (1 - s) * yieldValue τ v L y + s * yieldValue τ v L z := by
  unfold yieldValue
  rw [← List.sum_map_mul_left, ← List.sum_map_mul_left, ← List.sum_map_add]
  refine List.sum_le_sum fun q hq => ?_
  have := convexOn_exp.2 (Set.mem_univ (-(y * τ v q.1))) (Set.mem_univ (-(z * τ v q.1))) (sub_nonneg.2 h1) h0 (by ring)
  simp only [smul_eq_mul] at this
  calc _ = Real.exp ((1 - s) * -(y * τ v q.1) + s * -(z * τ v q.1)) * q.2 := by ring_nf
    _ ≤ _ := mul_le_mul_of_nonneg_right this (hL q hq)
    _ = _ := by ring

/-- C120: a yield higher by `z - y` discounts flows paid between the times `a` and `b` by between `exp(-(z-y)b)` and `exp(-(z-y)a)`:
the relative price change lies between the shortest and the longest time to payment. -/
theorem C120_duration (hd : dc.Usable) (hτ : GoodDayCount (dc.fn cal)) (hs : same = true → v = o?.getD v) (hp : Pays cal w v p L)
    {y z x x' a b : ℝ} {w₁ w₂ : World D P} {c c' : IRCurve D P}
    (hL : ∀ q ∈ L, a ≤ dc.fn cal v q.1 ∧ dc.fn cal v q.1 ≤ b ∧ 0 ≤ q.2) (h : y ≤ z)
    (hc : IRCurve.new cal .zero [v] [y] none o? dc tenor = .ok c) (hx : pv cal c.obj same (some v) p w = (.ok x, w₁))
    (hc' : IRCurve.new cal .zero [v] [z] none o? dc tenor = .ok c') (hx' : pv cal c'.obj same (some v) p w = (.ok x', w₂)) :
    Real.exp (-((z - y) * b)) * x ≤ x' ∧ x' ≤ Real.exp (-((z - y) * a)) * x := by
  rw [pv_flat hd hτ hs hp hc hx, pv_flat hd hτ hs hp hc' hx']
  exact yieldValue_bounds hL h

/-- C120: the price of non-negative flows is a convex function of the yield. -/
theorem C120_convex (hd : dc.Usable) (hτ : GoodDayCount (dc.fn cal)) (hs : same = true → v = o?.getD v) (hp : Pays cal w v p L)
    {y z s x x' m : ℝ} {w₁ w₂ w₃ : World D P} {c c' cm : IRCurve D P} (hL : ∀ q ∈ L, 0 ≤ q.2) (h0 : 0 ≤ s) (h1 : s ≤ 1)
    (hc : IRCurve.new cal .zero [v] [y] none o? dc tenor = .ok c) (hx : pv cal c.obj same (some v) p w = (.ok x, w₁))
    (hc' : IRCurve.new cal .zero [v] [z] none o? dc tenor = .ok c') (hx' : pv cal c'.obj same (some v) p w = (.ok x', w₂))
    (hm : IRCurve.new cal .zero [v] [(1 - s) * y + s * z] none o? dc tenor = .ok cm)
    (hxm : pv cal cm.obj same (some v) p w = (.ok m, w₃)) : m ≤ (1 - s) * x + s * x' := by
  rw [pv_flat hd hτ hs hp hc hx, pv_flat hd hτ hs hp hc' hx', pv_flat hd hτ hs hp hm hxm]
  exact yieldValue_convex hL h0 h1

/-- C120: at a higher price the yield to maturity is lower, by at least the logarithm of the price ratio over the longest
time to payment `b` and at most over the shortest `a`, up to the precision. -/
theorem C120_order (hd : dc.Usable) (hτ : GoodDayCount (dc.fn cal)) (hs : same = true → v = o?.getD v)
    {valuation : Option D} (hv : valuation.or (p.origin w) = some v) (hp : Pays cal w v p L) {limit limit' : ℕ}
    {x y precision lo hi lo' hi' r r' a b : ℝ} {w₁ w₂ : World D P} (ha : 0 < a)
    (hL : ∀ q ∈ L, a ≤ dc.fn cal v q.1 ∧ dc.fn cal v q.1 ≤ b ∧ 0 ≤ q.2) (hx : 0 < x) (hxy : x ≤ y)
    (h : ytm cal limit same none o? dc tenor p valuation x precision lo hi w = (.ok r, w₁))
    (h' : ytm cal limit' same none o? dc tenor p valuation y precision lo' hi' w = (.ok r', w₂)) :
    Real.log (y / x) / b - precision < r - r' ∧ r - r' < Real.log (y / x) / a + precision := by
  obtain ⟨-, -, s, -, hs1, hs2⟩ := C58_reprices hd hτ hs hv hp h
  obtain ⟨-, -, t, -, ht1, ht2⟩ := C58_reprices hd hτ hs hv hp h'
  have e1 : yieldValue (dc.fn cal) v L s = x := hs1
  have e2 : yieldValue (dc.fn cal) v L t = y := ht1
  have hy : 0 < y := hx.trans_le hxy
  have hyx : 0 < y / x := div_pos hy hx
  have hb : 0 < b := by
    cases L with
    | nil => simp [yieldValue] at e1; linarith
    | cons q L => have := hL q (by simp); linarith
  have hL' : ∀ q ∈ L, v ≤ q.1 ∧ 0 ≤ q.2 := fun q hq => by
    obtain ⟨h1, h2, h3⟩ := hL q hq
    exact ⟨((hτ.pos v q.1).1 (by linarith)).le, h3⟩
  have hts : t ≤ s := by
    by_contra hlt
    push Not at hlt
    have hb := (yieldValue_bounds hL hlt.le).2
    rw [e1, e2] at hb
    have : Real.exp (-((t - s) * a)) < 1 := by rw [Real.exp_lt_one_iff]; nlinarith
    nlinarith
  obtain ⟨b1, b2⟩ := yieldValue_bounds hL hts
  rw [e1, e2] at b1 b2
  have l1 : Real.log (y / x) ≤ (s - t) * b := by
    rw [Real.log_le_iff_le_exp hyx, div_le_iff₀ hx]
    rw [Real.exp_neg, inv_mul_le_iff₀ (Real.exp_pos _)] at b1
    linarith
  have l2 : (s - t) * a ≤ Real.log (y / x) := by
    rw [Real.le_log_iff_exp_le hyx, le_div_iff₀ hx]
    rw [Real.exp_neg, le_inv_mul_iff₀ (Real.exp_pos _)] at b2
    linarith
  rw [abs_lt] at hs2 ht2
  have l1' : Real.log (y / x) / b ≤ s - t := (div_le_iff₀ hb).2 l1
  have l2' : s - t ≤ Real.log (y / x) / a := (le_div_iff₀ ha).2 l2
  constructor <;> linarith [hs2.1, hs2.2, ht2.1, ht2.2]

/-- C120: these present values exist. -/
theorem C120_defined (hd : dc.Usable) (hτ : GoodDayCount (dc.fn cal)) (hs : same = true → v = o?.getD v) (hp : Pays cal w v p L) (z : ℝ) :
    ∃ c, IRCurve.new cal .zero [v] [z] none o? dc tenor = .ok c ∧
      pv cal c.obj same (some v) p w = (.ok (L.map fun q => Real.exp (-(z * dc.fn cal v q.1)) * q.2).sum, w) :=
  ⟨_, flatZero_new cal hd hτ v z, C54_flows hp (same := same) (df := fun t => Real.exp (-(z * dc.fn cal v t))) fun q _ => by
      exact flatZero_factor cal hd hτ v z same v q.1 hs⟩

end

/-- Hypotheses of C120 are met: payments of 10 after one and 110 after two years, for 100 and for 110. -/
example : ∃ (n : ℕ) (w : World ℝ FloatPeriod), ∀ limit, n < limit → ∃ r r',
    ytm floatCal limit true none none .default none (.list 0) (some 0) 100 (1 / 1000000) (-1) 1 w = (.ok r, w) ∧
    ytm floatCal limit true none none .default none (.list 0) (some 0) 110 (1 / 1000000) (-1) 1 w = (.ok r', w) ∧
    Real.log (11 / 10) / 2 - 1 / 1000000 < r - r' ∧ r - r' < Real.log (11 / 10) + 1 / 1000000 := by
  let w : World ℝ FloatPeriod := { exWorld with
    lists := fun _ => ⟨none, [1, 2], .ofPairs [(1, .num 10), (2, .num 110)], .fwd fun _ => .none, false, false, false⟩ }
  have hp : Pays floatCal w 0 (.list 0) [(1, 10), (2, 110)] := by
    refine ⟨[[(1, 10), (2, 110)]], ?_, by simp⟩
    rw [Product.leaves]
    refine .cons ⟨fun h => absurd h (by simp [w]), fun d => if d = 1 then 10 else 110, ?_, by simp [w, List.filter]⟩ .nil
    intro d hd _
    have : d = 1 ∨ d = 2 := by simpa [w] using hd
    rcases this with rfl | rfl <;>
      simp [World.list, World.dated, w, CFList.getitem, Dict.ofPairs, Dict.get, Dict.set, PayOff.eval]
  have hval (y : ℝ) : yieldValue (DayCountArg.fn floatCal .default) 0 [(1, 10), (2, 110)] y =
      Real.exp (-y) * 10 + Real.exp (-(y * 2)) * 110 := by
    simp [yieldValue, DayCountArg.fn, floatCal]
  have h1 : yieldValue (DayCountArg.fn floatCal .default) 0 [(1, 10), (2, 110)] 1 ≤ 100 := by
    rw [hval]
    have e1 : Real.exp (-1) ≤ 1 / 2 := by
      rw [Real.exp_neg, inv_le_comm₀ (Real.exp_pos _) (by norm_num)]
      have := Real.add_one_le_exp (1 : ℝ); norm_num at this ⊢; linarith
    have e2 : Real.exp (-(1 * 2)) ≤ Real.exp (-1) := Real.exp_le_exp.2 (by norm_num)
    linarith
  have h2 : 110 ≤ yieldValue (DayCountArg.fn floatCal .default) 0 [(1, 10), (2, 110)] (-1) := by
    rw [hval]
    have := Real.add_one_le_exp (-(-1 * 2) : ℝ)
    have := Real.exp_pos (-(-1) : ℝ)
    linarith
  have hex (t : ℝ) (ht : 100 ≤ t) (ht' : t ≤ 110) := C58_exists (cal := floatCal) (o? := none) (dc := .default) (tenor := none) (same := true) (v := (0 : ℝ))
    (valuation := some 0) (target := t) (precision := 1 / 1000000) (lo := -1) (hi := 1) trivial
    goodDayCount_real (by simp) rfl hp (by norm_num) (by
      apply mul_nonpos_of_nonneg_of_nonpos <;> linarith)
  obtain ⟨n, hn⟩ := hex 100 (by norm_num) (by norm_num)
  obtain ⟨n', hn'⟩ := hex 110 (by norm_num) (by norm_num)
  refine ⟨max n n', w, fun limit hl => ?_⟩
  obtain ⟨r, hr⟩ := hn limit (lt_of_le_of_lt (le_max_left _ _) hl)
  obtain ⟨r', hr'⟩ := hn' limit (lt_of_le_of_lt (le_max_right _ _) hl)
  have := C120_order (cal := floatCal) (o? := none) (dc := .default) (tenor := none) (a := 1) (b := 2) trivial goodDayCount_real (by simp)
    rfl hp (by norm_num) (by simp [DayCountArg.fn, floatCal]) (by norm_num) (by norm_num) hr hr'
  refine ⟨r, r', hr, hr', ?_⟩
  norm_num at this ⊢
  exact this

end Dcf
