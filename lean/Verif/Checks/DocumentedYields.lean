import Verif.Checks.DocumentedDeltas
import Verif.Props.Yield
import Verif.Props.FairRate

/-!
# Documented yields and fair rates

No claim rests on this file.  It compares the model with the program: the docstrings of `get_yield_to_maturity` and `get_fair_rate` print
the yields and the fair rate of a bond.
-/

namespace Dcf

open Spec

/-- Value of the flows of the bond at a flat yield. -/
noncomputable def documentedPrice (y : ℝ) : ℝ :=
  1000000 * Real.exp (-(y * 5)) + 1000 * (Real.exp (-y) + Real.exp (-(y * 2)) + Real.exp (-(y * 3)) + Real.exp (-(y * 4)) + Real.exp (-(y * 5)))

theorem documentedPrice_anti : Antitone documentedPrice := by
  intro a b h
  have k : ∀ n : ℝ, 0 ≤ n → Real.exp (-(b * n)) ≤ Real.exp (-(a * n)) := fun n hn => Real.exp_le_exp.2 (neg_le_neg (mul_le_mul_of_nonneg_right h hn))
  have k1 := k 1 (by norm_num)
  rw [mul_one, mul_one] at k1
  have := k 2 (by norm_num)
  have := k 3 (by norm_num)
  have := k 4 (by norm_num)
  have := k 5 (by norm_num)
  unfold documentedPrice
  linarith

/-- What the search returns prices the bond. -/
theorem documented_yield {w w' : World ℝ FloatPeriod} {c : IRCurve ℝ FloatPeriod} (h : DocumentedBond w c) {same : Bool} {limit : ℕ} {domain : List ℝ} {origin : Option ℝ}
    {target r : ℝ} (hr : ytm floatCal limit same none none .default none (.legs [.list 0, .list 1] domain origin) (some 0) target 1e-7 (-0.1) 0.2 w = (.ok r, w')) :
    |documentedPrice r - target| < 1e-7 := by
  have hτ : GoodDayCount (DayCountArg.fn floatCal .default) := goodDayCount_real
  have := C58_price (cal := floatCal) (dc := .default) (o? := none) (v := 0) trivial hτ (by simp) rfl (documented_pays h rfl domain origin) (by norm_num) hr
  convert this using 3
  have e : ∀ t : ℝ, DayCountArg.fn floatCal .default 0 t = t := fun t => by simp [DayCountArg.fn, floatCal]
  simp only [List.map_cons, List.map_nil, List.sum_cons, List.sum_nil, e, documentedPrice, mul_one]
  ring

/-- A yield between two rates whose prices are on both sides. -/
theorem documented_between {r x a b : ℝ} (h : |documentedPrice r - x| < 1e-7) (ha : x + 1e-7 ≤ documentedPrice a) (hb : documentedPrice b ≤ x - 1e-7) : a < r ∧ r < b := by
  rw [abs_lt] at h
  constructor
  · by_contra hn
    have := documentedPrice_anti (not_lt.1 hn)
    linarith
  · by_contra hn
    have := documentedPrice_anti (not_lt.1 hn)
    linarith

theorem documentedPrice_near {r : ℝ} (h0 : 0 ≤ r) (h1 : r ≤ 0.0151) : |documentedPrice r - (1001000 * documented_series (-(r * 5)) +
    1000 * (documented_series (-(r * 1)) + documented_series (-(r * 2)) + documented_series (-(r * 3)) + documented_series (-(r * 4))))| ≤ 1e-10 := documented_value h0 h1

/-- Lines 178-182: the yield at par, rounded to six digits, is 0.1%. -/
example (w w' : World ℝ FloatPeriod) (c : IRCurve ℝ FloatPeriod) (h : DocumentedBond w c) (same : Bool) (limit : ℕ) (domain : List ℝ) (origin : Option ℝ) (r : ℝ)
    (hr : ytm floatCal limit same none none .default none (.legs [.list 0, .list 1] domain origin) (some 0) 1000000 1e-7 (-0.1) 0.2 w = (.ok r, w')) :
    |r - 0.001| < 0.0000005 := by
  have a := abs_le.1 (documentedPrice_near (r := 0.0009995) (by norm_num) (by norm_num))
  have b := abs_le.1 (documentedPrice_near (r := 0.001) (by norm_num) (by norm_num))
  obtain ⟨k1, k2⟩ := documented_between (documented_yield h hr) (a := 0.0009995) (b := 0.001)
    (by have := a.1; norm_num [documented_series, Finset.sum_range_succ, Nat.factorial] at *; linarith)
    (by have := b.2; norm_num [documented_series, Finset.sum_range_succ, Nat.factorial] at *; linarith)
  rw [abs_lt]
  constructor <;> norm_num at * <;> linarith

/-- Lines 184-192: the yield for the present value at 1.5%, rounded to six digits, is 1.5%. -/
example (w w' : World ℝ FloatPeriod) (c : IRCurve ℝ FloatPeriod) (h : DocumentedBond w c) (same : Bool) (limit : ℕ) (domain : List ℝ) (origin : Option ℝ) (r : ℝ)
    (hr : ytm floatCal limit same none none .default none (.legs [.list 0, .list 1] domain origin) (some 0) 932524.5493034503 1e-7 (-0.1) 0.2 w = (.ok r, w')) :
    |r - 0.015| < 0.0000005 := by
  have a := abs_le.1 (documentedPrice_near (r := 0.0149999) (by norm_num) (by norm_num))
  have b := abs_le.1 (documentedPrice_near (r := 0.0150001) (by norm_num) (by norm_num))
  obtain ⟨k1, k2⟩ := documented_between (documented_yield h hr) (a := 0.0149999) (b := 0.0150001)
    (by have := a.1; norm_num [documented_series, Finset.sum_range_succ, Nat.factorial] at *; linarith)
    (by have := b.2; norm_num [documented_series, Finset.sum_range_succ, Nat.factorial] at *; linarith)
  rw [abs_lt]
  constructor <;> norm_num at * <;> linarith

/-- The coupons with a fixed rate, at a flat rate. -/
theorem documented_coupons {w : World ℝ FloatPeriod} {c : IRCurve ℝ FloatPeriod} {r : ℝ} (h : DocumentedBond w c) (hf : DocumentedFlat c r) (same : Bool) :
    (w.lists 1).RateFlows ∧ ∀ k, pvOn floatCal 0 same none (.list 1) (w.withRate 1 (some k)) =
      (.ok (1000000 * k * (Real.exp (-r) + Real.exp (-(r * 2)) + Real.exp (-(r * 3)) + Real.exp (-(r * 4)) + Real.exp (-(r * 5)))), w.withRate 1 (some k)) := by
  obtain ⟨h0, -, ⟨l', hc, h11, h12⟩, ⟨h03, h13⟩, ⟨h04, h14⟩⟩ := h
  norm_num [CFList.newRate, accrualStarts, ratePays, CFList.ofPayoffs, NumArg.expand, List.replicate, pyMap, Cal.minus, Dict.ofPairs, Dict.set] at hc
  subst hc
  norm_num at h11 h12
  refine ⟨by simp [ListObj.RateFlows, h12, PayOff.ratePay?], fun k => ?_⟩
  have hp : ∀ s e : ℝ, (PayOff.rate ⟨s, e, 1000000, none, none, some k⟩ : PayOff ℝ FloatPeriod).eval floatCal (.fwd .none) = .ok ((e - s) * (1000000 * k)) := by
    intro s e
    norm_num [PayOff.eval, RatePay.details, RatePay.forwardAt, ModelArg.truthy, Fwd.truthy, RatePay.tau]
    norm_num [floatCal]
    ring
  set w1 := w.withRate 1 (some k) with hw1
  have e1 : (w1.lists 1).domain = [1, 2, 3, 4, 5] := by simp [hw1, World.withRate, World.setList, ListObj.setRate, h11]
  have e2 : (w1.lists 1).flows = (w.lists 1).flows.map fun p => (p.1, p.2.setFixedRate (some k)) := by simp [hw1, World.withRate, World.setList, ListObj.setRate]
  have e3 : (w1.lists 1).hasModel = false := by simp [hw1, World.withRate, World.setList, ListObj.setRate, h13]
  have e4 : (w1.lists 1).arg = .fwd (fun _ => .none) := by simp [hw1, World.withRate, World.setList, ListObj.setRate, h14]
  have e5 : w1.curves = w.curves := rfl
  have ho : c.obj.base.origin = some 0 := hf.origin
  have ha : w1.arg (w1.lists 1).arg = .fwd .none := by simp [World.arg, e4]
  simp only [pvOn, pv, pvAt, e5, h0, ho, pvList, enterModel, leaveModel, documented_bind, PyM.get, PyM.lift, World.list, e1, e3]
  norm_num [e2, h12, ha, payDates, CFList.getitems, CFList.getitem, pyMap, Dict.get, PayOff.setFixedRate, hp, discountSum, pyDate, hf.discount, pySum]
  ring

/-- Lines 336-341: the fair rate of a par bond at a rate of 1.5%. -/
example (w : World ℝ FloatPeriod) (c : IRCurve ℝ FloatPeriod) (same : Bool) (h : DocumentedBond w c) (hf : (w.lists 1).hasFixedRate = true)
    (hc : IRCurve.new floatCal .zero [0] [0.015] none none .default none = .ok c) :
    (∃ n, ∀ limit, n < limit → ∃ r w', fairRate floatCal limit 0 same (.list 1) none (1000000 - 1000000 * Real.exp (-(0.015 * 5))) 1e-7 (-0.1) 0.2 w = (.ok r, w')) ∧
      ∀ limit r w', fairRate floatCal limit 0 same (.list 1) none (1000000 - 1000000 * Real.exp (-(0.015 * 5))) 1e-7 (-0.1) 0.2 w = (.ok r, w') →
        |r - 0.015113064615715653| ≤ 1e-13 := by
  obtain ⟨c', hc', hfl, -⟩ := documented_zero 0.015
  obtain rfl : c = c' := by rw [hc] at hc'; exact Except.ok.inj hc'
  obtain ⟨hr, hV⟩ := documented_coupons h hfl same
  have hv : (none : Option ℝ).or (w.curves 0).base.origin = some 0 := by
    rw [h.curve]; exact hfl.origin
  set E := Real.exp (-0.015) with hE
  have hE0 : 0 < E := Real.exp_pos _
  have p2 : Real.exp (-(0.015 * 2)) = E ^ 2 := by rw [hE, ← Real.exp_nat_mul]; congr 1; norm_num
  have p3 : Real.exp (-(0.015 * 3)) = E ^ 3 := by rw [hE, ← Real.exp_nat_mul]; congr 1; norm_num
  have p4 : Real.exp (-(0.015 * 4)) = E ^ 4 := by rw [hE, ← Real.exp_nat_mul]; congr 1; norm_num
  have p5 : Real.exp (-(0.015 * 5)) = E ^ 5 := by rw [hE, ← Real.exp_nat_mul]; congr 1; norm_num
  have hF : E * Real.exp 0.015 = 1 := by rw [hE, ← Real.exp_add]; norm_num
  set F := Real.exp 0.015 with hFd
  have near : |F - documented_series 0.015| ≤ 1e-17 := documented_close (by norm_num [abs_le])
  have nearE : |E - documented_series (-0.015)| ≤ 1e-17 := documented_close (by norm_num [abs_le])
  have hs := abs_le.1 near
  have hsE := abs_le.1 nearE
  rw [p2, p3, p4, p5] at hV
  rw [p5]
  have hElo : 0.985 ≤ E := by
    have := hsE.1
    norm_num [documented_series, Finset.sum_range_succ, Nat.factorial] at this ⊢
    linarith
  set A := E + E ^ 2 + E ^ 3 + E ^ 4 + E ^ 5 with hA
  have hA4 : 4 ≤ A := by
    have q : ∀ n : ℕ, 0.985 ^ n ≤ E ^ n := fun n => pow_le_pow_left₀ (by norm_num) hElo n
    have := q 2
    have := q 3
    have := q 4
    have := q 5
    norm_num at *
    linarith
  have ht : 1000000 - 1000000 * E ^ 5 = 1000000 * (F - 1) * A := by
    have : (F - 1) * A = (E * F - E) + (E * F * E - E ^ 2) + (E * F * E ^ 2 - E ^ 3) + (E * F * E ^ 3 - E ^ 4) + (E * F * E ^ 4 - E ^ 5) := by rw [hA]; ring
    rw [hF] at this
    linarith
  rw [ht]
  have hFb : 0.015 < F ∧ F - 1 < 0.0152 ∧ 0 < F - 1 := by
    have h1 := hs.1
    have h2 := hs.2
    norm_num [documented_series, Finset.sum_range_succ, Nat.factorial] at h1 h2 ⊢
    refine ⟨?_, ?_, ?_⟩ <;> linarith
  refine ⟨C59_exists hv hf hr (hV _) (hV _) (by norm_num) ?_, fun limit r w' hfr => ?_⟩
  · have : (1000000 * (-0.1) * A - 1000000 * (F - 1) * A) * (1000000 * 0.2 * A - 1000000 * (F - 1) * A) = -((1000000 * A) ^ 2 * ((0.1 + (F - 1)) * (0.2 - (F - 1)))) := by ring
    rw [this]
    have : 0 ≤ (0.1 + (F - 1)) * (0.2 - (F - 1)) := mul_nonneg (by linarith [hFb.2.2]) (by linarith [hFb.2.1])
    have := mul_nonneg (sq_nonneg (1000000 * A)) this
    linarith
  · obtain ⟨⟨x, hx, hlt⟩, -⟩ := C59_reprices hv hf hr (hV 0) hfr
    rw [hV] at hx
    obtain rfl : 1000000 * r * A = x := by simpa using congrArg Prod.fst hx
    rw [show 1000000 * r * A - 1000000 * (F - 1) * A = 1000000 * A * (r - (F - 1)) by ring, abs_mul, abs_of_pos (by positivity)] at hlt
    have k : |r - (F - 1)| ≤ 2.6e-14 := by
      by_contra hn
      have : 1000000 * 4 * 2.6e-14 ≤ 1000000 * A * |r - (F - 1)| := mul_le_mul (by linarith) (not_le.1 hn).le (by norm_num) (by positivity)
      norm_num at this hlt
      linarith
    have g := documented_gap k (y := 0.015113064615715653) (b := 5e-14) (by
      rw [abs_le]
      have h1 := hs.1
      have h2 := hs.2
      norm_num [documented_series, Finset.sum_range_succ, Nat.factorial] at h1 h2 ⊢
      constructor <;> linarith)
    exact g.trans (by norm_num)

end Dcf
