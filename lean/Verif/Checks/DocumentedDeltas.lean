import Verif.Checks.DocumentedValues
import Verif.Props.Risk

/-!
# Documented deltas

No claim rests on this file.  It compares the model with the program: the docstring of `get_bucketed_delta` prints the deltas
of a bond on a curve of six rates.
-/

namespace Dcf

open Spec

/-- The zero rate curve of line 524. -/
structure DocumentedSix (c : IRCurve ℝ FloatPeriod) : Prop where
  cls : c.cls = .zero
  origin : c.base.origin = some 0
  domain : c.base.domain = [0, 1, 2, 3, 4, 5]
  spread : c.spread = none
  dayCount : ∀ s t, c.dayCount floatCal s t = .ok (t - s)
  call : c.call floatCal 0 = .ok 0.01 ∧ c.call floatCal 1 = .ok 0.011 ∧ c.call floatCal 2 = .ok 0.014 ∧ c.call floatCal 3 = .ok 0.012 ∧ c.call floatCal 4 = .ok 0.01 ∧
    c.call floatCal 5 = .ok 0.013

/-- The points of line 524. -/
noncomputable def documentedPoints : List (ℝ × ℝ) := [(0, 0.01), (1, 0.011), (2, 0.014), (3, 0.012), (4, 0.01), (5, 0.013)]

theorem documented_six : ∃ c, IRCurve.new floatCal .zero [0, 1, 2, 3, 4, 5] [0.01, 0.011, 0.014, 0.012, 0.01, 0.013] none none .default none = .ok c ∧
    DocumentedSix c := by
  have hτ : GoodDayCount (DayCountArg.fn floatCal .default) := goodDayCount_real
  have hn : (documentedPoints.map Prod.fst).Nodup := by norm_num [documentedPoints]
  have hnode : ∀ x y, (x, y) ∈ documentedPoints → (irOf floatCal 0 none .default none .zero none documentedPoints).call floatCal x = .ok y := fun x y h =>
    irOf_node floatCal (dc := .default) (i := none) (cls := .zero) rfl trivial hτ hn (by simp [IRClass.dflt, linearScheme, FuncSpec.isLog, Kind.isLog])
      (fun _ => ⟨(1, 0.011), by simp [documentedPoints], by norm_num⟩) h
  exact ⟨_, IRCurve_new_eq floatCal (pts := documentedPoints) (o? := none) (o := 0) hn (by simp [IRClass.dflt, linearScheme, FuncSpec.isLog, Kind.isLog]) rfl trivial hτ,
    rfl, rfl, rfl, rfl, irOf_dayCount floatCal trivial, hnode _ _ (by simp [documentedPoints]), hnode _ _ (by simp [documentedPoints]), hnode _ _ (by simp [documentedPoints]),
    hnode _ _ (by simp [documentedPoints]), hnode _ _ (by simp [documentedPoints]), hnode _ _ (by simp [documentedPoints])⟩

theorem DocumentedSix.discount {c : IRCurve ℝ FloatPeriod} (h : DocumentedSix c) (same : Bool) {t r : ℝ} (ht : t ≠ 0) (hr : c.call floatCal t = .ok r) :
    c.obj.discountFactor floatCal same 0 t = .ok (Real.exp (-(r * t))) := by
  change c.factor floatCal same 0 t = _
  cases same <;> simp [IRCurve.factor, IRCurve.rate, IRCurve.zeroRateOf, IRCurve.zeroForward, continuousCompounding, h.cls, h.origin, h.dayCount, hr, h.call.1, pyDate,
      pyDiv, ht, Ne.symm ht]

/-- The flows of the bond. -/
theorem documented_pays {w : World ℝ FloatPeriod} {c : IRCurve ℝ FloatPeriod} (h : DocumentedBond w c) {w' : World ℝ FloatPeriod} (hw : w'.lists = w.lists)
    (domain : List ℝ) (origin : Option ℝ) : Pays floatCal w' 0 (.legs [.list 0, .list 1] domain origin) [(5, 1000000), (1, 1000), (2, 1000), (3, 1000), (4, 1000), (5, 1000)] := by
  obtain ⟨h0, ⟨l, hr, h01, h02⟩, ⟨l', hc, h11, h12⟩, ⟨h03, h13⟩, ⟨h04, h14⟩⟩ := h
  norm_num [CFList.newRate, accrualStarts, ratePays, CFList.ofPayoffs, NumArg.expand, List.replicate, pyMap, Cal.minus, Dict.ofPairs, Dict.set] at hc
  norm_num [CFList.newFixed, CFList.ofPayoffs, NumArg.expand, Dict.ofPairs, Dict.set] at hr
  subst hc hr
  norm_num at h01 h02 h11 h12
  rw [← hw] at h01 h02 h03 h04 h11 h12 h13 h14
  have hp : ∀ s e : ℝ, (PayOff.rate ⟨s, e, 1000000, none, none, some (1 / 1000)⟩ : PayOff ℝ FloatPeriod).eval floatCal (.fwd .none) = .ok ((e - s) * 1000) := by
    intro s e
    norm_num [PayOff.eval, RatePay.details, RatePay.forwardAt, ModelArg.truthy, Fwd.truthy, RatePay.tau]
    norm_num [floatCal]
    ring
  refine ⟨[[(5, 1000000)], [(1, 1000), (2, 1000), (3, 1000), (4, 1000), (5, 1000)]], ?_, rfl⟩
  refine .cons ⟨?_, fun _ => 1000000, ?_, ?_⟩ (.cons ⟨?_, fun _ => 1000, ?_, ?_⟩ .nil)
  · simp [ListObj.Priceable, h03]
  · norm_num [h01, h02, h03, h04, World.dated, World.list, World.arg, CFList.getitem, Dict.get, PayOff.eval]
  · norm_num [h01]
  · simp [ListObj.Priceable, h13]
  · norm_num [h11, h12, h13, h14, World.dated, World.list, World.arg, CFList.getitem, Dict.get, hp]
  · norm_num [h11]

theorem documented_close {x : ℝ} (hx : |x| ≤ 0.0655) : |Real.exp x - documented_series x| ≤ 1e-17 := by
  refine (documented_exp (hx.trans (by norm_num))).trans ?_
  calc |x| ^ 13 * (14 / (6227020800 * 13)) ≤ 0.0655 ^ 13 * (14 / (6227020800 * 13)) := by gcongr
    _ ≤ 1e-17 := by norm_num

theorem documented_delta {n a b : ℝ} (hn : 0 ≤ n) (ha : |a| ≤ 0.0655) (hb : |a + b| ≤ 0.0655) :
    |Real.exp a * n * ((Real.exp b - 1) / (1 / 10000)) * (1 / 10000) - n * (documented_series (a + b) - documented_series a)| ≤ n * 2e-17 := by
  have e : Real.exp a * n * ((Real.exp b - 1) / (1 / 10000)) * (1 / 10000) - n * (documented_series (a + b) - documented_series a) =
      n * ((Real.exp (a + b) - documented_series (a + b)) - (Real.exp a - documented_series a)) := by rw [Real.exp_add]; ring
  rw [e, abs_mul, abs_of_nonneg hn]
  refine mul_le_mul_of_nonneg_left ((abs_sub _ _).trans ?_) hn
  have := documented_close ha
  have := documented_close hb
  norm_num at *
  linarith

theorem documented_gap {x s y a b : ℝ} (h : |x - s| ≤ a) (hs : |s - y| ≤ b) : |x - y| ≤ a + b :=
  (abs_sub_le x s y).trans (add_le_add h hs)

/-- The discount factors of the curve. -/
noncomputable def documentedFactor (t : ℝ) : ℝ :=
  if t = 1 then Real.exp (-0.011) else if t = 2 then Real.exp (-0.028) else if t = 3 then Real.exp (-0.036) else if t = 4 then Real.exp (-0.04)
  else Real.exp (-0.065)

theorem DocumentedSix.factors {c : IRCurve ℝ FloatPeriod} (h : DocumentedSix c) (same : Bool) :
    ∀ q ∈ ([(5, 1000000), (1, 1000), (2, 1000), (3, 1000), (4, 1000), (5, 1000)] : List (ℝ × ℝ)),
      c.obj.discountFactor floatCal same 0 q.1 = .ok (documentedFactor q.1) := by
  obtain ⟨-, h1, h2, h3, h4, h5⟩ := h.call
  have k1 := h.discount same (by norm_num) h1
  have k2 := h.discount same (by norm_num) h2
  have k3 := h.discount same (by norm_num) h3
  have k4 := h.discount same (by norm_num) h4
  have k5 := h.discount same (by norm_num) h5
  intro q hq
  simp only [List.mem_cons, List.not_mem_nil, or_false] at hq
  rcases hq with rfl | rfl | rfl | rfl | rfl | rfl <;> simp only [k1, k2, k3, k4, k5] <;> norm_num [documentedFactor]

/-- Line 533: the bucketed deltas. -/
example (w : World ℝ FloatPeriod) (c : IRCurve ℝ FloatPeriod) (same : Bool) (h : DocumentedBond w c)
    (hc : IRCurve.new floatCal .zero [0, 1, 2, 3, 4, 5] [0.01, 0.011, 0.014, 0.012, 0.01, 0.013] none none .default none = .ok c)
    (domain : List ℝ) (origin : Option ℝ) :
    ∃ d0 d1 d2 d3 d4 d5, bucketedDelta floatCal 0 same (.legs [.list 0, .list 1] domain origin) (some 0) none none 0.0001 w =
        (.ok [d0, d1, d2, d3, d4, d5], w) ∧
      d0 = 0 ∧ |d1 - -0.09890108276158571| ≤ 1e-9 ∧ |d2 - -0.19445822690613568| ≤ 1e-9 ∧ |d3 - -0.2893486835528165| ≤ 1e-9 ∧
      |d4 - -0.38423892273567617| ≤ 1e-9 ∧ |d5 - -468.88503439340275| ≤ 1e-9 ∧ |d0 + d1 + d2 + d3 + d4 + d5 - -469.85198130935896| ≤ 1e-9 := by
  obtain ⟨c', hc', h6⟩ := documented_six
  obtain rfl : c = c' := by rw [hc] at hc'; exact Except.ok.inj hc'
  have hk : w.curves 0 = ⟨c.toRateCurve, .ir .zero⟩ := by rw [h.curve, IRCurve.obj, h6.cls]
  obtain ⟨ds, h1, h2, h3⟩ := C139_buckets (w := w) (disc := 0) (same := same) (cal := floatCal) (shift := 0.0001) (grid := none) (G := [0, 1, 2, 3, 4, 5])
    (df := documentedFactor) (τ := fun s t => t - s) goodDayCount_real goodDayCount_real hk h6.dayCount h6.spread h6.origin
    (documented_pays h rfl domain origin) (fun φ => documented_pays h (w' := w.spreadBy [0] φ) rfl domain origin) (by rw [h.curve]; exact h6.factors same)
    (by rw [h.curve]; exact h6.domain) (by simp) (by norm_num) (by norm_num)
  match ds, h2 with
  | [d0, d1, d2, d3, d4, d5], h2 =>
    refine ⟨d0, d1, d2, d3, d4, d5, h1, ?_⟩
    have e0 := h3 0 (by simp)
    have e1 := h3 1 (by simp)
    have e2 := h3 2 (by simp)
    have e3 := h3 3 (by simp)
    have e4 := h3 4 (by simp)
    have e5 := h3 5 (by simp)
    clear h1 h3
    norm_num [triangle, hat, documentedFactor, floatCal] at e0 e1 e2 e3 e4 e5
    have k1 := documented_delta (n := 1000) (a := -(11 / 1000)) (b := -(1 / 10000)) (by norm_num) (by norm_num [abs_le]) (by norm_num [abs_le])
    have k2 := documented_delta (n := 1000) (a := -(7 / 250)) (b := -(1 / 5000)) (by norm_num) (by norm_num [abs_le]) (by norm_num [abs_le])
    have k3 := documented_delta (n := 1000) (a := -(9 / 250)) (b := -(3 / 10000)) (by norm_num) (by norm_num [abs_le]) (by norm_num [abs_le])
    have k4 := documented_delta (n := 1000) (a := -(1 / 25)) (b := -(1 / 2500)) (by norm_num) (by norm_num [abs_le]) (by norm_num [abs_le])
    have k5 := documented_delta (n := 1001000) (a := -(13 / 200)) (b := -(1 / 2000)) (by norm_num) (by norm_num [abs_le]) (by norm_num [abs_le])
    rw [← e1] at k1
    rw [← e2] at k2
    rw [← e3] at k3
    rw [← e4] at k4
    rw [show Real.exp (-(13 / 200)) * 1001000 * ((Real.exp (-(1 / 2000)) - 1) / (1 / 10000)) * (1 / 10000) = d5 by rw [e5]; ring] at k5
    clear e1 e2 e3 e4 e5
    subst e0
    have f1 := documented_gap k1 (y := -0.09890108276158571) (b := 1e-10) (by norm_num [documented_series, Finset.sum_range_succ, Nat.factorial, abs_le])
    have f2 := documented_gap k2 (y := -0.19445822690613568) (b := 1e-10) (by norm_num [documented_series, Finset.sum_range_succ, Nat.factorial, abs_le])
    have f3 := documented_gap k3 (y := -0.2893486835528165) (b := 1e-10) (by norm_num [documented_series, Finset.sum_range_succ, Nat.factorial, abs_le])
    have f4 := documented_gap k4 (y := -0.38423892273567617) (b := 1e-10) (by norm_num [documented_series, Finset.sum_range_succ, Nat.factorial, abs_le])
    have f5 := documented_gap k5 (y := -468.88503439340275) (b := 1e-10) (by norm_num [documented_series, Finset.sum_range_succ, Nat.factorial, abs_le])
    refine ⟨rfl, f1.trans (by norm_num), f2.trans (by norm_num), f3.trans (by norm_num), f4.trans (by norm_num), f5.trans (by norm_num), ?_⟩
    rw [abs_le] at *
    constructor <;> norm_num at * <;> linarith

/-- Line 540: the basis point value. -/
example (w : World ℝ FloatPeriod) (c : IRCurve ℝ FloatPeriod) (same : Bool) (h : DocumentedBond w c)
    (hc : IRCurve.new floatCal .zero [0, 1, 2, 3, 4, 5] [0.01, 0.011, 0.014, 0.012, 0.01, 0.013] none none .default none = .ok c)
    (domain : List ℝ) (origin : Option ℝ) :
    ∃ bpv, basisPointValue floatCal 0 same (.legs [.list 0, .list 1] domain origin) (some 0) none 0.0001 w = (.ok bpv, w) ∧
      |bpv - -469.85198130935896| ≤ 1e-9 := by
  obtain ⟨c', hc', h6⟩ := documented_six
  obtain rfl : c = c' := by rw [hc] at hc'; exact Except.ok.inj hc'
  have hk : w.curves 0 = ⟨c.toRateCurve, .ir .zero⟩ := by rw [h.curve, IRCurve.obj, h6.cls]
  refine ⟨_, C61_zero (w := w) (disc := 0) (same := same) (cal := floatCal) (shift := 0.0001) (df := documentedFactor) (τ := fun s t => t - s)
    goodDayCount_real hk h6.dayCount h6.spread (by rw [h6.origin]; simp) (documented_pays h rfl domain origin)
    (documented_pays h (w' := w.bumped [0] 0.0001) rfl domain origin) (by rw [h.curve]; exact h6.factors same) (by norm_num), ?_⟩
  have k1 := abs_le.1 (documented_delta (n := 1000) (a := -(11 / 1000)) (b := -(1 / 10000)) (by norm_num) (by norm_num [abs_le]) (by norm_num [abs_le]))
  have k2 := abs_le.1 (documented_delta (n := 1000) (a := -(7 / 250)) (b := -(1 / 5000)) (by norm_num) (by norm_num [abs_le]) (by norm_num [abs_le]))
  have k3 := abs_le.1 (documented_delta (n := 1000) (a := -(9 / 250)) (b := -(3 / 10000)) (by norm_num) (by norm_num [abs_le]) (by norm_num [abs_le]))
  have k4 := abs_le.1 (documented_delta (n := 1000) (a := -(1 / 25)) (b := -(1 / 2500)) (by norm_num) (by norm_num [abs_le]) (by norm_num [abs_le]))
  have k5 := abs_le.1 (documented_delta (n := 1001000) (a := -(13 / 200)) (b := -(1 / 2000)) (by norm_num) (by norm_num [abs_le]) (by norm_num [abs_le]))
  norm_num [documented_series, Finset.sum_range_succ, Nat.factorial] at k1 k2 k3 k4 k5
  rw [abs_le]
  constructor <;> norm_num [documentedFactor] <;> linarith

end Dcf
