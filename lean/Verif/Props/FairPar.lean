import Verif.Props.Par
import Verif.Props.FairRate

/-! # Fair rates of fixed legs: C121 -/

set_option linter.unusedSectionVars false
set_option linter.unusedSimpArgs false
set_option linter.unusedVariables false

namespace Dcf

open Spec

section
variable {D P : Type} [LinearOrder D] {cal : Cal D P}

/-- Coupon legs with another rate. -/
theorem couponLeg_rate {back : D → D → Py D} {dates : List D} {as : List ℝ} {start : D} {dc : ProductDayCount D} {g : D → D → ℝ}
    {fo : Option P} {c : ℝ} {f : Fwd D} {l : CFList D P} (hg : dc.Means cal g) (hd : dates ≠ []) (hn : dates.Nodup)
    (hl : as.length = dates.length) (h : couponLeg cal back dates as start dc fo none c f = .ok l) (c' : ℝ) :
    couponLeg cal back dates as start dc fo none c' f = .ok (l.setFixedRate (some c')) ∧
      ∀ x ∈ l.flows, ∃ q, x.2.ratePay? = some q ∧ q.fixedRate = some c := by
  have key : ∀ dc' : Option (D → D → ℝ), CFList.newRate cal back dates (.list as) (some start) dc' fo none c f = .ok l →
      CFList.newRate cal back dates (.list as) (some start) dc' fo none c' f = .ok (l.setFixedRate (some c')) ∧
      ∀ x ∈ l.flows, ∃ q, x.2.ratePay? = some q ∧ q.fixedRate = some c := by
    intro dc' h
    have hnew := fun c => newRate_eq (cal := cal) (back := back) (amounts := .list as) (dc := dc') (fo := fo) (c := c) (f := f)
      (starts := start :: dates.dropLast) (o := some start) (po := none) (sh := id) rfl
      (dropLast_cons_length start hd) (fun d h => rfl) hl hn
    rw [hnew] at h
    obtain rfl := Except.ok.inj h
    rw [hnew]
    constructor
    · simp [CFList.setFixedRate, List.map_map, Function.comp_def, rateFlow, PayOff.setFixedRate]
    · intro x hx
      obtain ⟨y, -, rfl⟩ := List.mem_map.1 hx
      exact ⟨_, rfl, rfl⟩
  cases dc with
  | none => exact key none h
  | fn f => exact key (some f) h
  | name s =>
    obtain ⟨rfl, rfl⟩ := hg
    simpa [couponLeg] using key none (by simpa [couponLeg] using h)

/-- The present value of a fixed leg at any rate. -/
theorem fixedLeg_value (back : D → D → Py D) {c : IRCurve D P} {df : D → D → ℝ} {o : D} (hF : Factors cal c df o)
    {T : ℕ → D} {n : ℕ} (hn : 0 < n) (hT : ∀ i < n, T i < T (i + 1)) {dc : ProductDayCount D} {g : D → D → ℝ} (hg : dc.Means cal g)
    (K : ℝ) {x : ℝ} (fo : Option P) {l : CFList D P}
    (hl : couponLeg cal back (payDatesOf T n) (List.replicate (payDatesOf T n).length x) (T 0) dc fo none K .none = .ok l)
    {w : World D P} {a disc : ℕ} (ha : w.list a = l) (hc : w.curves disc = c.obj) {same : Bool} {vd : D} (hvd : vd ≤ T 0)
    (hsame : same = true → vd = o) :
    (∀ y ∈ (w.lists a).flows, ∃ q, y.2.ratePay? = some q ∧ q.fixedRate = some K) ∧
    ∀ k, pvOn cal disc same (some vd) (.list a) (w.withRate a (some k)) =
      (.ok (k * (x * ∑ i ∈ Finset.range n, g (T i) (T (i + 1)) * df vd (T (i + 1)))), w.withRate a (some k)) := by
  have hlen := payDatesOf_length T n
  have hne : payDatesOf T n ≠ [] := by rw [← List.length_pos_iff, hlen]; exact hn
  have hrate := fun c' => couponLeg_rate hg hne (payDatesOf_nodup hT) (by simp) hl c'
  have hfl : (w.lists a).flows = l.flows := by rw [← ha]; rfl
  refine ⟨by rw [hfl]; exact (hrate 0).2, fun k => ?_⟩
  obtain ⟨l', hl', hp⟩ := couponLeg_sched (cal := cal) back hn hT hg (f := .none) (fo := fo) (r := fun _ => 0)
    (fun i _ => .none rfl) k x
  have e : l' = l.setFixedRate (some k) := Except.ok.inj (hl'.symm.trans (hrate k).1)
  have hw : (w.withRate a (some k)).list a = l' := by rw [e, World.withRate_list, ha]
  have hP : Pays cal (w.withRate a (some k)) vd (.list a) ((List.range n).map fun i => (T (i + 1), (k + 0) * g (T i) (T (i + 1)) * x)) :=
    ⟨_, by rw [Product.leaves]; exact .cons (hp.pays hT hw hvd) .nil, by simp⟩
  simp only [pvOn, World.withRate_curves, hc]
  have hdf : ∀ t, c.obj.discountFactor cal same vd t = .ok (df vd t) := fun t => hF.factor same vd t hsame
  rw [C54_flows hP (df := df vd) fun q _ => hdf q.1]
  refine Prod.ext (congrArg Except.ok ?_) rfl
  rw [List.map_map, Function.comp_def, sum_map_range, Finset.mul_sum, Finset.mul_sum]
  exact Finset.sum_congr rfl fun i hi => by ring

/-- C121: the fair rate of a fixed leg of notional `x` for a present value `target` is the target over notional times annuity,
within half the precision; the leg is not changed. -/
theorem C121_fair (back : D → D → Py D) {c : IRCurve D P} {df : D → D → ℝ} {o : D} (hF : Factors cal c df o)
    {T : ℕ → D} {n : ℕ} (hn : 0 < n) (hT : ∀ i < n, T i < T (i + 1)) {dc : ProductDayCount D} {g : D → D → ℝ} (hg : dc.Means cal g)
    (hpos : ∀ i < n, 0 < g (T i) (T (i + 1))) (K : ℝ) {x : ℝ} (hx : x ≠ 0) (fo : Option P) {l : CFList D P}
    (hl : couponLeg cal back (payDatesOf T n) (List.replicate (payDatesOf T n).length x) (T 0) dc fo none K .none = .ok l)
    {w : World D P} {a disc : ℕ} (ha : w.list a = l) (hf : (w.lists a).hasFixedRate = true) (hc : w.curves disc = c.obj)
    {same : Bool} {vd : D} (hvd : vd ≤ T 0) (hsame : same = true → vd = o) {limit : ℕ} {target precision lo hi r : ℝ} {w' : World D P}
    (h : fairRate cal limit disc same (.list a) (some vd) target precision lo hi w = (.ok r, w')) :
    w' = w ∧ |r - target / (x * ∑ i ∈ Finset.range n, g (T i) (T (i + 1)) * df vd (T (i + 1)))| < precision / 2 := by
  obtain ⟨hr, hpv⟩ := fixedLeg_value back hF hn hT hg K fo hl ha hc hvd hsame
  have hrf : (w.lists a).RateFlows := fun y hy => by obtain ⟨q, h, -⟩ := hr y hy; rw [h]; rfl
  have hA : 0 < ∑ i ∈ Finset.range n, g (T i) (T (i + 1)) * df vd (T (i + 1)) :=
    Finset.sum_pos (fun i hi => mul_pos (hpos i (by simpa using hi)) (hF.laws.pos _ _)) ⟨0, by simpa using hn⟩
  refine ⟨C59_unchanged (by rfl) hf hr (hpv 0) h, ?_⟩
  obtain ⟨-, k, -, hk, hk'⟩ := C59_reprices (by rfl) hf hrf (hpv 0) h
  rw [hpv k] at hk'
  have : k * (x * ∑ i ∈ Finset.range n, g (T i) (T (i + 1)) * df vd (T (i + 1))) = target := by simpa using congrArg Prod.fst hk'
  rw [← this, mul_div_cancel_right₀ _ (mul_ne_zero hx hA.ne'), abs_sub_comm]
  exact hk

/-- C121: bounds around that rate are enough for the search to succeed, whatever the precision. -/
theorem C121_found (back : D → D → Py D) {c : IRCurve D P} {df : D → D → ℝ} {o : D} (hF : Factors cal c df o)
    {T : ℕ → D} {n : ℕ} (hn : 0 < n) (hT : ∀ i < n, T i < T (i + 1)) {dc : ProductDayCount D} {g : D → D → ℝ} (hg : dc.Means cal g)
    (hpos : ∀ i < n, 0 < g (T i) (T (i + 1))) (K : ℝ) {x : ℝ} (hx : x ≠ 0) (fo : Option P) {l : CFList D P}
    (hl : couponLeg cal back (payDatesOf T n) (List.replicate (payDatesOf T n).length x) (T 0) dc fo none K .none = .ok l)
    {w : World D P} {a disc : ℕ} (ha : w.list a = l) (hf : (w.lists a).hasFixedRate = true) (hc : w.curves disc = c.obj)
    {same : Bool} {vd : D} (hvd : vd ≤ T 0) (hsame : same = true → vd = o) {target precision lo hi : ℝ} (hp : 0 < precision)
    (hlo : lo ≤ target / (x * ∑ i ∈ Finset.range n, g (T i) (T (i + 1)) * df vd (T (i + 1))))
    (hhi : target / (x * ∑ i ∈ Finset.range n, g (T i) (T (i + 1)) * df vd (T (i + 1))) ≤ hi) :
    ∃ m, ∀ limit, m < limit → ∃ r, fairRate cal limit disc same (.list a) (some vd) target precision lo hi w = (.ok r, w) := by
  obtain ⟨hr, hpv⟩ := fixedLeg_value back hF hn hT hg K fo hl ha hc hvd hsame
  have hrf : (w.lists a).RateFlows := fun y hy => by obtain ⟨q, h, -⟩ := hr y hy; rw [h]; rfl
  have hA : 0 < ∑ i ∈ Finset.range n, g (T i) (T (i + 1)) * df vd (T (i + 1)) :=
    Finset.sum_pos (fun i hi => mul_pos (hpos i (by simpa using hi)) (hF.laws.pos _ _)) ⟨0, by simpa using hn⟩
  have hB := mul_ne_zero hx hA.ne'
  set B := x * ∑ i ∈ Finset.range n, g (T i) (T (i + 1)) * df vd (T (i + 1))
  obtain ⟨m, hm⟩ := C59_exists (cal := cal) (by rfl) hf hrf (hpv lo) (hpv hi) (target := target) hp (by
    have e : (lo * B - target) * (hi * B - target) = ((lo - target / B) * (hi - target / B)) * (B * B) := by field_simp
    rw [e]
    exact mul_nonpos_of_nonpos_of_nonneg (mul_nonpos_of_nonpos_of_nonneg (by linarith) (by linarith)) (mul_self_nonneg B))
  refine ⟨m, fun limit hl' => ?_⟩
  obtain ⟨r, w', h⟩ := hm limit hl'
  obtain ⟨rfl, -⟩ := C121_fair back hF hn hT hg hpos K hx fo hl ha hf hc hvd hsame h
  exact ⟨r, h⟩

/-- C121: in a swap against the floating rate of a curve, the fair rate of the fixed leg for the (negated) value of the floating leg
is the par swap rate, within half the precision. -/
theorem C121_swap (back : D → D → Py D) {c : IRCurve D P} {v : D → ℝ} {τ df : D → D → ℝ} {o : D} (h : Answers cal c v τ o)
    (hF : Factors cal c df o) (hc : c.cls ≠ .cash) {T S : ℕ → D} {n k : ℕ} (hn : 0 < n) (hk : 0 < k)
    (hT : ∀ i < n, T i < T (i + 1)) (hS : ∀ i < k, S i < S (i + 1)) (h0 : T 0 = S 0) (h1 : T n = S k)
    (hten : ∀ i < k, cal.add (S i) (c.tenor.getD cal.threeMonths) = .ok (S (i + 1))) {dc rdc : ProductDayCount D}
    {g rg : D → D → ℝ} (hg : dc.Means cal g) (hrg : rdc.Means cal rg) (hpos : ∀ i < n, 0 < g (T i) (T (i + 1)))
    (hgτ : ∀ i < k, rg (S i) (S (i + 1)) = τ (S i) (S (i + 1)))
    {sameF : D → Bool} (hs : ∀ d, sameF d = true → d = o) (limit : ℕ) (K : ℝ) {N : ℝ} (hN : N ≠ 0) :
    ∃ lp lr dom oo, interestRateSwap cal back (.ok (payDatesOf T n)) (.ok (payDatesOf S k)) (T 0) N dc rdc K 0 .none
        (c.asFwd cal sameF (limit + 1)) none none = .ok (.legs [.flat lp, .flat lr] dom oo) ∧
      ∀ (w : World D P) a b disc, w.list a = lp → w.list b = lr → (w.lists a).hasFixedRate = true → w.curves disc = c.obj →
        ∀ same vd, vd ≤ T 0 → (same = true → vd = o) →
        ∃ x, pvOn cal disc same (some vd) (.list b) w = (.ok x, w) ∧ ∀ limit precision lo hi r w',
          fairRate cal limit disc same (.list a) (some vd) (-x) precision lo hi w = (.ok r, w') →
          w' = w ∧ |r - (df vd (T 0) - df vd (T n)) / ∑ i ∈ Finset.range n, g (T i) (T (i + 1)) * df vd (T (i + 1))| < precision / 2 := by
  have hex : ∀ i, ∃ f, i < k → Floats cal (c.asFwd cal sameF (limit + 1)) none (S i) f ∧
      (1 + f * τ (S i) (S (i + 1))) * df (S i) (S (i + 1)) = 1 := by
    intro i
    by_cases hi : i < k
    · obtain ⟨f, hf⟩ := floats_curve h hF hc hs limit (hS i hi).ne (.tenor _ (hten i hi))
      exact ⟨f, fun _ => hf⟩
    · exact ⟨0, fun h => absurd h hi⟩
  choose r hr using hex
  obtain ⟨lp, hlp, hp⟩ := couponLeg_sched (cal := cal) back hn hT hg (f := .none) (fo := none) (r := fun _ => 0)
    (fun i _ => .none rfl) K (-N)
  obtain ⟨lr, hlr, hr'⟩ := couponLeg_sched back hk hS hrg (fun i hi => (hr i hi).1) 0 N
  have hr0 : Coupons cal lr (T 0) (payDatesOf S k) fun i => (0 + r i) * rg (S i) (S (i + 1)) * N := by rw [h0]; exact hr'
  obtain ⟨b, hb, -⟩ := twoLegs_of hp.keyed hp.origin hr0
  obtain ⟨oo, rfl, -⟩ := CF.newLegs_eq hb
  refine ⟨lp, lr, sortedSet (List.map CF.domain [.flat lp, .flat lr]).flatten, oo, ?_,
    fun w a b disc ha hb' hf hcd same vd hvd hsame => ⟨N * (df vd (T 0) - df vd (T n)), ?_, fun limit precision lo hi r w' hfr => ?_⟩⟩
  · rw [← h0] at hlr
    simp only [interestRateSwap, Py.ok_bind, hlp, hlr]
    exact hb
  · have hP : Pays cal w vd (.list b) ((List.range k).map fun i => (S (i + 1), (0 + r i) * rg (S i) (S (i + 1)) * N)) :=
      ⟨_, by rw [Product.leaves]; exact .cons (hr'.pays hS hb' (h0 ▸ hvd)) .nil, by simp⟩
    simp only [pvOn, hcd]
    have hdf : ∀ t, c.obj.discountFactor cal same vd t = .ok (df vd t) := fun t => hF.factor same vd t hsame
    rw [C54_flows hP (df := df vd) fun q _ => hdf q.1]
    refine Prod.ext (congrArg Except.ok ?_) rfl
    rw [List.map_map, Function.comp_def, sum_map_range]
    have key := float_sum hF.laws (fun i hi => (hr i hi).2) vd
    rw [h0, h1, ← key, Finset.mul_sum]
    refine Finset.sum_congr rfl fun i hi => ?_
    simp only [Function.comp]
    rw [hgτ i (by simpa using hi)]
    ring
  · obtain ⟨e, hlt⟩ := C121_fair back hF hn hT hg hpos K (neg_ne_zero.2 hN) none hlp ha hf hcd hvd hsame hfr
    refine ⟨e, ?_⟩
    rwa [neg_mul, neg_div_neg_eq, mul_div_mul_left _ _ hN] at hlt

end

/-- Hypotheses of C121 are met: the fair rate of two yearly coupons on 100 at a flat yield for a value of 5. -/
example : ∃ (n : ℕ) (w : World ℝ FloatPeriod), ∀ limit, n < limit → ∃ r,
    fairRate floatCal limit 0 true (.list 0) (some 0) 5 (1 / 1000000) 0 1 w = (.ok r, w) ∧
    |r - 5 / (100 * (Real.exp (-0.03) + Real.exp (-0.06)))| < 1 / 2000000 := by
  obtain ⟨df, hl, hrate, hf, -⟩ := C28_zero (flatZero_answers 0.03) rfl
  have hF : Factors floatCal (flatZero floatCal none .default (some (.num 1)) 0 0.03) df 0 := ⟨hl, hf⟩
  have hdf : ∀ t, df 0 t = Real.exp (-(0.03 * t)) := by
    intro t
    have h1 := hF.factor false 0 t (by simp)
    have h2 := flatZero_factor floatCal (o? := none) (dc := .default) (tenor := some (.num 1)) trivial goodDayCount_real 0 0.03 false 0 t (by simp)
    have h3 : (Except.ok (df 0 t) : Py ℝ) = .ok _ := h1.symm.trans h2
    rw [Except.ok.inj h3]
    simp [DayCountArg.fn, floatCal]
  obtain ⟨l, hl, hc⟩ := couponLeg_sched (cal := floatCal) (fun _ _ => .error .value) (T := fun i => (i : ℝ)) (n := 2) (by norm_num)
    (by simp) (dc := .none) rfl (f := .none) (fo := none) (r := fun _ => 0) (fun i _ => .none rfl) 0 100
  have harg : l.arg = .fwd .none := by
    have := newRate_eq (cal := floatCal) (back := fun _ _ => .error .value) (amounts := .list [100, 100]) (dc := none) (fo := none) (c := 0)
      (f := .none) (starts := [0, 1]) (o := some 0) (po := none) (sh := id) (dates := [1, 2]) rfl rfl (fun d h => rfl) rfl (by norm_num)
    have e : couponLeg floatCal (fun _ _ => .error .value) (payDatesOf (fun i => (i : ℝ)) 2) (List.replicate (payDatesOf (fun i => (i : ℝ)) 2).length 100)
        (((0 : ℕ)) : ℝ) .none none none 0 .none = CFList.newRate floatCal (fun _ _ => .error .value) [1, 2] (.list [100, 100]) (some 0) none none none 0 .none := by
      simp [couponLeg, payDatesOf, List.range_succ, List.replicate]
      norm_num
    rw [e, this] at hl
    rw [← Except.ok.inj hl]
  let w : World ℝ FloatPeriod := { exWorld with
    curves := fun _ => (flatZero floatCal none .default (some (.num 1)) 0 0.03).obj
    lists := fun _ => ⟨l.origin?, l.domain, l.flows, .fwd fun _ => .none, l.hasModel, true, true⟩ }
  have hw : w.list 0 = l := by
    simp only [World.list, w, World.arg]
    cases l
    simp at harg ⊢
    exact harg.symm
  have hsum : ∑ i ∈ Finset.range 2, floatCal.dayCount ((fun i : ℕ => (i : ℝ)) i) ((fun i : ℕ => (i : ℝ)) (i + 1)) * df 0 ((fun i : ℕ => (i : ℝ)) (i + 1)) =
      Real.exp (-0.03) + Real.exp (-0.06) := by
    simp [Finset.sum_range_succ, floatCal, hdf]
    norm_num
  have hb : 5 / (100 * (Real.exp (-0.03) + Real.exp (-0.06))) ≤ 1 := by
    have h1 := Real.add_one_le_exp (-0.03 : ℝ)
    have h2 := Real.exp_pos (-0.06 : ℝ)
    rw [div_le_one (by positivity)]
    norm_num at h1 h2 ⊢
    linarith
  obtain ⟨m, hm⟩ := C121_found (cal := floatCal) (fun _ _ => .error .value) hF (T := fun i => (i : ℝ)) (n := 2) (by norm_num)
    (by simp) (dc := .none) rfl (by simp [floatCal]) 0 (x := 100) (by norm_num) none hl hw rfl (disc := 0) rfl (same := true) (vd := 0) (by simp)
    (by simp) (target := 5) (precision := 1 / 1000000) (lo := 0) (hi := 1) (by norm_num) (by rw [hsum]; positivity) (by rw [hsum]; exact hb)
  refine ⟨m, w, fun limit hl' => ?_⟩
  obtain ⟨r, hr⟩ := hm limit hl'
  have := (C121_fair (cal := floatCal) (fun _ _ => .error .value) hF (T := fun i => (i : ℝ)) (n := 2) (by norm_num)
    (by simp) (dc := .none) rfl (by simp [floatCal]) 0 (x := 100) (by norm_num) none hl hw rfl (disc := 0) rfl (same := true) (vd := 0) (by simp)
    (by simp) hr).2
  rw [hsum] at this
  exact ⟨r, hr, by norm_num at this ⊢; exact this⟩

/-! ### The hypotheses can be met: each theorem applied -/

/-- A swap of one five year fixed period against five floating years. -/
example := fun df hF => C121_swap (fun _ _ => .error .value) (flatZero_answers 0.03) (df := df) hF (by simp [flatZero, irOf])
  (T := fun i => 5 * (i : ℝ)) (S := fun i => (i : ℝ)) (n := 1) (k := 5) (by norm_num) (by norm_num) (by simp) (by simp) (by simp) (by norm_num)
  (by simp [flatZero, irOf, floatCal]) (dc := .none) (rdc := .none) (g := floatCal.dayCount) (rg := floatCal.dayCount) rfl rfl
  (by simp [floatCal]) (fun _ _ => rfl) (sameF := fun _ => false) (by simp) 1 0.02 (N := 100) (by norm_num)

end Dcf
