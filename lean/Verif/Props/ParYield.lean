import Verif.Props.Par
import Verif.Props.Yield
import Mathlib.Analysis.SpecialFunctions.Log.Basic
import Mathlib.Analysis.SpecialFunctions.Exponential

/-! # The yield of a bond at par: C142 -/

set_option linter.unusedSectionVars false
set_option linter.unusedSimpArgs false
set_option linter.unusedVariables false

namespace Dcf

open Spec

/-! ### Values of coupons and redemption -/

/-- Logarithms and simple rates. -/
theorem log_rate_ge {x : ℝ} (hx : 0 ≤ x) : x - x ^ 2 / 2 ≤ Real.log (1 + x) := by
  refine le_trans ?_ (Real.le_log_one_add_of_nonneg hx)
  rw [le_div_iff₀ (by linarith)]
  nlinarith [pow_nonneg hx 3]

section
variable {D P : Type} [LinearOrder D] {cal : Cal D P}

/-- The flows after the start of a bond over `T 0, ..., T n`: redemption and coupons. -/
def bondFlows (τ : D → D → ℝ) (T : ℕ → D) (n : ℕ) (c N : ℝ) : List (D × ℝ) :=
  (T n, N) :: (List.range n).map fun i => (T (i + 1), c * τ (T i) (T (i + 1)) * N)

/-- Their value at a yield differs from the notional by the discounted differences between coupons and yields. -/
theorem bond_value {τ : D → D → ℝ} (hτ : GoodDayCount τ) (T : ℕ → D) (n : ℕ) (c N y : ℝ) :
    yieldValue τ (T 0) (bondFlows τ T n c N) y - N = N * ∑ i ∈ Finset.range n, Real.exp (-(y * τ (T 0) (T (i + 1)))) *
      (c * τ (T i) (T (i + 1)) - (Real.exp (y * τ (T i) (T (i + 1))) - 1)) := by
  have htel := Finset.sum_range_sub' (fun i => Real.exp (-(y * τ (T 0) (T i)))) n
  have hstep : ∀ i, Real.exp (-(y * τ (T 0) (T (i + 1)))) * Real.exp (y * τ (T i) (T (i + 1))) =
      Real.exp (-(y * τ (T 0) (T i))) := by
    intro i
    rw [← Real.exp_add]
    congr 1
    rw [← hτ.add (T 0) (T i) (T (i + 1))]
    ring
  have hsum : ∑ i ∈ Finset.range n, Real.exp (-(y * τ (T 0) (T (i + 1)))) *
      (c * τ (T i) (T (i + 1)) - (Real.exp (y * τ (T i) (T (i + 1))) - 1)) =
      (∑ i ∈ Finset.range n, Real.exp (-(y * τ (T 0) (T (i + 1)))) * (c * τ (T i) (T (i + 1)))) -
        ∑ i ∈ Finset.range n, (Real.exp (-(y * τ (T 0) (T i))) - Real.exp (-(y * τ (T 0) (T (i + 1))))) := by
    rw [← Finset.sum_sub_distrib]
    refine Finset.sum_congr rfl fun i _ => ?_
    rw [← hstep i]
    ring
  rw [hsum, htel]
  simp only [yieldValue, bondFlows, List.map_cons, List.sum_cons, List.map_map, Function.comp_def, sum_map_range, hτ.self,
    mul_zero, neg_zero, Real.exp_zero]
  have : ∑ i ∈ Finset.range n, Real.exp (-(y * τ (T 0) (T (i + 1)))) * (c * τ (T i) (T (i + 1)) * N) =
      N * ∑ i ∈ Finset.range n, Real.exp (-(y * τ (T 0) (T (i + 1)))) * (c * τ (T i) (T (i + 1))) := by
    rw [Finset.mul_sum]
    exact Finset.sum_congr rfl fun i _ => by ring
  rw [this]
  ring

variable {back : D → D → Py D} {T : ℕ → D} {n : ℕ} {pdc : ProductDayCount D} {g : D → D → ℝ} {dc : DayCountArg D} {o? : Option D}
  {tenor : Option P} {c N : ℝ} {lr lk : CFList D P} {fo : Option P} {w : World D P} {a b : ℕ} {same : Bool} {dom : List D} {oo : Option D}

/-- A redemption leg and a coupon leg pay these flows. -/
theorem bond_pays (hn : 0 < n) (hT : ∀ i < n, T i < T (i + 1)) (hg : pdc.Means cal g)
    (hgτ : ∀ i < n, g (T i) (T (i + 1)) = dc.fn cal (T i) (T (i + 1)))
    (hlr : CFList.newFixed [T n] (.list [N]) (some (T 0)) = .ok lr)
    (hlk : couponLeg cal back (payDatesOf T n) (List.replicate (payDatesOf T n).length N) (T 0) pdc fo none c .none = .ok lk)
    (ha : w.list a = lr) (hb : w.list b = lk) :
    Pays cal w (T 0) (.legs [.list a, .list b] dom oo) (bondFlows (dc.fn cal) T n c N) := by
  obtain ⟨l1, e1, hnk, hnd, hno, hnm, hnf⟩ := fixedLeg_of (P := P) (cal := cal) (dates := [T n]) (as := [N]) (T 0) rfl (by simp)
  obtain rfl := Except.ok.inj (e1.symm.trans hlr)
  obtain ⟨l2, e2, hk⟩ := couponLeg_sched (cal := cal) back hn hT hg (f := .none) (fo := fo) (r := fun _ => 0) (fun i _ => .none rfl) c N
  obtain rfl := Except.ok.inj (e2.symm.trans hlk)
  have h0n : T 0 < T n := increasing_lt hT hn le_rfl
  refine ⟨[[(T n, N)], (List.range n).map fun i => (T (i + 1), (c + 0) * g (T i) (T (i + 1)) * N)], ?_, ?_⟩
  · simp only [Product.leaves, Product.leavesOf, List.append_nil, List.singleton_append]
    refine .cons ?_ (.cons (hk.pays hT hb le_rfl) .nil)
    have := paysList_of (cal := cal) ha hnm (vd := T 0) (is := [(T n, N)]) (d := Prod.fst) (x := Prod.snd)
      (by simpa using hnd) (by simp [h0n.le]) (by
        have h1 := hnf 0 (by simp)
        simpa using h1)
    simpa using this
  · simp only [bondFlows, List.flatten_cons, List.flatten_nil, List.append_nil, List.singleton_append, List.cons.injEq, true_and]
    refine List.map_congr_left fun i hi => ?_
    rw [hgτ i (by simpa using hi), add_zero]

theorem bond_flows_pos (hτ : GoodDayCount (dc.fn cal)) (hn : 0 < n) (hT : ∀ i < n, T i < T (i + 1)) (hc : 0 ≤ c) (hN : 0 < N) :
    (∀ q ∈ bondFlows (dc.fn cal) T n c N, T 0 ≤ q.1 ∧ 0 ≤ q.2) ∧ ∃ q ∈ bondFlows (dc.fn cal) T n c N, T 0 < q.1 ∧ 0 < q.2 := by
  have h0n : T 0 < T n := increasing_lt hT hn le_rfl
  constructor
  · intro q hq
    simp only [bondFlows, List.mem_cons, List.mem_map, List.mem_range] at hq
    rcases hq with rfl | ⟨i, hi, rfl⟩
    · exact ⟨h0n.le, hN.le⟩
    · exact ⟨(increasing_lt hT (Nat.succ_pos i) hi).le, mul_nonneg (mul_nonneg hc ((hτ.pos _ _).2 (hT i hi)).le) hN.le⟩
  · exact ⟨(T n, N), by simp [bondFlows], h0n, hN⟩

/-- C142: at par a bond with coupon periods of equal length has the yield which compounded over a period gives the coupon. -/
theorem C142_equal (hd : dc.Usable) (hτ : GoodDayCount (dc.fn cal)) (hs : same = true → T 0 = o?.getD (T 0)) (hn : 0 < n)
    (hT : ∀ i < n, T i < T (i + 1)) (hg : pdc.Means cal g) (hgτ : ∀ i < n, g (T i) (T (i + 1)) = dc.fn cal (T i) (T (i + 1)))
    (hc : 0 ≤ c) (hN : 0 < N) (hlr : CFList.newFixed [T n] (.list [N]) (some (T 0)) = .ok lr)
    (hlk : couponLeg cal back (payDatesOf T n) (List.replicate (payDatesOf T n).length N) (T 0) pdc fo none c .none = .ok lk)
    (ha : w.list a = lr) (hb : w.list b = lk) {Δ : ℝ} (hΔ : ∀ i < n, dc.fn cal (T i) (T (i + 1)) = Δ) {limit : ℕ}
    {precision lo hi r : ℝ} {w' : World D P}
    (h : ytm cal limit same none o? dc tenor (.legs [.list a, .list b] dom oo) (some (T 0)) N precision lo hi w = (.ok r, w')) :
    |Real.log (1 + c * Δ) / Δ - r| < precision / 2 := by
  have hΔ0 : 0 < Δ := by rw [← hΔ 0 hn]; exact (hτ.pos _ _).2 (hT 0 hn)
  obtain ⟨h1, h2⟩ := bond_flows_pos hτ hn hT hc hN
  refine C58_unique hd hτ hs rfl (bond_pays hn hT hg hgτ hlr hlk ha hb) h1 h2 h ?_
  have := bond_value hτ T n c N (Real.log (1 + c * Δ) / Δ)
  rw [Finset.sum_eq_zero, mul_zero, sub_eq_zero] at this
  · exact this
  · intro i hi
    rw [hΔ i (by simpa using hi), div_mul_cancel₀ _ hΔ0.ne', Real.exp_log (by positivity)]
    ring

/-- C142: whatever the periods, the yield at par is at most the coupon rate `c` and at least `c - c² Δ / 2` for the longest
period `Δ`. -/
theorem C142_bounds (hd : dc.Usable) (hτ : GoodDayCount (dc.fn cal)) (hs : same = true → T 0 = o?.getD (T 0)) (hn : 0 < n)
    (hT : ∀ i < n, T i < T (i + 1)) (hg : pdc.Means cal g) (hgτ : ∀ i < n, g (T i) (T (i + 1)) = dc.fn cal (T i) (T (i + 1)))
    (hc : 0 ≤ c) (hN : 0 < N) (hlr : CFList.newFixed [T n] (.list [N]) (some (T 0)) = .ok lr)
    (hlk : couponLeg cal back (payDatesOf T n) (List.replicate (payDatesOf T n).length N) (T 0) pdc fo none c .none = .ok lk)
    (ha : w.list a = lr) (hb : w.list b = lk) {Δ : ℝ} (hΔ : ∀ i < n, dc.fn cal (T i) (T (i + 1)) ≤ Δ) {limit : ℕ}
    {precision lo hi r : ℝ} {w' : World D P}
    (h : ytm cal limit same none o? dc tenor (.legs [.list a, .list b] dom oo) (some (T 0)) N precision lo hi w = (.ok r, w')) :
    c - c ^ 2 * Δ / 2 - precision / 2 < r ∧ r < c + precision / 2 := by
  have hP := bond_pays (dom := dom) (oo := oo) hn hT hg hgτ hlr hlk ha hb
  obtain ⟨h1, h2⟩ := bond_flows_pos hτ hn hT hc hN
  obtain ⟨-, -, y, -, hy, hyr⟩ := C58_reprices hd hτ hs rfl hP h
  have hanti := yieldValue_strict hτ h1 h2
  have hyv : yieldValue (dc.fn cal) (T 0) (bondFlows (dc.fn cal) T n c N) y = N := hy
  have hup : y ≤ c := by
    rw [← hanti.le_iff_ge, hyv, ← sub_nonpos, bond_value hτ]
    refine mul_nonpos_of_nonneg_of_nonpos hN.le (Finset.sum_nonpos fun i hi => ?_)
    refine mul_nonpos_of_nonneg_of_nonpos (Real.exp_pos _).le ?_
    have := Real.add_one_le_exp (c * dc.fn cal (T i) (T (i + 1)))
    linarith
  have hlow : c - c ^ 2 * Δ / 2 ≤ y := by
    rw [← hanti.le_iff_ge, hyv, ← sub_nonneg, bond_value hτ]
    refine mul_nonneg hN.le (Finset.sum_nonneg fun i hi => ?_)
    refine mul_nonneg (Real.exp_pos _).le ?_
    have hi' : i < n := by simpa using hi
    set t := dc.fn cal (T i) (T (i + 1)) with ht
    have ht0 : 0 < t := (hτ.pos _ _).2 (hT i hi')
    have hle : (c - c ^ 2 * Δ / 2) * t ≤ Real.log (1 + c * t) := by
      refine le_trans ?_ (log_rate_ge (mul_nonneg hc ht0.le))
      have := mul_le_mul_of_nonneg_left (hΔ i hi') (mul_nonneg (sq_nonneg c) ht0.le)
      nlinarith
    have := Real.exp_le_exp.2 hle
    rw [Real.exp_log (by positivity)] at this
    linarith
  rw [abs_lt] at hyr
  constructor <;> linarith [hyr.1, hyr.2]

/-- C142 (refuted): for any positive coupon the yield at par is not the coupon rate: the exact yield is strictly below. -/
theorem C142_violated (hd : dc.Usable) (hτ : GoodDayCount (dc.fn cal)) (hs : same = true → T 0 = o?.getD (T 0)) (hn : 0 < n)
    (hT : ∀ i < n, T i < T (i + 1)) (hg : pdc.Means cal g) (hgτ : ∀ i < n, g (T i) (T (i + 1)) = dc.fn cal (T i) (T (i + 1)))
    (hc : 0 < c) (hN : 0 < N) (hlr : CFList.newFixed [T n] (.list [N]) (some (T 0)) = .ok lr)
    (hlk : couponLeg cal back (payDatesOf T n) (List.replicate (payDatesOf T n).length N) (T 0) pdc fo none c .none = .ok lk)
    (ha : w.list a = lr) (hb : w.list b = lk) (lo hi : ℝ) :
    ∃ ε > 0, ∀ limit precision r w', precision < ε →
      ytm cal limit same none o? dc tenor (.legs [.list a, .list b] dom oo) (some (T 0)) N precision lo hi w = (.ok r, w') →
      r < c - ε := by
  have hP := bond_pays (dom := dom) (oo := oo) hn hT hg hgτ hlr hlk ha hb
  obtain ⟨h1, h2⟩ := bond_flows_pos hτ hn hT hc.le hN
  have hanti := yieldValue_strict hτ h1 h2
  have hless : yieldValue (dc.fn cal) (T 0) (bondFlows (dc.fn cal) T n c N) c < N := by
    rw [← sub_neg, bond_value hτ]
    refine mul_neg_of_pos_of_neg hN (Finset.sum_neg (fun i hi => ?_) ⟨0, by simpa using hn⟩)
    refine mul_neg_of_pos_of_neg (Real.exp_pos _) ?_
    have hi' : i < n := by simpa using hi
    have := Real.add_one_lt_exp (x := c * dc.fn cal (T i) (T (i + 1))) (mul_pos hc ((hτ.pos _ _).2 (hT i hi'))).ne'
    linarith
  -- by continuity the value is still below the notional a bit below `c`
  obtain ⟨δ, hδ, hδ'⟩ : ∃ δ > 0, yieldValue (dc.fn cal) (T 0) (bondFlows (dc.fn cal) T n c N) (c - δ) < N := by
    have hcont := (yieldValue_continuous (dc.fn cal) (T 0) (bondFlows (dc.fn cal) T n c N)).tendsto c
    have hev := hcont.eventually (gt_mem_nhds hless)
    obtain ⟨δ, hδ, hball⟩ := Metric.eventually_nhds_iff.1 hev
    refine ⟨δ / 2, by linarith, hball ?_⟩
    rw [Real.dist_eq, abs_lt]
    constructor <;> linarith
  refine ⟨δ / 2, by linarith, fun limit precision r w' hp h => ?_⟩
  obtain ⟨-, -, y, -, hy, hyr⟩ := C58_reprices hd hτ hs rfl hP h
  have hyv : yieldValue (dc.fn cal) (T 0) (bondFlows (dc.fn cal) T n c N) y = N := hy
  have hyc : y < c - δ := by
    rw [← hanti.lt_iff_gt, hyv]
    exact hδ'
  rw [abs_lt] at hyr
  linarith [hyr.1, hyr.2]

/-- C142: bounds around that yield are enough for the search to succeed. -/
theorem C142_found (hd : dc.Usable) (hτ : GoodDayCount (dc.fn cal)) (hs : same = true → T 0 = o?.getD (T 0)) (hn : 0 < n)
    (hT : ∀ i < n, T i < T (i + 1)) (hg : pdc.Means cal g) (hgτ : ∀ i < n, g (T i) (T (i + 1)) = dc.fn cal (T i) (T (i + 1)))
    (hc : 0 ≤ c) (hN : 0 < N) (hlr : CFList.newFixed [T n] (.list [N]) (some (T 0)) = .ok lr)
    (hlk : couponLeg cal back (payDatesOf T n) (List.replicate (payDatesOf T n).length N) (T 0) pdc fo none c .none = .ok lk)
    (ha : w.list a = lr) (hb : w.list b = lk) {Δ : ℝ} (hΔ : ∀ i < n, dc.fn cal (T i) (T (i + 1)) = Δ) {precision lo hi : ℝ}
    (hp : 0 < precision) (hlo : lo ≤ Real.log (1 + c * Δ) / Δ) (hhi : Real.log (1 + c * Δ) / Δ ≤ hi) :
    ∃ m, ∀ limit, m < limit → ∃ r, |Real.log (1 + c * Δ) / Δ - r| < precision / 2 ∧
      ytm cal limit same none o? dc tenor (.legs [.list a, .list b] dom oo) (some (T 0)) N precision lo hi w = (.ok r, w) := by
  have hΔ0 : 0 < Δ := by rw [← hΔ 0 hn]; exact (hτ.pos _ _).2 (hT 0 hn)
  obtain ⟨h1, h2⟩ := bond_flows_pos hτ hn hT hc hN
  have hP := bond_pays (dom := dom) (oo := oo) hn hT hg hgτ hlr hlk ha hb
  have hanti := (yieldValue_strict hτ h1 h2).antitone
  have hval : yieldValue (dc.fn cal) (T 0) (bondFlows (dc.fn cal) T n c N) (Real.log (1 + c * Δ) / Δ) = N := by
    have := bond_value hτ T n c N (Real.log (1 + c * Δ) / Δ)
    rw [Finset.sum_eq_zero, mul_zero, sub_eq_zero] at this
    · exact this
    · intro i hi
      rw [hΔ i (by simpa using hi), div_mul_cancel₀ _ hΔ0.ne', Real.exp_log (by positivity)]
      ring
  obtain ⟨m, hm⟩ := C58_exists (tenor := tenor) (valuation := some (T 0)) hd hτ hs rfl hP (target := N) hp
    (lo := lo) (hi := hi) (mul_nonpos_of_nonneg_of_nonpos (sub_nonneg.2 (hval.symm.le.trans (hanti hlo)))
      (sub_nonpos.2 ((hanti hhi).trans hval.le)))
  refine ⟨m, fun limit hl => ?_⟩
  obtain ⟨r, hr⟩ := hm limit hl
  exact ⟨r, C142_equal hd hτ hs hn hT hg hgτ hc hN hlr hlk ha hb hΔ hr, hr⟩

end

/-- C142 (refuted, the example of the documentation with a coupon of 10%): five yearly coupons at par have the yield log 1.1, less
than 9.6%. -/
theorem C142_doc_violated : ∃ (lr lk : CFList ℝ FloatPeriod) (w : World ℝ FloatPeriod),
    CFList.newFixed [5] (.list [100]) (some 0) = .ok lr ∧
    CFList.newRate floatCal (fun _ _ => .error .value) [1, 2, 3, 4, 5] (.list [100, 100, 100, 100, 100]) (some 0) none none none
      (1 / 10) .none = .ok lk ∧ w.list 0 = lr ∧ w.list 1 = lk ∧
    ∃ m, ∀ limit, m < limit → ∃ r, r < 96 / 1000 ∧
      ytm floatCal limit false none none .default none (.legs [.list 0, .list 1] [1, 2, 3, 4, 5] (some 0)) (some 0) 100
        (1 / 10000000) (-1 / 10) (2 / 10) w = (.ok r, w) := by
  have hT : ∀ i < 5, (fun i : ℕ => (i : ℝ)) i < (fun i : ℕ => (i : ℝ)) (i + 1) := fun i _ => by push_cast; linarith
  obtain ⟨lr, h1, -⟩ := fixedLeg_of (P := FloatPeriod) (cal := floatCal) (dates := [(5 : ℝ)]) (as := [100]) 0 rfl (by simp)
  obtain ⟨lk, h2, -⟩ := couponLeg_sched (cal := floatCal) (fun _ _ => .error .value) (T := fun i => (i : ℝ)) (n := 5) (by norm_num) hT
    (dc := .none) rfl (f := .none) (fo := none) (r := fun _ => 0) (fun i _ => .none rfl) (1 / 10) 100
  have hx : Real.log (1 + 1 / 10 * 1) / 1 < 955 / 10000 := by
    rw [div_one, Real.log_lt_iff_lt_exp (by norm_num)]
    exact lt_of_lt_of_le (by norm_num) (Real.quadratic_le_exp_of_nonneg (x := 955 / 10000) (by norm_num))
  have hx0 : 0 ≤ Real.log (1 + 1 / 10 * 1) / 1 := by rw [div_one]; exact Real.log_nonneg (by norm_num)
  have hpd : payDatesOf (fun i : ℕ => (i : ℝ)) 5 = [1, 2, 3, 4, 5] := by
    simp [payDatesOf, List.range_succ]
    norm_num
  have har : lr.arg = .fwd .none := by
    simp only [CFList.newFixed, CFList.ofPayoffs] at h1
    split at h1
    · obtain rfl := Except.ok.inj h1
      rfl
    · simp at h1
  have hak : lk.arg = .fwd .none := by
    simp only [couponLeg, CFList.newRate, Py.bind_eq_ok] at h2
    obtain ⟨_, -, _, -, h2⟩ := h2
    simp only [CFList.ofPayoffs] at h2
    split at h2
    · obtain rfl := Except.ok.inj h2
      rfl
    · simp at h2
  let toObj (l : CFList ℝ FloatPeriod) : ListObj ℝ FloatPeriod :=
    ⟨l.origin?, l.domain, l.flows, .fwd fun _ => .none, l.hasModel, false, true⟩
  let w : World ℝ FloatPeriod := { exWorld with lists := fun i => if i = 0 then toObj lr else toObj lk }
  have hw0 : w.list 0 = lr := by
    cases lr; subst har; rfl
  have hw1 : w.list 1 = lk := by
    cases lk; subst hak; rfl
  obtain ⟨m, hm⟩ := C142_found (cal := floatCal) (back := fun _ _ => .error .value) (T := fun i => (i : ℝ)) (n := 5) (pdc := .none)
    (g := floatCal.dayCount) (dc := .default) (o? := none) (tenor := none) (c := 1 / 10) (N := 100) (fo := none) (w := w) (a := 0) (b := 1)
    (same := false) (dom := [1, 2, 3, 4, 5]) (oo := some 0) (lr := lr) (lk := lk) (Δ := 1) (precision := 1 / 10000000) (lo := -1 / 10)
    (hi := 2 / 10) trivial goodDayCount_real (by simp) (by norm_num) hT rfl (fun i _ => rfl) (by norm_num) (by norm_num)
    (by simpa using h1) (by simpa using h2) hw0 hw1 (fun i _ => by simp [DayCountArg.fn, floatCal]) (by norm_num) (by linarith)
    (by linarith)
  refine ⟨lr, lk, w, h1, ?_, hw0, hw1, m, fun limit hl => ?_⟩
  · rw [hpd] at h2
    simpa [couponLeg, List.replicate] using h2
  · obtain ⟨r, hr, h⟩ := hm limit hl
    rw [abs_lt] at hr
    exact ⟨r, by linarith [hr.1], by simpa using h⟩

/-! ### The hypotheses can be met: each theorem applied -/

/-- Any lists can be stored in a world. -/
def exStore {D P : Type} (curves : Curves D P) (ls : ℕ → CFList D P) : World D P where
  curves := curves
  models := fun a => match (ls a).arg with
    | .model m => ⟨m.valuation, fun _ => m.forward, fun _ => m.vol, m.dayCount, m.bump, m.formula⟩
    | .fwd _ => ⟨none, fun _ => .none, fun _ => .none, none, false, baseFormula⟩
  lists := fun a => ⟨(ls a).origin?, (ls a).domain, (ls a).flows, match (ls a).arg with
    | .fwd f => .fwd fun _ => f
    | .model _ => .model a, (ls a).hasModel, false, false⟩

theorem exStore_list {D P : Type} (curves : Curves D P) (ls : ℕ → CFList D P) (a : ℕ) : (exStore curves ls).list a = ls a := by
  rcases h : ls a with ⟨o, dom, fl, arg, b⟩
  cases arg <;> simp [World.list, exStore, h, World.arg, World.model]

/-- A bond of five years with annual coupons of three percent, stored in a world: the hypotheses of C142 hold of it. -/
theorem exBond : ∃ (lr lk : CFList ℝ FloatPeriod) (w : World ℝ FloatPeriod),
    CFList.newFixed [((5 : ℕ) : ℝ)] (.list [100]) (some ((0 : ℕ) : ℝ)) = .ok lr ∧
    couponLeg floatCal (fun _ _ => .error .value) (payDatesOf (fun i => (i : ℝ)) 5) (List.replicate (payDatesOf (fun i => (i : ℝ)) 5).length 100)
      ((0 : ℕ) : ℝ) .none none none 0.03 .none = .ok lk ∧ w.list 0 = lr ∧ w.list 1 = lk := by
  obtain ⟨lr, h1, -⟩ := fixedLeg_of (P := FloatPeriod) (cal := floatCal) (dates := [((5 : ℕ) : ℝ)]) (as := [100]) ((0 : ℕ) : ℝ) rfl (by simp)
  obtain ⟨lk, h2, -⟩ := couponLeg_sched (cal := floatCal) (fun _ _ => .error .value) (T := fun i => (i : ℝ)) (n := 5) (by simp) (by simp)
    (dc := .none) rfl (f := .none) (fo := none) (r := fun _ => 0) (fun i _ => .none rfl) 0.03 100
  exact ⟨lr, lk, exStore (fun _ => (flatZero floatCal none .default none 0 0.03).obj) fun a => if a = 0 then lr else lk, h1, h2,
    exStore_list _ _ 0, exStore_list _ _ 1⟩

example : ∃ (lr lk : CFList ℝ FloatPeriod) (w : World ℝ FloatPeriod) (m : ℕ), ∀ limit, m < limit →
    ∃ r, |Real.log (1 + 0.03 * 1) / 1 - r| < 1e-7 / 2 ∧
      ytm floatCal limit false none none .default none (.legs [.list 0, .list 1] [] none) (some ((0 : ℕ) : ℝ)) 100 1e-7 (-1) 1 w = (.ok r, w) := by
  obtain ⟨lr, lk, w, h1, h2, h3, h4⟩ := exBond
  obtain ⟨m, hm⟩ := C142_found (cal := floatCal) (T := fun i => (i : ℝ)) (o? := none) (dc := .default) (same := false) (tenor := none) (dom := []) (oo := none) (g := floatCal.dayCount) (c := 0.03) (N := 100) (pdc := .none)
    trivial goodDayCount_real (by simp) (by norm_num) (by simp) rfl (fun _ _ => rfl) (by norm_num) (by norm_num) h1 h2 h3 h4
    (Δ := 1) (fun i _ => by simp [DayCountArg.fn, floatCal]) (precision := 1e-7) (lo := -1) (hi := 1) (by norm_num) (by
      have := Real.log_nonneg (x := 1 + 0.03 * 1) (by norm_num)
      rw [div_one]; linarith) (by
      have := Real.log_le_sub_one_of_pos (x := 1 + 0.03 * 1) (by norm_num)
      rw [div_one]; linarith)
  exact ⟨lr, lk, w, m, hm⟩

example : ∃ (lr lk : CFList ℝ FloatPeriod) (w : World ℝ FloatPeriod) (ε : ℝ), 0 < ε ∧ ∀ limit precision r w', precision < ε →
      ytm floatCal limit false none none .default none (.legs [.list 0, .list 1] [] none) (some ((0 : ℕ) : ℝ)) 100 precision (-1) 1 w = (.ok r, w') →
      r < 0.03 - ε := by
  obtain ⟨lr, lk, w, h1, h2, h3, h4⟩ := exBond
  obtain ⟨ε, h5, h6⟩ := C142_violated (cal := floatCal) (T := fun i => (i : ℝ)) (o? := none) (dc := .default) (same := false) (tenor := none) (dom := []) (oo := none) (g := floatCal.dayCount) (c := 0.03) (N := 100) (pdc := .none)
    trivial goodDayCount_real (by simp) (by norm_num) (by simp) rfl (fun _ _ => rfl) (by norm_num) (by norm_num) h1 h2 h3 h4 (-1) 1
  exact ⟨lr, lk, w, ε, h5, h6⟩

/-- The solver of `C142_found` returns, so `C142_equal` and `C142_bounds` speak of its result. -/
example : ∃ (lr lk : CFList ℝ FloatPeriod) (w : World ℝ FloatPeriod) (limit : ℕ) (r : ℝ),
    ytm floatCal limit false none none .default none (.legs [.list 0, .list 1] [] none) (some ((0 : ℕ) : ℝ)) 100 1e-7 (-1) 1 w = (.ok r, w) ∧
    |Real.log (1 + 0.03 * 1) / 1 - r| < 1e-7 / 2 ∧ 0.03 - 0.03 ^ 2 * 1 / 2 - 1e-7 / 2 < r ∧ r < 0.03 + 1e-7 / 2 := by
  obtain ⟨lr, lk, w, h1, h2, h3, h4⟩ := exBond
  obtain ⟨m, hm⟩ := C142_found (cal := floatCal) (T := fun i => (i : ℝ)) (o? := none) (dc := .default) (same := false) (tenor := none) (dom := []) (oo := none) (g := floatCal.dayCount) (c := 0.03) (N := 100) (pdc := .none)
    trivial goodDayCount_real (by simp) (by norm_num) (by simp) rfl (fun _ _ => rfl) (by norm_num) (by norm_num) h1 h2 h3 h4
    (Δ := 1) (fun i _ => by simp [DayCountArg.fn, floatCal]) (precision := 1e-7) (lo := -1) (hi := 1) (by norm_num) (by
      have := Real.log_nonneg (x := 1 + 0.03 * 1) (by norm_num)
      rw [div_one]; linarith) (by
      have := Real.log_le_sub_one_of_pos (x := 1 + 0.03 * 1) (by norm_num)
      rw [div_one]; linarith)
  obtain ⟨r, -, hr⟩ := hm (m + 1) (by omega)
  refine ⟨lr, lk, w, m + 1, r, hr, ?_, ?_⟩
  · exact C142_equal (cal := floatCal) (dc := .default) (o? := none) (tenor := none) (same := false) (T := fun i => (i : ℝ)) (n := 5) (g := floatCal.dayCount) (pdc := .none)
      trivial goodDayCount_real (by simp) (by norm_num) (by simp) rfl (fun _ _ => rfl) (by norm_num) (by norm_num) h1 h2 h3 h4
      (fun i _ => by simp [DayCountArg.fn, floatCal]) hr
  · exact C142_bounds (cal := floatCal) (dc := .default) (o? := none) (tenor := none) (same := false) (T := fun i => (i : ℝ)) (n := 5) (g := floatCal.dayCount) (pdc := .none)
      trivial goodDayCount_real (by simp) (by norm_num) (by simp) rfl (fun _ _ => rfl) (by norm_num) (by norm_num) h1 h2 h3 h4
      (fun i _ => by simp [DayCountArg.fn, floatCal]) hr

end Dcf
