import Verif.Props.CurveFitZero

/-! # C152: a fit to the prices on a curve gives the curve -/

set_option linter.unusedSectionVars false
set_option linter.unusedVariables false
set_option linter.unusedSimpArgs false

namespace Dcf

open Spec

section
variable {D P : Type} [LinearOrder D] {cal : Cal D P}

theorem common_bound {α : Type} {Q : α → ℝ → Prop} (hmono : ∀ a ε ε', ε' ≤ ε → Q a ε → Q a ε') :
    ∀ (l : List α), (∀ a ∈ l, ∃ ε > 0, Q a ε) → ∃ ε > 0, ∀ a ∈ l, Q a ε
  | [], _ => ⟨1, one_pos, by simp⟩
  | a :: l, h => by
    obtain ⟨ε, hε, hl⟩ := common_bound hmono l fun b hb => h b (by simp [hb])
    obtain ⟨ε', hε', ha⟩ := h a (by simp)
    refine ⟨min ε ε', lt_min hε hε', fun b hb => ?_⟩
    rcases List.mem_cons.1 hb with rfl | hb
    · exact hmono _ _ _ (min_le_right _ _) ha
    · exact hmono _ _ _ (min_le_left _ _) (hl b hb)

/-- Discount factors close to each other come from rates close to each other. -/
theorem rate_of_factor {r t η : ℝ} (ht : 0 < t) (hη : 0 < η) :
    ∃ δ > 0, ∀ y, |Real.exp (-(y * t)) - Real.exp (-(r * t))| < δ → |y - r| < η := by
  have h1 : Real.exp (-((r + η) * t)) < Real.exp (-(r * t)) := Real.exp_lt_exp.2 (by nlinarith)
  have h2 : Real.exp (-(r * t)) < Real.exp (-((r - η) * t)) := Real.exp_lt_exp.2 (by nlinarith)
  refine ⟨min (Real.exp (-(r * t)) - Real.exp (-((r + η) * t))) (Real.exp (-((r - η) * t)) - Real.exp (-(r * t))),
    lt_min (by linarith) (by linarith), fun y hy => ?_⟩
  rw [lt_min_iff, abs_lt, abs_lt] at hy
  obtain ⟨⟨ha, hb⟩, hc, hd⟩ := hy
  rw [abs_lt]
  constructor
  · by_contra h
    have : Real.exp (-((r - η) * t)) ≤ Real.exp (-(y * t)) := Real.exp_le_exp.2 (by nlinarith)
    linarith
  · by_contra h
    have : Real.exp (-(y * t)) ≤ Real.exp (-((r + η) * t)) := Real.exp_le_exp.2 (by nlinarith)
    linarith

/-- A triangular system: if the weighted sums of errors up to each date are small, then so are the errors. -/
theorem triangular {G : List D} {M : D → List (D × ℝ)} (hM : ∀ d ∈ G, ∀ q ∈ M d, q.1 ∈ G ∧ q.1 ≤ d)
    (hA : ∀ d ∈ G, (((M d).filter fun q => decide (q.1 = d)).map Prod.snd).sum ≠ 0) :
    ∀ (n : ℕ) (d : D), d ∈ G → (G.filter (· < d)).length = n → ∀ δ > 0, ∃ ε > 0, ∀ x : D → ℝ,
      (∀ d ∈ G, |((M d).map fun q => x q.1 * q.2).sum| < ε) → |x d| < δ := by
  intro n
  induction n using Nat.strong_induction_on with
  | _ n ih =>
    intro d hd hn δ hδ
    set A := (((M d).filter fun q => decide (q.1 = d)).map Prod.snd).sum with hAd
    set S := ((M d).map fun q => |q.2|).sum with hS
    have hA0 : 0 < |A| := abs_pos.2 (hA d hd)
    have hS0 : 0 ≤ S := List.sum_nonneg fun y hy => by
      obtain ⟨q, -, rfl⟩ := List.mem_map.1 hy; exact abs_nonneg _
    have hδ' : 0 < |A| * δ / (2 * (S + 1)) := by positivity
    obtain ⟨ε, hε, hall⟩ := common_bound (Q := fun t ε => t < d → ∀ x : D → ℝ,
        (∀ d ∈ G, |((M d).map fun q => x q.1 * q.2).sum| < ε) → |x t| < |A| * δ / (2 * (S + 1)))
      (fun t ε ε' he h ht x hx => h ht x fun d hd => (hx d hd).trans_le he) G (fun t ht => by
        by_cases htd : t < d
        · have hlt : (G.filter (· < t)).length < n := by
            rw [← hn, ← List.countP_eq_length_filter, ← List.countP_eq_length_filter]
            have hsub : ∀ a ∈ G, decide (a < t) = true → decide (a < d) = true := fun a _ h => by
              simp only [decide_eq_true_eq] at h ⊢; exact h.trans htd
            refine lt_of_le_of_ne (List.countP_mono_left hsub) fun he => ?_
            have h1 : ∀ l : List D, t ∈ l → l.countP (fun a => decide (a < t)) < l.countP (fun a => decide (a < d)) := by
              intro l
              induction l with
              | nil => simp
              | cons b l ihl =>
                intro hb
                simp only [List.countP_cons]
                have hle : l.countP (fun a => decide (a < t)) ≤ l.countP (fun a => decide (a < d)) :=
                  List.countP_mono_left fun a _ h => by
                    simp only [decide_eq_true_eq] at h ⊢; exact h.trans htd
                rcases List.mem_cons.1 hb with rfl | hb
                · simp [htd]; omega
                · have := ihl hb
                  by_cases h1 : b < t
                  · simp [h1, h1.trans htd]; omega
                  · simp [h1]; split_ifs <;> omega
            exact absurd he (h1 G ht).ne
          obtain ⟨ε, hε, h⟩ := ih _ hlt t ht rfl _ hδ'
          exact ⟨ε, hε, fun _ => h⟩
        · exact ⟨1, one_pos, fun h => absurd h htd⟩)
    refine ⟨min ε (|A| * δ / 2), lt_min hε (by positivity), fun x hx => ?_⟩
    have hsplit : ∀ l : List (D × ℝ), (∀ q ∈ l, q.1 ∈ G ∧ q.1 ≤ d) →
        |(l.map fun q => x q.1 * q.2).sum - x d * ((l.filter fun q => decide (q.1 = d)).map Prod.snd).sum| ≤
          |A| * δ / (2 * (S + 1)) * (l.map fun q => |q.2|).sum := by
      intro l
      induction l with
      | nil => simp
      | cons q l ihl =>
        intro hl
        have := ihl fun q hq => hl q (by simp [hq])
        by_cases hq : q.1 = d
        · simp only [List.map_cons, List.sum_cons, List.filter_cons, hq, decide_true, if_true]
          rw [show x d * q.2 + (l.map fun q => x q.1 * q.2).sum -
            x d * (q.2 + ((l.filter fun q => decide (q.1 = d)).map Prod.snd).sum) =
            (l.map fun q => x q.1 * q.2).sum - x d * ((l.filter fun q => decide (q.1 = d)).map Prod.snd).sum by ring]
          refine this.trans (mul_le_mul_of_nonneg_left ?_ hδ'.le)
          linarith [abs_nonneg q.2]
        · simp only [List.map_cons, List.sum_cons, List.filter_cons, hq, decide_false, Bool.false_eq_true, if_false]
          have hlt := lt_of_le_of_ne (hl q (by simp)).2 hq
          have hxq := hall q.1 (hl q (by simp)).1 hlt x fun d hd => (hx d hd).trans_le (min_le_left _ _)
          rw [show x q.1 * q.2 + (l.map fun q => x q.1 * q.2).sum -
            x d * ((l.filter fun q => decide (q.1 = d)).map Prod.snd).sum = x q.1 * q.2 +
            ((l.map fun q => x q.1 * q.2).sum - x d * ((l.filter fun q => decide (q.1 = d)).map Prod.snd).sum) by ring, mul_add]
          refine (abs_add_le _ _).trans (add_le_add ?_ this)
          rw [abs_mul]
          exact mul_le_mul_of_nonneg_right hxq.le (abs_nonneg _)
    have h1 := hsplit (M d) (hM d hd)
    have h2 := (hx d hd).trans_le (min_le_right _ _)
    rw [← hAd, ← hS] at h1
    have h3 : |A| * δ / (2 * (S + 1)) * S < |A| * δ / 2 := by
      rw [div_mul_eq_mul_div, div_lt_div_iff₀ (by positivity) (by norm_num)]
      nlinarith [mul_pos hA0 hδ]
    have h4 : |x d * A| < |A| * δ := by
      have : |x d * A| ≤ |((M d).map fun q => x q.1 * q.2).sum| + |((M d).map fun q => x q.1 * q.2).sum - x d * A| := by
        have := abs_sub_abs_le_abs_sub (x d * A) ((M d).map fun q => x q.1 * q.2).sum
        rw [abs_sub_comm] at this
        linarith
      linarith
    rw [abs_mul, mul_comm] at h4
    exact lt_of_mul_lt_mul_left h4 hA0.le

variable {o : D} {o? : Option D} {dc : DayCountArg D} {G : List D} {w : World D P} {a : ℕ} {same : Bool} {ps : List (Product D)}
  {L : Product D → List (D × ℝ)} {e : Product D → D} {b : D → ℝ} {tenor : Option P}

theorem line_node (hd : dc.Usable) (hτ : GoodDayCount (dc.fn cal)) (ho : o?.or G.head? = some o) (hinc : G.Pairwise (· < ·))
    (hne : G ≠ []) (y : D → ℝ) {d : D} (hdG : d ∈ G) : lineAt (dc.fn cal) o G y d = y d := by
  have h1 := fitSpread_line (o? := o?) hd hτ ho hinc hne y d
  rw [fitSpread_call (zero_grid hd hτ ho hinc) y hdG] at h1
  exact (Except.ok.inj h1).symm

/-- The flows of the products maturing by a date. -/
def flowsBy (ps : List (Product D)) (L : Product D → List (D × ℝ)) (e : Product D → D) (d : D) : List (D × ℝ) :=
  ((ps.filter fun p => decide (e p ≤ d)).map L).flatten

theorem mem_flowsBy {d : D} {q : D × ℝ} (hL : ∀ p ∈ ps, ∀ q ∈ L p, q.1 ∈ G ∧ q.1 ≤ e p) (hq : q ∈ flowsBy ps L e d) :
    q.1 ∈ G ∧ q.1 ≤ d := by
  simp only [flowsBy, List.mem_flatten, List.mem_map, List.mem_filter, decide_eq_true_eq] at hq
  obtain ⟨_, ⟨p, ⟨hp, hpd⟩, rfl⟩, hq⟩ := hq
  exact ⟨(hL p hp q hq).1, (hL p hp q hq).2.trans hpd⟩

/-- Error of a discount factor. -/
noncomputable def factorGap (τ : D → D → ℝ) (o : D) (r y : D → ℝ) (t : D) : ℝ :=
  Real.exp (-(y t * τ o t)) - Real.exp (-(r t * τ o t))

theorem residual_flows (hd : dc.Usable) (hτ : GoodDayCount (dc.fn cal)) (ho : o?.or G.head? = some o)
    (hinc : G.Pairwise (· < ·)) (hne : G ≠ []) (hL : ∀ p ∈ ps, ∀ q ∈ L p, q.1 ∈ G ∧ q.1 ≤ e p) {r : D → ℝ} {pr : Product D → ℝ}
    (hpr : ∀ p ∈ ps, pr p = zeroValue (dc.fn cal) o (lineAt (dc.fn cal) o G r) (L p)) (b z : D → ℝ) (d : D) :
    residual (fun p y => zeroValue (dc.fn cal) o (fun t => lineAt (dc.fn cal) o G b t + lineAt (dc.fn cal) o G y t) (L p)) e
      (ps.zip (targetList (.list (ps.map pr)) ps.length)) d z =
    ((flowsBy ps L e d).map fun q => factorGap (dc.fn cal) o r (fun t => b t + z t) q.1 * q.2).sum := by
  have hzip : ∀ l : List (Product D), (∀ p ∈ l, p ∈ ps) →
      ((flowsBy l L e d).map fun q => factorGap (dc.fn cal) o r (fun t => b t + z t) q.1 * q.2).sum =
      (((l.zip (l.map pr)).filter fun q => decide (e q.1 ≤ d)).map fun q => zeroValue (dc.fn cal) o
        (fun t => lineAt (dc.fn cal) o G b t + lineAt (dc.fn cal) o G z t) (L q.1) - q.2).sum := by
    intro l
    simp only [flowsBy]
    induction l with
    | nil => simp
    | cons p l ih =>
      intro hl
      have ih := ih fun q hq => hl q (by simp [hq])
      by_cases hpd : e p ≤ d
      · simp only [List.filter_cons, hpd, decide_true, if_true, List.map_cons, List.flatten_cons, List.map_append, List.sum_append,
          List.zip_cons_cons, List.sum_cons, ih, add_left_inj]
        rw [hpr p (hl p (by simp)), zeroValue, zeroValue]
        have hq : ∀ q ∈ L p, q.1 ∈ G := fun q hq => (hL p (hl p (by simp)) q hq).1
        generalize L p = K at hq
        induction K with
        | nil => simp
        | cons q K ihK =>
          simp only [List.map_cons, List.sum_cons, ihK fun q h => hq q (by simp [h])]
          have hqG := hq q (by simp)
          rw [line_node (o? := o?) hd hτ ho hinc hne b hqG, line_node (o? := o?) hd hτ ho hinc hne z hqG,
            line_node (o? := o?) hd hτ ho hinc hne r hqG, factorGap]
          ring
      · simp only [List.filter_cons, hpd, decide_false, Bool.false_eq_true, if_false, List.zip_cons_cons, List.map_cons, ih]
  rw [hzip ps fun p hp => hp, residual, targetList, NumArg.expand]

theorem prices_zero (hd : dc.Usable) (hτ : GoodDayCount (dc.fn cal)) (ho : o?.or G.head? = some o)
    (hinc : G.Pairwise (· < ·)) (hne : G ≠ []) {r : D → ℝ} {pr : Product D → ℝ} (hp : ∀ p ∈ ps, FixedFlows cal w a o p (L p))
    (hpr : ∀ p ∈ ps, (pvOn cal a same (some o) p
        (w.setCurve a (irOf cal o o? dc none .zero tenor (G.map fun d => (d, r d))).obj)).1 = .ok (pr p)) :
    ∀ p ∈ ps, pr p = zeroValue (dc.fn cal) o (lineAt (dc.fn cal) o G r) (L p) := by
  intro p hps
  have := zero_pv (τ := dc.fn cal) (same := same) (w := w) (a := a) hτ (fun s t => irOf_dayCount cal hd s t)
    (irOf_origin cal (by rw [graph_fst]; exact ho)) (zero_call (tenor := tenor) hd hτ ho hinc hne r) (hp p hps)
  have h2 := hpr p hps
  rw [show (irOf cal o o? dc none .zero tenor (G.map fun d => (d, r d))).obj = ⟨_, .ir .zero⟩ from rfl, this] at h2
  exact (Except.ok.inj h2).symm

/-- C152: let the products have fixed flows on the dates of a zero rate curve, all after the origin, such that at each of its dates the
flows at this date of the products maturing there do not cancel.  Fitting any zero rate curve on these dates to the present values of the
products on a zero rate curve with the rates `r` gives, if it returns, the rates `r` as precisely as wanted. -/
theorem C152_recovered (hd : dc.Usable) (hk : dc.kwarg = dc) (hτ : GoodDayCount (dc.fn cal)) (ho : o?.or G.head? = some o)
    (hinc : G.Pairwise (· < ·)) (hne : G ≠ []) (hG : ∀ d ∈ G, o < d)
    (hL : ∀ p ∈ ps, ∀ q ∈ L p, q.1 ∈ G ∧ q.1 ≤ e p)
    (hA : ∀ d ∈ G, (((flowsBy ps L e d).filter fun q => decide (q.1 = d)).map Prod.snd).sum ≠ 0)
    (r : D → ℝ) {η : ℝ} (hη : 0 < η) :
    ∃ ε > 0, ∀ (w : World D P) (a : ℕ) (b : D → ℝ) (tenor : Option P) (same : Bool) (pr : Product D → ℝ),
      w.curves a = (irOf cal o o? dc none .zero tenor (G.map fun d => (d, b d))).obj →
      (∀ p ∈ ps, FixedFlows cal w a o p (L p)) → (∀ p ∈ ps, maxDate (w.product p).domain = .ok (e p)) →
      (∀ p ∈ ps, (pvOn cal a same (some o) p
        (w.setCurve a (irOf cal o o? dc none .zero tenor (G.map fun d => (d, r d))).obj)).1 = .ok (pr p)) →
      ∀ (limit : ℕ) (scipy : Bool) (sameD : D → Bool) (precision lo hi : ℝ) (data : List ℝ) (w' : World D P), precision ≤ ε →
      curveFit cal limit scipy sameD ps a same (some o) none none (.list (ps.map pr)) precision lo hi w = (.ok data, w') →
      w' = w ∧ ∃ y : D → ℝ, data = G.map y ∧ ∀ d ∈ G, |y d - r d| < η := by
  obtain ⟨ε, hε, hall⟩ := common_bound (Q := fun d ε => ∀ x : D → ℝ,
      (∀ d ∈ G, |((flowsBy ps L e d).map fun q => x q.1 * q.2).sum| < ε) →
      ∀ y, x d = Real.exp (-(y * dc.fn cal o d)) - Real.exp (-(r d * dc.fn cal o d)) → |y - r d| < η)
    (fun t ε ε' he h x hx => h x fun d hd => (hx d hd).trans_le he) G (fun d hdG => by
      obtain ⟨δ, hδ, h⟩ := rate_of_factor (r := r d) ((hτ.pos _ _).2 (hG d hdG)) hη
      obtain ⟨ε, hε, h'⟩ := triangular (fun d _ q hq => mem_flowsBy hL hq) hA _ d hdG rfl δ hδ
      exact ⟨ε, hε, fun x hx y hy => h y (by rw [← hy]; exact h' x hx)⟩)
  refine ⟨ε, hε, fun w a b tenor same pr hc hp he hpr limit scipy sameD precision lo hi data w' hprec hr => ?_⟩
  obtain ⟨hP, hcast, hb⟩ := zero_setup (a := a) hd hk hτ ho hinc hne hc hp he same limit scipy sameD
  have hS := C64_success (zero_grid hd hτ ho hinc) hP hinc (fitting := none) rfl hcast hb hr
  obtain ⟨z, rfl, hz⟩ := C64_reprices (zero_grid hd hτ ho hinc) hP (zero_local hτ hinc fun p hp q hq => (hL p hp q hq).2) hinc
    (fitting := none) rfl hcast hb hr
  have hpr' := prices_zero hd hτ ho hinc hne hp hpr
  refine ⟨hS.1, fun d => b d + z d, rfl, fun d hdG => ?_⟩
  refine hall d hdG (factorGap (dc.fn cal) o r fun t => b t + z t) (fun d hdG => ?_) _ rfl
  rw [← residual_flows hd hτ ho hinc hne hL hpr']
  exact (hz d hdG).2.trans_le hprec

/-- Moving the value at the last date of the flows. -/
theorem gap_update {l : List (D × ℝ)} {τ : D → D → ℝ} {r b z : D → ℝ} {d : D} (x : ℝ) :
    (l.map fun q => factorGap τ o r (fun t => b t + Function.update z d x t) q.1 * q.2).sum =
    (Real.exp (-((b d + x) * τ o d)) - Real.exp (-(r d * τ o d))) * ((l.filter fun q => decide (q.1 = d)).map Prod.snd).sum +
      ((l.filter fun q => !decide (q.1 = d)).map fun q => factorGap τ o r (fun t => b t + z t) q.1 * q.2).sum := by
  induction l with
  | nil => simp
  | cons q l ih =>
    simp only [List.map_cons, List.sum_cons, ih, List.filter_cons]
    by_cases hq : q.1 = d
    · simp only [hq, decide_true, if_true, Bool.not_true, Bool.false_eq_true, if_false, List.map_cons, List.sum_cons, factorGap,
        Function.update_self]
      ring
    · simp only [hq, decide_false, Bool.not_false, Bool.false_eq_true, if_false, if_true, List.map_cons, List.sum_cons, factorGap,
        Function.update_of_ne hq]
      ring

/-- C152: and if the rates `r` are in the range in which the fit looks for them, then it does return for every small enough precision,
provided the recursion limit is large enough. -/
theorem C152_returns (hd : dc.Usable) (hk : dc.kwarg = dc) (hτ : GoodDayCount (dc.fn cal)) (ho : o?.or G.head? = some o)
    (hinc : G.Pairwise (· < ·)) (hne : G ≠ []) (hG : ∀ d ∈ G, o < d)
    (hL : ∀ p ∈ ps, ∀ q ∈ L p, q.1 ∈ G ∧ q.1 ≤ e p)
    (hA : ∀ d ∈ G, (((flowsBy ps L e d).filter fun q => decide (q.1 = d)).map Prod.snd).sum ≠ 0)
    (hc : w.curves a = (irOf cal o o? dc none .zero tenor (G.map fun d => (d, b d))).obj)
    (hp : ∀ p ∈ ps, FixedFlows cal w a o p (L p)) (he : ∀ p ∈ ps, maxDate (w.product p).domain = .ok (e p)) {r : D → ℝ}
    {pr : Product D → ℝ} (hpr : ∀ p ∈ ps, (pvOn cal a same (some o) p
        (w.setCurve a (irOf cal o o? dc none .zero tenor (G.map fun d => (d, r d))).obj)).1 = .ok (pr p))
    {lo hi : ℝ} (hlo : ∀ d ∈ G, b d + lo < r d) (hhi : ∀ d ∈ G, r d < b d + hi) (scipy : Bool) (sameD : D → Bool) :
    ∃ ε > 0, ∀ precision, 0 < precision → precision ≤ ε → ∃ N, ∀ limit, N < limit → ∃ data,
      curveFit cal limit scipy sameD ps a same (some o) none none (.list (ps.map pr)) precision lo hi w = (.ok data, w) := by
  have hpr' := prices_zero hd hτ ho hinc hne hp hpr
  have hres := fun z d => residual_flows (e := e) hd hτ ho hinc hne hL hpr' b z d
  have hloc : Local G ps (fun p y => zeroValue (dc.fn cal) o
      (fun t => lineAt (dc.fn cal) o G b t + lineAt (dc.fn cal) o G y t) (L p)) e :=
    zero_local hτ hinc fun p hp q hq => (hL p hp q hq).2
  have hq : ∀ q ∈ ps.zip (targetList (.list (ps.map pr)) ps.length), q.1 ∈ ps := fun q hq => (List.of_mem_zip hq).1
  set A : D → ℝ := fun d => (((flowsBy ps L e d).filter fun q => decide (q.1 = d)).map Prod.snd).sum with hAdef
  -- the signs at the bounds
  obtain ⟨ε, hε, hall⟩ := common_bound (Q := fun d ε => ∀ y : D → ℝ,
      (∀ c ∈ G, c < d → |((flowsBy ps L e c).map fun q => factorGap (dc.fn cal) o r (fun t => b t + y t) q.1 * q.2).sum| < ε) →
      ((flowsBy ps L e d).map fun q => factorGap (dc.fn cal) o r (fun t => b t + Function.update y d lo t) q.1 * q.2).sum *
      ((flowsBy ps L e d).map fun q => factorGap (dc.fn cal) o r (fun t => b t + Function.update y d hi t) q.1 * q.2).sum ≤ 0)
    (fun d ε ε' he h y hy => h y fun c hc hcd => (hy c hc hcd).trans_le he) G (fun d hdG => by
      have ht := (hτ.pos _ _).2 (hG d hdG)
      set u := Real.exp (-((b d + lo) * dc.fn cal o d)) - Real.exp (-(r d * dc.fn cal o d)) with hu
      set v := Real.exp (-(r d * dc.fn cal o d)) - Real.exp (-((b d + hi) * dc.fn cal o d)) with hv
      have hu0 : 0 < u := sub_pos.2 (Real.exp_lt_exp.2 (by nlinarith [hlo d hdG]))
      have hv0 : 0 < v := sub_pos.2 (Real.exp_lt_exp.2 (by nlinarith [hhi d hdG]))
      set S := ((flowsBy ps L e d).map fun q => |q.2|).sum with hS
      have hS0 : 0 ≤ S := List.sum_nonneg fun y hy => by
        obtain ⟨q, -, rfl⟩ := List.mem_map.1 hy; exact abs_nonneg _
      have hA0 : 0 < |A d| := abs_pos.2 (hA d hdG)
      have hδ : 0 < |A d| * min u v / (S + 1) := by
        have := lt_min hu0 hv0
        positivity
      obtain ⟨ε, hε, h'⟩ := common_bound (Q := fun t ε => ∀ x : D → ℝ,
          (∀ c ∈ G.filter (· < d), |((flowsBy ps L e c).map fun q => x q.1 * q.2).sum| < ε) → |x t| < |A d| * min u v / (S + 1))
        (fun t ε ε' he h x hx => h x fun c hc => (hx c hc).trans_le he) (G.filter (· < d)) (fun t ht => by
          exact triangular (G := G.filter (· < d)) (M := flowsBy ps L e) (fun c hc q hq => by
            have := mem_flowsBy hL hq
            simp only [List.mem_filter, decide_eq_true_eq] at hc ⊢
            exact ⟨⟨this.1, this.2.trans_lt hc.2⟩, this.2⟩) (fun c hc => hA c (List.mem_filter.1 hc).1) _ t ht rfl _ hδ)
      refine ⟨ε, hε, fun y hy => ?_⟩
      rw [gap_update, gap_update]
      set s := (((flowsBy ps L e d).filter fun q => !decide (q.1 = d)).map fun q =>
        factorGap (dc.fn cal) o r (fun t => b t + y t) q.1 * q.2).sum with hs
      have hsmall : |s| ≤ |A d| * min u v := by
        have key : ∀ l : List (D × ℝ), (∀ q ∈ l, q.1 ∈ G ∧ q.1 ≤ d) →
            |((l.filter fun q => !decide (q.1 = d)).map fun q => factorGap (dc.fn cal) o r (fun t => b t + y t) q.1 * q.2).sum| ≤
              |A d| * min u v / (S + 1) * (l.map fun q => |q.2|).sum := by
          intro l
          induction l with
          | nil => simp
          | cons q l ihl =>
            intro hl
            have := ihl fun q hq => hl q (by simp [hq])
            rw [List.filter_cons, List.map_cons, List.sum_cons, mul_add]
            by_cases hqd : q.1 = d
            · simp only [hqd, decide_true, Bool.not_true, Bool.false_eq_true, if_false]
              have := mul_nonneg hδ.le (abs_nonneg q.2)
              linarith
            · simp only [hqd, decide_false, Bool.not_false, if_true, List.map_cons, List.sum_cons]
              refine (abs_add_le _ _).trans (add_le_add ?_ this)
              rw [abs_mul]
              refine mul_le_mul_of_nonneg_right (h' q.1 ?_ _ fun c hc => ?_).le (abs_nonneg _)
              · have := hl q (by simp)
                simp only [List.mem_filter, decide_eq_true_eq]
                exact ⟨this.1, lt_of_le_of_ne this.2 hqd⟩
              · simp only [List.mem_filter, decide_eq_true_eq] at hc
                exact hy c hc.1 hc.2
        refine (key _ fun q hq => mem_flowsBy hL hq).trans ?_
        rw [← hS, div_mul_eq_mul_div, div_le_iff₀ (by linarith)]
        have : 0 ≤ |A d| * min u v := mul_nonneg hA0.le (le_min hu0.le hv0.le)
        nlinarith
      have hmu : |A d| * min u v ≤ |A d| * u := mul_le_mul_of_nonneg_left (min_le_left _ _) hA0.le
      have hmv : |A d| * min u v ≤ |A d| * v := mul_le_mul_of_nonneg_left (min_le_right _ _) hA0.le
      have hsb := abs_le.1 hsmall
      have e2 : Real.exp (-((b d + hi) * dc.fn cal o d)) - Real.exp (-(r d * dc.fn cal o d)) = -v := by rw [hv]; ring
      rw [e2]
      change (u * A d + s) * (-v * A d + s) ≤ 0
      rcases lt_or_gt_of_ne (hA d hdG) with hneg | hpos
      · change A d < 0 at hneg
        rw [abs_of_neg hneg] at hmu hmv hsb
        exact mul_nonpos_of_nonpos_of_nonneg (by nlinarith) (by nlinarith)
      · change A d > 0 at hpos
        rw [abs_of_pos hpos] at hmu hmv hsb
        exact mul_nonpos_of_nonneg_of_nonpos (by nlinarith) (by nlinarith))
  refine ⟨ε, hε, fun precision h0 hprec => ?_⟩
  -- the slope
  set K := |lo| + |hi| with hK
  set Lip := (G.map fun d => |A d| * (Real.exp ((|b d| + K) * dc.fn cal o d) * dc.fn cal o d)).sum with hLip
  have hnn : ∀ d ∈ G, 0 ≤ |A d| * (Real.exp ((|b d| + K) * dc.fn cal o d) * dc.fn cal o d) := fun d hdG => by
    have ht := (hτ.pos _ _).2 (hG d hdG)
    positivity
  have hLipd : ∀ d ∈ G, |A d| * (Real.exp ((|b d| + K) * dc.fn cal o d) * dc.fn cal o d) ≤ Lip := fun d hdG =>
    List.single_le_sum (fun x hx => by obtain ⟨c, hc, rfl⟩ := List.mem_map.1 hx; exact hnn c hc) _ (List.mem_map.2 ⟨d, hdG, rfl⟩)
  obtain ⟨n, hn⟩ := pow_unbounded_of_one_lt ((|hi - lo| + Lip * |hi - lo|) / precision) (one_lt_two (α := ℝ))
  rw [div_lt_iff₀ h0, mul_comm] at hn
  obtain ⟨d0, hd0⟩ := List.exists_mem_of_ne_nil _ hne
  have hLip0 : 0 ≤ Lip := (hnn d0 hd0).trans (hLipd d0 hd0)
  have hm := mul_nonneg hLip0 (abs_nonneg (hi - lo))
  refine ⟨n, fun limit hlim => ?_⟩
  obtain ⟨hP, hcast, hb⟩ := zero_setup (a := a) hd hk hτ ho hinc hne hc hp he same limit scipy sameD
  have hlh : lo ≤ hi := by linarith [hlo d0 hd0, hhi d0 hd0]
  refine C64_exists (L := Lip) (n := n) (zero_grid hd hτ ho hinc) hP hinc rfl (by rw [hc]; rfl) hcast hb rfl h0 ?_ ?_
    (by linarith [abs_nonneg (hi - lo)]) (by linarith [abs_nonneg (hi - lo)]) hlim
  · intro d hdG y _ _ x hx x' hx'
    have ht := (hτ.pos _ _).2 (hG d hdG)
    have hbound : ∀ x ∈ Set.uIcc lo hi, -((b d + x) * dc.fn cal o d) ≤ (|b d| + K) * dc.fn cal o d := by
      intro x hx
      rw [Set.uIcc_of_le hlh, Set.mem_Icc] at hx
      have h1 : -x ≤ K := by
        have := neg_abs_le lo
        have := abs_nonneg hi
        rw [hK]; linarith
      have h2 := neg_abs_le (b d)
      nlinarith
    rw [hres, hres, gap_update, gap_update]
    rw [show ∀ p q A s t : ℝ, ((p - t) * A + s) - ((q - t) * A + s) = (p - q) * A by intros; ring, abs_mul]
    have := exp_lip (hbound x hx) (hbound x' hx')
    rw [show -((b d + x') * dc.fn cal o d) - -((b d + x) * dc.fn cal o d) = -(dc.fn cal o d * (x' - x)) by ring, abs_neg, abs_mul,
      abs_of_pos ht] at this
    have h2 := mul_le_mul_of_nonneg_right (hLipd d hdG) (abs_nonneg (x' - x))
    have h3 := mul_le_mul_of_nonneg_right this (abs_nonneg (A d))
    refine h3.trans (le_trans (le_of_eq ?_) h2)
    ring
  · intro d hdG y hy _
    rw [hres, hres]
    refine hall d hdG y fun c hcG hcd => ?_
    have := (hy c hcG hcd).2
    rw [residual_upTo hloc hq hcG, hres] at this
    exact this.trans_le hprec

end

/-- Non-vacuity: the two products of the example of C64, priced at 6%, give back 6%. -/
example {η : ℝ} (hη : 0 < η) : ∃ precision > 0, ∃ limit, ∃ y : ℝ → ℝ,
    curveFit floatCal limit false (fun _ => false) [.list 0, .list 1] 0 false (some 0) none none
      (.list [Real.exp (-(3 / 50)), Real.exp (-(3 / 50)) + 2 * Real.exp (-(9 / 50))]) precision (-(1 / 10)) (1 / 5)
      fitWorld = (.ok [y 1, y 3], fitWorld) ∧ |y 1 - 3 / 50| < η ∧ |y 3 - 3 / 50| < η := by
  have hps : ∀ p ∈ [Product.list 0, Product.list 1], ∃ i, p = (Product.list i : Product ℝ) := by simp
  have t1 : (DayCountArg.default.fn floatCal) 0 1 = 1 := by simp [DayCountArg.fn, floatCal]
  have t3 : (DayCountArg.default.fn floatCal) 0 3 = 3 := by simp [DayCountArg.fn, floatCal]
  have hinc : [(1 : ℝ), 3].Pairwise (· < ·) := by norm_num
  have hpays : ∀ p ∈ [Product.list 0, Product.list 1], FixedFlows floatCal fitWorld 0 0 p (fitFlows p) :=
    fun p hp => by obtain ⟨i, rfl⟩ := hps p hp; exact fitWorld_pays 0 i
  have hlast : ∀ p ∈ [Product.list 0, Product.list 1], maxDate (fitWorld.product p).domain = .ok (fitEnds p) :=
    fun p hp => by obtain ⟨i, rfl⟩ := hps p hp; exact fitWorld_last i
  have hG : ∀ d ∈ [(1 : ℝ), 3], (0 : ℝ) < d := by simp
  have hL : ∀ p ∈ [Product.list 0, Product.list 1], ∀ q ∈ fitFlows p, q.1 ∈ [(1 : ℝ), 3] ∧ q.1 ≤ fitEnds p := by
    norm_num [fitFlows, fitEnds]
    rintro a b (⟨rfl, rfl⟩ | ⟨rfl, rfl⟩) <;> norm_num
  have hA : ∀ d ∈ [(1 : ℝ), 3],
      (((flowsBy [.list 0, .list 1] fitFlows fitEnds d).filter fun q => decide (q.1 = d)).map Prod.snd).sum ≠ 0 := by
    norm_num [flowsBy, fitFlows, fitEnds]
  set pr : Product ℝ → ℝ := fun p => zeroValue (DayCountArg.default.fn floatCal) 0
    (lineAt (DayCountArg.default.fn floatCal) 0 [1, 3] fun _ => 3 / 50) (fitFlows p) with hpr
  have hl : [Product.list 0, Product.list 1].map pr = [Real.exp (-(3 / 50)), Real.exp (-(3 / 50)) + 2 * Real.exp (-(9 / 50))] := by
    have l1 := line_node (cal := floatCal) (o? := some (0 : ℝ)) (dc := .default) (o := 0) trivial goodDayCount_real rfl hinc (by simp)
      (fun _ => 3 / 50) (d := 1) (by simp)
    have l3 := line_node (cal := floatCal) (o? := some (0 : ℝ)) (dc := .default) (o := 0) trivial goodDayCount_real rfl hinc (by simp)
      (fun _ => 3 / 50) (d := 3) (by simp)
    norm_num [hpr, fitFlows, zeroValue, l1, l3, t1, t3]
    ring
  have hprice : ∀ p ∈ [Product.list 0, Product.list 1], (pvOn floatCal 0 false (some 0) p (fitWorld.setCurve 0
      (irOf floatCal 0 (some 0) .default none .zero none ([1, 3].map fun d => (d, 3 / 50))).obj)).1 = .ok (pr p) := by
    intro p hp
    rw [show (irOf floatCal 0 (some 0) .default none .zero none ([1, 3].map fun d => (d, 3 / 50))).obj = ⟨_, .ir .zero⟩ from rfl]
    exact congrArg Prod.fst <| zero_pv (same := false) (τ := DayCountArg.default.fn floatCal) goodDayCount_real (fun s t => irOf_dayCount (dc := .default) floatCal trivial s t)
      (irOf_origin (o? := some 0) floatCal (by rw [graph_fst]; rfl))
      (zero_call (tenor := none) (dc := .default) (o? := some 0) trivial goodDayCount_real rfl hinc (by simp) fun _ => 3 / 50) (hpays p hp)
  obtain ⟨ε, hε, h1⟩ := C152_recovered (cal := floatCal) (o := 0) (o? := some (0 : ℝ)) (dc := .default) trivial rfl goodDayCount_real rfl
    hinc (by simp) hG hL hA (fun _ => 3 / 50) hη
  obtain ⟨ε', hε', h2⟩ := C152_returns (cal := floatCal) (o := 0) (o? := some (0 : ℝ)) (dc := .default) (a := 0) (b := fun _ => 1 / 20)
    (tenor := none) (same := false) (r := fun _ => 3 / 50) (pr := pr) (lo := -(1 / 10)) (hi := 1 / 5) trivial rfl goodDayCount_real rfl
    hinc (by simp) hG hL hA rfl hpays hlast hprice (by norm_num) (by norm_num) false fun _ => false
  obtain ⟨N, h2⟩ := h2 (min ε ε') (lt_min hε hε') (min_le_right _ _)
  obtain ⟨data, h2⟩ := h2 (N + 1) (Nat.lt_succ_self N)
  obtain ⟨-, y, rfl, hy⟩ := h1 fitWorld 0 (fun _ => 1 / 20) none false pr rfl hpays hlast hprice _ _ _ _ _ _ _ _ (min_le_left _ _) h2
  refine ⟨_, lt_min hε hε', N + 1, y, ?_, hy 1 (by simp), hy 3 (by simp)⟩
  rw [← hl]
  exact h2

end Dcf
