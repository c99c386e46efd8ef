import Verif.Props.CurveRecovered

/-! # Curve fits to prices that are sums over the grid dates of increasing functions of the values there -/

set_option linter.unusedSectionVars false
set_option linter.unusedVariables false
set_option linter.unusedSimpArgs false

namespace Dcf

open Spec

section
variable {D P ι : Type} [LinearOrder D] {cal : Cal D P} {G : List D} {M : D → List ι} {pos : ι → D} {g : ι → ℝ → ℝ} {r : D → ℝ}

/-- Sum of the terms. -/
def terms (pos : ι → D) (g : ι → ℝ → ℝ) (l : List ι) (x : D → ℝ) : ℝ := (l.map fun q => g q (x (pos q))).sum

/-- Sum of the terms at a date as function of the value there. -/
def ownTerms (M : D → List ι) (pos : ι → D) (g : ι → ℝ → ℝ) (d : D) (x : ℝ) : ℝ :=
  (((M d).filter fun q => decide (pos q = d)).map fun q => g q x).sum

/-- Terms at grid dates, those up to each date summed, with a common root, and increasing in the value at the last date. -/
structure Solvable (G : List D) (M : D → List ι) (pos : ι → D) (g : ι → ℝ → ℝ) (r : D → ℝ) : Prop where
  mem : ∀ d ∈ G, ∀ q ∈ M d, pos q ∈ G ∧ pos q ≤ d
  nonneg : ∀ d ∈ G, 0 ≤ r d
  zero : ∀ d ∈ G, ∀ q ∈ M d, g q (r (pos q)) = 0
  lip : ∀ d ∈ G, ∀ q ∈ M d, ∃ B, 0 ≤ B ∧ ∀ x, 0 ≤ x → ∀ x', 0 ≤ x' → |g q x' - g q x| ≤ B * |x' - x|
  mono : ∀ d ∈ G, StrictMonoOn (ownTerms M pos g d) (Set.Ici 0)

theorem filter_lt_length {t d : D} (htd : t < d) : ∀ {l : List D}, t ∈ l → (l.filter (· < t)).length < (l.filter (· < d)).length
  | [], h => by simp at h
  | b :: l, hb => by
    have hle : (l.filter (· < t)).length ≤ (l.filter (· < d)).length := by
      rw [← List.countP_eq_length_filter, ← List.countP_eq_length_filter]
      exact List.countP_mono_left fun a _ h => by simp only [decide_eq_true_eq] at h ⊢; exact h.trans htd
    rcases List.mem_cons.1 hb with rfl | hb
    · simp [List.filter_cons, htd]; omega
    · have := filter_lt_length htd hb
      by_cases h1 : b < t
      · simp [List.filter_cons, h1, h1.trans htd]; omega
      · simp only [List.filter_cons, h1, decide_false, Bool.false_eq_true, if_false]
        split_ifs <;> simp <;> omega

theorem terms_split (d : D) (l : List ι) (x : D → ℝ) :
    terms pos g l x = ((l.filter fun q => decide (pos q = d)).map fun q => g q (x d)).sum +
      terms pos g (l.filter fun q => !decide (pos q = d)) x := by
  induction l with
  | nil => simp [terms]
  | cons q l ih =>
    simp only [terms, List.map_cons, List.sum_cons, List.filter_cons] at ih ⊢
    by_cases hq : pos q = d
    · simp only [hq, decide_true, if_true, Bool.not_true, Bool.false_eq_true, if_false, List.map_cons, List.sum_cons, ih]
      ring
    · simp only [hq, decide_false, Bool.not_false, Bool.false_eq_true, if_false, if_true, List.map_cons, List.sum_cons, ih]
      ring

theorem own_zero (h : Solvable G M pos g r) {d : D} (hd : d ∈ G) : ownTerms M pos g d (r d) = 0 := by
  rw [ownTerms]
  apply List.sum_eq_zero
  intro y hy
  obtain ⟨q, hq, rfl⟩ := List.mem_map.1 hy
  simp only [List.mem_filter, decide_eq_true_eq] at hq
  rw [← hq.2]
  exact h.zero d hd q hq.1

theorem own_lip (h : Solvable G M pos g r) {d : D} (hd : d ∈ G) :
    ∃ B, 0 ≤ B ∧ ∀ x, 0 ≤ x → ∀ x', 0 ≤ x' → |ownTerms M pos g d x' - ownTerms M pos g d x| ≤ B * |x' - x| := by
  have key : ∀ l : List ι, (∀ q ∈ l, q ∈ M d) → ∃ B, 0 ≤ B ∧ ∀ x, 0 ≤ x → ∀ x', 0 ≤ x' →
      |(l.map fun q => g q x').sum - (l.map fun q => g q x).sum| ≤ B * |x' - x| := by
    intro l
    induction l with
    | nil => exact fun _ => ⟨0, le_refl _, by simp⟩
    | cons q l ih =>
      intro hl
      obtain ⟨B, hB, h1⟩ := ih fun q hq => hl q (by simp [hq])
      obtain ⟨B', hB', h2⟩ := h.lip d hd q (hl q (by simp))
      refine ⟨B' + B, by positivity, fun x hx x' hx' => ?_⟩
      simp only [List.map_cons, List.sum_cons]
      rw [show ∀ a b s t : ℝ, a + s - (b + t) = (a - b) + (s - t) by intros; ring, add_mul]
      exact (abs_add_le _ _).trans (add_le_add (h2 x hx x' hx') (h1 x hx x' hx'))
  exact key _ fun q hq => (List.mem_filter.1 hq).1

/-- The terms before a date are small if the values there are near the root. -/
theorem early_small (h : Solvable G M pos g r) {d : D} (hd : d ∈ G) :
    ∃ B, 0 ≤ B ∧ ∀ (x : D → ℝ) (η : ℝ), (∀ t ∈ G, t < d → 0 ≤ x t ∧ |x t - r t| ≤ η) →
      |terms pos g ((M d).filter fun q => !decide (pos q = d)) x| ≤ B * η := by
  have key : ∀ l : List ι, (∀ q ∈ l, q ∈ M d ∧ pos q ≠ d) → ∃ B, 0 ≤ B ∧ ∀ (x : D → ℝ) (η : ℝ),
      (∀ t ∈ G, t < d → 0 ≤ x t ∧ |x t - r t| ≤ η) → |terms pos g l x| ≤ B * η := by
    intro l
    induction l with
    | nil => exact fun _ => ⟨0, le_refl _, by simp [terms]⟩
    | cons q l ih =>
      intro hl
      obtain ⟨B, hB, h1⟩ := ih fun q hq => hl q (by simp [hq])
      obtain ⟨hq, hqd⟩ := hl q (by simp)
      obtain ⟨B', hB', h2⟩ := h.lip d hd q hq
      obtain ⟨hm, hle⟩ := h.mem d hd q hq
      refine ⟨B' + B, by positivity, fun x η hx => ?_⟩
      obtain ⟨hx1, hx2⟩ := hx _ hm (lt_of_le_of_ne hle hqd)
      have h3 := h2 (r (pos q)) (h.nonneg _ hm) (x (pos q)) hx1
      rw [h.zero d hd q hq, sub_zero] at h3
      have h4 := h1 x η hx
      simp only [terms, List.map_cons, List.sum_cons] at h4 ⊢
      rw [add_mul]
      exact (abs_add_le _ _).trans (add_le_add (h3.trans (mul_le_mul_of_nonneg_left hx2 hB')) h4)
  exact key _ fun q hq => by simpa using hq

/-- Small values of increasing terms come from values near the root. -/
theorem own_inverse (h : Solvable G M pos g r) {d : D} (hd : d ∈ G) {η : ℝ} (hη : 0 < η) :
    ∃ δ > 0, ∀ x, 0 ≤ x → |ownTerms M pos g d x| < δ → |x - r d| < η := by
  have h0 := own_zero h hd
  have hr := h.nonneg d hd
  have hup : 0 < ownTerms M pos g d (r d + η) := by
    rw [← h0]
    exact h.mono d hd hr (show (0 : ℝ) ≤ r d + η by linarith) (by linarith)
  by_cases hlow : 0 ≤ r d - η
  · have hdn : ownTerms M pos g d (r d - η) < 0 := by
      rw [← h0]
      exact h.mono d hd hlow hr (by linarith)
    refine ⟨min (ownTerms M pos g d (r d + η)) (-ownTerms M pos g d (r d - η)), lt_min hup (by linarith), fun x hx hs => ?_⟩
    rw [lt_min_iff, abs_lt, abs_lt] at hs
    obtain ⟨⟨-, h1⟩, h2, -⟩ := hs
    rw [abs_lt]
    constructor
    · by_contra hn
      have := (h.mono d hd).monotoneOn hx hlow (by linarith)
      linarith
    · by_contra hn
      have := (h.mono d hd).monotoneOn (show (0 : ℝ) ≤ r d + η by linarith) hx (by linarith)
      linarith
  · refine ⟨_, hup, fun x hx hs => ?_⟩
    rw [abs_lt] at hs ⊢
    refine ⟨by linarith, ?_⟩
    by_contra hn
    have := (h.mono d hd).monotoneOn (show (0 : ℝ) ≤ r d + η by linarith) hx (by linarith)
    linarith [hs.2]

/-- If the sums of the terms up to each date are small, then the values are near the root. -/
theorem solved (h : Solvable G M pos g r) :
    ∀ (n : ℕ) (d : D), d ∈ G → (G.filter (· < d)).length = n → ∀ η > 0, ∃ ε > 0, ∀ x : D → ℝ,
      (∀ t ∈ G, t ≤ d → 0 ≤ x t) → (∀ c ∈ G, c ≤ d → |terms pos g (M c) x| < ε) → |x d - r d| < η := by
  intro n
  induction n using Nat.strong_induction_on with
  | _ n ih =>
    intro d hd hn η hη
    obtain ⟨δ, hδ, hinv⟩ := own_inverse h hd hη
    obtain ⟨B, hB, hearly⟩ := early_small h hd
    have hη' : 0 < δ / (2 * (B + 1)) := by positivity
    obtain ⟨ε, hε, hall⟩ := common_bound (Q := fun t ε => t < d → ∀ x : D → ℝ, (∀ t ∈ G, t ≤ d → 0 ≤ x t) →
        (∀ c ∈ G, c ≤ d → |terms pos g (M c) x| < ε) → |x t - r t| < δ / (2 * (B + 1)))
      (fun t ε ε' he h ht x hx0 hx => h ht x hx0 fun d hd hc => (hx d hd hc).trans_le he) G (fun t ht => by
        by_cases htd : t < d
        · obtain ⟨ε, hε, h⟩ := ih _ (hn ▸ filter_lt_length htd ht) t ht rfl _ hη'
          exact ⟨ε, hε, fun _ x hx0 hx => h x (fun s hs hst => hx0 s hs (hst.trans htd.le)) fun c hc hct => hx c hc (hct.trans htd.le)⟩
        · exact ⟨1, one_pos, fun h => absurd h htd⟩)
    refine ⟨min ε (δ / 2), lt_min hε (by positivity), fun x hx0 hx => hinv _ (hx0 d hd le_rfl) ?_⟩
    have h1 := (hx d hd le_rfl).trans_le (min_le_right _ _)
    rw [terms_split d] at h1
    have h2 := hearly x _ fun t ht htd => ⟨hx0 t ht htd.le, (hall t ht htd x hx0 fun c hc hcd =>
      (hx c hc hcd).trans_le (min_le_left _ _)).le⟩
    have h3 : B * (δ / (2 * (B + 1))) < δ / 2 := by
      rw [mul_div_assoc', div_lt_div_iff₀ (by positivity) (by norm_num)]
      nlinarith
    have h4 : ownTerms M pos g d (x d) = (((M d).filter fun q => decide (pos q = d)).map fun q => g q (x d)).sum := rfl
    rw [← h4] at h1
    have h5 := abs_le.1 (h2.trans h3.le)
    rw [abs_lt] at h1 ⊢
    have h6 := abs_lt.1 (h2.trans_lt h3)
    constructor <;> linarith [h6.1, h6.2, h1.1, h1.2]

theorem terms_update (d : D) (x : D → ℝ) (y : ℝ) : terms pos g (M d) (Function.update x d y) =
    ownTerms M pos g d y + terms pos g ((M d).filter fun q => !decide (pos q = d)) x := by
  rw [terms_split d, Function.update_self]
  congr 1
  rw [terms, terms, List.map_congr_left]
  intro q hq
  have : pos q ≠ d := by simpa using (List.mem_filter.1 hq).2
  rw [Function.update_of_ne this]

/-- And with the earlier values near the root the sum changes its sign between values below and above the root. -/
theorem bracketed (h : Solvable G M pos g r) {d : D} (hd : d ∈ G) {lo hi : ℝ} (h0 : 0 ≤ lo) (hlo : lo < r d) (hhi : r d < hi) :
    ∃ ε > 0, ∀ x : D → ℝ, (∀ t ∈ G, t < d → 0 ≤ x t) → (∀ c ∈ G, c < d → |terms pos g (M c) x| < ε) →
      terms pos g (M d) (Function.update x d lo) * terms pos g (M d) (Function.update x d hi) ≤ 0 := by
  have hz := own_zero h hd
  have hu : ownTerms M pos g d lo < 0 := by
    rw [← hz]
    exact h.mono d hd h0 (h.nonneg d hd) hlo
  have hv : 0 < ownTerms M pos g d hi := by
    rw [← hz]
    exact h.mono d hd (h.nonneg d hd) (show (0 : ℝ) ≤ hi by linarith) hhi
  obtain ⟨B, hB, hearly⟩ := early_small h hd
  set m := min (-ownTerms M pos g d lo) (ownTerms M pos g d hi) with hm
  have hm0 : 0 < m := lt_min (by linarith) hv
  have hη : 0 < m / (B + 1) := by positivity
  obtain ⟨ε, hε, hall⟩ := common_bound (Q := fun t ε => t < d → ∀ x : D → ℝ, (∀ t ∈ G, t < d → 0 ≤ x t) →
      (∀ c ∈ G, c < d → |terms pos g (M c) x| < ε) → |x t - r t| < m / (B + 1))
    (fun t ε ε' he h ht x hx0 hx => h ht x hx0 fun d hd hc => (hx d hd hc).trans_le he) G (fun t ht => by
      by_cases htd : t < d
      · obtain ⟨ε, hε, h⟩ := solved h _ t ht rfl _ hη
        exact ⟨ε, hε, fun _ x hx0 hx => h x (fun s hs hst => hx0 s hs (hst.trans_lt htd)) fun c hc hct => hx c hc (hct.trans_lt htd)⟩
      · exact ⟨1, one_pos, fun h => absurd h htd⟩)
  refine ⟨ε, hε, fun x hx0 hx => ?_⟩
  rw [terms_update, terms_update]
  have h2 := hearly x _ fun t ht htd => ⟨hx0 t ht htd, (hall t ht htd x hx0 hx).le⟩
  have h3 : B * (m / (B + 1)) ≤ m := by
    rw [mul_div_assoc', div_le_iff₀ (by positivity)]
    nlinarith
  have h4 := abs_le.1 (h2.trans h3)
  have m1 : m ≤ -ownTerms M pos g d lo := min_le_left _ _
  have m2 : m ≤ ownTerms M pos g d hi := min_le_right _ _
  exact mul_nonpos_of_nonpos_of_nonneg (by linarith [h4.2]) (by linarith [h4.1])

variable {o : D} {o? : Option D} {dc : DayCountArg D} {dflt : FuncSpec} {w : World D P} {a disc : ℕ} {same : Bool} {vd : Option D}
  {ps : List (Product D)} {V : Product D → (D → ℝ) → ℝ} {e : Product D → D} {b : D → ℝ} {target : NumArg}

/-- A fit whose gaps are such sums gives the root as precisely as wanted. -/
theorem fit_solved (hG : FitGrid cal o o? dc dflt G) (hP : Priced cal o o? dc dflt G w a disc same vd ps V e)
    (hloc : Local G ps V e) (hinc : G.Pairwise (· < ·)) (h : Solvable G M pos g r)
    (hres : ∀ d ∈ G, ∀ z : D → ℝ, residual V e (ps.zip (targetList target ps.length)) d z =
      terms pos g (M d) fun t => b t + z t) {lo hi : ℝ} (hlo : ∀ d ∈ G, ∀ x ∈ Set.uIcc lo hi, 0 ≤ b d + x)
    (hb : ∀ d ∈ G, (w.curves a).toRateCurve.call cal d = .ok (b d)) {η : ℝ} (hη : 0 < η) :
    ∃ ε > 0, ∀ (limit : ℕ) (scipy : Bool) (sameD : D → Bool) (fitting : Option ℕ) (grid : Option (List D)) (y0 : D → ℝ) (precision : ℝ)
      (data : List ℝ) (w' : World D P), fitting.getD disc = a →
      (w.curves a).castOn cal scipy limit sameD (grid.getD (w.curves a).base.domain) = .ok (fitSpread cal o o? dc dflt G y0) →
      precision ≤ ε → curveFit cal limit scipy sameD ps disc same vd fitting grid target precision lo hi w = (.ok data, w') →
      w' = w ∧ ∃ y : D → ℝ, data = G.map y ∧ ∀ d ∈ G, |y d - r d| < η := by
  obtain ⟨ε, hε, hall⟩ := common_bound (Q := fun d ε => ∀ x : D → ℝ, (∀ t ∈ G, t ≤ d → 0 ≤ x t) →
      (∀ c ∈ G, c ≤ d → |terms pos g (M c) x| < ε) → |x d - r d| < η)
    (fun d ε ε' he h x h0 hx => h x h0 fun c hc hcd => (hx c hc hcd).trans_le he) G fun d hd => solved h _ d hd rfl η hη
  refine ⟨ε, hε, fun limit scipy sameD fitting grid y0 precision data w' ha hcast hprec hr => ?_⟩
  have hS := C64_success hG hP hinc ha hcast hb hr
  obtain ⟨z, rfl, hz⟩ := C64_reprices hG hP hloc hinc ha hcast hb hr
  refine ⟨hS.1, fun d => b d + z d, rfl, fun d hd => hall d hd (fun t => b t + z t)
    (fun t ht _ => hlo t ht _ (hz t ht).1) fun c hc _ => ?_⟩
  rw [← hres c hc]
  exact (hz c hc).2.trans_le hprec

/-- And it does return for small precisions and large recursion limits. -/
theorem fit_returns (hG : FitGrid cal o o? dc dflt G) (hP : Priced cal o o? dc dflt G w a disc same vd ps V e)
    (hloc : Local G ps V e) (hinc : G.Pairwise (· < ·)) (hne : G ≠ []) (h : Solvable G M pos g r)
    (hres : ∀ d ∈ G, ∀ z : D → ℝ, residual V e (ps.zip (targetList target ps.length)) d z =
      terms pos g (M d) fun t => b t + z t) {lo hi : ℝ} (h0 : ∀ d ∈ G, 0 ≤ b d + lo) (hlo : ∀ d ∈ G, b d + lo < r d)
    (hhi : ∀ d ∈ G, r d < b d + hi) (hsp : (w.curves a).spread = none)
    (hb : ∀ d ∈ G, (w.curves a).toRateCurve.call cal d = .ok (b d)) {scipy : Bool} {sameD : D → Bool} {fitting : Option ℕ}
    (ha : fitting.getD disc = a) {grid : Option (List D)} {y0 : D → ℝ} {m : ℕ} (hcast : ∀ limit, m ≤ limit →
      (w.curves a).castOn cal scipy limit sameD (grid.getD (w.curves a).base.domain) = .ok (fitSpread cal o o? dc dflt G y0)) :
    ∃ ε > 0, ∀ precision, 0 < precision → precision ≤ ε → ∃ N, ∀ limit, N < limit → ∃ data,
      curveFit cal limit scipy sameD ps disc same vd fitting grid target precision lo hi w = (.ok data, w) := by
  have hq : ∀ q ∈ ps.zip (targetList target ps.length), q.1 ∈ ps := fun q hq => (List.of_mem_zip hq).1
  obtain ⟨d0, hd0⟩ := List.exists_mem_of_ne_nil _ hne
  have hlh : lo ≤ hi := by linarith [hlo d0 hd0, hhi d0 hd0]
  have hpos : ∀ d ∈ G, ∀ x ∈ Set.uIcc lo hi, 0 ≤ b d + x := fun d hd x hx => by
    rw [Set.uIcc_of_le hlh, Set.mem_Icc] at hx
    linarith [h0 d hd, hx.1]
  have hupd : ∀ (y : D → ℝ) (d : D) (x : ℝ), (fun t => b t + Function.update y d x t) =
      Function.update (fun t => b t + y t) d (b d + x) := by
    intro y d x
    funext t
    by_cases ht : t = d
    · subst ht; simp
    · simp [ht]
  obtain ⟨ε, hε, hall⟩ := common_bound (Q := fun d ε => ∀ x : D → ℝ, (∀ t ∈ G, t < d → 0 ≤ x t) →
      (∀ c ∈ G, c < d → |terms pos g (M c) x| < ε) →
      terms pos g (M d) (Function.update x d (b d + lo)) * terms pos g (M d) (Function.update x d (b d + hi)) ≤ 0)
    (fun d ε ε' he h x h0 hx => h x h0 fun c hc hcd => (hx c hc hcd).trans_le he) G
    fun d hd => bracketed h hd (h0 d hd) (hlo d hd) (hhi d hd)
  refine ⟨ε, hε, fun precision hp hprec => ?_⟩
  obtain ⟨L, hL, hlip⟩ : ∃ L, 0 ≤ L ∧ ∀ d ∈ G, ∀ x, 0 ≤ x → ∀ x', 0 ≤ x' →
      |ownTerms M pos g d x' - ownTerms M pos g d x| ≤ L * |x' - x| := by
    have : ∀ l : List D, (∀ d ∈ l, d ∈ G) → ∃ L, 0 ≤ L ∧ ∀ d ∈ l, ∀ x, 0 ≤ x → ∀ x', 0 ≤ x' →
        |ownTerms M pos g d x' - ownTerms M pos g d x| ≤ L * |x' - x| := by
      intro l
      induction l with
      | nil => exact fun _ => ⟨0, le_rfl, by simp⟩
      | cons d l ih =>
        intro hl
        obtain ⟨L, hL, h1⟩ := ih fun d hd => hl d (by simp [hd])
        obtain ⟨B, hB, h2⟩ := own_lip h (hl d (by simp))
        refine ⟨L + B, by positivity, fun c hc x hx x' hx' => ?_⟩
        have ha := abs_nonneg (x' - x)
        rcases List.mem_cons.1 hc with rfl | hc
        · exact (h2 x hx x' hx').trans (mul_le_mul_of_nonneg_right (by linarith) ha)
        · exact (h1 c hc x hx x' hx').trans (mul_le_mul_of_nonneg_right (by linarith) ha)
    exact this G fun d hd => hd
  obtain ⟨n, hn⟩ := pow_unbounded_of_one_lt ((|hi - lo| + L * |hi - lo|) / precision) (one_lt_two (α := ℝ))
  rw [div_lt_iff₀ hp, mul_comm] at hn
  have hm := mul_nonneg hL (abs_nonneg (hi - lo))
  have habs := abs_nonneg (hi - lo)
  refine ⟨max m n, fun limit hlim => ?_⟩
  refine C64_exists (L := L) (n := n) hG hP hinc ha hsp (hcast limit ((le_max_left _ _).trans hlim.le)) hb rfl hp ?_ ?_
    (by linarith) (by linarith) ((le_max_right _ _).trans_lt hlim)
  · intro d hd y _ _ x hx x' hx'
    rw [hres d hd, hres d hd, hupd, hupd, terms_update, terms_update, add_sub_add_right_eq_sub]
    have := hlip d hd _ (hpos d hd x hx) _ (hpos d hd x' hx')
    rwa [add_sub_add_left_eq_sub] at this
  · intro d hd y hy _
    rw [hres d hd, hres d hd, hupd, hupd]
    refine hall d hd _ (fun t ht htd => hpos t ht _ (hy t ht htd).1) fun c hc hcd => ?_
    have := (hy c hc hcd).2
    rw [residual_upTo hloc hq hc, hres c hc] at this
    exact this.trans_le hprec

end

end Dcf
