import Verif.Props.PresentValue
import Verif.Props.Bracket

/-! # Yield to maturity: C58 -/

set_option linter.unusedSectionVars false
set_option linter.unusedVariables false

namespace Dcf

open Spec

section
variable {D P : Type} [LinearOrder D] {cal : Cal D P}

/-- Present value at `v` of flows at a flat continuously compounded yield. -/
noncomputable def yieldValue (τ : D → D → ℝ) (v : D) (L : List (D × ℝ)) (y : ℝ) : ℝ :=
  (L.map fun q => Real.exp (-(y * τ v q.1)) * q.2).sum

theorem yieldValue_continuous (τ : D → D → ℝ) (v : D) (L : List (D × ℝ)) : Continuous (yieldValue τ v L) := by
  induction L with
  | nil => exact continuous_const
  | cons q L ih =>
    have : yieldValue τ v (q :: L) = fun y => Real.exp (-(y * τ v q.1)) * q.2 + yieldValue τ v L y := by
      funext y; simp [yieldValue]
    rw [this]
    fun_prop

theorem yieldValue_anti {τ : D → D → ℝ} (hτ : GoodDayCount τ) {v : D} {L : List (D × ℝ)}
    (hL : ∀ q ∈ L, v ≤ q.1 ∧ 0 ≤ q.2) : Antitone (yieldValue τ v L) := by
  intro y z hyz
  unfold yieldValue
  apply List.sum_le_sum
  intro q hq
  obtain ⟨h1, h2⟩ := hL q hq
  refine mul_le_mul_of_nonneg_right (Real.exp_le_exp.2 ?_) h2
  have := mul_le_mul_of_nonneg_right hyz (hτ.nonneg h1)
  linarith

theorem yieldValue_strict {τ : D → D → ℝ} (hτ : GoodDayCount τ) {v : D} {L : List (D × ℝ)}
    (hL : ∀ q ∈ L, v ≤ q.1 ∧ 0 ≤ q.2) (h : ∃ q ∈ L, v < q.1 ∧ 0 < q.2) : StrictAnti (yieldValue τ v L) := by
  intro y z hyz
  obtain ⟨q, hq, h1, h2⟩ := h
  unfold yieldValue
  apply List.sum_lt_sum
  · intro q hq
    obtain ⟨h1, h2⟩ := hL q hq
    refine mul_le_mul_of_nonneg_right (Real.exp_le_exp.2 ?_) h2
    have := mul_le_mul_of_nonneg_right hyz.le (hτ.nonneg h1)
    linarith
  · refine ⟨q, hq, mul_lt_mul_of_pos_right (Real.exp_lt_exp.2 ?_) h2⟩
    have := mul_lt_mul_of_pos_right hyz ((hτ.pos v q.1).2 h1)
    linarith

variable {o? : Option D} {dc : DayCountArg D} {tenor : Option P} {p : Product D} {w : World D P} {v : D}
  {L : List (D × ℝ)} {same : Bool}

/-- The error function computes present value minus target and changes nothing but the one point curve. -/
theorem ytmErr_computes (hd : dc.Usable) (hτ : GoodDayCount (dc.fn cal)) (hs : same = true → v = o?.getD v)
    (hp : Pays cal w v p L) (target : ℝ) :
    Computes (fun s => s.1 = w ∧ ∃ y, s.2 = flatZero cal o? dc tenor v y)
      (fun x s => s.2 = flatZero cal o? dc tenor v x) (ytmErr cal same v target p)
      (fun y => yieldValue (dc.fn cal) v L y - target) := by
  rintro ⟨_, _⟩ ⟨rfl, y, rfl⟩ x
  refine ⟨(_, flatZero cal o? dc tenor v x), ⟨⟨rfl, x, rfl⟩, rfl⟩, ?_⟩
  unfold ytmErr
  simp only [flatZero_set cal hd hτ v y x]
  have hpv := C54_flows hp (c := (flatZero cal o? dc tenor v x).obj) (same := same)
    (df := fun t => Real.exp (-(x * dc.fn cal v t))) fun q _ => by
      exact flatZero_factor cal hd hτ v x same v q.1 hs
  rw [show (⟨(flatZero cal o? dc tenor v x).toRateCurve, (flatZero cal o? dc tenor v y).cls⟩ : IRCurve D P) =
    flatZero cal o? dc tenor v x from rfl, hpv]
  rfl

theorem ytm_unfold (hd : dc.Usable) (hτ : GoodDayCount (dc.fn cal)) {valuation : Option D}
    (hv : valuation.or (p.origin w) = some v) (limit : ℕ) (target precision lo hi : ℝ) :
    ytm cal limit same none o? dc tenor p valuation target precision lo hi w =
      match bracket precision limit (ytmErr cal same v target p) lo hi (w, flatZero cal o? dc tenor v 0) with
      | (.ok r, s) => (.ok r.2.1, s.1)
      | (.error e, s) => (.error e, s.1) := by
  unfold ytm
  rw [hv]
  simp only [flatZero_new cal hd hτ]
  rcases bracket precision limit (ytmErr cal same v target p) lo hi (w, flatZero cal o? dc tenor v 0) with ⟨_ | _, _⟩ <;> rfl

/-- C58: the yield to maturity is within half the precision of a yield that discounts the flows from the valuation date on
exactly to the given present value; nothing is changed. -/
theorem C58_reprices (hd : dc.Usable) (hτ : GoodDayCount (dc.fn cal)) (hs : same = true → v = o?.getD v)
    {valuation : Option D} (hv : valuation.or (p.origin w) = some v) (hp : Pays cal w v p L) {limit : ℕ}
    {target precision lo hi r : ℝ} {w' : World D P}
    (h : ytm cal limit same none o? dc tenor p valuation target precision lo hi w = (.ok r, w')) :
    w' = w ∧ r ∈ Set.uIcc lo hi ∧ ∃ y ∈ Set.uIcc lo hi,
      (L.map fun q => Real.exp (-(y * dc.fn cal v q.1)) * q.2).sum = target ∧ |y - r| < precision / 2 := by
  rw [ytm_unfold hd hτ hv] at h
  have hc := ytmErr_computes (tenor := tenor) hd hτ hs hp target
  rcases hb : bracket precision limit (ytmErr cal same v target p) lo hi (w, flatZero cal o? dc tenor v 0) with ⟨x, s⟩
  rw [hb] at h
  cases x with
  | error e => simp at h
  | ok x =>
    obtain ⟨a', m, b'⟩ := x
    simp only [Prod.mk.injEq, Except.ok.injEq] at h
    obtain ⟨rfl, rfl⟩ := h
    obtain ⟨k, hk, hH, h1, h2, hm, hI, -⟩ := bracket_ok hc ⟨rfl, 0, rfl⟩ hb
    obtain ⟨hm', ha, hb', -, -, -, -, -, -⟩ := C56_result hc ⟨rfl, 0, rfl⟩ hb
    refine ⟨hI.1, ?_, ?_⟩
    · refine uIcc_sub ha hb' ?_
      rw [hm]
      exact mid_mem a' b'
    · obtain ⟨y, hy, hy0, hyr⟩ := C56_root hc ⟨rfl, 0, rfl⟩
        (((yieldValue_continuous _ v L).sub continuous_const).continuousOn) hb
      exact ⟨y, hy, by simpa [yieldValue, sub_eq_zero] using hy0, hyr⟩

/-- C58: if no flow from the valuation date on is negative, discounting at the returned yield misses the given present
value by less than the precision. -/
theorem C58_price (hd : dc.Usable) (hτ : GoodDayCount (dc.fn cal)) (hs : same = true → v = o?.getD v)
    {valuation : Option D} (hv : valuation.or (p.origin w) = some v) (hp : Pays cal w v p L) {limit : ℕ}
    {target precision lo hi r : ℝ} {w' : World D P} (hL : ∀ q ∈ L, v ≤ q.1 ∧ 0 ≤ q.2)
    (h : ytm cal limit same none o? dc tenor p valuation target precision lo hi w = (.ok r, w')) :
    |(L.map fun q => Real.exp (-(r * dc.fn cal v q.1)) * q.2).sum - target| < precision := by
  rw [ytm_unfold hd hτ hv] at h
  have hc := ytmErr_computes (tenor := tenor) hd hτ hs hp target
  rcases hb : bracket precision limit (ytmErr cal same v target p) lo hi (w, flatZero cal o? dc tenor v 0) with ⟨x, s⟩
  rw [hb] at h
  cases x with
  | error e => simp at h
  | ok x =>
    obtain ⟨a', m, b'⟩ := x
    simp only [Prod.mk.injEq, Except.ok.injEq] at h
    obtain ⟨rfl, rfl⟩ := h
    obtain ⟨hm, -, -, -, -, hsg, h2, ha, hb'⟩ := C56_result hc ⟨rfl, 0, rfl⟩ hb
    have hmono := yieldValue_anti hτ hL
    change |yieldValue (dc.fn cal) v L m - target| < precision
    rw [abs_lt] at ha hb' ⊢
    rcases le_total a' b' with hab | hab
    · have e1 := hmono (show a' ≤ m by rw [hm]; linarith)
      have e2 := hmono (show m ≤ b' by rw [hm]; linarith)
      constructor <;> linarith [ha.1, ha.2, hb'.1, hb'.2]
    · have e1 := hmono (show b' ≤ m by rw [hm]; linarith)
      have e2 := hmono (show m ≤ a' by rw [hm]; linarith)
      constructor <;> linarith [ha.1, ha.2, hb'.1, hb'.2]

/-- C58: `AssertionError` is raised exactly if the present values at both bounds are on the same side of the given one. -/
theorem C58_refuses (hd : dc.Usable) (hτ : GoodDayCount (dc.fn cal)) (hs : same = true → v = o?.getD v)
    {valuation : Option D} (hv : valuation.or (p.origin w) = some v) (hp : Pays cal w v p L) {limit : ℕ} (hl : limit ≠ 0)
    (target precision lo hi : ℝ) :
    ytm cal limit same none o? dc tenor p valuation target precision lo hi w = (.error .assertion, w) ↔
      (target < yieldValue (dc.fn cal) v L lo ∧ target < yieldValue (dc.fn cal) v L hi) ∨
      (yieldValue (dc.fn cal) v L lo < target ∧ yieldValue (dc.fn cal) v L hi < target) := by
  rw [ytm_unfold hd hτ hv]
  have hc := ytmErr_computes (tenor := tenor) hd hτ hs hp target
  have := C56_refuses hc precision hl lo hi (s := (w, flatZero cal o? dc tenor v 0)) ⟨rfl, 0, rfl⟩
  simp only [sub_pos, sub_neg] at this
  rw [← this]
  obtain ⟨l, rfl⟩ := Nat.exists_eq_succ_of_ne_zero hl
  obtain ⟨s', hs', H⟩ := bracket_run precision l hc lo hi (s := (w, flatZero cal o? dc tenor v 0)) ⟨rfl, 0, rfl⟩
  rcases H with ⟨-, -, e⟩ | ⟨-, a', b', k, -, -, -, -, e⟩ | ⟨-, a', b', -, -, -, e⟩ <;> simp [e, hs'.1]

/-- C58: with a sign change between the bounds and a positive precision the search returns (if the recursion limit is not
reached). -/
theorem C58_exists (hd : dc.Usable) (hτ : GoodDayCount (dc.fn cal)) (hs : same = true → v = o?.getD v)
    {valuation : Option D} (hv : valuation.or (p.origin w) = some v) (hp : Pays cal w v p L) {target precision lo hi : ℝ}
    (hprec : 0 < precision)
    (hb : (yieldValue (dc.fn cal) v L lo - target) * (yieldValue (dc.fn cal) v L hi - target) ≤ 0) :
    ∃ n, ∀ limit, n < limit → ∃ r, ytm cal limit same none o? dc tenor p valuation target precision lo hi w = (.ok r, w) := by
  have hc := ytmErr_computes (tenor := tenor) hd hτ hs hp target
  obtain ⟨n, hn⟩ := C57_continuous hc hprec (s := (w, flatZero cal o? dc tenor v 0)) ⟨rfl, 0, rfl⟩
    (((yieldValue_continuous (dc.fn cal) v L).sub continuous_const).continuousOn) hb
  refine ⟨n, fun limit hl => ?_⟩
  obtain ⟨a', m, b', s', h⟩ := hn limit hl
  have hI := (bracket_ok hc ⟨rfl, 0, rfl⟩ h).choose_spec.2.2.2.2.2.1
  refine ⟨m, ?_⟩
  rw [ytm_unfold hd hτ hv, h]
  simp [hI.1]

/-- C58: if no flow is negative and one after the valuation date is positive there is only one such yield, so the returned
one is within half the precision of the true one. -/
theorem C58_unique (hd : dc.Usable) (hτ : GoodDayCount (dc.fn cal)) (hs : same = true → v = o?.getD v)
    {valuation : Option D} (hv : valuation.or (p.origin w) = some v) (hp : Pays cal w v p L) {limit : ℕ}
    {target precision lo hi r y : ℝ} {w' : World D P} (hL : ∀ q ∈ L, v ≤ q.1 ∧ 0 ≤ q.2) (hq : ∃ q ∈ L, v < q.1 ∧ 0 < q.2)
    (h : ytm cal limit same none o? dc tenor p valuation target precision lo hi w = (.ok r, w'))
    (hy : yieldValue (dc.fn cal) v L y = target) : |y - r| < precision / 2 := by
  obtain ⟨-, -, z, -, hz, hzr⟩ := C58_reprices hd hτ hs hv hp h
  have : y = z := (yieldValue_strict hτ hL hq).injective (hy.trans hz.symm)
  rwa [this]

/-- C58: the yield of a product whose present value was computed on a flat curve is the rate of that curve. -/
theorem C58_roundtrip (hd : dc.Usable) (hτ : GoodDayCount (dc.fn cal)) (hs : same = true → v = o?.getD v)
    {valuation : Option D} (hv : valuation.or (p.origin w) = some v) (hp : Pays cal w v p L) {limit : ℕ}
    {x z precision lo hi r : ℝ} {w' w'' : World D P} {c : IRCurve D P}
    (hL : ∀ q ∈ L, v ≤ q.1 ∧ 0 ≤ q.2) (hq : ∃ q ∈ L, v < q.1 ∧ 0 < q.2)
    (hc : IRCurve.new cal .zero [v] [z] none o? dc tenor = .ok c)
    (hx : pv cal c.obj same (some v) p w = (.ok x, w''))
    (h : ytm cal limit same none o? dc tenor p valuation x precision lo hi w = (.ok r, w')) : |z - r| < precision / 2 := by
  rw [flatZero_new cal hd hτ] at hc
  cases hc
  have hpv := C54_flows hp (c := (flatZero cal o? dc tenor v z).obj) (same := same)
    (df := fun t => Real.exp (-(z * dc.fn cal v t))) fun q _ => by
      exact flatZero_factor cal hd hτ v z same v q.1 hs
  rw [hpv] at hx
  simp only [Prod.mk.injEq, Except.ok.injEq] at hx
  exact C58_unique hd hτ hs hv hp hL hq h hx.1

/-- C58: without valuation date and origin there is no yield. -/
theorem C58_no_date (hv : p.origin w = none) (limit : ℕ) (i : Option FuncSpec) (target precision lo hi : ℝ) :
    ytm cal limit same i o? dc tenor p none target precision lo hi w = (.error .type, w) := by
  simp [ytm, hv]

end

/-- Non-vacuity: a single payment of 110 in a year for 100. -/
example : ∃ (n : ℕ) (w : World ℝ FloatPeriod), ∀ limit, n < limit → ∃ r,
    ytm floatCal limit true none none .default none (.list 0) (some 0) 100 (1 / 10000000) (-1 / 10) (2 / 10) w = (.ok r, w) ∧
    |Real.log (11 / 10) - r| < 1 / 20000000 := by
  let w : World ℝ FloatPeriod := { exWorld with
    lists := fun _ => ⟨none, [1], .ofPairs [(1, .num 110)], .fwd fun _ => .none, false, false, false⟩ }
  have hp : Pays floatCal w 0 (.list 0) [(1, 110)] := by
    refine ⟨[[(1, 110)]], ?_, by simp⟩
    rw [Product.leaves]
    refine .cons ⟨fun h => absurd h (by simp [w]), fun _ => 110, ?_, by simp [w, List.filter]⟩ .nil
    intro d hd _
    have : d = 1 := by simpa [w] using hd
    subst this
    simp [World.list, World.dated, w, CFList.getitem, Dict.ofPairs, Dict.get, Dict.set, PayOff.eval]
  have hval (y : ℝ) : yieldValue (DayCountArg.fn floatCal .default) 0 [(1, 110)] y = Real.exp (-y) * 110 := by
    simp [yieldValue, DayCountArg.fn, floatCal]
  have h1 : 110 * Real.exp (-(2 / 10)) ≤ 100 := by
    have := Real.add_one_le_exp (2 / 10 : ℝ)
    rw [Real.exp_neg]
    rw [← div_eq_mul_inv, div_le_iff₀ (Real.exp_pos _)]
    linarith
  have h2 : 100 ≤ 110 * Real.exp (-(-1 / 10)) := by
    have := Real.add_one_le_exp (-(-1 / 10) : ℝ)
    linarith
  obtain ⟨n, hn⟩ := C58_exists (cal := floatCal) (o? := none) (dc := .default) (tenor := none) (same := true) (v := (0 : ℝ))
    (valuation := some 0) (target := 100) (precision := 1 / 10000000) (lo := -1 / 10) (hi := 2 / 10) trivial
    goodDayCount_real (by simp) rfl hp (by norm_num) (by
      rw [hval, hval]
      apply mul_nonpos_of_nonneg_of_nonpos <;> linarith)
  refine ⟨n, w, fun limit hl => ?_⟩
  obtain ⟨r, hr⟩ := hn limit hl
  refine ⟨r, hr, ?_⟩
  have := C58_unique (cal := floatCal) (o? := none) (dc := .default) (tenor := none)
    (y := Real.log (11 / 10)) trivial goodDayCount_real (by simp) rfl hp (by simp) (by simp) hr (by
    rw [hval, ← Real.log_inv, Real.exp_log (by norm_num)]
    norm_num)
  linarith

end Dcf
