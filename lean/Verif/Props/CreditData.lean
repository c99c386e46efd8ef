import Verif.Props.CreditCurve

/-! # Credit curves: C39, C40, C77, C78 -/

set_option linter.unusedSectionVars false
set_option linter.unusedSimpArgs false
set_option linter.unusedVariables false

namespace Dcf

open Spec Finset

section
variable {D P : Type} [LinearOrder D] {cal : Cal D P} {c : CRCurve D P} {v : D → ℝ} {τ : D → D → ℝ} {o : D}

/-! ### C39 -/

/-- C39 (refuted): on every flat intensity curve the intensity over an empty period at any date other than the
origin raises `AttributeError`. -/
theorem C39_violated (hc : c.cls = .flat) {s : D} (hs : c.base.origin ≠ some s) :
    c.rate cal false s s = .error .attribute := by
  simp [CRCurve.rate, hc, CRCurve.flatRateOf, hs]

/-- C39 (what holds): at the origin the flat intensity is returned; hazard rate curves return the hazard rate at
every date; on probability curves the intensity over the next day is returned. -/
theorem C39_partial (h : CreditAnswers cal c v τ o) (same : Bool) :
    (c.cls = .flat → c.rate cal same o o = .ok (v o)) ∧
    (c.cls = .hazard → ∀ s, c.rate cal same s s = .ok (v s)) ∧
    (c.cls = .marginal ∨ c.cls = .marginalDefault → ∀ s e, cal.add s cal.oneDay = .ok e → s ≠ e →
      c.rate cal same s s = c.rate cal same s e) ∧
    (c.cls = .survival ∨ c.cls = .default → ∀ s e, s ≠ o → cal.add s cal.oneDay = .ok e → s ≠ e →
      c.rate cal same s s = c.rate cal same s e) := by
  refine ⟨fun hc => ?_, fun hc s => ?_, fun hc s e he hse => ?_, fun hc s e hso he hse => ?_⟩
  · simp [CRCurve.rate, hc, CRCurve.flatRateOf, h.origin, h.call]
  · simp [CRCurve.rate, hc, CRCurve.hazardRateOf, h.call]
  · rcases hc with hc | hc <;> simp [CRCurve.rate, hc, CRCurve.rateStop, he, hse]
  · have : c.base.origin ≠ some s := by rw [h.origin]; exact fun e => hso (Option.some.inj e).symm
    rcases hc with hc | hc <;> simp [CRCurve.rate, hc, CRCurve.rateStop, he, hse, h.origin, hso.symm]

/-! ### C40 -/

theorem CRCurve_new_prob {cls : CRClass} (hp : cls.isProb = true) (dom : List D) (data : List ℝ) (i : Option FuncSpec)
    (o? : Option D) (dc : DayCountArg D) (tenor : Option P) :
    CRCurve.new cal cls dom data i o? dc tenor =
      CRCurve.make cal cls dom ((cls.complement data).map clampProb) i o? dc tenor := by
  simp [CRCurve.new, hp, (clampProb_pos _).ne']

theorem CRCurve_new_rate {cls : CRClass} (hp : cls.isProb = false) (dom : List D) (data : List ℝ) (i : Option FuncSpec)
    (o? : Option D) (dc : DayCountArg D) (tenor : Option P) :
    CRCurve.new cal cls dom data i o? dc tenor = CRCurve.make cal cls dom data i o? dc tenor := by
  cases cls <;> simp [CRClass.isProb] at hp <;> simp [CRCurve.new, CRClass.isProb, CRClass.complement]

/-- What is stored for a given probability. -/
noncomputable def storedProb (cls : CRClass) (y : ℝ) : ℝ :=
  if cls = .default ∨ cls = .marginalDefault then max floatMin (min (1 - y) 1) else max floatMin (min y 1)

theorem storedProb_mem (cls : CRClass) (y : ℝ) : floatMin ≤ storedProb cls y ∧ storedProb cls y ≤ 1 := by
  unfold storedProb; split_ifs
  · exact clampProb_mem _
  · exact clampProb_mem _

theorem storedProb_pos (cls : CRClass) (y : ℝ) : 0 < storedProb cls y := floatMin_pos.trans_le (storedProb_mem cls y).1

theorem complement_map (cls : CRClass) (data : List ℝ) : (cls.complement data).map clampProb = data.map (storedProb cls) := by
  cases cls <;> simp [CRClass.complement, storedProb, clampProb, Function.comp_def]

/-- The points of the curve that is built. -/
theorem CRCurve_new_eq {pts : List (D × ℝ)} {i : Option FuncSpec} {o? : Option D} {dc : DayCountArg D} {cls : CRClass}
    {tenor : Option P} (hp : cls.isProb = true) (hn : (pts.map Prod.fst).Nodup)
    (ho : o?.or (pts.map Prod.fst).head? = some o) (hd : dc.Usable) (hτ : GoodDayCount (dc.fn cal)) :
    CRCurve.new cal cls (pts.map Prod.fst) (pts.map Prod.snd) i o? dc tenor =
      .ok (crOf cal o o? dc i cls tenor (pts.map fun p => (p.1, storedProb cls p.2))) := by
  rw [CRCurve_new_prob hp, complement_map]
  have e1 : (pts.map fun p => (p.1, storedProb cls p.2)).map Prod.fst = pts.map Prod.fst := by
    rw [List.map_map]; rfl
  have e2 : (pts.map fun p => (p.1, storedProb cls p.2)).map Prod.snd = (pts.map Prod.snd).map (storedProb cls) := by
    rw [List.map_map, List.map_map]; rfl
  rw [← e1, ← e2]
  refine CRCurve_make_eq cal (by rw [e1]; exact hn) (fun _ p hp => ?_) (by rw [e1]; exact ho) hd hτ
  obtain ⟨q, -, rfl⟩ := List.mem_map.1 hp
  exact storedProb_pos _ _

/-- C40: a probability curve is built from any numbers whatsoever.  Its values at the given dates are the numbers
themselves (survival) or their complement (default), clamped into `[float_info.min, 1]`. -/
theorem C40_clamp {pts : List (D × ℝ)} {i : Option FuncSpec} {o? : Option D} {dc : DayCountArg D} {cls : CRClass}
    {tenor : Option P} (hp : cls.isProb = true) (hn : (pts.map Prod.fst).Nodup)
    (ho : o?.or (pts.map Prod.fst).head? = some o) (hd : dc.Usable) (hτ : GoodDayCount (dc.fn cal))
    (h0 : (i.getD cls.dflt).needsNonzero → ∃ p ∈ pts, p.1 ≠ o) :
    ∃ c : CRCurve D P, CRCurve.new cal cls (pts.map Prod.fst) (pts.map Prod.snd) i o? dc tenor = .ok c ∧ c.cls = cls ∧
      ∀ x y, (x, y) ∈ pts → ∃ z, c.call cal x = .ok z ∧ floatMin ≤ z ∧ z ≤ 1 ∧
        z = (if cls = .default ∨ cls = .marginalDefault then max floatMin (min (1 - y) 1) else max floatMin (min y 1)) ∧
        (cls = .survival ∨ cls = .default → c.survivalProb cal x = .ok z) := by
  refine ⟨_, CRCurve_new_eq hp hn ho hd hτ, rfl, fun x y hxy => ?_⟩
  have e1 : (pts.map fun p => (p.1, storedProb cls p.2)).map Prod.fst = pts.map Prod.fst := by
    rw [List.map_map]; rfl
  have hc := crOf_node cal (cls := cls) (i := i) (o? := o?) (dc := dc) (o := o) (tenor := tenor)
    (pts := pts.map fun p => (p.1, storedProb cls p.2)) (by rw [e1]; exact ho) hd hτ
    (by rw [e1]; exact hn) (fun _ p hp => by
      obtain ⟨q, -, rfl⟩ := List.mem_map.1 hp
      exact storedProb_pos _ _)
    (fun h => by
      obtain ⟨p, hp, hpo⟩ := h0 h
      exact ⟨_, List.mem_map.2 ⟨p, hp, rfl⟩, hpo⟩) (List.mem_map.2 ⟨_, hxy, rfl⟩)
  refine ⟨_, hc, (storedProb_mem _ _).1, (storedProb_mem _ _).2, rfl, fun hs => ?_⟩
  have ho' : (crOf cal o o? dc i cls tenor (pts.map fun p => (p.1, storedProb cls p.2))).base.origin = some o := by
    show o?.or ((pts.map fun p => (p.1, storedProb cls p.2)).map Prod.fst).head? = _
    rw [e1]; exact ho
  set C := crOf cal o o? dc i cls tenor (pts.map fun p => (p.1, storedProb cls p.2)) with hC
  have hcls : C.cls = cls := rfl
  rcases hs with rfl | rfl <;>
    simp [CRCurve.survivalProb, ho', pyDate, CRCurve.factor, hcls, CRCurve.survivalFactorOf, hc]

/-- C40 (between the dates, marginal probabilities): with the default interpolation a curve of marginal
probabilities answers every date with a number in `[float_info.min, 1]`. -/
theorem C40_marginal_range {pts : List (D × ℝ)} {o? : Option D} {dc : DayCountArg D} {cls : CRClass}
    {tenor : Option P} (hcl : cls = .marginal ∨ cls = .marginalDefault) (hn : (pts.map Prod.fst).Nodup) (hne : pts ≠ [])
    (ho : o?.or (pts.map Prod.fst).head? = some o) (hd : dc.Usable) (hτ : GoodDayCount (dc.fn cal)) :
    ∃ c : CRCurve D P, CRCurve.new cal cls (pts.map Prod.fst) (pts.map Prod.snd) none o? dc tenor = .ok c ∧
      ∃ v, CreditAnswers cal c v (dc.fn cal) o ∧ ∀ x, floatMin ≤ v x ∧ v x ≤ 1 := by
  have hp : cls.isProb = true := by rcases hcl with rfl | rfl <;> rfl
  refine ⟨_, CRCurve_new_eq hp hn ho hd hτ, ?_⟩
  set q := pts.map fun p => (p.1, storedProb cls p.2) with hq
  have e1 : q.map Prod.fst = pts.map Prod.fst := by rw [hq, List.map_map]; rfl
  have hqn : (q.map Prod.fst).Nodup := by rw [e1]; exact hn
  have hqne : q ≠ [] := by rw [hq]; simpa using hne
  have hqp : ∀ p ∈ q, floatMin ≤ p.2 ∧ p.2 ≤ 1 := fun p hp => by
    obtain ⟨q, -, rfl⟩ := List.mem_map.1 hp
    exact storedProb_mem _ _
  have hi : (none : Option FuncSpec).getD cls.dflt = logLinearScheme := by rcases hcl with rfl | rfl <;> rfl
  refine ⟨_, ⟨crOf_loglinear cal hi (by rw [e1]; exact ho) hd hτ hqn hqne fun p hp => floatMin_pos.trans_le (hqp p hp).1,
    crOf_dayCount cal hd, hτ, by show o?.or (q.map Prod.fst).head? = _; rw [e1]; exact ho⟩, fun x => ?_⟩
  have hs := logPts_strict (sortPairs_strict (timePts_nodup hτ o hqn))
  have := flin_bounds (a := Real.log floatMin) (b := 0) hs (by
      have : sortPairs (timePts (dc.fn cal) o q) ≠ [] := sortPairs_ne_nil (by unfold timePts; simpa using hqne)
      unfold logPts; simpa using this)
    (fun p hp => by
      obtain ⟨r, hr, rfl⟩ := List.mem_map.1 hp
      obtain ⟨w, hw, rfl⟩ := List.mem_map.1 ((sortPairs_perm _).mem_iff.1 hr)
      have := hqp w hw
      exact ⟨Real.log_le_log floatMin_pos this.1, Real.log_nonpos (floatMin_pos.le.trans this.1) this.2⟩) (dc.fn cal o x)
  refine ⟨?_, Real.exp_le_one_iff.2 this.2⟩
  calc floatMin = Real.exp (Real.log floatMin) := (Real.exp_log floatMin_pos).symm
    _ ≤ _ := Real.exp_le_exp.2 this.1

/-- C40 (between the dates, survival probabilities): with the default interpolation and no given date before the
origin, every survival probability from the origin to a later date is in (0,1]. -/
theorem C40_survival_range {pts : List (D × ℝ)} {o? : Option D} {dc : DayCountArg D} {cls : CRClass}
    {tenor : Option P} (hcl : cls = .survival ∨ cls = .default) (hn : (pts.map Prod.fst).Nodup)
    (ho : o?.or (pts.map Prod.fst).head? = some o) (hd : dc.Usable) (hτ : GoodDayCount (dc.fn cal))
    (h0 : ∃ p ∈ pts, p.1 ≠ o) (hge : ∀ p ∈ pts, o ≤ p.1) :
    ∃ c : CRCurve D P, CRCurve.new cal cls (pts.map Prod.fst) (pts.map Prod.snd) none o? dc tenor = .ok c ∧
      ∀ x, o < x → ∃ z, c.survivalProb cal x = .ok z ∧ 0 < z ∧ z ≤ 1 := by
  have hp : cls.isProb = true := by rcases hcl with rfl | rfl <;> rfl
  refine ⟨_, CRCurve_new_eq hp hn ho hd hτ, fun x hx => ?_⟩
  set q := pts.map fun p => (p.1, storedProb cls p.2) with hq
  have e1 : q.map Prod.fst = pts.map Prod.fst := by rw [hq, List.map_map]; rfl
  have hqn : (q.map Prod.fst).Nodup := by rw [e1]; exact hn
  have hqp : ∀ p ∈ q, o ≤ p.1 ∧ floatMin ≤ p.2 ∧ p.2 ≤ 1 := fun p hp => by
    obtain ⟨q, hq', rfl⟩ := List.mem_map.1 hp
    exact ⟨hge q hq', storedProb_mem _ _⟩
  have hi : (none : Option FuncSpec).getD cls.dflt = logLinearRateScheme := by rcases hcl with rfl | rfl <;> rfl
  have hq0 : ∃ p ∈ q, p.1 ≠ o := by
    obtain ⟨p, hp, hpo⟩ := h0
    exact ⟨_, List.mem_map.2 ⟨p, hp, rfl⟩, hpo⟩
  have ho' : o?.or (q.map Prod.fst).head? = some o := by rw [e1]; exact ho
  have hc := crOf_rate cal (tenor := tenor) hi ho' hd hτ hqn hq0 hx.ne'
  have ht0 : ∃ p ∈ timePts (dc.fn cal) o q, p.1 ≠ 0 := by
    obtain ⟨p, hp, hne⟩ := hq0
    exact ⟨_, List.mem_map.2 ⟨p, hp, rfl⟩, hτ.ne_zero (Ne.symm hne)⟩
  have hnn : 0 ≤ flin (sortPairs (ratePts (timePts (dc.fn cal) o q))) (dc.fn cal o x) := by
    have hs := sortPairs_strict (ratePts_nodup (timePts_nodup hτ o hqn))
    have hne := sortPairs_ne_nil (ratePts_ne ht0)
    obtain ⟨b, hb⟩ : ∃ b, ∀ p ∈ sortPairs (ratePts (timePts (dc.fn cal) o q)), p.2 ≤ b := by
      refine ⟨((sortPairs (ratePts (timePts (dc.fn cal) o q))).map fun p => |p.2|).sum, fun p hp => ?_⟩
      refine (le_abs_self _).trans (List.single_le_sum (fun y hy => ?_) _ (List.mem_map.2 ⟨p, hp, rfl⟩))
      obtain ⟨r, -, rfl⟩ := List.mem_map.1 hy
      exact abs_nonneg _
    refine (flin_bounds (a := 0) (b := b) hs hne (fun p hp => ⟨?_, hb p hp⟩) _).1
    have hp' := (sortPairs_perm _).mem_iff.1 hp
    simp only [ratePts, List.mem_map, List.mem_filter] at hp'
    obtain ⟨r, ⟨hr, -⟩, rfl⟩ := hp'
    obtain ⟨w, hw, rfl⟩ := List.mem_map.1 hr
    have := hqp w hw
    refine div_nonneg (neg_nonneg.2 (Real.log_nonpos (floatMin_pos.le.trans this.2.1) this.2.2)) (hτ.nonneg this.1)
  refine ⟨_, ?_, Real.exp_pos _, Real.exp_le_one_iff.2 (neg_nonpos.2 (mul_nonneg hnn (hτ.nonneg hx.le)))⟩
  have ho2 : (crOf cal o o? dc none cls tenor q).base.origin = some o := ho'
  set C := crOf cal o o? dc none cls tenor q with hC
  have hcls : C.cls = cls := rfl
  rcases hcl with rfl | rfl <;>
    simp [CRCurve.survivalProb, ho2, pyDate, CRCurve.factor, hcls, CRCurve.survivalFactorOf, hc]

/-- C40 (what the clamp costs): a stored probability below `2 * float_info.min`, such as the one stored for 0,
counts as certain default even over an empty period. -/
theorem C40_zero (h : CreditAnswers cal c v τ o) (hc : c.cls.isProb = true) {s : D} (hs : v s = floatMin) :
    c.factor cal false s s = .ok 0 := by
  have hlt : ¬ 2 * floatMin ≤ floatMin := by have := floatMin_pos; linarith
  cases hcl : c.cls <;> simp [hcl, CRClass.isProb] at hc <;>
    simp [CRCurve.factor, hcl, CRCurve.survivalFactorOf, CRCurve.marginalFactorOf, h.call, hs, hlt]

/-- A case of C38 and C40: marginal default probabilities of -5% and 200%. -/
example : ∃ c : CRCurve ℤ ℤ, CRCurve.new dayCal .marginalDefault [0, 365] [-1 / 20, 2] none none .default none = .ok c ∧
    c.call dayCal 0 = .ok 1 ∧ c.call dayCal 365 = .ok floatMin := by
  obtain ⟨c, h1, h2, h3⟩ := C40_clamp (cal := dayCal) (pts := [(0, -1 / 20), (365, 2)]) (i := none) (o? := none)
    (dc := .default) (cls := .marginalDefault) (tenor := none) (o := 0) rfl (by simp) rfl trivial goodDayCount_int
    (by simp)
  refine ⟨c, h1, ?_, ?_⟩
  · obtain ⟨z, hz, -, -, rfl, -⟩ := h3 0 (-1 / 20) (by simp)
    rw [hz]; congr 1
    rw [if_pos (by simp), min_eq_right (by norm_num), max_eq_right]
    exact (by have := floatMin_pos; have := floatMin_le_one; linarith)
  · obtain ⟨z, hz, -, -, rfl, -⟩ := h3 365 2 (by simp)
    rw [hz]; congr 1
    rw [if_pos (by simp), min_eq_left (by norm_num), max_eq_left]
    exact (by have := floatMin_pos; linarith)

/-- Flat intensity and hazard rate curves to which C38 and C39 apply. -/
theorem credit_example (cls : CRClass) (hp : cls.isProb = false) (i : Option FuncSpec) (hi : i.getD cls.dflt = linearScheme) :
    ∃ c : CRCurve ℤ ℤ, CRCurve.new dayCal cls [0, 365] [1 / 100, 2 / 100] i none .default none = .ok c ∧ c.cls = cls ∧
      ∃ v, CreditAnswers dayCal c v (fun s e => ((e - s : ℤ) : ℝ) / (36525 / 100)) 0 ∧ ∀ x, 1 / 100 ≤ v x ∧ v x ≤ 2 / 100 := by
  have hn : (([(0, 1 / 100), (365, 2 / 100)] : List (ℤ × ℝ)).map Prod.fst).Nodup := by simp
  have hl : (i.getD cls.dflt).isLog → ∀ p ∈ ([(0, 1 / 100), (365, 2 / 100)] : List (ℤ × ℝ)), 0 < p.2 := by
    simp [hi, linearScheme, FuncSpec.isLog, Kind.isLog]
  rw [CRCurve_new_rate hp]
  refine ⟨_, CRCurve_make_eq dayCal (pts := [(0, 1 / 100), (365, 2 / 100)]) (o := 0) (i := i) hn hl rfl (dc := .default) trivial
    goodDayCount_int, rfl, _, ⟨crOf_linear dayCal hi rfl (dc := .default) trivial goodDayCount_int hn (by simp),
    crOf_dayCount dayCal (dc := .default) trivial, goodDayCount_int, rfl⟩, fun x => ?_⟩
  refine flin_bounds (sortPairs_strict (timePts_nodup goodDayCount_int 0 hn)) (sortPairs_ne_nil (by simp [timePts])) ?_ _
  intro p hp
  have := (sortPairs_perm _).mem_iff.1 hp
  simp only [timePts, List.map_cons, List.map_nil, List.mem_cons, List.not_mem_nil, or_false] at this
  rcases this with rfl | rfl <;> norm_num

example : ∃ (c : CRCurve ℤ ℤ), c.cls = .flat ∧ c.base.origin = some 0 ∧ c.rate dayCal false 10 10 = .error .attribute := by
  obtain ⟨c, -, h1, v, h2, -⟩ := credit_example .flat rfl none rfl
  exact ⟨c, h1, h2.origin, C39_violated h1 (by rw [h2.origin]; simp)⟩

example : ∃ (c : CRCurve ℤ ℤ) (v : ℤ → ℝ), c.cls = .hazard ∧
    CreditAnswers dayCal c v (fun s e => ((e - s : ℤ) : ℝ) / (36525 / 100)) 0 ∧ (∀ x, 0 ≤ v x) ∧
    Steps dayCal dayCal.oneDay 0 (fun k : ℕ => (k : ℤ)) ∧ Increasing (fun k : ℕ => (k : ℤ)) ∧
    ∃ m : ℕ, (10 : ℤ) ≤ (m + 1 : ℕ) := by
  obtain ⟨c, -, h1, v, h2, h3⟩ := credit_example .hazard rfl (some linearScheme) rfl
  refine ⟨c, v, h1, h2, fun x => by linarith [(h3 x).1], by simpa [dayCal] using dayCal_steps 1 0, fun k => ?_, 9, by norm_num⟩
  dsimp only; push_cast; omega

/-- A curve of marginal survival probabilities to which `C38_marginal` applies. -/
example : ∃ (c : CRCurve ℤ ℤ) (v : ℤ → ℝ), c.cls = .marginal ∧
    CreditAnswers dayCal c v (fun s e => ((e - s : ℤ) : ℝ) / (36525 / 100)) 0 ∧ ∀ x, 2 * floatMin ≤ v x ∧ v x ≤ 1 := by
  have hn : (([(0, 1)] : List (ℤ × ℝ)).map Prod.fst).Nodup := by simp
  refine ⟨crOf dayCal 0 none .default none .marginal none [(0, 1)], _, rfl, ⟨crOf_loglinear dayCal rfl rfl (dc := .default)
    trivial goodDayCount_int hn (by simp) (by simp), crOf_dayCount dayCal (dc := .default) trivial, goodDayCount_int, rfl⟩,
    fun x => ?_⟩
  have := flin_bounds (a := 0) (b := 0)
    (logPts_strict (sortPairs_strict (timePts_nodup goodDayCount_int (0 : ℤ) hn)))
    (by unfold logPts; simpa using sortPairs_ne_nil (l := timePts (fun s e : ℤ => ((e - s : ℤ) : ℝ) / (36525 / 100)) 0 [(0, 1)]) (by simp [timePts]))
    (fun p hp => by
      obtain ⟨r, hr, rfl⟩ := List.mem_map.1 hp
      have := (sortPairs_perm _).mem_iff.1 hr
      simp only [timePts, List.map_cons, List.map_nil, List.mem_cons, List.not_mem_nil, or_false] at this
      subst this; simp) (((x - 0 : ℤ) : ℝ) / (36525 / 100))
  have e := le_antisymm this.2 this.1
  have e' : Real.exp (flin (logPts (sortPairs (timePts (fun s e : ℤ => ((e - s : ℤ) : ℝ) / (36525 / 100)) 0 [(0, 1)])))
      (((x - 0 : ℤ) : ℝ) / (36525 / 100))) = 1 := by rw [e, Real.exp_zero]
  exact ⟨floatMin_le_one.trans e'.ge, e'.le⟩

/-! ### C77 -/

/-- C77 (plain curves): points and values of different number are rejected with `ValueError`. -/
theorem C77_plain (xs ys : List ℝ) (i : Option FuncSpec) (h : xs.length ≠ ys.length) :
    Curve.new xs ys i = .error .value := by
  simp [Curve.new, h]

/-- C77 (date, interest rate and credit curves): so are dates and values of different number, whatever the other
arguments. -/
theorem C77_dates (xs : List D) (ys : List ℝ) (i : Option FuncSpec) (o? : Option D) (dc : DayCountArg D)
    (h : xs.length ≠ ys.length) :
    (∀ dflt, DateCurve.new cal xs ys i o? dc dflt = .error .value) ∧
    (∀ cls tenor, IRCurve.new cal cls xs ys i o? dc tenor = .error .value) ∧
    (∀ cls tenor, CRCurve.new cal cls xs ys i o? dc tenor = .error .value) := by
  have key : ∀ (ys : List ℝ), xs.length ≠ ys.length → ∀ dflt, DateCurve.new cal xs ys i o? dc dflt = .error .value :=
    fun ys h dflt => by simp [DateCurve.new, h]
  refine ⟨key ys h, fun cls tenor => by simp [IRCurve.new, key ys h], fun cls tenor => ?_⟩
  cases hp : cls.isProb with
  | true =>
    rw [CRCurve_new_prob hp, complement_map]
    simp [CRCurve.make, key _ (show xs.length ≠ (ys.map (storedProb cls)).length by simpa using h)]
  | false => rw [CRCurve_new_rate hp]; simp [CRCurve.make, key ys h]

example : IRCurve.new dayCal .zero [0, 365] [1 / 100] none none .default none = .error .value :=
  (C77_dates [0, 365] [1 / 100] none none .default (by simp)).2.1 _ _

/-! ### C78 -/

/-- C78: the survival (or default) probability curve cast from a flat intensity curve returns the same survival
probabilities for every date from any of its grid dates after the origin on (one of them is the day after the
origin), not only on the grid; and 1 at the origin if that is a given date. -/
theorem C78_cast {pts : List (D × ℝ)} {o? : Option D} {dc : DayCountArg D} {a m b : D} {tenor tenor' : Option P}
    {cls : CRClass} (hcl : cls = .survival ∨ cls = .default)
    (hn : (pts.map Prod.fst).Nodup) (ho : o?.or (pts.map Prod.fst).head? = some o) (hd : dc.Usable) (hk : dc.kwarg = dc)
    (hτ : GoodDayCount (dc.fn cal)) (hf : cal.falsy o = true → o? = some o)
    (ha : cal.add o cal.oneDay = .ok a) (hoa : o < a) (hm : m ∈ pts.map Prod.fst) (hmax : ∀ x ∈ pts.map Prod.fst, x ≤ m)
    (hb : cal.add m cal.oneYear = .ok b) (limit : ℕ) (same : D → Bool) :
    ∃ F S : CRCurve D P, CRCurve.new cal .flat (pts.map Prod.fst) (pts.map Prod.snd) none o? dc tenor = .ok F ∧
      CRCurve.cast cal cls limit same F none none .default tenor' = .ok S ∧
      a ∈ S.base.domain ∧ (∀ x ∈ F.base.domain, x ∈ S.base.domain) ∧
      (∀ p ∈ S.base.domain, o < p → ∀ x, p ≤ x →
        ∃ y, S.survivalProb cal x = .ok y ∧ F.survivalProb cal x = .ok y) ∧
      (o ∈ F.base.domain → S.survivalProb cal o = .ok 1 ∧ F.survivalProb cal o = .ok 1) := by
  have hne : pts ≠ [] := by rintro rfl; simp at hm
  set F : CRCurve D P := crOf cal o o? dc none .flat tenor pts with hF
  have hnew : CRCurve.new cal .flat (pts.map Prod.fst) (pts.map Prod.snd) none o? dc tenor = .ok F := by
    rw [CRCurve_new_rate rfl]
    exact CRCurve_make_eq cal hn (by simp [CRClass.dflt, linearScheme, FuncSpec.isLog, Kind.isLog]) ho hd hτ
  have hans : CreditAnswers cal F (linVal (dc.fn cal) o pts) (dc.fn cal) o :=
    ⟨crOf_linear cal rfl ho hd hτ hn hne, crOf_dayCount cal hd, hτ, ho⟩
  obtain ⟨sv, hlaw, hsv, hfac, hsurv⟩ := C38_flat hans rfl
  have hsv' : ∀ x, sv o x = Real.exp (-(linVal (dc.fn cal) o pts x * dc.fn cal o x)) := by
    intro x; rw [hsv, hτ.self]; simp
  set w : D → ℝ := fun x => Real.exp (-(linVal (dc.fn cal) o pts x * dc.fn cal o x)) with hw
  set dom := sortedSet (pts.map Prod.fst ++ [a, b]) with hdom
  have hdn : dom.Nodup := (sortedSet_strict _).imp (fun h => h.ne)
  have hsub : ∀ p ∈ pts, p.1 ∈ dom := fun p hp =>
    sortedSet_mem.2 (List.mem_append.2 (.inl (List.mem_map.2 ⟨p, hp, rfl⟩)))
  have ham : a ∈ dom := sortedSet_mem.2 (by simp)
  set pts' := dom.map fun x => (x, w x) with hpts'
  have hfst : pts'.map Prod.fst = dom := graph_fst _ _
  have hpos : ∀ p ∈ pts', 0 < p.2 := fun p hp => by
    obtain ⟨x, hx, rfl⟩ := List.mem_map.1 hp
    exact Real.exp_pos _
  have hi : (none : Option FuncSpec).getD cls.dflt = logLinearRateScheme := by rcases hcl with rfl | rfl <;> rfl
  set S : CRCurve D P := crOf cal o (some o) dc none cls tenor' pts' with hS
  have hcast : CRCurve.cast cal cls limit same F none none .default tenor' = .ok S := by
    have hoo : cal.or (some o) F.base.origin? = some o := or_origin hf
    have hor : (DayCountArg.default : DayCountArg D).or F.base.dc.kwarg = dc := hk
    have hp : cls.isProb = true := by rcases hcl with rfl | rfl <;> rfl
    simp only [CRCurve.cast, hp, if_true]
    rw [show F.base.origin = some o from ho]
    simp only [Option.none_or, pyDate, Py.ok_bind, ha, maxDate_eq (l := F.base.domain) hm hmax, hb]
    show CRCurve.castOn cal cls limit same dom F none (some o) .default tenor' = _
    simp only [CRCurve.castOn]
    rw [pyMap_ok (g := w) (fun x _ => by
        have := (hsurv x).trans (by rw [hsv'])
        rcases hcl with rfl | rfl <;> exact this), Py.ok_bind, hoo, hor]
    have := CRCurve_make_eq cal (pts := pts') (i := none) (o? := some o) (dc := dc) (o := o) (cls := cls) (tenor := tenor')
      (by rw [hfst]; exact hdn) (fun _ => hpos) rfl hd hτ
    rwa [hfst, show pts'.map Prod.snd = dom.map w from graph_snd _ _] at this
  have hScls : S.cls = cls := rfl
  have hSo : S.base.origin = some o := rfl
  have hval : ∀ x y, S.call cal x = .ok y → S.survivalProb cal x = .ok y := by
    intro x y h
    rcases hcl with rfl | rfl <;>
      simp [CRCurve.survivalProb, hSo, pyDate, CRCurve.factor, hScls, CRCurve.survivalFactorOf, h]
  refine ⟨F, S, hnew, hcast, ?_, ?_, ?_, ?_⟩
  · show a ∈ pts'.map Prod.fst
    rw [hfst]; exact ham
  · intro x hx
    show x ∈ pts'.map Prod.fst
    rw [hfst]; exact sortedSet_mem.2 (List.mem_append.2 (.inl hx))
  · intro p hp hop x hpx
    have hp' : p ∈ dom := hfst ▸ hp
    refine ⟨sv o x, hval _ _ ?_, hsurv x⟩
    have h1 := crOf_rate cal (o := o) (o? := some o) (dc := dc) (tenor := tenor') (i := none) (cls := cls)
      (pts := pts') hi rfl hd hτ (by rw [hfst]; exact hdn)
      ⟨_, List.mem_map.2 ⟨a, ham, rfl⟩, hoa.ne'⟩ (hop.trans_le hpx).ne'
    rw [rates_of_discounts hτ hne hn hdn hsub (fun y _ _ => rfl) hp' hop hpx, ← hsv'] at h1
    exact h1
  · intro hoz
    have h1 : sv o o = 1 := hlaw.self o
    refine ⟨hval _ _ ?_, by rw [hsurv, h1]⟩
    have hod : o ∈ dom := sortedSet_mem.2 (List.mem_append.2 (.inl hoz))
    have := crOf_node cal (o := o) (o? := some o) (dc := dc) (tenor := tenor') (i := none) (cls := cls)
      (pts := pts') rfl hd hτ (by rw [hfst]; exact hdn) (fun _ => hpos)
      (fun _ => ⟨_, List.mem_map.2 ⟨a, ham, rfl⟩, hoa.ne'⟩) (List.mem_map.2 ⟨o, hod, rfl⟩)
    rw [hw] at this
    simp only at this
    rw [← hsv', h1] at this
    exact this

/-- A case of `C78_cast`: intensities 1% today and 2% in a year. -/
example : ∃ F S : CRCurve ℤ ℤ, CRCurve.new dayCal .flat [0, 365] [1 / 100, 2 / 100] none (some 0) .default none = .ok F ∧
    CRCurve.cast dayCal .survival 10 (fun _ => false) F none none .default none = .ok S ∧
    ∀ x, 1 ≤ x → ∃ y, S.survivalProb dayCal x = .ok y ∧ F.survivalProb dayCal x = .ok y := by
  obtain ⟨F, S, h1, h2, h3, _, h4, _⟩ := C78_cast (cal := dayCal) (pts := [(0, 1 / 100), (365, 2 / 100)]) (o? := some 0)
    (dc := .default) (o := 0) (a := 1) (m := 365) (b := 730) (tenor := none) (tenor' := none) (.inl rfl) (by simp) rfl trivial rfl
    goodDayCount_int (fun _ => rfl) rfl (by norm_num) (by simp) (by simp) rfl 10 (fun _ => false)
  exact ⟨F, S, h1, h2, h4 1 h3 (by norm_num)⟩

end

/-! ### The hypotheses can be met: each theorem applied -/

example : True := by
  obtain ⟨c, -, h1, v, h2, h3⟩ := credit_example .flat rfl none rfl
  have := C38_flat h2 h1
  have := C38_flat_monotone h2 h1 0
  have := (C39_partial h2 false).1 h1
  trivial

theorem exDays : Steps dayCal dayCal.oneDay 0 (fun k : ℕ => (k : ℤ)) := by simpa [dayCal] using dayCal_steps 1 0

theorem exDays_increasing : Increasing (fun k : ℕ => (k : ℤ)) := fun k => by dsimp only; push_cast; omega

example : True := by
  obtain ⟨c, -, h1, v, h2, h3⟩ := credit_example .hazard rfl (some linearScheme) rfl
  have := C38_hazard_integral h2 h1 false (s := 0) (t := 10) (by norm_num) exDays (n := 9) ⟨fun k hk => by push_cast; omega, by simp⟩
  have := C38_hazard h2 h1 false false (s := 0) (t := 5) (u := 10) exDays exDays_increasing ⟨9, by norm_num⟩ (fun x => by linarith [(h3 x).1]) (by norm_num)
    (by norm_num)
  have := (C39_partial h2 false).2.1 h1 5
  trivial

/-- Curves of one survival probability: it is the answer at every date. -/
theorem exConstant (cls : CRClass) {y : ℝ} (hy : 0 < y) : ∃ c : CRCurve ℤ ℤ, c.cls = cls ∧ c.tenor = none ∧
    CreditAnswers dayCal c (fun _ => y) (fun s e => ((e - s : ℤ) : ℝ) / (36525 / 100)) 0 := by
  have hn : (([(0, y)] : List (ℤ × ℝ)).map Prod.fst).Nodup := by simp
  have hA : ∀ x, (crOf dayCal 0 none .default (some logLinearScheme) cls none [(0, y)] : CRCurve ℤ ℤ).call dayCal x = .ok y := by
    intro x
    rw [crOf_loglinear dayCal (i := some logLinearScheme) rfl rfl (dc := .default) trivial goodDayCount_int hn (by simp) (by simp [hy])]
    have := flin_bounds (a := Real.log y) (b := Real.log y)
      (logPts_strict (sortPairs_strict (timePts_nodup goodDayCount_int (0 : ℤ) hn)))
      (by unfold logPts; simpa using sortPairs_ne_nil (l := timePts (fun s e : ℤ => ((e - s : ℤ) : ℝ) / (36525 / 100)) 0 [(0, y)]) (by simp [timePts]))
      (fun p hp => by
        obtain ⟨r, hr, rfl⟩ := List.mem_map.1 hp
        have := (sortPairs_perm _).mem_iff.1 hr
        simp only [timePts, List.map_cons, List.map_nil, List.mem_cons, List.not_mem_nil, or_false] at this
        subst this; simp) (((x - 0 : ℤ) : ℝ) / (36525 / 100))
    have e := le_antisymm this.2 this.1
    exact congrArg Except.ok ((congrArg Real.exp e).trans (Real.exp_log hy))
  exact ⟨crOf dayCal 0 none .default (some logLinearScheme) cls none [(0, y)], rfl, rfl, hA, crOf_dayCount dayCal (dc := .default) trivial,
    goodDayCount_int, rfl⟩

theorem twice_floatMin_le_one : 2 * floatMin ≤ 1 := by
  have : floatMin ≤ (1 / 2 : ℝ) ^ 2 := pow_le_pow_of_le_one (by norm_num) (by norm_num) (show 2 ≤ 1022 by norm_num)
  linarith

example : True := by
  obtain ⟨c, h1, ht, h2⟩ := exConstant .survival one_pos
  have := C38_survival h2 (.inl h1) (fun _ => one_ne_zero)
  have := C38_survival_monotone h2 (.inl h1) (fun _ => twice_floatMin_le_one) (fun _ _ _ => le_rfl) (s := 0) (t := 5) (u := 10) (by norm_num) (by norm_num)
  have := (C39_partial h2 false).2.2.2 (.inl h1) 5 6 (by norm_num) rfl (by norm_num)
  trivial

example : True := by
  obtain ⟨c, h1, ht, h2⟩ := exConstant .marginal one_pos
  have hd : Steps dayCal (c.tenor.getD dayCal.oneYear) 0 (fun k : ℕ => 0 + (k : ℤ) * dayCal.oneYear) := by rw [ht]; exact dayCal_steps dayCal.oneYear 0
  have := C38_marginal_product h2 (.inl h1) false (s := 0) (t := 500) (by norm_num) (d := fun k : ℕ => 0 + (k : ℤ) * dayCal.oneYear) (n := 1) hd (fun k => by simp [dayCal]) ⟨by simp [dayCal], by simp [dayCal]⟩ (fun _ => twice_floatMin_le_one)
  have := C38_marginal h2 (.inl h1) false false (s := 0) (t := 500) (u := 700) (d := fun k : ℕ => 0 + (k : ℤ) * dayCal.oneYear) hd (fun k => by simp [dayCal]) ⟨1, by simp [dayCal]⟩
    (fun _ => twice_floatMin_le_one) (fun _ => le_rfl) (by norm_num) (by norm_num)
  have := (C39_partial h2 false).2.2.1 (.inl h1) 5 6 rfl (by norm_num)
  trivial

example := C40_marginal_range (cal := dayCal) (pts := [(0, 1 / 2), (365, 9 / 10)]) (o? := none) (o := 0) (dc := .default) (cls := .marginal)
  (tenor := none) (.inl rfl) (by simp) (by simp) rfl trivial goodDayCount_int
example := C40_survival_range (cal := dayCal) (pts := [(0, 1), (365, 9 / 10)]) (o? := none) (o := 0) (dc := .default) (cls := .survival)
  (tenor := none) (.inl rfl) (by simp) rfl trivial goodDayCount_int ⟨_, List.mem_cons_of_mem _ (List.mem_singleton.2 rfl), by simp⟩ (by simp)
example := C77_plain [0, 1] [2] none (by simp)

example : True := by
  obtain ⟨c, h1, -, h2⟩ := exConstant .survival (y := 1 / 2) (by norm_num)
  have := C38_survival_origin_violated h2 (.inl h1) (by norm_num)
  obtain ⟨c, h1, -, h2⟩ := exConstant .survival floatMin_pos
  have := C40_zero h2 (by rw [h1]; rfl) (s := 3) rfl
  trivial

end Dcf
