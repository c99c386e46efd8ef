import Verif.Props.RateCast
import Verif.Props.RateLoops
import Verif.Model.VolCurve
import Mathlib.Analysis.SpecialFunctions.Integrals.Basic

/-! # Volatility curves: C44, C45, C80-C82 -/

set_option linter.unusedSectionVars false
set_option linter.unusedSimpArgs false
set_option linter.unusedVariables false

namespace Dcf

open Spec Finset

section
variable {D P : Type} [LinearOrder D] {cal : Cal D P} {c : VolCurve D P} {v : D → ℝ} {τ : D → D → ℝ} {o : D}

/-- A volatility curve with origin `o` and day count `τ` that answers with `v`; spread and fixings are included. -/
structure VolAnswers (cal : Cal D P) (c : VolCurve D P) (v : D → ℝ) (τ : D → D → ℝ) (o : D) : Prop where
  call : ∀ x, c.call cal x = .ok (v x)
  dayCount : ∀ s e, c.dayCount cal s e = .ok (τ s e)
  good : GoodDayCount τ
  origin : c.base.origin = some o

/-- The annualised variance between two dates implied by the variances from the origin. -/
noncomputable def fwdVar (τ : D → D → ℝ) (o : D) (v : D → ℝ) (s t : D) : ℝ := (τ o t * v t ^ 2 - τ o s * v s ^ 2) / τ s t

theorem fwdVar_mul (hτ : GoodDayCount τ) {s t : D} (hst : s ≠ t) :
    fwdVar τ o v s t * τ s t = τ o t * v t ^ 2 - τ o s * v s ^ 2 :=
  div_mul_cancel₀ _ (hτ.ne_zero hst)

theorem forwardVol_eq (h : VolAnswers cal c v τ o) {s t : D} (hst : s ≠ t) :
    c.forwardVol cal s t = if fwdVar τ o v s t < 0 ∧ c.floor = none then .error .zeroDivision
      else .ok (Real.sqrt (match c.floor with | some f => max (fwdVar τ o v s t) (f ^ 2) | none => fwdVar τ o v s t)) := by
  simp only [VolCurve.forwardVol, h.origin, pyDate, Py.ok_bind, h.dayCount, h.call, pyDiv_ok (h.good.ne_zero hst)]
  unfold fwdVar
  split_ifs <;> rfl

/-- `get_terminal_vol` of a terminal volatility curve on a proper period. -/
theorem terminalVol_eq (h : VolAnswers cal c v τ o) (hc : c.cls = .terminal) (scipy : Bool) (limit : ℕ) {s t : D} (hst : s < t) :
    c.terminalVol cal scipy (limit + 1) s (some t) = if s = o then .ok (v t) else c.forwardVol cal s t := by
  simp only [VolCurve.terminalVol, hc, VolCurve.terminalVolT, h.origin, Option.some.injEq, h.call, hst.ne, if_false,
    hst.not_gt, gt_iff_lt]

/-- C44: forward variances of a terminal volatility curve add up. -/
theorem C44_additive (h : VolAnswers cal c v τ o) (hc : c.cls = .terminal) (hf : c.floor = none) (scipy : Bool) (limit : ℕ)
    {s t u : D} (hst : s < t) (htu : t < u) (hos : o ≤ s) {a b w : ℝ}
    (ha : c.terminalVol cal scipy (limit + 1) s (some t) = .ok a)
    (hb : c.terminalVol cal scipy (limit + 1) t (some u) = .ok b)
    (hw : c.terminalVol cal scipy (limit + 1) s (some u) = .ok w) :
    a ^ 2 * τ s t + b ^ 2 * τ t u = w ^ 2 * τ s u := by
  have key : ∀ {x y z}, o ≤ x → x < y → c.terminalVol cal scipy (limit + 1) x (some y) = .ok z →
      z ^ 2 * τ x y = τ o y * v y ^ 2 - τ o x * v x ^ 2 := by
    intro x y z hx hxy hz
    rw [terminalVol_eq h hc scipy limit hxy] at hz
    split_ifs at hz with e
    · obtain rfl := Except.ok.inj hz
      subst e
      rw [h.good.self]; ring
    · rw [forwardVol_eq h hxy.ne, hf] at hz
      split_ifs at hz with hn
      obtain rfl := Except.ok.inj hz
      have : 0 ≤ fwdVar τ o v x y := by
        by_contra hneg
        exact hn ⟨not_le.1 hneg, rfl⟩
      simp only [Real.sq_sqrt this]
      exact fwdVar_mul h.good hxy.ne
  rw [key hos hst ha, key (hos.trans hst.le) htu hb, key hos (hst.trans htu) hw]
  ring

/-- C44 (existence): without floor the three volatilities are defined exactly if no total variance decreases. -/
theorem C44_defined (h : VolAnswers cal c v τ o) (hc : c.cls = .terminal) (hf : c.floor = none) (scipy : Bool) (limit : ℕ)
    {s t : D} (hst : s < t) (hos : o < s) :
    (∃ a, c.terminalVol cal scipy (limit + 1) s (some t) = .ok a) ↔ τ o s * v s ^ 2 ≤ τ o t * v t ^ 2 := by
  have hpos := (h.good.pos s t).2 hst
  have hiff : fwdVar τ o v s t < 0 ↔ τ o t * v t ^ 2 < τ o s * v s ^ 2 := by
    unfold fwdVar
    rw [div_lt_iff₀ hpos, zero_mul, sub_neg]
  rw [terminalVol_eq h hc scipy limit hst, if_neg hos.ne', forwardVol_eq h hst.ne, hf]
  constructor
  · rintro ⟨a, ha⟩
    by_contra hn
    rw [if_pos ⟨hiff.2 (not_le.1 hn), rfl⟩] at ha
    cases ha
  · intro hle
    rw [if_neg (fun hn => hle.not_gt (hiff.1 hn.1))]
    exact ⟨_, rfl⟩

/-- C45 (no floor): a negative forward variance is rejected, otherwise the volatility is its root. -/
theorem C45_no_floor_partial (h : VolAnswers cal c v τ o) (hc : c.cls = .terminal) (hf : c.floor = none) (scipy : Bool) (limit : ℕ)
    {s t : D} (hst : s < t) (hos : s ≠ o) :
    (τ o t * v t ^ 2 < τ o s * v s ^ 2 → c.terminalVol cal scipy (limit + 1) s (some t) = .error .zeroDivision) ∧
    (τ o s * v s ^ 2 ≤ τ o t * v t ^ 2 → ∃ a, c.terminalVol cal scipy (limit + 1) s (some t) = .ok a ∧ 0 ≤ a ∧
      a ^ 2 * τ s t = τ o t * v t ^ 2 - τ o s * v s ^ 2) := by
  have hpos := (h.good.pos s t).2 hst
  have hiff : fwdVar τ o v s t < 0 ↔ τ o t * v t ^ 2 < τ o s * v s ^ 2 := by
    unfold fwdVar
    rw [div_lt_iff₀ hpos, zero_mul, sub_neg]
  rw [terminalVol_eq h hc scipy limit hst, if_neg hos, forwardVol_eq h hst.ne, hf]
  constructor
  · intro hlt
    rw [if_pos ⟨hiff.2 hlt, rfl⟩]
  · intro hle
    have hn : ¬ fwdVar τ o v s t < 0 := fun hn => hle.not_gt (hiff.1 hn)
    rw [if_neg (fun h => hn h.1)]
    refine ⟨_, rfl, Real.sqrt_nonneg _, ?_⟩
    simp only [Real.sq_sqrt (not_lt.1 hn)]
    exact fwdVar_mul h.good hst.ne

/-- C45 (floor): the volatility is never below the floor, and it is the floor if the forward variance is negative. -/
theorem C45_floor_partial (h : VolAnswers cal c v τ o) (hc : c.cls = .terminal) {f : ℝ} (hf : c.floor = some f) (hf0 : 0 ≤ f)
    (scipy : Bool) (limit : ℕ) {s t : D} (hst : s < t) (hos : s ≠ o) :
    ∃ a, c.terminalVol cal scipy (limit + 1) s (some t) = .ok a ∧ f ≤ a ∧
      (τ o t * v t ^ 2 < τ o s * v s ^ 2 → a = f) ∧
      (f ^ 2 * τ s t ≤ τ o t * v t ^ 2 - τ o s * v s ^ 2 → a ^ 2 * τ s t = τ o t * v t ^ 2 - τ o s * v s ^ 2) := by
  have hpos := (h.good.pos s t).2 hst
  have hiff : fwdVar τ o v s t < 0 ↔ τ o t * v t ^ 2 < τ o s * v s ^ 2 := by
    unfold fwdVar
    rw [div_lt_iff₀ hpos, zero_mul, sub_neg]
  refine ⟨Real.sqrt (max (fwdVar τ o v s t) (f ^ 2)), ?_, ?_, fun hlt => ?_, fun hle => ?_⟩
  · rw [terminalVol_eq h hc scipy limit hst, if_neg hos, forwardVol_eq h hst.ne, hf]
    simp
  · calc f = Real.sqrt (f ^ 2) := (Real.sqrt_sq hf0).symm
      _ ≤ _ := Real.sqrt_le_sqrt (le_max_right _ _)
  · rw [max_eq_right ((hiff.2 hlt).le.trans (sq_nonneg f)), Real.sqrt_sq hf0]
  · have hle' : f ^ 2 ≤ fwdVar τ o v s t := by
      unfold fwdVar
      rwa [le_div_iff₀ hpos]
    rw [max_eq_left hle', Real.sq_sqrt ((sq_nonneg f).trans hle')]
    exact fwdVar_mul h.good hst.ne

/-- C45 (empty period): the volatility at a date off the origin is the one of the following day. -/
theorem C45_day (h : VolAnswers cal c v τ o) (hc : c.cls = .terminal) (scipy : Bool) (limit : ℕ) {s e : D} (hos : s ≠ o)
    (he : cal.add s cal.oneDay = .ok e) :
    c.terminalVol cal scipy (limit + 2) s (some s) = c.terminalVol cal scipy (limit + 1) s (some e) ∧
    c.instantaneousVol cal (limit + 1) s = c.terminalVol cal scipy (limit + 1) s (some e) := by
  constructor
  · simp only [VolCurve.terminalVol, hc]
    rw [VolCurve.terminalVolT]
    simp [h.origin, hos, he]
  · simp [VolCurve.instantaneousVol, VolCurve.terminalVol, hc, he]

/-- C45 (refuted for periods from the origin): whatever is stored is returned, also below the floor or negative. -/
theorem C45_origin_violated (h : VolAnswers cal c v τ o) (hc : c.cls = .terminal) (scipy : Bool) (limit : ℕ) {t : D} (hot : o < t)
    {f : ℝ} (hf : c.floor = some f) (hlt : v t < f) :
    ∃ a, c.terminalVol cal scipy (limit + 1) o (some t) = .ok a ∧ a < f := by
  rw [terminalVol_eq h hc scipy limit hot, if_pos rfl]
  exact ⟨_, rfl, hlt⟩

/-! ### Instantaneous volatilities -/

/-- The function a curve interpolates in time, without spread and fixings. -/
structure TimeFunction (c : RateCurve D P) (g : ℝ → ℝ) : Prop where
  call : ∀ x, c.base.func.call x = .ok (some (g x))

theorem pyQuad_eq {g : ℝ → ℝ} {f : ℝ → Py ℝ} {s e : ℝ} (h : ∀ x ∈ Set.uIcc s e, f x = .ok (g x)) :
    pyQuad f s e = .ok (∫ x in s..e, g x) := by
  have hex : ∃ g : ℝ → ℝ, ∀ x ∈ Set.uIcc s e, f x = .ok (g x) := ⟨g, h⟩
  unfold pyQuad
  rw [dif_pos hex]
  congr 1
  refine intervalIntegral.integral_congr fun x hx => ?_
  exact Except.ok.inj ((hex.choose_spec x hx).symm.trans (h x hx))

theorem integrate_scipy {c : RateCurve D P} {g : ℝ → ℝ} (hg : TimeFunction c g) (ho : c.base.origin = some o)
    (hd : ∀ s e, c.base.dayCount cal s e = .ok (τ s e)) (hτ : GoodDayCount τ) {s t : D} (hst : s ≠ t) :
    c.integrate cal true s t = .ok ((∫ x in (τ o s)..(τ o t), g x) / τ s t) := by
  have : pyQuad (fun x => do pyNum (← c.base.func.call x)) (τ o s) (τ o t) = .ok (∫ x in (τ o s)..(τ o t), g x) :=
    pyQuad_eq fun x _ => by simp [hg.call, pyNum]
  simp only [RateCurve.integrate, if_true, DateCurve.time, ho, pyDate, Py.ok_bind, hd]
  rw [this]
  simp [pyDiv_ok (hτ.ne_zero hst)]

/-- C80 (what the code does): the terminal volatility of an instantaneous curve is the mean of the volatility. -/
theorem C80_average_partial (h : VolAnswers cal c v τ o) (hc : c.cls = .instantaneous) {g : ℝ → ℝ} (hg : TimeFunction c.toRateCurve g)
    (limit : ℕ) {s t : D} (hst : s < t) :
    c.terminalVol cal true limit s (some t) = .ok ((∫ x in (τ o s)..(τ o t), g x) / τ s t) := by
  simp only [VolCurve.terminalVol, hc, VolCurve.terminalVolI, hst.ne, if_false, gt_iff_lt, hst.not_gt]
  exact integrate_scipy hg h.origin h.dayCount h.good hst.ne

/-- C80 (flat curves): for a constant volatility it is that volatility. -/
theorem C80_flat_partial (h : VolAnswers cal c v τ o) (hc : c.cls = .instantaneous) {z : ℝ} (hg : TimeFunction c.toRateCurve fun _ => z)
    (limit : ℕ) {s t : D} (hst : s < t) : c.terminalVol cal true limit s (some t) = .ok z := by
  rw [C80_average_partial h hc hg limit hst]
  have e : τ o t - τ o s = τ s t := by rw [← h.good.add o s t]; ring
  rw [intervalIntegral.integral_const, e, smul_eq_mul, mul_comm, mul_div_assoc, div_self (h.good.ne_zero hst.ne), mul_one]

/-- C80 (refuted): the terminal variance is below the integral of the instantaneous variance on every period on which
the volatility is not constant. -/
theorem C80_violated (h : VolAnswers cal c v τ o) (hc : c.cls = .instantaneous) {g : ℝ → ℝ} (hg : TimeFunction c.toRateCurve g)
    (hcont : Continuous g) (limit : ℕ) {s t : D} (hst : s < t)
    (hne : ∃ x ∈ Set.Icc (τ o s) (τ o t), ∃ y ∈ Set.Icc (τ o s) (τ o t), g x ≠ g y) :
    ∃ a, c.terminalVol cal true limit s (some t) = .ok a ∧ a ^ 2 * τ s t < ∫ x in (τ o s)..(τ o t), g x ^ 2 := by
  refine ⟨_, C80_average_partial h hc hg limit hst, ?_⟩
  have hT : 0 < τ s t := (h.good.pos s t).2 hst
  have hlt : τ o s < τ o t := (h.good.lt_iff o s t).2 hst
  have e : τ o t - τ o s = τ s t := by rw [← h.good.add o s t]; ring
  set A := τ o s
  set B := τ o t
  set I := ∫ x in A..B, g x with hI
  set m := I / τ s t with hm
  have hmI : m * τ s t = I := by rw [hm]; field_simp
  have hpos : 0 < ∫ x in A..B, (g x - m) ^ 2 := by
    refine intervalIntegral.integral_pos hlt (by fun_prop) (fun x _ => sq_nonneg _) ?_
    obtain ⟨x, hx, y, hy, hxy⟩ := hne
    by_cases hxm : g x = m
    · refine ⟨y, hy, ?_⟩
      have : g y - m ≠ 0 := fun e => hxy (by rw [hxm]; linarith)
      positivity
    · refine ⟨x, hx, ?_⟩
      have : g x - m ≠ 0 := fun e => hxm (by linarith)
      positivity
  have hexp : ∫ x in A..B, (g x - m) ^ 2 = (∫ x in A..B, g x ^ 2) - 2 * m * I + m ^ 2 * τ s t := by
    have h1 : IntervalIntegrable (fun x => g x ^ 2) MeasureTheory.volume A B := (hcont.pow 2).intervalIntegrable _ _
    have h2 : IntervalIntegrable (fun x => 2 * m * g x) MeasureTheory.volume A B := (continuous_const.mul hcont).intervalIntegrable _ _
    have h3 : IntervalIntegrable (fun _ : ℝ => m ^ 2) MeasureTheory.volume A B := continuous_const.intervalIntegrable _ _
    have : ∀ x, (g x - m) ^ 2 = (g x ^ 2 - 2 * m * g x) + m ^ 2 := fun x => by ring
    simp_rw [this]
    rw [intervalIntegral.integral_add (h1.sub h2) h3, intervalIntegral.integral_sub h1 h2,
      intervalIntegral.integral_const_mul, intervalIntegral.integral_const, e, smul_eq_mul]
    ring
  rw [hexp] at hpos
  have h4 : m * (m * τ s t) = m * I := congrArg (m * ·) hmI
  have h5 : 2 * m * I = 2 * (m ^ 2 * τ s t) := by linear_combination (-2) * h4
  linarith

/-! ### Curves built from points, casts -/

/-- A volatility curve built from points. -/
noncomputable def volOf (cal : Cal D P) (o : D) (o? : Option D) (dc : DayCountArg D) (i : Option FuncSpec) (cls : VolClass)
    (floor : Option ℝ) (tenor : Option P) (pts : List (D × ℝ)) : VolCurve D P :=
  ⟨⟨dateCurveOf (dc.fn cal) o o? dc i cls.dflt pts, tenor, none⟩, cls, floor⟩

theorem VolCurve_new_eq {pts : List (D × ℝ)} {i : Option FuncSpec} {o? : Option D} {dc : DayCountArg D}
    {cls : VolClass} {floor : Option ℝ} {tenor : Option P} (hn : (pts.map Prod.fst).Nodup)
    (hpos : (i.getD cls.dflt).isLog → ∀ p ∈ pts, 0 < p.2)
    (ho : o?.or (pts.map Prod.fst).head? = some o) (hd : dc.Usable) (hτ : GoodDayCount (dc.fn cal)) :
    VolCurve.new cal cls floor (pts.map Prod.fst) (pts.map Prod.snd) i o? dc tenor =
      .ok (volOf cal o o? dc i cls floor tenor pts) := by
  simp only [VolCurve.new]
  rw [DateCurve_new_eq cal i o? dc cls.dflt ho hd (timePts_nodup hτ o hn) hpos]
  rfl

/-- Volatility curves without interpolation argument are linear. -/
theorem volOf_answers {pts : List (D × ℝ)} {o? : Option D} {dc : DayCountArg D}
    {cls : VolClass} {floor : Option ℝ} {tenor : Option P} (hn : (pts.map Prod.fst).Nodup) (hne : pts ≠ [])
    (ho : o?.or (pts.map Prod.fst).head? = some o) (hd : dc.Usable) (hτ : GoodDayCount (dc.fn cal)) :
    VolAnswers cal (volOf cal o o? dc none cls floor tenor pts) (linVal (dc.fn cal) o pts) (dc.fn cal) o ∧
    TimeFunction (volOf cal o o? dc none cls floor tenor pts).toRateCurve (flin (sortPairs (timePts (dc.fn cal) o pts))) := by
  refine ⟨⟨?_, DayCountArg.eval_eq cal hd, hτ, ho⟩, ⟨fun x => ?_⟩⟩
  · exact irOf_linear cal (cls := .zero) (tenor := tenor) (i := none) rfl ho hd hτ hn hne
  · exact funcOf_linear_call (timePts_nodup hτ o hn) (by unfold timePts; simpa using hne) _

/-- C44, C45, C80 apply to curves built from points: C80 on a curve with two different values. -/
theorem C80_points_violated {a b : D} (hab : a < b) {y z : ℝ} (hyz : y ≠ z) {dc : DayCountArg D} (hd : dc.Usable)
    (hτ : GoodDayCount (dc.fn cal)) (limit : ℕ) :
    ∃ c : VolCurve D P, VolCurve.new cal .instantaneous none [a, b] [y, z] none none dc none = .ok c ∧
      ∃ g : ℝ → ℝ, ∃ x, (∀ e, c.call cal e = .ok (g (dc.fn cal a e))) ∧ Continuous g ∧
        c.terminalVol cal true limit a (some b) = .ok x ∧
        x ^ 2 * dc.fn cal a b < ∫ u in (0 : ℝ)..(dc.fn cal a b), g u ^ 2 := by
  have hn : ([(a, y), (b, z)].map Prod.fst).Nodup := by simp [hab.ne]
  have ho : (none : Option D).or ([(a, y), (b, z)].map Prod.fst).head? = some a := rfl
  obtain ⟨h1, h2⟩ := volOf_answers (cal := cal) (cls := .instantaneous) (floor := none) (tenor := none) hn (by simp) ho hd hτ
  have hs := hτ.self a
  refine ⟨_, VolCurve_new_eq (pts := [(a, y), (b, z)]) hn (by simp [VolClass.dflt, linearScheme, FuncSpec.isLog, Kind.isLog]) ho hd hτ,
    flin (sortPairs (timePts (dc.fn cal) a [(a, y), (b, z)])), ?_⟩
  have hcont := flin_continuous (sortPairs_strict (timePts_nodup hτ a hn))
  have hnode : ∀ p ∈ [(a, y), (b, z)], flin (sortPairs (timePts (dc.fn cal) a [(a, y), (b, z)])) (dc.fn cal a p.1) = p.2 := by
    intro p hp
    refine flin_node (sortPairs_strict (timePts_nodup hτ a hn)) ?_
    exact (sortPairs_perm _).mem_iff.2 (List.mem_map.2 ⟨p, hp, rfl⟩)
  have hlt := (hτ.lt_iff a a b).2 hab
  obtain ⟨x, hx, hx'⟩ := C80_violated h1 rfl h2 hcont limit hab
    ⟨dc.fn cal a a, ⟨le_refl _, hlt.le⟩, dc.fn cal a b, ⟨hlt.le, le_refl _⟩, by
      rw [hnode (a, y) (by simp), hnode (b, z) (by simp)]; exact hyz⟩
  rw [hs] at hx'
  exact ⟨x, h1.call, hcont, hx, hx'⟩

/-- C81: a volatility curve cast to a terminal volatility curve keeps the terminal volatilities from the origin at
all dates of its grid, which contains all given dates. -/
theorem C81_terminal {a m b : D} {o? : Option D} {dc : DayCountArg D} {tenor : Option P} {w : D → ℝ}
    (ho : c.base.origin = some o) (hf : cal.falsy o = true → c.base.origin? = some o)
    (hdc : c.base.dc = dc) (hd : dc.Usable) (hk : dc.kwarg = dc) (hτ : GoodDayCount (dc.fn cal))
    (ha : cal.add o cal.oneDay = .ok a) (hm : m ∈ c.base.domain) (hmax : ∀ x ∈ c.base.domain, x ≤ m)
    (hb : cal.add m cal.tenYears = .ok b) (scipy : Bool) (limit : ℕ) (floor : Option ℝ)
    (hw : ∀ x, x ∈ c.base.domain ∨ x = a ∨ x = b → c.terminalVol cal scipy limit x none = .ok (w x)) :
    ∃ S : VolCurve D P, VolCurve.cast cal .terminal floor scipy limit c none none .default tenor = .ok S ∧
      S.base.origin = some o ∧ (∀ s e, S.dayCount cal s e = c.dayCount cal s e) ∧
      (∀ x, x ∈ S.base.domain ↔ x ∈ c.base.domain ∨ x = a ∨ x = b) ∧
      ∀ x ∈ S.base.domain, ∀ scipy' limit', S.terminalVol cal scipy' (limit' + 1) x none = c.terminalVol cal scipy limit x none := by
  subst hdc
  set dom := sortedSet (c.base.domain ++ [a, b]) with hdom
  have hdn : dom.Nodup := (sortedSet_strict _).imp (fun h => h.ne)
  have hmem : ∀ x, x ∈ dom ↔ x ∈ c.base.domain ∨ x = a ∨ x = b := by
    intro x; rw [hdom, sortedSet_mem]; simp
  set pts' := dom.map fun x => (x, w x) with hpts'
  have hfst : pts'.map Prod.fst = dom := graph_fst _ _
  set S : VolCurve D P := volOf cal o (some o) c.base.dc none .terminal floor tenor pts' with hS
  have hcast : VolCurve.cast cal .terminal floor scipy limit c none none .default tenor = .ok S := by
    have hoo : cal.or (some o) c.base.origin? = some o := or_origin hf
    have hor : (DayCountArg.default : DayCountArg D).or c.base.dc.kwarg = c.base.dc := hk
    simp only [VolCurve.cast, ho, Option.none_or, pyDate, Py.ok_bind, ha, maxDate_eq hm hmax, hb]
    rw [← hdom, pyMap_ok (f := VolClass.storage cal .terminal scipy limit c) (g := w) (fun x hx => hw x ((hmem x).1 hx)), Py.ok_bind, hoo, hor]
    have := VolCurve_new_eq (cal := cal) (pts := pts') (i := none) (o? := some o) (dc := c.base.dc) (o := o) (cls := .terminal)
      (floor := floor) (tenor := tenor) (by rw [hfst]; exact hdn)
      (by simp [VolClass.dflt, linearScheme, FuncSpec.isLog, Kind.isLog]) rfl hd hτ
    rwa [hfst, show pts'.map Prod.snd = dom.map w from graph_snd _ _] at this
  have hSd : S.base.domain = dom := hfst
  refine ⟨S, hcast, rfl, fun _ _ => rfl, fun x => by rw [hSd]; exact hmem x, fun x hx scipy' limit' => ?_⟩
  rw [hSd] at hx
  rw [hw x ((hmem x).1 hx)]
  show S.terminalVolT cal (limit' + 1) x none = _
  simp only [VolCurve.terminalVolT]
  exact irOf_node cal (cls := .zero) (tenor := tenor) (i := none) (o? := some o) rfl hd hτ (by rw [hfst]; exact hdn)
    (by simp [IRClass.dflt, linearScheme, FuncSpec.isLog, Kind.isLog])
    (by simp [IRClass.dflt, linearScheme, FuncSpec.needsNonzero, Kind.isRate, Kind.isLog])
    (List.mem_map.2 ⟨x, hx, rfl⟩)

/-! ### With and without scipy -/

theorem integrate_loop {c : RateCurve D P} {v : D → ℝ} (hv : ∀ x, c.call cal x = .ok (v x))
    (hd : ∀ s e, c.base.dayCount cal s e = .ok (τ s e)) (hτ : GoodDayCount τ) {s t : D} (hst : s ≠ t) {d : ℕ → D} {n : ℕ}
    (hs : Steps cal cal.oneDay s d) (hn : StepsTo d n t) :
    c.integrate cal false s t =
      .ok ((∑ k ∈ range n, v (d k) * τ (d k) (d (k + 1)) + v (d n) * τ (d n) t) / τ s t) := by
  have := stepLoop_eq (update := fun value current next => do
      let r ← c.call cal current
      let t ← c.base.dayCount cal current next
      .ok (value + r * t)) (F := fun n => ∑ k ∈ range n, v (d k) * τ (d k) (d (k + 1))) hs hn
    (fun k _ => by simp [hv, hd, sum_range_succ])
  simp only [range_zero, sum_empty] at this
  simp only [RateCurve.integrate, Bool.false_eq_true, if_false]
  rw [this]
  simp [hv, hd, pyDiv_ok (hτ.ne_zero hst)]

theorem integrate_loop_flat {c : RateCurve D P} {r : ℝ} (hv : ∀ x, c.call cal x = .ok r)
    (hd : ∀ s e, c.base.dayCount cal s e = .ok (τ s e)) (hτ : GoodDayCount τ) {s t : D} (hst : s ≠ t) {d : ℕ → D}
    (hs : Steps cal cal.oneDay s d) (hr : ∃ m, t ≤ d (m + 1)) : c.integrate cal false s t = .ok r := by
  obtain ⟨n, hn⟩ := StepsTo.exists hr
  rw [integrate_loop (v := fun _ => r) hv hd hτ hst hs hn]
  congr 1
  simp only [← mul_sum, sum_steps hτ, ← mul_add, hτ.add, hs.zero]
  rw [mul_div_assoc, div_self (hτ.ne_zero hst), mul_one]

theorem integrate_scipy_flat {c : RateCurve D P} {r : ℝ} (hg : TimeFunction c fun _ => r) (ho : c.base.origin = some o)
    (hd : ∀ s e, c.base.dayCount cal s e = .ok (τ s e)) (hτ : GoodDayCount τ) {s t : D} (hst : s ≠ t) :
    c.integrate cal true s t = .ok r := by
  rw [integrate_scipy hg ho hd hτ hst]
  have e : τ o t - τ o s = τ s t := by rw [← hτ.add o s t]; ring
  rw [intervalIntegral.integral_const, e, smul_eq_mul, mul_comm, mul_div_assoc, div_self (hτ.ne_zero hst), mul_one]

/-- C82 (refuted): on a flat curve with a flat spread the mean over every period is the rate with scipy and the rate
plus the spread without. -/
theorem C82_spread_violated {c : RateCurve D P} {r z : ℝ} (hg : TimeFunction c fun _ => r) (ho : c.base.origin = some o)
    (hfx : c.base.fixings = []) (hz : c.spread = some fun _ => .ok (some z)) (hz0 : z ≠ 0)
    (hd : ∀ s e, c.base.dayCount cal s e = .ok (τ s e)) (hτ : GoodDayCount τ) {s t : D} (hst : s < t) {d : ℕ → D}
    (hs : Steps cal cal.oneDay s d) (hr : ∃ m, t ≤ d (m + 1)) :
    c.integrate cal true s t = .ok r ∧ c.integrate cal false s t = .ok (r + z) ∧ r ≠ r + z := by
  refine ⟨integrate_scipy_flat hg ho hd hτ hst.ne, integrate_loop_flat (fun x => ?_) hd hτ hst.ne hs hr, by
    intro e; apply hz0; linarith⟩
  simp [RateCurve.call, hz, DateCurve.call, hfx, Dict.get, DateCurve.time, ho, pyDate, hd, hg.call, pyNum]

/-- C82 (refuted for float dates): without scipy the mean over a period is a `TypeError` on every curve with float
dates, with scipy it is defined for all curves with values. -/
theorem C82_float_violated {c : RateCurve ℝ FloatPeriod} {g : ℝ → ℝ} (hg : TimeFunction c g) {o : ℝ} (ho : c.base.origin = some o)
    {τ : ℝ → ℝ → ℝ} (hd : ∀ s e, c.base.dayCount floatCal s e = .ok (τ s e)) (hτ : GoodDayCount τ) {s t : ℝ} (hst : s < t) :
    c.integrate floatCal false s t = .error .type ∧ ∃ y, c.integrate floatCal true s t = .ok y := by
  refine ⟨?_, _, integrate_scipy hg ho hd hτ hst.ne⟩
  have : stepLoop floatCal floatCal.oneDay t (fun value current next => do
        let r ← c.call floatCal current
        let t ← c.base.dayCount floatCal current next
        .ok (value + r * t)) s 0 = .error .type := by
    unfold stepLoop
    rw [pyWhile_step]
    rfl
  simp only [RateCurve.integrate, Bool.false_eq_true, if_false]
  rw [this]
  rfl

/-- C82 (what holds): on a flat curve without spread and fixings both ways give the rate. -/
theorem C82_flat_partial {c : RateCurve D P} {r : ℝ} (hg : TimeFunction c fun _ => r) (ho : c.base.origin = some o)
    (hfx : c.base.fixings = []) (hz : c.spread = none)
    (hd : ∀ s e, c.base.dayCount cal s e = .ok (τ s e)) (hτ : GoodDayCount τ) {s t : D} (hst : s < t) {d : ℕ → D}
    (hs : Steps cal cal.oneDay s d) (hr : ∃ m, t ≤ d (m + 1)) :
    c.integrate cal true s t = .ok r ∧ c.integrate cal false s t = .ok r := by
  refine ⟨integrate_scipy_flat hg ho hd hτ hst.ne, integrate_loop_flat (fun x => ?_) hd hτ hst.ne hs hr⟩
  simp [RateCurve.call, hz, DateCurve.call, hfx, Dict.get, DateCurve.time, ho, pyDate, hd, hg.call, pyNum]

/-- A curve to which C44 and C45 apply: stored volatilities 0.4 at 0 and 0.2 at day 1000, a floor of 0.25. -/
example : ∃ c : VolCurve ℤ ℤ, VolCurve.new dayCal .terminal (some (1 / 4)) [0, 1000] [2 / 5, 1 / 5] none none .default none = .ok c ∧
    ∃ a, c.terminalVol dayCal true 1 0 (some 1000) = .ok a ∧ a < 1 / 4 := by
  have hn : ([((0 : ℤ), (2 / 5 : ℝ)), (1000, 1 / 5)].map Prod.fst).Nodup := by simp
  obtain ⟨h1, h2⟩ := volOf_answers (cal := dayCal) (o := 0) (o? := none) (dc := .default) (cls := .terminal) (floor := some (1 / 4))
    (tenor := none) hn (by simp) rfl trivial goodDayCount_int
  refine ⟨_, VolCurve_new_eq (cal := dayCal) (o := 0) (dc := .default) hn
    (by simp [VolClass.dflt, linearScheme, FuncSpec.isLog, Kind.isLog]) rfl trivial goodDayCount_int, ?_⟩
  refine C45_origin_violated h1 rfl true 0 (by norm_num) rfl ?_
  have := flin_node (sortPairs_strict (timePts_nodup goodDayCount_int 0 hn)) (x := DayCountArg.fn dayCal .default 0 1000) (y := 1 / 5)
    ((sortPairs_perm _).mem_iff.2 (List.mem_map.2 ⟨(1000, 1 / 5), by simp, rfl⟩))
  have e : linVal (DayCountArg.fn dayCal .default) 0 [((0 : ℤ), (2 / 5 : ℝ)), (1000, 1 / 5)] 1000 = 1 / 5 := this
  rw [e]
  norm_num

end

end Dcf
