import Verif.Lemmas.RateCurve
import Verif.Model.CreditCurve

/-! # Lemmas on credit curves -/

set_option linter.unusedSectionVars false
set_option linter.unusedSimpArgs false
set_option linter.unusedVariables false

namespace Dcf

open Spec

/-! ### Log-linear interpolation -/

/-- Logarithms of the values. -/
noncomputable def logPts (pts : List (ℝ × ℝ)) : List (ℝ × ℝ) := pts.map fun p => (p.1, Real.log p.2)

theorem logPts_fst (pts : List (ℝ × ℝ)) : (logPts pts).map Prod.fst = pts.map Prod.fst := by
  unfold logPts; rw [List.map_map]; rfl

theorem logPts_strict {l : List (ℝ × ℝ)} (h : StrictX l) : StrictX (logPts l) := by
  unfold StrictX logPts at *; rw [List.pairwise_map]; exact h

theorem sort_logPts {pts : List (ℝ × ℝ)} (hn : (pts.map Prod.fst).Nodup) : sortPairs (logPts pts) = logPts (sortPairs pts) := by
  rw [← sortPairs_eq_self (logPts_strict (sortPairs_strict hn))]
  apply sortPairs_congr
  exact ((sortPairs_perm pts).map _).symm

/-- The scheme interpolates the logarithms linearly and flat outside. -/
theorem funcOf_loglinear_call {pts : List (ℝ × ℝ)} (hn : (pts.map Prod.fst).Nodup) (hne : pts ≠ [])
    (hpos : ∀ p ∈ pts, 0 < p.2) (x : ℝ) :
    (funcOf logLinearScheme pts).call x = .ok (some (Real.exp (flin (logPts (sortPairs pts)) x))) := by
  have hs := sortPairs_strict hn
  have hne' := sortPairs_ne_nil hne
  have hl := logPts_strict hs
  have hlne : logPts (sortPairs pts) ≠ [] := by unfold logPts; simpa using hne'
  have e : storedPts .loglinear pts = logPts pts := rfl
  have e' : storedPts .constant pts = pts := rfl
  have hp : ∀ p ∈ sortPairs pts, 0 < p.2 := fun p h => hpos p ((sortPairs_perm pts).mem_iff.1 h)
  simp only [logLinearScheme, funcOf, Func.call, interpOf, e, e', first_xs hne', last_xs hne', Py.ok_bind,
    Interp.call, sort_logPts hn]
  have hhead : (logPts (sortPairs pts)).head hlne = (((sortPairs pts).head hne').1, Real.log ((sortPairs pts).head hne').2) := by
    simp [logPts, List.head_map]
  have hlast : (logPts (sortPairs pts)).getLast hlne =
      (((sortPairs pts).getLast hne').1, Real.log ((sortPairs pts).getLast hne').2) := by
    simp [logPts, List.getLast_map]
  split_ifs with h1 h2
  · rw [leftCall_first hs hne' h1, Py.map_ok, flin_left hlne fun p hp => ?_, hhead, Real.exp_log (hp _ (List.head_mem _))]
    have := head_le_of_strict hl hlne hp
    rw [hhead] at this
    exact h1.le.trans this
  · rw [leftCall_last hs hne' h2.le, Py.map_ok, flin_ge_last hl hlne (by rw [hlast]; exact h2.le), hlast,
      Real.exp_log (hp _ (List.getLast_mem _))]
  · rw [linearCall_eq hl hlne, Py.map_ok,
      flin_eq_plin hl hlne (by rw [hhead]; exact not_lt.1 h1) (by rw [hlast]; exact not_lt.1 h2)]

/-! ### Curves built from points -/

section
variable {D P : Type} [LinearOrder D] (cal : Cal D P)

/-- A credit curve built from points that are stored unchanged. -/
noncomputable def crOf (o : D) (o? : Option D) (dc : DayCountArg D) (i : Option FuncSpec) (cls : CRClass) (tenor : Option P)
    (pts : List (D × ℝ)) : CRCurve D P :=
  ⟨⟨dateCurveOf (dc.fn cal) o o? dc i cls.dflt pts, tenor, none⟩, cls⟩

variable {pts : List (D × ℝ)} {i : Option FuncSpec} {o? : Option D} {dc : DayCountArg D} {o : D} {cls : CRClass}
  {tenor : Option P}

theorem CRCurve_make_eq (hn : (pts.map Prod.fst).Nodup)
    (hpos : (i.getD cls.dflt).isLog → ∀ p ∈ pts, 0 < p.2)
    (ho : o?.or (pts.map Prod.fst).head? = some o) (hd : dc.Usable) (hτ : GoodDayCount (dc.fn cal)) :
    CRCurve.make cal cls (pts.map Prod.fst) (pts.map Prod.snd) i o? dc tenor = .ok (crOf cal o o? dc i cls tenor pts) := by
  simp only [CRCurve.make]
  rw [DateCurve_new_eq cal i o? dc cls.dflt ho hd (timePts_nodup hτ o hn) hpos]
  rfl

theorem crOf_dayCount (hd : dc.Usable) (s e : D) :
    (crOf cal o o? dc i cls tenor pts).dayCount cal s e = .ok (dc.fn cal s e) :=
  DayCountArg.eval_eq cal hd s e

theorem crOf_call (ho : o?.or (pts.map Prod.fst).head? = some o) (hd : dc.Usable) (x : D) :
    (crOf cal o o? dc i cls tenor pts).call cal x =
      (do pyNum (← (funcOf (i.getD cls.dflt) (timePts (dc.fn cal) o pts)).call (dc.fn cal o x))) := by
  have := dateCurveOf_call cal (i := i) (dflt := cls.dflt) ho hd x
  simp only [CRCurve.call, RateCurve.call, crOf, this, Py.ok_bind]
  cases (funcOf (i.getD cls.dflt) (timePts (dc.fn cal) o pts)).call (dc.fn cal o x) with
  | error e => rfl
  | ok y => cases y <;> simp [pyNum]

theorem crOf_call_some (ho : o?.or (pts.map Prod.fst).head? = some o) (hd : dc.Usable) {x : D} {y : ℝ}
    (h : (funcOf (i.getD cls.dflt) (timePts (dc.fn cal) o pts)).call (dc.fn cal o x) = .ok (some y)) :
    (crOf cal o o? dc i cls tenor pts).call cal x = .ok y := by
  rw [crOf_call cal ho hd, h]; rfl

/-- Values at the given points. -/
theorem crOf_node (ho : o?.or (pts.map Prod.fst).head? = some o) (hd : dc.Usable)
    (hτ : GoodDayCount (dc.fn cal)) (hn : (pts.map Prod.fst).Nodup)
    (hpos : (i.getD cls.dflt).isLog → ∀ p ∈ pts, 0 < p.2) (h0 : (i.getD cls.dflt).needsNonzero → ∃ p ∈ pts, p.1 ≠ o)
    {x : D} {y : ℝ} (hm : (x, y) ∈ pts) : (crOf cal o o? dc i cls tenor pts).call cal x = .ok y := by
  apply crOf_call_some cal ho hd
  refine funcOf_node _ (timePts_nodup hτ o hn) (fun h p hp => ?_) (fun h => ?_) (List.mem_map.2 ⟨_, hm, rfl⟩)
  · obtain ⟨q, hq, rfl⟩ := List.mem_map.1 hp
    exact hpos h q hq
  · obtain ⟨p, hp, hne⟩ := h0 h
    exact ⟨_, List.mem_map.2 ⟨p, hp, rfl⟩, hτ.ne_zero (Ne.symm hne)⟩

theorem crOf_linear (hi : i.getD cls.dflt = linearScheme)
    (ho : o?.or (pts.map Prod.fst).head? = some o) (hd : dc.Usable)
    (hτ : GoodDayCount (dc.fn cal)) (hn : (pts.map Prod.fst).Nodup) (hne : pts ≠ []) (x : D) :
    (crOf cal o o? dc i cls tenor pts).call cal x = .ok (linVal (dc.fn cal) o pts x) := by
  apply crOf_call_some cal ho hd
  rw [hi]
  exact funcOf_linear_call (timePts_nodup hτ o hn) (by unfold timePts; simpa using hne) _

theorem crOf_rate (hi : i.getD cls.dflt = logLinearRateScheme)
    (ho : o?.or (pts.map Prod.fst).head? = some o) (hd : dc.Usable)
    (hτ : GoodDayCount (dc.fn cal)) (hn : (pts.map Prod.fst).Nodup) (h0 : ∃ p ∈ pts, p.1 ≠ o) {x : D} (hx : x ≠ o) :
    (crOf cal o o? dc i cls tenor pts).call cal x =
      .ok (Real.exp (-(flin (sortPairs (ratePts (timePts (dc.fn cal) o pts))) (dc.fn cal o x) * dc.fn cal o x))) := by
  apply crOf_call_some cal ho hd
  rw [hi]
  refine funcOf_rate_call (timePts_nodup hτ o hn) ?_ (hτ.ne_zero (Ne.symm hx))
  obtain ⟨p, hp, hne⟩ := h0
  exact ⟨_, List.mem_map.2 ⟨p, hp, rfl⟩, hτ.ne_zero (Ne.symm hne)⟩

theorem crOf_loglinear (hi : i.getD cls.dflt = logLinearScheme)
    (ho : o?.or (pts.map Prod.fst).head? = some o) (hd : dc.Usable)
    (hτ : GoodDayCount (dc.fn cal)) (hn : (pts.map Prod.fst).Nodup) (hne : pts ≠ []) (hpos : ∀ p ∈ pts, 0 < p.2) (x : D) :
    (crOf cal o o? dc i cls tenor pts).call cal x =
      .ok (Real.exp (flin (logPts (sortPairs (timePts (dc.fn cal) o pts))) (dc.fn cal o x))) := by
  apply crOf_call_some cal ho hd
  rw [hi]
  refine funcOf_loglinear_call (timePts_nodup hτ o hn) (by unfold timePts; simpa using hne) (fun p hp => ?_) _
  obtain ⟨q, hq, rfl⟩ := List.mem_map.1 hp
  exact hpos q hq

/-! ### Clamping -/

theorem floatMin_pos : 0 < floatMin := by unfold floatMin; positivity

theorem floatMin_le_one : 2 * floatMin ≤ 1 := by
  unfold floatMin
  rw [show (1022 : ℕ) = 1021 + 1 from rfl, pow_succ]
  have : ((1 : ℝ) / 2) ^ 1021 ≤ 1 := pow_le_one₀ (by norm_num) (by norm_num)
  generalize ((1 : ℝ) / 2) ^ 1021 = z at *
  linarith

theorem clampProb_mem (d : ℝ) : floatMin ≤ clampProb d ∧ clampProb d ≤ 1 := by
  refine ⟨le_max_left _ _, max_le ?_ (min_le_right _ _)⟩
  have := floatMin_le_one
  have := floatMin_pos
  linarith

theorem clampProb_pos (d : ℝ) : 0 < clampProb d := floatMin_pos.trans_le (clampProb_mem d).1

theorem clampProb_eq {d : ℝ} (h1 : floatMin ≤ d) (h2 : d ≤ 1) : clampProb d = d := by
  unfold clampProb; rw [min_eq_left h2, max_eq_right h1]

end

end Dcf
