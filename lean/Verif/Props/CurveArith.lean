import Verif.Lemmas.Curve
import Mathlib.Tactic.NormNum

/-! # Arithmetic, shifting and copying of curves: C21-C26, C75 -/

set_option linter.unusedSectionVars false
set_option linter.unusedSimpArgs false
set_option linter.unusedVariables false

namespace Dcf

open Spec

/-! ## C21: arithmetic of curves -/

/-- Default linear interpolation. -/
def DefaultLinear (i : Option FuncSpec) : Prop := i = none ∨ i = some linearScheme

theorem DefaultLinear.kept {i : Option FuncSpec} (h : DefaultLinear i) : KeptInterp i := by
  rcases h with rfl | rfl
  · exact .none
  · rintro l m r ⟨⟩
    exact .inl ⟨rfl, rfl, rfl⟩

theorem DefaultLinear.getD {i : Option FuncSpec} (h : DefaultLinear i) : i.getD linearScheme = linearScheme := by
  rcases h with rfl | rfl <;> rfl

private theorem binop_linear {A B : List (ℝ × ℝ)} (hA : (A.map Prod.fst).Nodup) (hB : (B.map Prod.fst).Nodup)
    (hA0 : A ≠ []) (hB0 : B ≠ []) {i j : Option FuncSpec} (hi : DefaultLinear i) (hj : DefaultLinear j)
    (op : ℝ → ℝ → ℝ) (c d : ℝ) (hop : ∀ u v, op u v = c * u + d * v) :
    ∃ h, Curve.binop op (curveOf i A) (curveOf j B) = .ok h ∧
      ∀ x, h.call x = .ok (some (c * flin (sortPairs A) x + d * flin (sortPairs B) x)) := by
  set xs := sortedSet ((curveOf i A).domain ++ (curveOf j B).domain) with hxs
  have hs : xs.Pairwise (· < ·) := sortedSet_strict _
  set g := fun x => c * flin (sortPairs A) x + d * flin (sortPairs B) x with hg
  have hAx : ∀ p ∈ sortPairs A, p.1 ∈ xs := fun p hp => sortedSet_mem.2
    (List.mem_append_left _ (List.mem_map.2 ⟨p, hp, rfl⟩))
  have hBx : ∀ p ∈ sortPairs B, p.1 ∈ xs := fun p hp => sortedSet_mem.2
    (List.mem_append_right _ (List.mem_map.2 ⟨p, hp, rfl⟩))
  have hmap : pyMap (fun x => do
      let a ← (curveOf i A).num x
      let b ← (curveOf j B).num x
      (.ok (op a b) : Py ℝ)) xs = .ok (xs.map g) := pyMap_ok fun x _ => by
    simp [Curve.num, curveOf_linear hi.getD hA hA0, curveOf_linear hj.getD hB hB0, pyNum, hop, hg]
  have hstrict := graph_strict hs g
  have hne : xs.map (fun x => (x, g x)) ≠ [] := by
    intro h
    have := List.map_eq_nil_iff.1 h
    have h2 := hAx _ (List.head_mem (sortPairs_ne_nil hA0))
    rw [this] at h2; simp at h2
  refine ⟨curveOf i (xs.map fun x => (x, g x)), ?_, fun x => ?_⟩
  · simp only [Curve.binop]
    rw [← hxs, hmap, Py.ok_bind]
    have := Curve_new_eq i hstrict.nodup (by rw [hi.getD]; intro h; exact absurd h (by decide))
    rw [graph_fst, graph_snd] at this
    exact this
  · rw [curveOf_linear hi.getD hstrict.nodup hne, sortPairs_eq_self hstrict]
    rw [flin_comb (sortPairs_strict hA) (sortPairs_strict hB) (sortPairs_ne_nil hA0)
      (sortPairs_ne_nil hB0) hs hAx hBx]

private theorem linear_new {A : List (ℝ × ℝ)} (hA : (A.map Prod.fst).Nodup) {i : Option FuncSpec}
    (hi : DefaultLinear i) {f : Curve} (hf : Curve.new (A.map Prod.fst) (A.map Prod.snd) i = .ok f) :
    f = curveOf i A := by
  rw [Curve_new_eq i hA (by rw [hi.getD]; intro h; exact absurd h (by decide))] at hf
  exact (Except.ok.inj hf).symm

/-- C21 (sum and difference): for curves with the default scheme the sum and the difference are
pointwise at every real number. -/
theorem C21_add_sub (A B : List (ℝ × ℝ)) (hA : (A.map Prod.fst).Nodup) (hB : (B.map Prod.fst).Nodup)
    (hA0 : A ≠ []) (hB0 : B ≠ []) (i j : Option FuncSpec) (hi : DefaultLinear i) (hj : DefaultLinear j)
    (f g : Curve) (hf : Curve.new (A.map Prod.fst) (A.map Prod.snd) i = .ok f)
    (hg : Curve.new (B.map Prod.fst) (B.map Prod.snd) j = .ok g) :
    ∃ s d, f.add g = .ok s ∧ f.sub g = .ok d ∧ ∀ x, ∃ u v, f.call x = .ok (some u) ∧
      g.call x = .ok (some v) ∧ s.call x = .ok (some (u + v)) ∧ d.call x = .ok (some (u - v)) := by
  rw [linear_new hA hi hf, linear_new hB hj hg]
  obtain ⟨s, hs, hs'⟩ := binop_linear hA hB hA0 hB0 hi hj (· + ·) 1 1 (by intros; ring)
  obtain ⟨d, hd, hd'⟩ := binop_linear hA hB hA0 hB0 hi hj (· - ·) 1 (-1) (by intros; ring)
  refine ⟨s, d, hs, hd, fun x => ⟨_, _, curveOf_linear hi.getD hA hA0 x, curveOf_linear hj.getD hB hB0 x, ?_, ?_⟩⟩
  · rw [hs']; ring_nf
  · rw [hd']; ring_nf

private theorem anyZero_false {g : ℝ → Py (Option ℝ)} {v : ℝ → ℝ} {l : List ℝ}
    (hg : ∀ x ∈ l, g x = .ok (some (v x))) (h : ∀ x ∈ l, v x ≠ 0) : anyZero g l = .ok false := by
  induction l with
  | nil => rfl
  | cons a l ih =>
    simp only [anyZero, hg a (by simp), Py.ok_bind]
    rw [if_neg (by simpa using h a (by simp))]
    exact ih (fun x hx => hg x (by simp [hx])) (fun x hx => h x (by simp [hx]))

private theorem anyZero_true {g : ℝ → Py (Option ℝ)} {v : ℝ → ℝ} {l : List ℝ}
    (hg : ∀ x ∈ l, g x = .ok (some (v x))) (h : ∃ x ∈ l, v x = 0) : anyZero g l = .ok true := by
  induction l with
  | nil => simp at h
  | cons a l ih =>
    simp only [anyZero, hg a (by simp), Py.ok_bind]
    by_cases ha : v a = 0
    · rw [if_pos (by simpa using ha)]
    · rw [if_neg (by simpa using ha)]
      refine ih (fun x hx => hg x (by simp [hx])) ?_
      obtain ⟨x, hx, h0⟩ := h
      rcases List.mem_cons.1 hx with rfl | hx
      · exact absurd h0 ha
      · exact ⟨x, hx, h0⟩

private theorem new_grid {xs : List ℝ} (hs : xs.Pairwise (· < ·)) (w : ℝ → ℝ) (i : Option FuncSpec)
    (hlog : (i.getD linearScheme).isLog = false) (hrate : (i.getD linearScheme).isRate = false) :
    ∃ h, Curve.new xs (xs.map w) i = .ok h ∧ h.domain = xs ∧ ∀ x ∈ xs, h.call x = .ok (some (w x)) := by
  have hst := graph_strict hs w
  have hnz : (i.getD linearScheme).needsNonzero = false := by
    revert hrate
    cases i.getD linearScheme with
    | base k => intro _; rfl
    | scheme l m r _ => simp [FuncSpec.isRate, FuncSpec.needsNonzero]; tauto
  refine ⟨curveOf i (xs.map fun x => (x, w x)), ?_, ?_, fun x hx => ?_⟩
  · have := Curve_new_eq i hst.nodup (by simp [hlog])
    rw [graph_fst, graph_snd] at this
    exact this
  · simp only [curveOf, sortPairs_eq_self hst, graph_fst]
  · exact curveOf_node i hst.nodup (by simp [hlog]) (by simp [hnz]) (List.mem_map.2 ⟨x, hx, rfl⟩)

/-- C21 (product): on every grid point of both curves the product has the product of the values; its
domain is the union of the domains. -/
theorem C21_mul (f g : Curve) (u v : ℝ → ℝ) (hlog : (f.interp.getD linearScheme).isLog = false)
    (hrate : (f.interp.getD linearScheme).isRate = false)
    (hu : ∀ x ∈ f.domain ++ g.domain, f.call x = .ok (some (u x)))
    (hv : ∀ x ∈ f.domain ++ g.domain, g.call x = .ok (some (v x))) :
    ∃ h, f.mul g = .ok h ∧ (∀ x, x ∈ h.domain ↔ x ∈ f.domain ∨ x ∈ g.domain) ∧
      ∀ x ∈ f.domain ++ g.domain, h.call x = .ok (some (u x * v x)) := by
  have hs := sortedSet_strict (f.domain ++ g.domain)
  obtain ⟨h, h1, h2, h3⟩ := new_grid hs (fun x => u x * v x) f.interp hlog hrate
  refine ⟨h, ?_, fun x => ?_, fun x hx => h3 x (sortedSet_mem.2 hx)⟩
  · simp only [Curve.mul, Curve.binop]
    rw [pyMap_ok (g := fun x => u x * v x), Py.ok_bind, h1]
    intro x hx
    have hx := sortedSet_mem.1 hx
    simp [Curve.num, hu x hx, hv x hx, pyNum]
  · rw [h2, sortedSet_mem, List.mem_append]

/-- C21 (quotient): if the divisor vanishes nowhere on the joint grid the quotient has the quotient of
the values there, otherwise `ZeroDivisionError` is raised. -/
theorem C21_div (f g : Curve) (u v : ℝ → ℝ) (hlog : (f.interp.getD linearScheme).isLog = false)
    (hrate : (f.interp.getD linearScheme).isRate = false)
    (hu : ∀ x ∈ f.domain ++ g.domain, f.call x = .ok (some (u x)))
    (hv : ∀ x ∈ f.domain ++ g.domain, g.call x = .ok (some (v x))) :
    ((∀ x ∈ f.domain ++ g.domain, v x ≠ 0) → ∃ h, f.div g = .ok h ∧
      (∀ x, x ∈ h.domain ↔ x ∈ f.domain ∨ x ∈ g.domain) ∧
      ∀ x ∈ f.domain ++ g.domain, h.call x = .ok (some (u x / v x))) ∧
    ((∃ x ∈ f.domain ++ g.domain, v x = 0) → f.div g = .error .zeroDivision) := by
  have hs := sortedSet_strict (f.domain ++ g.domain)
  have hv' : ∀ x ∈ sortedSet (f.domain ++ g.domain), g.call x = .ok (some (v x)) := fun x hx =>
    hv x (sortedSet_mem.1 hx)
  refine ⟨fun h0 => ?_, fun ⟨x, hx, h0⟩ => ?_⟩
  · obtain ⟨h, h1, h2, h3⟩ := new_grid hs (fun x => u x / v x) f.interp hlog hrate
    refine ⟨h, ?_, fun x => ?_, fun x hx => h3 x (sortedSet_mem.2 hx)⟩
    · simp only [Curve.div]
      rw [anyZero_false hv' (fun x hx => h0 x (sortedSet_mem.1 hx)), Py.ok_bind]
      simp only [Bool.false_eq_true, if_false]
      rw [pyMap_ok (g := fun x => u x / v x)]
      · exact h1
      · intro x hx
        have hx := sortedSet_mem.1 hx
        simp [Curve.num, hu x hx, hv x hx, pyNum, pyDiv, h0 x hx]
    · rw [h2, sortedSet_mem, List.mem_append]
  · simp only [Curve.div]
    rw [anyZero_true hv' ⟨x, sortedSet_mem.2 hx, h0⟩, Py.ok_bind]
    rfl

/-- Hypotheses of C21 are met by two curves with different grids. -/
example : ∃ f g, Curve.new [0, 1] [1, 2] none = .ok f ∧ Curve.new [2, -1] [1, 0] none = .ok g :=
  ⟨_, _, Curve_new_eq (pts := [(0, 1), (1, 2)]) none (by simp) (by simp [linearScheme, FuncSpec.isLog, Kind.isLog]),
    Curve_new_eq (pts := [(2, 1), (-1, 0)]) none (by norm_num) (by simp [linearScheme, FuncSpec.isLog, Kind.isLog])⟩

/-! ## C22: shifting -/

/-- The documented behaviour of `shifted`. -/
def ShiftSpec (c c' : Curve) (delta : ℝ) : Prop := ∀ x, c'.call (x + delta) = c.call x

private theorem two_points (a b : ℝ) : Curve.new [0, 1] [a, b] none = .ok (curveOf none [(0, a), (1, b)]) :=
  Curve_new_eq (pts := [(0, a), (1, b)]) none (by simp) (by simp [linearScheme, FuncSpec.isLog, Kind.isLog])

private theorem two_points_call (a b x : ℝ) :
    (curveOf none [(0, a), (1, b)]).call x = .ok (some (flin [(0, a), (1, b)] x)) := by
  have hs : StrictX [((0 : ℝ), a), (1, b)] := by simp [StrictX]
  rw [curveOf_linear rfl hs.nodup (by simp), sortPairs_eq_self hs]

/-- C22 (refuted): the curve through (0,0) and (1,1) shifted by 1 does not satisfy the documented
behaviour: at 1 it returns 1, not 0. -/
theorem C22_violated : ∃ c c', Curve.new [0, 1] [0, 1] none = .ok c ∧ c.shifted 1 = .ok c' ∧
    ¬ ShiftSpec c c' 1 := by
  have e : (curveOf none [((0 : ℝ), (0 : ℝ)), (1, 1)]).shifted 1 = .ok (curveOf none [(1, 1), (2, 1)]) := by
    have hd : (curveOf none [((0 : ℝ), (0 : ℝ)), (1, 1)]).domain = [0, 1] := by
      have hs : StrictX [((0 : ℝ), (0 : ℝ)), (1, 1)] := by simp [StrictX]
      simp [curveOf, sortPairs_eq_self hs]
    have hm : pyMap (curveOf none [((0 : ℝ), (0 : ℝ)), (1, 1)]).num [1, 2] = .ok [1, 1] := by
      rw [pyMap_ok (g := fun x => flin [((0 : ℝ), (0 : ℝ)), (1, 1)] x)]
      · norm_num [flin, chord]
      · intro x _; simp [Curve.num, two_points_call, pyNum]
    have hn : Curve.new [1, 2] [1, 1] none = .ok (curveOf none [(1, 1), (2, 1)]) :=
      Curve_new_eq (pts := [(1, 1), (2, 1)]) none (by norm_num)
        (by simp [linearScheme, FuncSpec.isLog, Kind.isLog])
    simp only [Curve.shifted, Curve.resample, hd]
    rw [if_pos (by norm_num), show List.map (· + (1 : ℝ)) [0, 1] = [1, 2] by norm_num, hm, Py.ok_bind]
    simpa [curveOf, keepInterp] using hn
  refine ⟨_, _, two_points 0 1, e, fun h => ?_⟩
  have h0 := h 0
  have hs : StrictX [((1 : ℝ), (1 : ℝ)), (2, 1)] := by norm_num [StrictX]
  rw [two_points_call, curveOf_linear rfl hs.nodup (by simp), sortPairs_eq_self hs] at h0
  norm_num [flin] at h0

/-- C22 (what holds): `shifted` resamples: its domain is the moved domain and at the moved points it
agrees with the old curve at the same (moved) points. -/
theorem C22_resample_partial (c : Curve) (delta : ℝ) (u : ℝ → ℝ) (hc : c.domain.Pairwise (· < ·)) (hk : KeptInterp c.interp)
    (hlog : (c.interp.getD linearScheme).isLog = false) (hrate : (c.interp.getD linearScheme).isRate = false)
    (hu : ∀ x ∈ c.domain, c.call (x + delta) = .ok (some (u (x + delta)))) :
    ∃ c', c.shifted delta = .ok c' ∧ c'.domain = c.domain.map (· + delta) ∧
      ∀ x ∈ c.domain, c'.call (x + delta) = c.call (x + delta) := by
  have hs : (c.domain.map (· + delta)).Pairwise (· < ·) := by
    rw [List.pairwise_map]; exact hc.imp fun h => by linarith
  obtain ⟨h, h1, h2, h3⟩ := new_grid hs u c.interp hlog hrate
  refine ⟨h, ?_, h2, fun x hx => ?_⟩
  · have hgrid : (if delta ≠ 0 then c.domain.map (· + delta) else c.domain) = c.domain.map (· + delta) := by
      split_ifs with h
      · rfl
      · have : delta = 0 := by simpa using h
        subst this; simp
    simp only [Curve.shifted, Curve.resample, hgrid]
    rw [pyMap_ok (g := u), Py.ok_bind, keepInterp_kept hk]
    · simpa using h1
    · intro x hx
      obtain ⟨y, hy, rfl⟩ := List.mem_map.1 hx
      simp [Curve.num, hu y hy, pyNum]
  · rw [h3 _ (List.mem_map.2 ⟨x, hx, rfl⟩), hu x hx]

/-! ## C23: independence of the origin -/

section Date
variable {D P : Type} [LinearOrder D] (cal : Cal D P)

/-- C23: with an additive day count and an interpolation without special treatment of the origin (all
classes except the log-rate ones, and all schemes of such classes) the value at every date is the same
for any two origins. -/
theorem C23_origin (pts : List (D × ℝ)) (hn : (pts.map Prod.fst).Nodup) (i : Option FuncSpec) (dflt : FuncSpec)
    (hs : (i.getD dflt).isRate = false) (hpos : (i.getD dflt).isLog → ∀ p ∈ pts, 0 < p.2)
    (dc : DayCountArg D) (hd : dc.Usable) (hτ : GoodDayCount (dc.fn cal)) (o o' : D) :
    ∃ c c', DateCurve.new cal (pts.map Prod.fst) (pts.map Prod.snd) i (some o) dc dflt = .ok c ∧
      DateCurve.new cal (pts.map Prod.fst) (pts.map Prod.snd) i (some o') dc dflt = .ok c' ∧
      ∀ x, c.call cal x = c'.call cal x := by
  refine ⟨_, _, DateCurve_new_eq cal i _ dc dflt rfl hd (timePts_nodup hτ o hn) hpos,
    DateCurve_new_eq cal i _ dc dflt rfl hd (timePts_nodup hτ o' hn) hpos, fun x => ?_⟩
  rw [dateCurveOf_call cal rfl hd, dateCurveOf_call cal rfl hd, dateCurve_origin_indep hτ hs o o']

/-- The restriction in C23 is needed: the log-rate scheme through the points (0, 1/2), (1, 1/4)
depends on the origin: at 2 it gives `(1/4)^2` with origin 0 but not with origin -1. -/
theorem C23_rate_scheme_depends : ∃ c c',
    DateCurve.new floatCal [0, 1] [1 / 2, 1 / 4] (some logLinearRateScheme) (some 0) .default linearScheme = .ok c ∧
    DateCurve.new floatCal [0, 1] [1 / 2, 1 / 4] (some logLinearRateScheme) (some (-1)) .default linearScheme = .ok c' ∧
    c.call floatCal 2 = .ok (some (Real.exp (Real.log (1 / 4) * 2))) ∧
    c'.call floatCal 2 = .ok (some (Real.exp (Real.log (1 / 4) / 2 * 3))) ∧
    c.call floatCal 2 ≠ c'.call floatCal 2 := by
  have hn : ∀ o, ((timePts (DayCountArg.fn floatCal .default) o [((0 : ℝ), (1 / 2 : ℝ)), (1, 1 / 4)]).map Prod.fst).Nodup := by
    intro o; simp [timePts, DayCountArg.fn, floatCal]; intro h; linarith
  have hnew := fun o => DateCurve_new_eq floatCal (some logLinearRateScheme) (some o) .default linearScheme
    (pts := [((0 : ℝ), (1 / 2 : ℝ)), (1, 1 / 4)]) rfl trivial (hn o) (by intro _; norm_num)
  have hcall := fun o x => dateCurveOf_call floatCal (o := o) (o? := some o) (dc := .default)
    (i := some logLinearRateScheme) (dflt := linearScheme) (pts := [((0 : ℝ), (1 / 2 : ℝ)), (1, 1 / 4)]) rfl trivial x
  have h1 : (dateCurveOf (DayCountArg.fn floatCal .default) 0 (some 0) .default (some logLinearRateScheme) linearScheme
      [((0 : ℝ), (1 / 2 : ℝ)), (1, 1 / 4)]).call floatCal 2 = .ok (some (Real.exp (Real.log (1 / 4) * 2))) := by
    rw [hcall 0]
    have hst : storedPts .logconstantrate (timePts (DayCountArg.fn floatCal .default) 0
        [((0 : ℝ), (1 / 2 : ℝ)), (1, 1 / 4)]) = [(1, -Real.log (1 / 4))] := by
      simp [storedPts, timePts, DayCountArg.fn, floatCal]
    simp only [Option.getD_some, logLinearRateScheme, funcOf, Func.call, interpOf, hst]
    simp [sortPairs, ptsOf, pyIndex, pyLast, DayCountArg.fn, floatCal, Interp.call, leftCall, bisectLeft,
      bisectLeftGo]
  have h2 : (dateCurveOf (DayCountArg.fn floatCal .default) (-1) (some (-1)) .default (some logLinearRateScheme)
      linearScheme [((0 : ℝ), (1 / 2 : ℝ)), (1, 1 / 4)]).call floatCal 2 =
        .ok (some (Real.exp (Real.log (1 / 4) / 2 * 3))) := by
    rw [hcall (-1)]
    have hst : storedPts .logconstantrate (timePts (DayCountArg.fn floatCal .default) (-1)
        [((0 : ℝ), (1 / 2 : ℝ)), (1, 1 / 4)]) = [(1, -Real.log (1 / 2)), (2, -Real.log (1 / 4) / 2)] := by
      norm_num [storedPts, timePts, DayCountArg.fn, floatCal]
    have hst' : sortPairs [((1 : ℝ), -Real.log (1 / 2)), (2, -Real.log (1 / 4) / 2)] =
        [((1 : ℝ), -Real.log (1 / 2)), (2, -Real.log (1 / 4) / 2)] :=
      sortPairs_eq_self (by norm_num [StrictX])
    simp only [Option.getD_some, logLinearRateScheme, funcOf, Func.call, interpOf, hst, hst']
    norm_num [ptsOf, pyIndex, pyLast, DayCountArg.fn, floatCal, Interp.call, leftCall, bisectLeft,
      bisectLeftGo]
    ring
  refine ⟨_, _, hnew 0, hnew (-1), h1, h2, ?_⟩
  rw [h1, h2]
  intro e
  simp only [Except.ok.injEq, Option.some.injEq, Real.exp_eq_exp] at e
  have : Real.log (1 / 4) < 0 := Real.log_neg (by norm_num) (by norm_num)
  linarith

end Date

/-! ## C24: arithmetic of date curves -/

section DateArith
variable {D P : Type} [AddCommGroup D] [LinearOrder D] (cal : Cal D P)

/-- The documented behaviour: the result carries origin and day count of the left operand. -/
def KeepsDates (f h : DateCurve D) : Prop := h.origin = f.origin ∧ h.dc = f.dc

/-- C24 (refuted in general): whatever the operands, the result of an addition, subtraction or
multiplication has neither the origin nor the day count of its operands: the day count is the default
one and the origin is the first grid date. -/
theorem C24_dates_lost (op : ℝ → ℝ → ℝ) (f g h : DateCurve D) (e : DateCurve.binop cal op f g = .ok h) :
    h.dc = .default ∧ h.origin = h.domain.head? := by
  simp only [DateCurve.binop, Py.bind_eq_ok] at e
  obtain ⟨delta, _, g', _, ys, _, n, hn, data, _, _, _, e⟩ := e
  obtain rfl := Except.ok.inj e
  obtain ⟨h1, h2, h3, -⟩ := DateCurve_new_fields cal hn
  exact ⟨h3, by simp [DateCurve.origin, h2]⟩

/-- C24 (refuted): dividing date curves never succeeds. -/
theorem C24_div_never (f g h : DateCurve D) : f.div cal g ≠ .ok h := by
  intro e
  simp only [DateCurve.div, Py.bind_eq_ok] at e
  obtain ⟨_, _, _, _, b, _, e⟩ := e
  split_ifs at e with hb
  · simp [Py.throw_eq, Py.error_bind] at e
  · simp only [Py.pure_eq, Py.ok_bind, Py.bind_eq_ok] at e
    obtain ⟨_, _, _, _, e⟩ := e
    simp [Py.throw_eq] at e

private theorem dnew_grid {τ : D → D → ℝ} (hτ : GoodDayCount τ) (dc : DayCountArg D) (hdc : dc.fn cal = τ)
    (hd : dc.Usable) {xs : List D} (hs : xs.Nodup) (hne : xs ≠ []) (w : D → ℝ) (i : Option FuncSpec) (dflt : FuncSpec)
    (o? : Option D) (hlog : (i.getD dflt).isLog = false) (hrate : (i.getD dflt).isRate = false) :
    ∃ o, o?.or xs.head? = some o ∧
    DateCurve.new cal xs (xs.map w) i o? dc dflt =
      .ok (dateCurveOf τ o o? dc i dflt (xs.map fun x => (x, w x))) ∧
    ∀ x ∈ xs, (dateCurveOf τ o o? dc i dflt (xs.map fun x => (x, w x))).call cal x = .ok (some (w x)) := by
  subst hdc
  obtain ⟨o, ho⟩ : ∃ o, o?.or xs.head? = some o := by
    cases o? with
    | some o => exact ⟨o, rfl⟩
    | none => obtain ⟨a, l, rfl⟩ := List.exists_cons_of_ne_nil hne; exact ⟨a, rfl⟩
  have hnz : (i.getD dflt).needsNonzero = false := by
    revert hrate
    cases i.getD dflt with
    | base k => intro _; rfl
    | scheme l m r _ => simp [FuncSpec.isRate, FuncSpec.needsNonzero]; tauto
  have ho' : o?.or ((xs.map fun x => (x, w x)).map Prod.fst).head? = some o := by rw [graph_fst]; exact ho
  have hn : ((xs.map fun x => (x, w x)).map Prod.fst).Nodup := by rw [graph_fst]; exact hs
  refine ⟨o, ho, ?_, fun x hx => ?_⟩
  · have := DateCurve_new_eq cal i o? dc dflt ho' hd (timePts_nodup hτ o hn) (by simp [hlog])
    rwa [graph_fst, graph_snd] at this
  · exact DateCurve_values cal (dateCurveOf_origin ho') hd hτ rfl hn rfl
      (by intro h; exact absurd (hlog.symm.trans h) (by simp))
      (by intro h; exact absurd (hnz.symm.trans h) (by simp)) (List.mem_map.2 ⟨x, hx, rfl⟩)

private theorem resample_same {o : D} {o? : Option D} {dflt : FuncSpec} {i : Option FuncSpec} {pts : List (D × ℝ)}
    (hτ : GoodDayCount cal.dayCount) (ho : o?.or (pts.map Prod.fst).head? = some o)
    (hn : (pts.map Prod.fst).Nodup) (hk : KeptInterp i) (hlog : (i.getD dflt).isLog = false)
    (hrate : (i.getD dflt).isRate = false) :
    (dateCurveOf cal.dayCount o o? .default i dflt pts).shifted cal 0 =
      .ok (dateCurveOf cal.dayCount o o? .default i dflt pts) := by
  have hnz : (i.getD dflt).needsNonzero = false := by
    revert hrate
    cases i.getD dflt with
    | base k => intro _; rfl
    | scheme l m r _ => simp [FuncSpec.isRate, FuncSpec.needsNonzero]; tauto
  have hmap : pyMap ((dateCurveOf cal.dayCount o o? .default i dflt pts).num cal) (pts.map Prod.fst) =
      .ok (pts.map Prod.snd) := by
    rw [pyMap_map]
    apply pyMap_ok
    intro p hp
    have := DateCurve_values cal (c := dateCurveOf cal.dayCount o o? .default i dflt pts)
      (dateCurveOf_origin ho) trivial hτ rfl hn rfl
      (by intro h; exact absurd (hlog.symm.trans h) (by simp))
      (by intro h; exact absurd (hnz.symm.trans h) (by simp)) (x := p.1) (y := p.2) hp
    simp [DateCurve.num, this, pyNum]
  have hnew := DateCurve_new_eq cal i o? .default dflt ho trivial
    (timePts_nodup (τ := DayCountArg.fn cal .default) hτ o hn) (by simp [hlog])
  simp only [DateCurve.shifted, DateCurve.resample, ne_eq, not_true_eq_false, if_false]
  have hdom : (dateCurveOf cal.dayCount o o? .default i dflt pts).domain = pts.map Prod.fst := rfl
  have hint : (dateCurveOf cal.dayCount o o? .default i dflt pts).interp = i := rfl
  rw [hdom, hmap, Py.ok_bind, hint, keepInterp_kept hk]
  exact hnew

private theorem binop_grid {τ : D → D → ℝ} (hτ : GoodDayCount cal.dayCount) (op : ℝ → ℝ → ℝ)
    {f g : DateCurve D} {o : D} (hof : f.origin = some o) (hog : g.origin = some o)
    (hfd : f.dc.Usable) (hfg : GoodDayCount (f.dc.fn cal))
    (hg0 : g.shifted cal 0 = .ok g) (hne : f.domain ≠ [])
    (hlog : (f.interp.getD f.dflt).isLog = false) (hrate : (f.interp.getD f.dflt).isRate = false)
    {u v : D → ℝ} (hu : ∀ x ∈ f.domain ++ g.domain, f.call cal x = .ok (some (u x)))
    (hv : ∀ x ∈ f.domain ++ g.domain, g.call cal x = .ok (some (v x))) :
    ∃ o', (sortedSet (f.domain ++ g.domain)).head? = some o' ∧ DateCurve.binop cal op f g =
      .ok (dateCurveOf cal.dayCount o' none .default f.interp f.dflt
        ((sortedSet (f.domain ++ g.domain)).map fun x => (x, op (u x) (v x)))) ∧
      ∀ x ∈ f.domain ++ g.domain, (dateCurveOf cal.dayCount o' none .default f.interp f.dflt
        ((sortedSet (f.domain ++ g.domain)).map fun x => (x, op (u x) (v x)))).call cal x =
          .ok (some (op (u x) (v x))) := by
  have hs := (sortedSet_strict (f.domain ++ g.domain))
  have hnd : (sortedSet (f.domain ++ g.domain)).Nodup := hs.imp fun h => ne_of_lt h
  have hne' : sortedSet (f.domain ++ g.domain) ≠ [] := List.ne_nil_of_mem
    (sortedSet_mem.2 (List.mem_append_left _ (List.head_mem hne)))
  obtain ⟨o', ho', h1, h2⟩ := dnew_grid cal hτ .default rfl trivial hnd hne' (fun x => op (u x) (v x)) f.interp
    f.dflt none hlog hrate
  obtain ⟨o'', ho'', h1', h2'⟩ := dnew_grid cal hfg f.dc rfl hfd hnd hne' (fun x => op (u x) (v x)) f.interp
    f.dflt f.origin hlog hrate
  refine ⟨o', ho', ?_, fun x hx => h2 x (sortedSet_mem.2 hx)⟩
  have hod : originDiff f g = .ok 0 := by simp [originDiff, hof, hog, pyDate]
  simp only [DateCurve.binop, hod, Py.ok_bind, hg0]
  rw [pyMap_ok (g := fun x => op (u x) (v x)), Py.ok_bind, h1, Py.ok_bind]
  · have hdom : (dateCurveOf cal.dayCount o' none .default f.interp f.dflt
        ((sortedSet (f.domain ++ g.domain)).map fun x => (x, op (u x) (v x)))).domain =
          sortedSet (f.domain ++ g.domain) := by simp only [dateCurveOf, graph_fst]
    rw [hdom, pyMap_ok (g := fun x => op (u x) (v x)), Py.ok_bind]
    · have : (dateCurveOf cal.dayCount o' none .default f.interp f.dflt
        ((sortedSet (f.domain ++ g.domain)).map fun x => (x, op (u x) (v x)))).interp = f.interp := rfl
      rw [this, h1', Py.ok_bind]
    · intro x hx
      simp only [DateCurve.num, h2 x hx, Py.ok_bind, pyNum]
  · intro x hx
    have hx := sortedSet_mem.1 hx
    simp [DateCurve.num, hu x hx, hv x hx, pyNum]

/-- C24 (what holds): two curves with the default day count (additive), the same origin and linear
interpolation, not fixed: sum and difference are pointwise at every date. -/
theorem C24_same_origin_partial (hτ : GoodDayCount cal.dayCount) (A B : List (D × ℝ))
    (hA : (A.map Prod.fst).Nodup) (hB : (B.map Prod.fst).Nodup) (hA0 : A ≠ []) (hB0 : B ≠ [])
    (i j : Option FuncSpec) (hi : DefaultLinear i) (hj : DefaultLinear j) (o : D) (oa ob : Option D)
    (hoa : oa.or (A.map Prod.fst).head? = some o) (hob : ob.or (B.map Prod.fst).head? = some o)
    (f g : DateCurve D) (hf : DateCurve.new cal (A.map Prod.fst) (A.map Prod.snd) i oa .default linearScheme = .ok f)
    (hg : DateCurve.new cal (B.map Prod.fst) (B.map Prod.snd) j ob .default linearScheme = .ok g) :
    ∃ s d, DateCurve.binop cal (· + ·) f g = .ok s ∧ DateCurve.binop cal (· - ·) f g = .ok d ∧
      ∀ x, ∃ u v, f.call cal x = .ok (some u) ∧ g.call cal x = .ok (some v) ∧
        s.call cal x = .ok (some (u + v)) ∧ d.call cal x = .ok (some (u - v)) := by
  have hlin : FuncSpec.isLog linearScheme = false := rfl
  have hlr : FuncSpec.isRate linearScheme = false := rfl
  have hτ' : GoodDayCount (DayCountArg.fn cal .default) := hτ
  rw [DateCurve_new_eq cal i oa .default linearScheme hoa trivial (timePts_nodup hτ' o hA)
    (by rw [hi.getD, hlin]; simp)] at hf
  rw [DateCurve_new_eq cal j ob .default linearScheme hob trivial (timePts_nodup hτ' o hB)
    (by rw [hj.getD, hlin]; simp)] at hg
  rw [← Except.ok.inj hf, ← Except.ok.inj hg]
  set F := timePts cal.dayCount o A with hF
  set G := timePts cal.dayCount o B with hG
  have hFn : (F.map Prod.fst).Nodup := timePts_nodup hτ o hA
  have hGn : (G.map Prod.fst).Nodup := timePts_nodup hτ o hB
  have hF0 : F ≠ [] := by simpa [hF, timePts] using hA0
  have hG0 : G ≠ [] := by simpa [hG, timePts] using hB0
  have hu : ∀ x, (dateCurveOf cal.dayCount o oa .default i linearScheme A).call cal x =
      .ok (some (flin (sortPairs F) (cal.dayCount o x))) := fun x => by
    refine (dateCurveOf_call cal (dc := .default) hoa trivial x).trans ?_
    rw [hi.getD]; exact funcOf_linear_call hFn hF0 _
  have hv : ∀ x, (dateCurveOf cal.dayCount o ob .default j linearScheme B).call cal x =
      .ok (some (flin (sortPairs G) (cal.dayCount o x))) := fun x => by
    refine (dateCurveOf_call cal (dc := .default) hob trivial x).trans ?_
    rw [hj.getD]; exact funcOf_linear_call hGn hG0 _
  have hfi : (i.getD linearScheme).isLog = false := by rw [hi.getD]; rfl
  have hfr : (i.getD linearScheme).isRate = false := by rw [hi.getD]; rfl
  have key : ∀ (op : ℝ → ℝ → ℝ) (c d : ℝ), (∀ a b, op a b = c * a + d * b) →
      ∃ s, DateCurve.binop cal op (dateCurveOf cal.dayCount o oa .default i linearScheme A)
        (dateCurveOf cal.dayCount o ob .default j linearScheme B) = .ok s ∧
        ∀ x, s.call cal x = .ok (some (op (flin (sortPairs F) (cal.dayCount o x))
          (flin (sortPairs G) (cal.dayCount o x)))) := by
    intro op c d hop
    obtain ⟨o', ho', h1, -⟩ := binop_grid (τ := cal.dayCount) cal hτ op
      (f := dateCurveOf cal.dayCount o oa .default i linearScheme A)
      (g := dateCurveOf cal.dayCount o ob .default j linearScheme B)
      (dateCurveOf_origin hoa) (dateCurveOf_origin hob) trivial hτ'
      (resample_same cal hτ hob hB hj.kept (by rw [hj.getD]; rfl) (by rw [hj.getD]; rfl))
      (by simpa [dateCurveOf] using hA0) hfi hfr (fun x _ => hu x) (fun x _ => hv x)
    refine ⟨_, h1, fun x => ?_⟩
    generalize hxs : sortedSet ((dateCurveOf cal.dayCount o oa .default i linearScheme A).domain ++
      (dateCurveOf cal.dayCount o ob .default j linearScheme B).domain) = xs at *
    have hstr : xs.Pairwise (· < ·) := hxs ▸ sortedSet_strict _
    refine (dateCurveOf_call cal (dc := .default) (o := o') (o? := none) (by rw [graph_fst]; exact ho') trivial x).trans ?_
    have e1 : (dateCurveOf cal.dayCount o oa .default i linearScheme A).interp.getD
      (dateCurveOf cal.dayCount o oa .default i linearScheme A).dflt = linearScheme := hi.getD
    rw [e1, dateCurve_origin_indep hτ' hlr o' o]
    have hts : (xs.map (cal.dayCount o)).Pairwise (· < ·) := by
      rw [List.pairwise_map]; exact hstr.imp fun h => (hτ.lt_iff o _ _).2 h
    have e2 : timePts (DayCountArg.fn cal .default) o (xs.map fun x =>
        (x, op (flin (sortPairs F) (cal.dayCount o x)) (flin (sortPairs G) (cal.dayCount o x)))) =
        (xs.map (cal.dayCount o)).map fun t => (t, c * flin (sortPairs F) t + d * flin (sortPairs G) t) := by
      simp [timePts, Function.comp_def, hop, DayCountArg.fn]
    have hst2 := graph_strict hts fun t => c * flin (sortPairs F) t + d * flin (sortPairs G) t
    have hsub : ∀ {L : List (D × ℝ)}, (∀ p ∈ L, p.1 ∈ xs) →
        ∀ p ∈ sortPairs (timePts cal.dayCount o L), p.1 ∈ xs.map (cal.dayCount o) := by
      intro L hL p hp
      obtain ⟨q, hq, rfl⟩ := List.mem_map.1 ((sortPairs_perm _).subset hp)
      exact List.mem_map.2 ⟨_, hL q hq, rfl⟩
    have hAx : ∀ p ∈ A, p.1 ∈ xs := fun p hp => hxs ▸ sortedSet_mem.2
      (List.mem_append_left _ (List.mem_map.2 ⟨p, hp, rfl⟩))
    have hBx : ∀ p ∈ B, p.1 ∈ xs := fun p hp => hxs ▸ sortedSet_mem.2
      (List.mem_append_right _ (List.mem_map.2 ⟨p, hp, rfl⟩))
    have hne2 : (xs.map (cal.dayCount o)).map
        (fun t => (t, c * flin (sortPairs F) t + d * flin (sortPairs G) t)) ≠ [] := by
      have := hAx _ (List.head_mem hA0)
      intro h
      simp only [List.map_eq_nil_iff] at h
      rw [h] at this; simp at this
    rw [e2, funcOf_linear_call hst2.nodup hne2, sortPairs_eq_self hst2,
      flin_comb (sortPairs_strict hFn) (sortPairs_strict hGn) (sortPairs_ne_nil hF0)
        (sortPairs_ne_nil hG0) hts (hsub hAx) (hsub hBx), hop]
    rfl
  obtain ⟨s, hs, hs'⟩ := key (· + ·) 1 1 (by intros; ring)
  obtain ⟨d, hd, hd'⟩ := key (· - ·) 1 (-1) (by intros; ring)
  exact ⟨s, d, hs, hd, fun x => ⟨_, _, hu x, hv x, hs' x, hd' x⟩⟩

/-- Hypotheses of `C24_same_origin_partial` are met by two curves with origin 0. -/
example : (∃ f, DateCurve.new floatCal [0, 1] [1, 2] none none .default linearScheme = .ok f) ∧
    ∃ g, DateCurve.new floatCal [1, 2] [5, 7] none (some 0) .default linearScheme = .ok g :=
  ⟨⟨_, DateCurve_new_eq floatCal (pts := [(0, 1), (1, 2)]) none none .default linearScheme rfl trivial
      (timePts_nodup (τ := DayCountArg.fn floatCal .default) goodDayCount_real 0 (by simp))
      (by simp [linearScheme, FuncSpec.isLog, Kind.isLog])⟩,
    _, DateCurve_new_eq floatCal (pts := [(1, 5), (2, 7)]) none (some 0) .default linearScheme rfl trivial
      (timePts_nodup (τ := DayCountArg.fn floatCal .default) goodDayCount_real 0 (by norm_num))
      (by simp [linearScheme, FuncSpec.isLog, Kind.isLog])⟩

/-- C24 (refuted, division): when everything else works the quotient raises `AttributeError`. -/
theorem C24_div_attribute (hτ : GoodDayCount cal.dayCount) {f g g' : DateCurve D} {o o' : D}
    (hof : f.origin = some o) (hog : g.origin = some o') (hg' : g.shifted cal (o - o') = .ok g')
    (hne : f.domain ≠ []) (hlog : (f.interp.getD f.dflt).isLog = false)
    (hrate : (f.interp.getD f.dflt).isRate = false) {u v : D → ℝ}
    (hu : ∀ x ∈ f.domain ++ g'.domain, f.call cal x = .ok (some (u x)))
    (hv : ∀ x ∈ f.domain ++ g'.domain, g'.call cal x = .ok (some (v x)))
    (hv0 : ∀ x ∈ f.domain ++ g'.domain, v x ≠ 0) : f.div cal g = .error .attribute := by
  have hs := (sortedSet_strict (f.domain ++ g'.domain))
  have hnd : (sortedSet (f.domain ++ g'.domain)).Nodup := hs.imp fun h => ne_of_lt h
  have hne' : sortedSet (f.domain ++ g'.domain) ≠ [] := List.ne_nil_of_mem
    (sortedSet_mem.2 (List.mem_append_left _ (List.head_mem hne)))
  obtain ⟨o1, ho1, h1, h2⟩ := dnew_grid cal hτ .default rfl trivial hnd hne' (fun x => u x / v x) f.interp
    f.dflt none hlog hrate
  have hz : ∀ l : List D, (∀ x ∈ l, x ∈ f.domain ++ g'.domain) → anyZeroD (g'.call cal) l = .ok false := by
    intro l hl
    induction l with
    | nil => rfl
    | cons a l ih =>
      simp only [anyZeroD, hv a (hl a (by simp)), Py.ok_bind]
      rw [if_neg (by simpa using hv0 a (hl a (by simp)))]
      exact ih fun x hx => hl x (by simp [hx])
  simp only [DateCurve.div, originDiff, hof, hog, pyDate, Py.ok_bind, hg']
  rw [hz _ fun x hx => sortedSet_mem.1 hx, Py.ok_bind]
  simp only [Bool.false_eq_true, if_false, Py.pure_eq, Py.ok_bind]
  rw [pyMap_ok (g := fun x => u x / v x), Py.ok_bind, h1, Py.ok_bind]
  · rfl
  · intro x hx
    have hx := sortedSet_mem.1 hx
    simp [DateCurve.num, hu x hx, hv x hx, pyNum, pyDiv, hv0 x hx]

private theorem anyZero_hit {g : ℝ → Py (Option ℝ)} {w : ℝ → Option ℝ} {l : List ℝ}
    (hg : ∀ x ∈ l, g x = .ok (w x)) (h : ∃ x ∈ l, w x = none ∨ w x = some 0) : anyZero g l = .ok true := by
  induction l with
  | nil => simp at h
  | cons a l ih =>
    simp only [anyZero, hg a (by simp), Py.ok_bind]
    by_cases ha : w a = none ∨ w a = some 0
    · rw [if_pos ha]
    · rw [if_neg ha]
      refine ih (fun x hx => hg x (by simp [hx])) ?_
      obtain ⟨x, hx, h0⟩ := h
      rcases List.mem_cons.1 hx with rfl | hx
      · exact absurd h0 ha
      · exact ⟨x, hx, h0⟩

private theorem anyZeroD_hit {g : D → Py (Option ℝ)} {w : D → Option ℝ} {l : List D}
    (hg : ∀ x ∈ l, g x = .ok (w x)) (h : ∃ x ∈ l, w x = none ∨ w x = some 0) : anyZeroD g l = .ok true := by
  induction l with
  | nil => simp at h
  | cons a l ih =>
    simp only [anyZeroD, hg a (by simp), Py.ok_bind]
    by_cases ha : w a = none ∨ w a = some 0
    · rw [if_pos ha]
    · rw [if_neg ha]
      refine ih (fun x hx => hg x (by simp [hx])) ?_
      obtain ⟨x, hx, h0⟩ := h
      rcases List.mem_cons.1 hx with rfl | hx
      · exact absurd h0 ha
      · exact ⟨x, hx, h0⟩

/-- C21 (division): a divisor which is zero or answers nothing (`None`) at some point of the joint grid
is `ZeroDivisionError`, whatever the dividend. -/
theorem C21_div_undefined (f g : Curve) (w : ℝ → Option ℝ)
    (hg : ∀ x ∈ f.domain ++ g.domain, g.call x = .ok (w x))
    (h : ∃ x ∈ f.domain ++ g.domain, w x = none ∨ w x = some 0) : f.div g = .error .zeroDivision := by
  have hz : anyZero g.call (sortedSet (f.domain ++ g.domain)) = .ok true := by
    refine anyZero_hit (fun x hx => hg x (sortedSet_mem.1 hx)) ?_
    obtain ⟨x, hx, h0⟩ := h
    exact ⟨x, sortedSet_mem.2 hx, h0⟩
  simp [Curve.div, hz]

/-- C24 (division of date curves): with a divisor (moved to the origin of the dividend) which is zero or
answers nothing (`None`) at some date of the joint grid the error is `ZeroDivisionError`. -/
theorem C24_div_undefined {f g g' : DateCurve D} {o o' : D}
    (hof : f.origin = some o) (hog : g.origin = some o') (hg' : g.shifted cal (o - o') = .ok g')
    (w : D → Option ℝ) (hw : ∀ x ∈ f.domain ++ g'.domain, g'.call cal x = .ok (w x))
    (h : ∃ x ∈ f.domain ++ g'.domain, w x = none ∨ w x = some 0) : f.div cal g = .error .zeroDivision := by
  have hz : anyZeroD (g'.call cal) (sortedSet (f.domain ++ g'.domain)) = .ok true := by
    refine anyZeroD_hit (fun x hx => hw x (sortedSet_mem.1 hx)) ?_
    obtain ⟨x, hx, h0⟩ := h
    exact ⟨x, sortedSet_mem.2 hx, h0⟩
  simp [DateCurve.div, originDiff, hof, hog, pyDate, hg', hz]

/-- Hypotheses of `C21_div_undefined` are met by a divisor without values off its point. -/
example : ∃ f g, Curve.new [0, 1] [1, 2] none = .ok f ∧ Curve.new [0] [1] (some (.base .no)) = .ok g ∧
    f.div g = .error .zeroDivision := by
  refine ⟨_, _, two_points 1 2, Curve_new_eq (pts := [(0, 1)]) (some (.base .no)) (by simp)
    (by simp [FuncSpec.isLog, Kind.isLog]), ?_⟩
  refine C21_div_undefined _ _ (fun x => if x = 0 then some 1 else none) ?_ ⟨1, by simp [curveOf, sortPairs, pairLe], by simp⟩
  intro x _
  by_cases h : x = 0 <;>
    simp [h, Curve.call, curveOf, funcOf, Func.call, Interp.call, defaultCall, sortPairs, pyIndex, interpOf,
      ptsOf, storedPts]

/-- Hypotheses of `C24_div_undefined` are met by a divisor without values off its date. -/
example : ∃ f g, DateCurve.new floatCal [0, 1] [1, 2] none none .default linearScheme = .ok f ∧
    DateCurve.new floatCal [0] [1] (some (.base .no)) none .default linearScheme = .ok g ∧
    f.div floatCal g = .error .zeroDivision := by
  refine ⟨_, _, DateCurve_new_eq floatCal (pts := [(0, 1), (1, 2)]) none none .default linearScheme rfl trivial
      (timePts_nodup (τ := DayCountArg.fn floatCal .default) goodDayCount_real 0 (by simp))
      (by simp [linearScheme, FuncSpec.isLog, Kind.isLog]),
    DateCurve_new_eq floatCal (pts := [(0, 1)]) (some (.base .no)) none .default linearScheme rfl trivial
      (timePts_nodup (τ := DayCountArg.fn floatCal .default) goodDayCount_real 0 (by simp))
      (by simp [FuncSpec.isLog, Kind.isLog]), ?_⟩
  have hsh := resample_same floatCal (o := 0) (o? := none) (dflt := linearScheme) (i := some (.base .no))
    (pts := [(0, 1)]) goodDayCount_real rfl (by simp) (fun l m r h => by simp at h) rfl rfl
  refine C24_div_undefined floatCal (o := 0) (o' := 0) (dateCurveOf_origin rfl) (dateCurveOf_origin rfl)
    (by rw [sub_self]; exact hsh) (fun x => if x = 0 then some 1 else none) ?_
    ⟨1, by simp [dateCurveOf], by simp⟩
  intro x _
  refine (dateCurveOf_call floatCal (dc := .default) rfl trivial x).trans ?_
  by_cases h : x = 0 <;>
    simp [h, timePts, funcOf, Func.call, Interp.call, defaultCall, sortPairs, pyIndex, interpOf, ptsOf, storedPts,
      DayCountArg.fn, floatCal]

/-! ## C75: own day count functions -/

/-- C75 (refuted): a curve with an own (not registered) day count function can not be resampled,
copied to another grid or shifted: `TypeError`. -/
theorem C75_func_violated (c : DateCurve D) (τ : D → D → ℝ) (hdc : c.dc = .func τ none) (domain : List D)
    (hne : domain ≠ []) (u : D → ℝ) (hu : ∀ x ∈ domain, c.call cal x = .ok (some (u x))) (i : Option FuncSpec)
    (o? : Option D) : DateCurve.resample cal domain c i o? .default = .error .type := by
  simp only [DateCurve.resample]
  rw [pyMap_ok (g := u) fun x hx => by simp [DateCurve.num, hu x hx, pyNum], Py.ok_bind]
  cases hj : keepInterp i c.interp with
  | error e => rw [Py.error_bind, keepInterp_error hj]
  | ok j =>
  rw [Py.ok_bind]
  simp only [DateCurve.new, hdc, DayCountArg.kwarg, DayCountArg.or]
  rw [if_neg (by simp)]
  obtain ⟨d, l, rfl⟩ := List.exists_cons_of_ne_nil hne
  simp only [Py.pure_eq, Py.ok_bind, DateCurve.update, pyMap, DateCurve.time, DateCurve.dayCount, DayCountArg.eval]
  cases (DateCurve.origin (D := D) _) with
  | none => rfl
  | some o => rfl

theorem C75_shifted_violated (c : DateCurve D) (τ : D → D → ℝ) (hdc : c.dc = .func τ none)
    (hne : c.domain ≠ []) (delta : D) (u : D → ℝ)
    (hu : ∀ x ∈ c.domain, c.call cal (x + delta) = .ok (some (u (x + delta)))) :
    c.shifted cal delta = .error .type := by
  have hgrid : (if delta ≠ 0 then c.domain.map (· + delta) else c.domain) = c.domain.map (· + delta) := by
    split_ifs with h
    · rfl
    · have : delta = 0 := by simpa using h
      subst this; simp
  simp only [DateCurve.shifted, hgrid]
  refine C75_func_violated cal c τ hdc _ (by simpa using hne) u (fun x hx => ?_) none none
  obtain ⟨y, hy, rfl⟩ := List.mem_map.1 hx
  exact hu y hy

/-- C75 (what holds): with the default day count or a registered name the resampled curve keeps day
count and origin and has the values of the original curve on the new grid. -/
theorem C75_registered_partial (c : DateCurve D) (hdc : c.dc = .default ∨ ∃ τ, c.dc = .named (some τ))
    (hτ : GoodDayCount (c.dc.fn cal)) (domain : List D) (hn : domain.Nodup) (hne : domain ≠ []) (u : D → ℝ)
    (hu : ∀ x ∈ domain, c.call cal x = .ok (some (u x))) (hi : KeptInterp c.interp)
    (hlog : (c.interp.getD c.dflt).isLog = false) (hrate : (c.interp.getD c.dflt).isRate = false) :
    ∃ c', DateCurve.resample cal domain c none none .default = .ok c' ∧ c'.domain = domain ∧
      c'.dc = c.dc ∧ c'.origin? = c.origin? ∧ ∀ x ∈ domain, c'.call cal x = c.call cal x := by
  have hus : c.dc.Usable := by rcases hdc with h | ⟨τ, h⟩ <;> rw [h] <;> trivial
  have hk : c.dc.kwarg = c.dc := by rcases hdc with h | ⟨τ, h⟩ <;> rw [h] <;> rfl
  obtain ⟨o1, ho1, h1, h2⟩ := dnew_grid cal hτ c.dc rfl hus hn hne u c.interp c.dflt c.origin? hlog hrate
  refine ⟨_, ?_, (?_ : (dateCurveOf (c.dc.fn cal) o1 c.origin? c.dc c.interp c.dflt
    (domain.map fun x => (x, u x))).domain = domain), rfl, rfl, fun x hx => by rw [h2 x hx, hu x hx]⟩
  · simp only [DateCurve.resample]
    rw [pyMap_ok (g := u) fun x hx => by simp [DateCurve.num, hu x hx, pyNum], Py.ok_bind, hk, keepInterp_kept hi]
    exact h1
  · simp only [dateCurveOf, graph_fst]

end DateArith

/-! ## C25: copying date curves -/

section Copy

/-- C25 (refuted for calendar dates): year fractions are not dates, copying a date curve is a
`TypeError`. -/
theorem C25_calendar_violated {D P : Type} [LinearOrder D] (cal : Cal D P) (c : DateCurve D) (o : D)
    (hne : c.domain ≠ []) (u : D → ℝ) (hu : ∀ x ∈ c.domain, c.call cal x = .ok (some (u x)))
    (ho : c.origin = some o) (hd : c.dc.Usable) :
    DateCurve.copy cal (fun _ => .error .type) c = .error .type := by
  simp only [DateCurve.copy]
  rw [pyMap_ok (g := u) fun x hx => by simp [DateCurve.num, hu x hx, pyNum], Py.ok_bind,
    pyMap_ok (g := c.dc.fn cal o) fun x _ => time_eq cal ho hd x, Py.ok_bind]
  obtain ⟨d, l, hl⟩ := List.exists_cons_of_ne_nil hne
  rw [hl]; rfl

/-- C25 (float dates, what the code does): the copy of a curve with origin `o` is the curve moved by
`2 o` to the left, with the year fractions as dates. -/
theorem C25_float (pts : List (ℝ × ℝ)) (hn : (pts.map Prod.fst).Nodup) (hne : pts ≠ []) (i : Option FuncSpec)
    (dflt : FuncSpec) (hs : (i.getD dflt).isRate = false) (hk : KeptInterp i) (hpos : (i.getD dflt).isLog → ∀ p ∈ pts, 0 < p.2)
    (o? : Option ℝ) (o : ℝ) (ho : o?.or (pts.map Prod.fst).head? = some o) (c : DateCurve ℝ)
    (hc : DateCurve.new floatCal (pts.map Prod.fst) (pts.map Prod.snd) i o? .default dflt = .ok c) :
    ∃ c', DateCurve.copy floatCal (fun t => .ok t) c = .ok c' ∧ c'.domain = c.domain.map (· - o) ∧
      ∀ z, c'.call floatCal (z - 2 * o) = c.call floatCal z := by
  have hτ : GoodDayCount (DayCountArg.fn floatCal .default) := goodDayCount_real
  have hnz : (i.getD dflt).needsNonzero = false := by
    revert hs
    cases i.getD dflt with
    | base k => intro _; rfl
    | scheme l m r _ => simp [FuncSpec.isRate, FuncSpec.needsNonzero]; tauto
  rw [DateCurve_new_eq floatCal i o? .default dflt ho trivial (timePts_nodup hτ o hn) hpos] at hc
  rw [← Except.ok.inj hc]
  obtain ⟨⟨d, y⟩, l, rfl⟩ := List.exists_cons_of_ne_nil hne
  generalize hpts : ((d, y) :: l) = pts at *
  have hhead : (pts.map Prod.fst).head? = some d := by rw [← hpts]; rfl
  set q : List (ℝ × ℝ) := pts.map fun p => (p.1 - o, p.2) with hq
  have hqn : (q.map Prod.fst).Nodup := by
    rw [hq, List.map_map]
    have : (Prod.fst ∘ fun p : ℝ × ℝ => (p.1 - o, p.2)) = (fun x => x - o) ∘ Prod.fst := rfl
    rw [this, ← List.map_map]
    exact hn.map fun a b h => by simpa using h
  have hq1 : q.map Prod.fst = (pts.map Prod.fst).map (DayCountArg.fn floatCal .default o) := by
    simp [hq, Function.comp_def, DayCountArg.fn, floatCal]
  have hq2 : q.map Prod.snd = pts.map Prod.snd := by simp [hq, Function.comp_def]
  set c0 : DateCurve ℝ := dateCurveOf (DayCountArg.fn floatCal .default) o o? .default i dflt pts with hc0
  have hdom : c0.domain = pts.map Prod.fst := rfl
  have hval : pyMap (c0.num floatCal) (pts.map Prod.fst) = .ok (pts.map Prod.snd) := by
    rw [pyMap_map]
    apply pyMap_ok
    intro p hp
    have := DateCurve_values floatCal (c := c0) (dateCurveOf_origin ho) trivial hτ rfl hn rfl hpos
      (by intro h; exact absurd (hnz.symm.trans h) (by simp)) (x := p.1) (y := p.2) hp
    simp [DateCurve.num, this, pyNum]
  have htime : pyMap (c0.time floatCal) (pts.map Prod.fst) = .ok (q.map Prod.fst) := by
    rw [hq1]
    exact pyMap_ok fun x _ => time_eq floatCal (c := c0) (dateCurveOf_origin ho) trivial x
  have hup := update_eq floatCal
    (c := ⟨pts.map Prod.fst, none, .default, i, dflt, [], .base ⟨.no, ⟨[], []⟩, none⟩⟩) (o := d)
    (by simpa [DateCurve.origin] using hhead) trivial (pts := q) (timePts_nodup hτ d hqn)
    (by
      intro h p hp
      obtain ⟨r, hr, rfl⟩ := List.mem_map.1 hp
      exact hpos h r hr)
  refine ⟨⟨q.map Prod.fst, none, .default, i, dflt, [], funcOf (i.getD dflt)
    (timePts (DayCountArg.fn floatCal .default) d q)⟩, ?_, ?_, fun z => ?_⟩
  · simp only [DateCurve.copy, hdom, hval, htime, Py.ok_bind]
    rw [pyMap_ok (f := fun t : ℝ => (.ok t : Py ℝ)) (g := fun t => t) fun x _ => rfl, List.map_id', Py.ok_bind, ← hq2,
      show c0.interp = i from rfl, keepInterp_kept hk]
    exact hup
  · simp [hdom, hq1, DayCountArg.fn, floatCal]
  · rw [DateCurve_call floatCal (c := ⟨q.map Prod.fst, none, .default, i, dflt, [], funcOf (i.getD dflt)
      (timePts (DayCountArg.fn floatCal .default) d q)⟩) (o := d - o) (by simp [DateCurve.origin, ← hpts, hq]) trivial rfl,
      dateCurveOf_call floatCal (dc := .default) ho trivial]
    have e1 : timePts (DayCountArg.fn floatCal .default) d q =
        shiftPts (-d) (timePts (DayCountArg.fn floatCal .default) o pts) := by
      simp [timePts, shiftPts, hq, DayCountArg.fn, floatCal, Function.comp_def]
      intros; ring
    have e2 : DayCountArg.fn floatCal .default (d - o) (z - 2 * o) =
        DayCountArg.fn floatCal .default o z + -d := by
      simp [DayCountArg.fn, floatCal]; ring
    simp only
    rw [e1, e2, funcOf_shift _ _ hs]

/-- C25 (refuted for float dates): unless the origin is the zero date the copy has other dates. -/
theorem C25_float_violated (pts : List (ℝ × ℝ)) (hn : (pts.map Prod.fst).Nodup) (hne : pts ≠ []) (i : Option FuncSpec)
    (dflt : FuncSpec) (hs : (i.getD dflt).isRate = false) (hk : KeptInterp i) (hpos : (i.getD dflt).isLog → ∀ p ∈ pts, 0 < p.2)
    (o? : Option ℝ) (o : ℝ) (ho : o?.or (pts.map Prod.fst).head? = some o) (h0 : o ≠ 0) (c c' : DateCurve ℝ)
    (hc : DateCurve.new floatCal (pts.map Prod.fst) (pts.map Prod.snd) i o? .default dflt = .ok c)
    (hc' : DateCurve.copy floatCal (fun t => .ok t) c = .ok c') : c'.domain ≠ c.domain := by
  obtain ⟨c'', e, hd, -⟩ := C25_float pts hn hne i dflt hs hk hpos o? o ho c hc
  rw [hc'] at e
  obtain rfl := Except.ok.inj e
  rw [hd, (DateCurve_new_fields floatCal hc).1]
  obtain ⟨p, l, rfl⟩ := List.exists_cons_of_ne_nil hne
  intro h
  simp only [List.map_cons, List.cons.injEq] at h
  exact h0 (by linarith [h.1])

/-- C25 (what holds): for float dates with origin zero the copy has the same domain and values. -/
theorem C25_zero_origin_partial (pts : List (ℝ × ℝ)) (hn : (pts.map Prod.fst).Nodup) (hne : pts ≠ [])
    (i : Option FuncSpec) (dflt : FuncSpec) (hs : (i.getD dflt).isRate = false)
    (hk : KeptInterp i) (hpos : (i.getD dflt).isLog → ∀ p ∈ pts, 0 < p.2) (o? : Option ℝ)
    (ho : o?.or (pts.map Prod.fst).head? = some 0) (c : DateCurve ℝ)
    (hc : DateCurve.new floatCal (pts.map Prod.fst) (pts.map Prod.snd) i o? .default dflt = .ok c) :
    ∃ c', DateCurve.copy floatCal (fun t => .ok t) c = .ok c' ∧ c'.domain = c.domain ∧
      ∀ z, c'.call floatCal z = c.call floatCal z := by
  obtain ⟨c', e, hd, hv⟩ := C25_float pts hn hne i dflt hs hk hpos o? 0 ho c hc
  exact ⟨c', e, by simpa using hd, fun z => by simpa using hv z⟩

/-- Non-vacuity: a curve with two points and origin 1, copied. -/
example : ∃ c c', DateCurve.new floatCal [1, 2] [5, 7] none none .default linearScheme = .ok c ∧
    DateCurve.copy floatCal (fun t => .ok t) c = .ok c' ∧ c'.domain = [0, 1] := by
  have hn : (([((1 : ℝ), (5 : ℝ)), (2, 7)] : List (ℝ × ℝ)).map Prod.fst).Nodup := by norm_num
  have hc := DateCurve_new_eq floatCal (pts := [((1 : ℝ), (5 : ℝ)), (2, 7)]) none none .default linearScheme rfl trivial
      (timePts_nodup (τ := DayCountArg.fn floatCal .default) goodDayCount_real 1 hn)
      (by simp [linearScheme, FuncSpec.isLog, Kind.isLog])
  obtain ⟨c', e, hd, -⟩ := C25_float _ hn (by simp) none linearScheme rfl .none
    (by simp [linearScheme, FuncSpec.isLog, Kind.isLog]) none 1 rfl _ hc
  refine ⟨_, c', hc, e, ?_⟩
  rw [hd, (DateCurve_new_fields floatCal hc).1]
  norm_num

end Copy

/-! ## C26: fixings -/

section Fix
variable {D P : Type} [DecidableEq D] (cal : Cal D P)

/-- Any sequence of fixings `c.fixings[x] = y`. -/
def applyFixings (c : DateCurve D) (l : List (D × ℝ)) : DateCurve D := l.foldl (fun c p => c.fix p.1 p.2) c

/-- The last fixing given for a date. -/
def lastFixing (l : List (D × ℝ)) (x : D) : Option ℝ := (l.reverse.find? fun p => p.1 = x).map Prod.snd

/-- C26: after any sequence of fixings a date with a fixing returns the last one given for it, every
other date returns what it returned before. -/
theorem C26_fixings (c : DateCurve D) (l : List (D × ℝ)) (x : D) :
    (applyFixings c l).call cal x =
      match lastFixing l x with
      | some y => .ok (some y)
      | none => c.call cal x := by
  induction l using List.reverseRecOn with
  | nil => rfl
  | append_singleton l p ih =>
    have e : applyFixings c (l ++ [p]) = (applyFixings c l).fix p.1 p.2 := by simp [applyFixings]
    have hcall : ∀ (c : DateCurve D), (c.fix p.1 p.2).call cal x =
        if p.1 = x then .ok (some p.2) else c.call cal x := by
      intro c
      by_cases h : p.1 = x
      · subst h
        simp [DateCurve.call, DateCurve.fix, Dict.get_set]
      · rw [if_neg h]
        simp only [DateCurve.call, DateCurve.fix, Dict.get_set, if_neg h]
        rfl
    rw [e, hcall, ih]
    simp only [lastFixing, List.reverse_append, List.reverse_singleton, List.singleton_append,
      List.find?_cons]
    by_cases h : p.1 = x
    · simp [h]
    · simp [h]

end Fix

/-! ### The hypotheses can be met: each theorem applied -/

/-- A curve with two points. -/
theorem exPlain : ∃ (f : Curve) (u : ℝ → ℝ), Curve.new [1, 3] [2, 4] none = .ok f ∧ f.domain = [1, 3] ∧ f.interp = none ∧
    (∀ x, f.call x = .ok (some (u x))) ∧ ∀ x, u x ≠ 0 := by
  have hs : StrictX [((1 : ℝ), (2 : ℝ)), (3, 4)] := by norm_num [StrictX]
  refine ⟨_, _, Curve_new_eq none (pts := [(1, 2), (3, 4)]) hs.nodup (by simp), ?_, rfl, curveOf_linear rfl hs.nodup (by simp), fun x => ?_⟩
  · simp only [curveOf]
    rw [sortPairs_eq_self hs]
    rfl
  · rw [sortPairs_eq_self hs]
    have := (flin_bounds hs (by simp) (a := 2) (b := 4) (by intro p hp; fin_cases hp <;> norm_num) x).1
    linarith

example : True := by
  obtain ⟨f, u, h1, hd, hi, hu, h0⟩ := exPlain
  have := C21_add_sub [(1, 2), (3, 4)] [(1, 2), (3, 4)] (by norm_num) (by norm_num) (by simp) (by simp) none none (.inl rfl) (.inl rfl) f f h1 h1
  have hl : (f.interp.getD linearScheme).isLog = false := by rw [hi]; rfl
  have hr : (f.interp.getD linearScheme).isRate = false := by rw [hi]; rfl
  have := C21_mul f f u u hl hr (fun x _ => hu x) (fun x _ => hu x)
  have := (C21_div f f u u hl hr (fun x _ => hu x) (fun x _ => hu x)).1 (fun x _ => h0 x)
  have := C22_resample_partial f 1 u (by rw [hd]; norm_num) (by rw [hi]; intro _ _ _ h; simp at h) hl hr (fun x _ => hu _)
  trivial

example := C23_origin dayCal [(0, 2), (100, 4)] (by decide) none linearScheme rfl (by simp) .default trivial goodDayCount_int 0 50

/-- A date curve with two points that answers at every date. -/
theorem exDated (dc : DayCountArg ℤ) (hdc : dc = .default ∨ dc = .func dayCal.dayCount none) : ∃ (f : DateCurve ℤ) (u : ℤ → ℝ),
    DateCurve.new dayCal [0, 100] [2, 4] none none dc linearScheme = .ok f ∧ f.domain = [0, 100] ∧ f.interp = none ∧ f.dflt = linearScheme ∧
    f.dc = dc ∧ f.origin = some 0 ∧ (∀ x, f.call dayCal x = .ok (some (u x))) ∧ ∀ x, u x ≠ 0 := by
  have hd : dc.Usable := by rcases hdc with rfl | rfl <;> trivial
  have e : dc.fn dayCal = dayCal.dayCount := by rcases hdc with rfl | rfl <;> rfl
  have hτ : GoodDayCount (dc.fn dayCal) := by rw [e]; exact goodDayCount_int
  have hn := timePts_nodup hτ (0 : ℤ) (pts := [((0 : ℤ), (2 : ℝ)), (100, 4)]) (by decide)
  refine ⟨_, fun x => flin (sortPairs (timePts (dc.fn dayCal) 0 [(0, 2), (100, 4)])) (dc.fn dayCal 0 x),
    DateCurve_new_eq dayCal (pts := [(0, 2), (100, 4)]) none none dc linearScheme (o := 0) rfl hd hn (by simp), rfl, rfl, rfl, rfl, rfl,
    fun x => ?_, fun x => ?_⟩
  · rw [dateCurveOf_call dayCal rfl hd]
    exact funcOf_linear_call hn (by simp [timePts]) _
  · have := (flin_bounds (sortPairs_strict hn) (sortPairs_ne_nil (by simp [timePts])) (a := 2) (b := 4) (fun p hp => by
      have := (sortPairs_perm _).mem_iff.1 hp
      simp only [timePts, List.map_cons, List.map_nil, List.mem_cons, List.not_mem_nil, or_false] at this
      rcases this with rfl | rfl <;> norm_num) (dc.fn dayCal 0 x)).1
    linarith

example : True := by
  obtain ⟨f, u, h, hdom, hi, hf, hdc, ho, hu, h0⟩ := exDated .default (.inl rfl)
  have := C24_same_origin_partial dayCal goodDayCount_int [(0, 2), (100, 4)] [(0, 2), (100, 4)] (by decide) (by decide) (by simp) (by simp) none none
    (.inl rfl) (.inl rfl) 0 none none rfl rfl f f h h
  have hs : f.shifted dayCal (0 - 0) = .ok f := by
    have e := DateCurve_new_eq dayCal (pts := [(0, 2), (100, 4)]) none none .default linearScheme (o := 0) rfl trivial
      (timePts_nodup (τ := DayCountArg.fn dayCal .default) goodDayCount_int (0 : ℤ) (by decide)) (by simp)
    obtain rfl := Except.ok.inj (h.symm.trans e)
    rw [sub_self]
    exact resample_same dayCal goodDayCount_int rfl (by decide) (by intro _ _ _ h; simp at h) rfl rfl
  have := C24_div_attribute dayCal goodDayCount_int ho ho hs (by rw [hdom]; simp) (by rw [hi, hf]; rfl) (by rw [hi, hf]; rfl) (u := u) (v := u)
    (fun x _ => hu x) (fun x _ => hu x) (fun x _ => h0 x)
  have := C75_registered_partial dayCal f (.inl hdc) (by rw [hdc]; exact goodDayCount_int) [10, 20] (by decide) (by simp) u (fun x _ => hu x)
    (by rw [hi]; intro _ _ _ h; simp at h) (by rw [hi, hf]; rfl) (by rw [hi, hf]; rfl)
  have := C25_calendar_violated dayCal f 0 (by rw [hdom]; simp) u (fun x _ => hu x) ho (by rw [hdc]; trivial)
  trivial

example : True := by
  obtain ⟨f, u, h, hdom, hi, hf, hdc, ho, hu, h0⟩ := exDated (.func dayCal.dayCount none) (.inr rfl)
  have := C75_func_violated dayCal f _ hdc [10, 20] (by simp) u (fun x _ => hu x) none none
  have := C75_shifted_violated dayCal f _ hdc (by rw [hdom]; simp) 5 u (fun x _ => hu _)
  trivial

/-- A curve over year fractions with points at `o` and `o + 1`. -/
theorem exYears (o : ℝ) : ∃ f : DateCurve ℝ, DateCurve.new floatCal [o, o + 1] [2, 4] none none .default linearScheme = .ok f :=
  ⟨_, DateCurve_new_eq floatCal (pts := [(o, 2), (o + 1, 4)]) none none .default linearScheme (o := o) rfl trivial
    (timePts_nodup (τ := DayCountArg.fn floatCal .default) goodDayCount_real o (by simp)) (by simp)⟩

example : True := by
  obtain ⟨f, h⟩ := exYears 0
  have := C25_zero_origin_partial [(0, 2), (0 + 1, 4)] (by simp) (by simp) none linearScheme rfl (by intro _ _ _ h; simp at h) (by simp) none rfl f h
  trivial

example : True := by
  obtain ⟨f, h⟩ := exYears 1
  obtain ⟨f', h', -⟩ := C25_float [(1, 2), (1 + 1, 4)] (by simp) (by simp) none linearScheme rfl (by intro _ _ _ h; simp at h) (by simp) none 1 rfl f h
  have := C25_float_violated [(1, 2), (1 + 1, 4)] (by simp) (by simp) none linearScheme rfl (by intro _ _ _ h; simp at h) (by simp) none 1 rfl
    one_ne_zero f f' h h'
  trivial

end Dcf
