import Verif.Props.Forward
import Verif.Lemmas.CreditCurve
import Verif.Model.Fx

/-! # C140: arithmetic of forward curves -/

set_option linter.unusedSectionVars false
set_option linter.unusedSimpArgs false
set_option linter.unusedVariables false

namespace Dcf

open Spec

section
variable {D P : Type} [AddCommGroup D] [LinearOrder D] {cal : Cal D P}

/-- A forward curve through increasing dates with positive prices and the default interpolation, flat beyond its dates. -/
theorem fwd_flat {pts : List (D × ℝ)} {o? : Option D} {o : D} {dc : DayCountArg D} (hne : pts ≠ [])
    (hinc : (pts.map Prod.fst).Pairwise (· < ·)) (hpos : ∀ p ∈ pts, 0 < p.2)
    (ho : o?.or (pts.map Prod.fst).head? = some o) (hd : dc.Usable) (hτ : GoodDayCount (dc.fn cal)) (y : ℝ) :
    ∃ c, ForwardCurve.new cal (pts.map Prod.fst) (pts.map Prod.snd) none o? dc (.flat y) = .ok c ∧
      c.base = dateCurveOf (dc.fn cal) o o? dc none logLinearScheme pts ∧
      (∀ x, x ≤ (pts.getLast hne).1 →
        c.price cal x = .ok (some (Real.exp (flin (logPts (timePts (dc.fn cal) o pts)) (dc.fn cal o x))))) ∧
      (y = 0 → ∀ x, c.price cal x = .ok (some (Real.exp (flin (logPts (timePts (dc.fn cal) o pts)) (dc.fn cal o x))))) ∧
      ∀ p ∈ pts, c.price cal p.1 = .ok (some p.2) := by
  have hn : (pts.map Prod.fst).Nodup := hinc.imp fun h => ne_of_lt h
  have hgp : GoodPoints pts ((none : Option FuncSpec).getD logLinearScheme) o :=
    ⟨hne, hn, fun _ => hpos, by simp [logLinearScheme, FuncSpec.needsNonzero, Kind.isRate]⟩
  obtain ⟨c, b, hc, hb, h1, h2⟩ := C27_flat cal pts none o? o dc hgp ho hd hτ y
  have hb' := hb
  rw [DateCurve_new_eq cal none o? dc logLinearScheme ho hd (timePts_nodup hτ o hn) hgp.pos] at hb'
  have hb' := (Except.ok.inj hb').symm
  have hbase : c.base = b := by
    simp only [ForwardCurve.new] at hc
    rw [hb, Py.ok_bind] at hc
    split_ifs at hc <;> rw [← Except.ok.inj hc]
  have hts : StrictX (timePts (dc.fn cal) o pts) := by
    unfold StrictX timePts
    rw [List.pairwise_map]
    rw [List.pairwise_map] at hinc
    exact hinc.imp fun h => (hτ.lt_iff o _ _).2 h
  have hcall : ∀ x, b.call cal x = .ok (some (Real.exp (flin (logPts (timePts (dc.fn cal) o pts)) (dc.fn cal o x)))) := by
    intro x
    rw [hb', dateCurveOf_call cal ho hd x]
    have := funcOf_loglinear_call (pts := timePts (dc.fn cal) o pts) hts.nodup (by simpa [timePts] using hne)
      (fun p hp => by obtain ⟨q, hq, rfl⟩ := List.mem_map.1 hp; exact hpos q hq) (dc.fn cal o x)
    rw [sortPairs_eq_self hts] at this
    exact this
  have hlast : ∀ x ∈ pts, x.1 ≤ (pts.getLast hne).1 := by
    intro p hp
    obtain ⟨l, a, rfl⟩ := (List.eq_nil_or_concat' pts).resolve_left hne
    rw [List.getLast_append_singleton]
    rcases List.mem_append.1 hp with h | h
    · rw [List.map_append, List.pairwise_append] at hinc
      exact (hinc.2.2 _ (List.mem_map.2 ⟨p, h, rfl⟩) a.1 (by simp)).le
    · rw [List.mem_singleton.1 h]
  refine ⟨c, hc, hbase.trans hb', fun x hx => (h1 x hx).trans (hcall x), ?_, fun p hp => ?_⟩
  · rintro rfl x
    by_cases hx : x ≤ (pts.getLast hne).1
    · exact (h1 x hx).trans (hcall x)
    · rw [h2 x (not_le.1 hx).le]
      have hlne : logPts (timePts (dc.fn cal) o pts) ≠ [] := by simpa [logPts, timePts] using hne
      rw [flin_right (logPts_strict hts) hlne]
      · simp [logPts, timePts, List.getLast_map, Real.exp_log (hpos _ (List.getLast_mem hne))]
      · intro p hp
        simp only [logPts, timePts, List.map_map, List.mem_map, Function.comp] at hp
        obtain ⟨q, hq, rfl⟩ := hp
        exact (hτ.le_iff o _ _).2 ((hlast q hq).trans (not_le.1 hx).le)
  · rw [h1 p.1 (hlast p hp), hb']
    exact DateCurve_values cal (dateCurveOf_origin ho) hd hτ rfl hn rfl hgp.pos hgp.nonzero hp

/-- Forward curves on a grid given as a graph. -/
theorem fwd_graph {xs : List D} {w : D → ℝ} {o? : Option D} {o : D} {dc : DayCountArg D} (hne : xs ≠ [])
    (hinc : xs.Pairwise (· < ·)) (hpos : ∀ x ∈ xs, 0 < w x)
    (ho : o?.or xs.head? = some o) (hd : dc.Usable) (hτ : GoodDayCount (dc.fn cal)) :
    ∃ c, ForwardCurve.new cal xs (xs.map w) none o? dc (.flat 0) = .ok c ∧ c.base.domain = xs ∧ c.base.interp = none ∧
      (∀ x, c.price cal x = .ok (some (Real.exp (flin (logPts (timePts (dc.fn cal) o (xs.map fun x => (x, w x))))
        (dc.fn cal o x))))) ∧
      ∀ x ∈ xs, c.price cal x = .ok (some (w x)) := by
  obtain ⟨c, h1, h2, -, h3, h4⟩ := fwd_flat (cal := cal) (pts := xs.map fun x => (x, w x)) (o? := o?) (o := o) (dc := dc)
    (by simpa using hne) (by rw [graph_fst]; exact hinc)
    (fun p hp => by obtain ⟨x, hx, rfl⟩ := List.mem_map.1 hp; exact hpos x hx) (by rw [graph_fst]; exact ho) hd hτ 0
  rw [graph_fst, graph_snd] at h1
  exact ⟨c, h1, by rw [h2, dateCurveOf, graph_fst], by rw [h2]; rfl, h3 rfl, fun x hx => h4 _ (List.mem_map.2 ⟨x, hx, rfl⟩)⟩

/-- C140: at every date of the joint grid the sum (difference, product) has the sum (difference, product) of the prices of
the first curve and of the second one moved to the same origin; between and beyond it is a forward curve with default
interpolation and without yield. All results have to be positive. -/
theorem C140_grid {f g g' : ForwardCurve D} {o o' : D} (hof : f.base.origin = some o) (hog : g.base.origin = some o')
    (hg' : g.shifted cal (o - o') = .ok g') (hτ : GoodDayCount cal.dayCount) (hfi : f.base.interp = none)
    (hfd : f.base.dc.Usable) (hfτ : GoodDayCount (f.base.dc.fn cal)) (hne : f.base.domain ≠ []) (op : ℝ → ℝ → ℝ)
    {u v : D → ℝ} (hu : ∀ x ∈ f.base.domain ++ g'.base.domain, f.price cal x = .ok (some (u x)))
    (hv : ∀ x ∈ f.base.domain ++ g'.base.domain, g'.price cal x = .ok (some (v x)))
    (hpos : ∀ x ∈ f.base.domain ++ g'.base.domain, 0 < op (u x) (v x)) :
    ∃ h, f.binop cal op g = .ok h ∧
      (∀ x, x ∈ h.base.domain ↔ x ∈ f.base.domain ∨ x ∈ g'.base.domain) ∧
      (∀ x ∈ f.base.domain ++ g'.base.domain, h.price cal x = .ok (some (op (u x) (v x)))) ∧
      (∀ d ∈ f.base.domain ++ g'.base.domain, (∀ x ∈ f.base.domain ++ g'.base.domain, x ≤ d) → ∀ x, d ≤ x →
        h.price cal x = .ok (some (op (u d) (v d)))) ∧
      ∃ a, (sortedSet (f.base.domain ++ g'.base.domain)).head? = some a ∧ ∀ x, h.price cal x = .ok (some (Real.exp
        (flin (logPts (timePts cal.dayCount a ((sortedSet (f.base.domain ++ g'.base.domain)).map fun x =>
          (x, op (u x) (v x))))) (cal.dayCount a x)))) := by
  set xs := sortedSet (f.base.domain ++ g'.base.domain) with hxs
  have hinc : xs.Pairwise (· < ·) := sortedSet_strict _
  have hmem : ∀ x, x ∈ xs ↔ x ∈ f.base.domain ++ g'.base.domain := fun x => sortedSet_mem
  have hne' : xs ≠ [] := List.ne_nil_of_mem ((hmem _).2 (List.mem_append_left _ (List.head_mem hne)))
  have hpos' : ∀ x ∈ xs, 0 < op (u x) (v x) := fun x hx => hpos x ((hmem x).1 hx)
  obtain ⟨a, ha⟩ : ∃ a, xs.head? = some a := ⟨_, List.head?_eq_some_head hne'⟩
  obtain ⟨h, h1, h2, h3, h4, h5⟩ := fwd_graph (cal := cal) (w := fun x => op (u x) (v x)) (o? := none) (o := a)
    (dc := .default) hne' hinc hpos' (by simpa using ha) trivial hτ
  obtain ⟨k, k1, -⟩ := fwd_graph (cal := cal) (w := fun x => op (u x) (v x)) (o? := f.base.origin) (o := o)
    (dc := f.base.dc) hne' hinc hpos' (by simp [hof]) hfd hfτ
  refine ⟨h, ?_, fun x => by rw [h2, hmem, List.mem_append], fun x hx => h5 x ((hmem x).2 hx), ?_, a, ha, h4⟩
  · simp only [ForwardCurve.binop, originDiff, hof, hog, pyDate, Py.ok_bind, hg']
    rw [← hxs, pyMap_ok (g := fun x => op (u x) (v x)), Py.ok_bind, hfi, h1, Py.ok_bind, h2,
      pyMap_ok (g := fun x => op (u x) (v x)), Py.ok_bind, h3, ← hof, k1, Py.ok_bind]
    · intro x hx; simp [ForwardCurve.num, h5 x hx, pyNum]
    · intro x hx
      have hx := (hmem x).1 hx
      simp [ForwardCurve.num, hu x hx, hv x hx, pyNum]
  · intro d hd hmax x hx
    have hd' := (hmem d).2 hd
    rw [← h5 d hd', h4, h4]
    set L := logPts (timePts cal.dayCount a (xs.map fun x => (x, op (u x) (v x)))) with hL
    have hts : StrictX L := by
      refine logPts_strict ?_
      unfold StrictX timePts
      rw [List.pairwise_map, List.pairwise_map]
      exact hinc.imp fun h => (hτ.lt_iff a _ _).2 h
    have hLne : L ≠ [] := by simpa [hL, logPts, timePts] using hne'
    have hle : ∀ p ∈ L, p.1 ≤ cal.dayCount a d := by
      intro p hp
      simp only [hL, logPts, timePts, List.map_map, List.mem_map, Function.comp] at hp
      obtain ⟨q, hq, rfl⟩ := hp
      exact (hτ.le_iff a _ _).2 (hmax q ((hmem q).1 hq))
    have e1 := flin_right hts hLne (x := cal.dayCount a d) hle
    have e2 := flin_right hts hLne (x := cal.dayCount a x) fun p hp => (hle p hp).trans ((hτ.le_iff a _ _).2 hx)
    have e : DayCountArg.fn cal (.default : DayCountArg D) = cal.dayCount := rfl
    rw [e, e1, e2]

/-- A curve with default day count and interpolation shifted by nothing: the same points without yield. -/
theorem fwd_shift_zero {pts : List (D × ℝ)} {o? : Option D} {o : D} (hne : pts ≠ [])
    (hinc : (pts.map Prod.fst).Pairwise (· < ·)) (hpos : ∀ p ∈ pts, 0 < p.2)
    (ho : o?.or (pts.map Prod.fst).head? = some o) (hτ : GoodDayCount cal.dayCount) {y : ℝ} {c : ForwardCurve D}
    (hc : ForwardCurve.new cal (pts.map Prod.fst) (pts.map Prod.snd) none o? .default (.flat y) = .ok c) :
    c.shifted cal 0 = ForwardCurve.new cal (pts.map Prod.fst) (pts.map Prod.snd) none o? .default (.flat 0) := by
  obtain ⟨c', h1, h2, -, -, h4⟩ := fwd_flat (cal := cal) (o? := o?) (o := o) (dc := .default) hne hinc hpos ho trivial hτ y
  obtain rfl := Except.ok.inj (hc.symm.trans h1)
  simp only [ForwardCurve.shifted, ForwardCurve.resample, ne_eq, not_true_eq_false, if_false]
  have hdom : c.base.domain = pts.map Prod.fst := by rw [h2]; rfl
  have hint : c.base.interp = none := by rw [h2]; rfl
  have horg : c.base.origin? = o? := by rw [h2]; rfl
  have hdc : c.base.dc.kwarg = .default := by rw [h2]; rfl
  rw [hdom, hint, horg, hdc, pyMap_map]
  rw [pyMap_ok (g := fun p : D × ℝ => p.2) fun p hp => by simp [h4 p hp, pyNum], Py.ok_bind]
  rfl

theorem flin_log_shift {τ : D → D → ℝ} (hτ : GoodDayCount τ) {pts : List (D × ℝ)} (hne : pts ≠ [])
    (hinc : (pts.map Prod.fst).Pairwise (· < ·)) (hpos : ∀ p ∈ pts, 0 < p.2) (a o x : D) :
    flin (logPts (timePts τ a pts)) (τ a x) = flin (logPts (timePts τ o pts)) (τ o x) := by
  have key : ∀ b, (funcOf logLinearScheme (timePts τ b pts)).call (τ b x) =
      .ok (some (Real.exp (flin (logPts (timePts τ b pts)) (τ b x)))) := by
    intro b
    have hts : StrictX (timePts τ b pts) := by
      unfold StrictX timePts
      rw [List.pairwise_map]
      rw [List.pairwise_map] at hinc
      exact hinc.imp fun h => (hτ.lt_iff b _ _).2 h
    have := funcOf_loglinear_call (pts := timePts τ b pts) hts.nodup (by simpa [timePts] using hne)
      (fun p hp => by obtain ⟨q, hq, rfl⟩ := List.mem_map.1 hp; exact hpos q hq) (τ b x)
    rwa [sortPairs_eq_self hts] at this
  have h := (key a).symm.trans ((dateCurve_origin_indep hτ (s := logLinearScheme) rfl a o x pts).trans (key o))
  simpa using h

/-- C140: the product of two forward curves with default day count, interpolation and yield and the same origin has the
product of the prices at every date. -/
theorem C140_product {A B : List (D × ℝ)} {oa ob : Option D} {o : D} (hτ : GoodDayCount cal.dayCount)
    (hA : A ≠ []) (hAi : (A.map Prod.fst).Pairwise (· < ·)) (hAp : ∀ p ∈ A, 0 < p.2)
    (hB : B ≠ []) (hBi : (B.map Prod.fst).Pairwise (· < ·)) (hBp : ∀ p ∈ B, 0 < p.2)
    (hoa : oa.or (A.map Prod.fst).head? = some o) (hob : ob.or (B.map Prod.fst).head? = some o) :
    ∃ f g h, ForwardCurve.new cal (A.map Prod.fst) (A.map Prod.snd) none oa .default (.flat 0) = .ok f ∧
      ForwardCurve.new cal (B.map Prod.fst) (B.map Prod.snd) none ob .default (.flat 0) = .ok g ∧
      f.binop cal (· * ·) g = .ok h ∧ ∀ x, ∃ u v, f.price cal x = .ok (some u) ∧ g.price cal x = .ok (some v) ∧
        h.price cal x = .ok (some (u * v)) := by
  obtain ⟨f, f1, f2, -, f3, f4⟩ := fwd_flat (cal := cal) (o? := oa) (o := o) (dc := .default) hA hAi hAp hoa trivial hτ 0
  obtain ⟨g, g1, g2, -, g3, g4⟩ := fwd_flat (cal := cal) (o? := ob) (o := o) (dc := .default) hB hBi hBp hob trivial hτ 0
  have hgs : g.shifted cal (o - o) = .ok g := by
    rw [sub_self, fwd_shift_zero hB hBi hBp hob hτ g1, g1]
  have hfo : f.base.origin = some o := by rw [f2]; exact dateCurveOf_origin hoa
  have hgo : g.base.origin = some o := by rw [g2]; exact dateCurveOf_origin hob
  have hfd : f.base.domain = A.map Prod.fst := by rw [f2]; rfl
  have hgd : g.base.domain = B.map Prod.fst := by rw [g2]; rfl
  obtain ⟨h, h1, -, -, -, a, ha, h2⟩ := C140_grid hfo hgo hgs hτ (by rw [f2]; rfl) (by rw [f2]; trivial)
    (by rw [f2]; exact hτ) (by rw [hfd]; simpa using hA) (· * ·) (fun x _ => f3 rfl x) (fun x _ => g3 rfl x)
    (fun x _ => mul_pos (Real.exp_pos _) (Real.exp_pos _))
  refine ⟨f, g, h, f1, g1, h1, fun x => ⟨_, _, f3 rfl x, g3 rfl x, ?_⟩⟩
  rw [h2 x]
  set xs := sortedSet (f.base.domain ++ g.base.domain) with hxs
  have hxi : xs.Pairwise (· < ·) := sortedSet_strict _
  have e : DayCountArg.fn cal (.default : DayCountArg D) = cal.dayCount := rfl
  rw [e]
  set F := logPts (timePts cal.dayCount o A) with hF
  set G := logPts (timePts cal.dayCount o B) with hG
  have hxne : xs ≠ [] := by intro h; rw [h] at ha; cases ha
  rw [flin_log_shift hτ (o := o) (by simpa using hxne) (by rw [graph_fst]; exact hxi)
    (fun p hp => by
      obtain ⟨y, hy, rfl⟩ := List.mem_map.1 hp
      exact mul_pos (Real.exp_pos _) (Real.exp_pos _))]
  have hpts : logPts (timePts cal.dayCount o (xs.map fun x => (x, Real.exp (flin F (cal.dayCount o x)) *
      Real.exp (flin G (cal.dayCount o x))))) =
      (xs.map (cal.dayCount o)).map fun t => (t, 1 * flin F t + 1 * flin G t) := by
    simp only [logPts, timePts, List.map_map]
    apply List.map_congr_left
    intro y _
    simp only [Function.comp, ← Real.exp_add, Real.log_exp, one_mul]
  have hst : ∀ {L : List (D × ℝ)}, (L.map Prod.fst).Pairwise (· < ·) → StrictX (logPts (timePts cal.dayCount o L)) := by
    intro L hL
    refine logPts_strict ?_
    unfold StrictX timePts
    rw [List.pairwise_map]
    rw [List.pairwise_map] at hL
    exact hL.imp fun h => (hτ.lt_iff o _ _).2 h
  have hsub : ∀ {L : List (D × ℝ)}, (∀ p ∈ L, p.1 ∈ xs) → ∀ p ∈ logPts (timePts cal.dayCount o L),
      p.1 ∈ xs.map (cal.dayCount o) := by
    intro L hL p hp
    simp only [logPts, timePts, List.map_map, List.mem_map, Function.comp] at hp
    obtain ⟨q, hq, rfl⟩ := hp
    exact List.mem_map.2 ⟨_, hL q hq, rfl⟩
  have hts : (xs.map (cal.dayCount o)).Pairwise (· < ·) := by
    rw [List.pairwise_map]; exact hxi.imp fun h => (hτ.lt_iff o _ _).2 h
  rw [hpts, flin_comb (hst hAi) (hst hBi) (by simpa [hF, logPts, timePts] using hA)
    (by simpa [hG, logPts, timePts] using hB) hts
    (hsub fun p hp => sortedSet_mem.2 (List.mem_append_left _ (by rw [hfd]; exact List.mem_map.2 ⟨p, hp, rfl⟩)))
    (hsub fun p hp => sortedSet_mem.2 (List.mem_append_right _ (by rw [hgd]; exact List.mem_map.2 ⟨p, hp, rfl⟩))),
    one_mul, one_mul, Real.exp_add]

/-- Prices that are not positive are refused. -/
theorem fwd_nonpositive {xs : List D} {w : D → ℝ} (hinc : xs.Pairwise (· < ·)) (hτ : GoodDayCount cal.dayCount)
    (h0 : ∃ x ∈ xs, w x ≤ 0) (y : YieldArg D) :
    ForwardCurve.new cal xs (xs.map w) none none .default y = .error .value := by
  obtain ⟨z, hz, h0⟩ := h0
  obtain ⟨a, l, rfl⟩ := List.exists_cons_of_ne_nil (List.ne_nil_of_mem hz)
  set xs := a :: l with hxs
  have hb : DateCurve.new cal xs (xs.map w) none none .default logLinearScheme = .error .value := by
    simp only [DateCurve.new, List.length_map, not_true_eq_false, if_false, Py.pure_eq, Py.ok_bind, DateCurve.update]
    rw [pyMap_ok (g := cal.dayCount a) fun x hx => by
      simp [DateCurve.time, DateCurve.origin, hxs, pyDate, DateCurve.dayCount, DayCountArg.eval]]
    rw [Py.ok_bind]
    have hzip : (xs.map (cal.dayCount a)).zip (xs.map w) = xs.map fun x => (cal.dayCount a x, w x) := by
      rw [List.zip_map']
    have hst : StrictX (xs.map fun x => (cal.dayCount a x, w x)) := by
      unfold StrictX
      rw [List.pairwise_map]
      exact hinc.imp fun h => (hτ.lt_iff a _ _).2 h
    have hnd : ((xs.map fun x => (cal.dayCount a x, w x)).map Prod.fst).Nodup := hst.nodup
    simp only [fitFunc, hzip, sortPairs_eq_self hst, Option.getD_none, logLinearScheme, Func.new, List.length_map,
      not_true_eq_false, if_false, Py.pure_eq, Py.ok_bind, hnd]
    have hbad : ¬ ∀ y ∈ (xs.map fun x => (cal.dayCount a x, w x)).map Prod.snd, 0 < y := by
      intro h
      exact absurd (h (w z) (by simp only [List.map_map, List.mem_map, Function.comp]; exact ⟨z, hz, rfl⟩)) h0.not_gt
    simp only [Interp.new, hbad, not_false_eq_true, if_true, Py.throw_eq, Py.error_bind]
  simp only [ForwardCurve.new, hb, Py.error_bind]

/-- C140 (refuted): a difference (or any other result) which is not positive at some date of the joint grid raises
`ValueError`: there is no spread of two forward curves. -/
theorem C140_nonpositive_violated {f g g' : ForwardCurve D} {o o' : D} (hof : f.base.origin = some o)
    (hog : g.base.origin = some o') (hg' : g.shifted cal (o - o') = .ok g') (hτ : GoodDayCount cal.dayCount)
    (hfi : f.base.interp = none) (op : ℝ → ℝ → ℝ)
    {u v : D → ℝ} (hu : ∀ x ∈ f.base.domain ++ g'.base.domain, f.price cal x = .ok (some (u x)))
    (hv : ∀ x ∈ f.base.domain ++ g'.base.domain, g'.price cal x = .ok (some (v x)))
    (h0 : ∃ x ∈ f.base.domain ++ g'.base.domain, op (u x) (v x) ≤ 0) : f.binop cal op g = .error .value := by
  simp only [ForwardCurve.binop, originDiff, hof, hog, pyDate, Py.ok_bind, hg']
  rw [pyMap_ok (g := fun x => op (u x) (v x)), Py.ok_bind, hfi, fwd_nonpositive (sortedSet_strict _) hτ, Py.error_bind]
  · obtain ⟨x, hx, h0⟩ := h0
    exact ⟨x, sortedSet_mem.2 hx, h0⟩
  · intro x hx
    have hx := sortedSet_mem.1 hx
    simp [ForwardCurve.num, hu x hx, hv x hx, pyNum]

/-- C140 (refuted): a quotient of forward curves is never returned. -/
theorem C140_div_never (f g h : ForwardCurve D) : f.div cal g ≠ .ok h := by
  intro e
  simp only [ForwardCurve.div, Py.bind_eq_ok] at e
  obtain ⟨δ, hδ, g', hg', b, hb, e⟩ := e
  cases b
  · simp only [Bool.false_eq_true, if_false, Py.pure_eq, Py.ok_bind, Py.bind_eq_ok, Py.throw_eq, reduceCtorEq,
      and_false, exists_false] at e
  · simp at e

/-- C140 (refuted): if all prices are positive the quotient raises `AttributeError`. -/
theorem C140_div_violated {f g g' : ForwardCurve D} {o o' : D} (hof : f.base.origin = some o)
    (hog : g.base.origin = some o') (hg' : g.shifted cal (o - o') = .ok g') (hτ : GoodDayCount cal.dayCount)
    (hfi : f.base.interp = none) (hne : f.base.domain ≠ [])
    {u v : D → ℝ} (hu : ∀ x ∈ f.base.domain ++ g'.base.domain, f.price cal x = .ok (some (u x)))
    (hv : ∀ x ∈ f.base.domain ++ g'.base.domain, g'.price cal x = .ok (some (v x)))
    (hup : ∀ x ∈ f.base.domain ++ g'.base.domain, 0 < u x) (hvp : ∀ x ∈ f.base.domain ++ g'.base.domain, 0 < v x) :
    f.div cal g = .error .attribute := by
  have hz : ∀ l : List D, (∀ x ∈ l, x ∈ f.base.domain ++ g'.base.domain) → anyZeroD (g'.price cal) l = .ok false := by
    intro l hl
    induction l with
    | nil => rfl
    | cons a l ih =>
      simp only [anyZeroD, hv a (hl a (by simp)), Py.ok_bind]
      rw [if_neg (by simpa using (hvp a (hl a (by simp))).ne')]
      exact ih fun x hx => hl x (by simp [hx])
  have hne' : sortedSet (f.base.domain ++ g'.base.domain) ≠ [] :=
    List.ne_nil_of_mem (sortedSet_mem.2 (List.mem_append_left _ (List.head_mem hne)))
  obtain ⟨h, h1, -⟩ := fwd_graph (cal := cal) (w := fun x => u x / v x) (o? := none)
    (o := (sortedSet (f.base.domain ++ g'.base.domain)).head hne') (dc := .default) hne' (sortedSet_strict _)
    (fun x hx => div_pos (hup x (sortedSet_mem.1 hx)) (hvp x (sortedSet_mem.1 hx)))
    (by simp [List.head?_eq_some_head hne']) trivial hτ
  simp only [ForwardCurve.div, originDiff, hof, hog, pyDate, Py.ok_bind, hg']
  rw [hz _ fun x hx => sortedSet_mem.1 hx, Py.ok_bind]
  simp only [Bool.false_eq_true, if_false, Py.pure_eq, Py.ok_bind]
  rw [pyMap_ok (g := fun x => u x / v x), Py.ok_bind, hfi, h1, Py.ok_bind]
  · rfl
  · intro x hx
    have hx := sortedSet_mem.1 hx
    simp [ForwardCurve.num, hu x hx, hv x hx, pyNum, pyDiv, (hvp x hx).ne']

/-- C140 (refuted, yields): a spot `a` growing at `r` plus (times) a spot `b` growing at `s` does not grow at all. -/
theorem C140_yield_violated (hτ : GoodDayCount cal.dayCount) {a b r s : ℝ} (ha : 0 < a) (hb : 0 < b) (o : D) :
    ∃ f g h k, ForwardCurve.spot cal a none o .default (.flat r) = .ok f ∧
      ForwardCurve.spot cal b none o .default (.flat s) = .ok g ∧ f.binop cal (· + ·) g = .ok h ∧
      f.binop cal (· * ·) g = .ok k ∧ ∀ x, o ≤ x →
        f.price cal x = .ok (some (a * Real.exp (r * cal.dayCount o x))) ∧
        g.price cal x = .ok (some (b * Real.exp (s * cal.dayCount o x))) ∧
        h.price cal x = .ok (some (a + b)) ∧ k.price cal x = .ok (some (a * b)) := by
  have hp : ∀ {c : ℝ}, 0 < c → GoodPoints [(o, c)] ((none : Option FuncSpec).getD logLinearScheme) o := fun h =>
    ⟨by simp, by simp, fun _ => by simpa using h, by simp [logLinearScheme, FuncSpec.needsNonzero, Kind.isRate]⟩
  obtain ⟨f, -, f1, -, -, f2⟩ := C27_flat cal [(o, a)] none (some o) o .default (hp ha) rfl trivial hτ r
  obtain ⟨g, -, g1, -, -, g2⟩ := C27_flat cal [(o, b)] none (some o) o .default (hp hb) rfl trivial hτ s
  obtain ⟨f', f1', fb, -, -, f3⟩ := fwd_flat (cal := cal) (pts := [(o, a)]) (o? := some o) (o := o) (dc := .default)
    (by simp) (by simp) (by simpa using ha) rfl trivial hτ r
  obtain rfl := Except.ok.inj (f1.symm.trans f1')
  obtain ⟨g', g1', gb, -, -, g3⟩ := fwd_flat (cal := cal) (pts := [(o, b)]) (o? := some o) (o := o) (dc := .default)
    (by simp) (by simp) (by simpa using hb) rfl trivial hτ s
  obtain rfl := Except.ok.inj (g1.symm.trans g1')
  obtain ⟨k, k1, kb, -, k2, k3⟩ := fwd_flat (cal := cal) (pts := [(o, b)]) (o? := some o) (o := o) (dc := .default)
    (by simp) (by simp) (by simpa using hb) rfl trivial hτ 0
  have hgs : g.shifted cal (o - o) = .ok k := by
    rw [sub_self, fwd_shift_zero (pts := [(o, b)]) (o := o) (by simp) (by simp) (by simpa using hb) rfl hτ g1, k1]
  have hfd : f.base.domain = [o] := by rw [fb]; rfl
  have hkd : k.base.domain = [o] := by rw [kb]; rfl
  have key : ∀ op : ℝ → ℝ → ℝ, 0 < op a b → ∃ h, f.binop cal op g = .ok h ∧ ∀ x, o ≤ x → h.price cal x = .ok (some (op a b)) := by
    intro op hop
    obtain ⟨h, h1, -, -, h2, -⟩ := C140_grid (f := f) (g := g) (g' := k) (o := o) (o' := o) (u := fun _ => a) (v := fun _ => b)
      (by rw [fb]; exact dateCurveOf_origin rfl)
      (by rw [gb]; exact dateCurveOf_origin rfl) hgs hτ (by rw [fb]; rfl) (by rw [fb]; trivial) (by rw [fb]; exact hτ)
      (by rw [hfd]; simp) op
      (by rw [hfd, hkd]; simpa using f3 (o, a) (by simp)) (by rw [hfd, hkd]; simpa using k3 (o, b) (by simp))
      (fun x _ => hop)
    refine ⟨h, h1, fun x hx => h2 o ?_ ?_ x hx⟩
    · rw [hfd]; simp
    · rw [hfd, hkd]; simp
  obtain ⟨h, h1, h2⟩ := key (· + ·) (add_pos ha hb)
  obtain ⟨q, q1, q2⟩ := key (· * ·) (mul_pos ha hb)
  refine ⟨f, g, h, q, f1, g1, h1, q1, fun x hx => ⟨?_, ?_, h2 x hx, q2 x hx⟩⟩
  · simpa [DayCountArg.fn] using f2 x (by simpa using hx)
  · simpa [DayCountArg.fn] using g2 x (by simpa using hx)

/-- Fx curves up to the last date; beyond it both curves are used. -/
theorem fx_flat {xs : List D} {w : D → ℝ} {o? : Option D} {o d : D} {dc : DayCountArg D}
    (hinc : xs.Pairwise (· < ·)) (hd : d ∈ xs) (hmax : ∀ x ∈ xs, x ≤ d) (hpos : ∀ x ∈ xs, 0 < w x)
    (ho : o?.or xs.head? = some o) (hu : dc.Usable) (hτ : GoodDayCount (dc.fn cal)) (dom for_ : D → D → Py ℝ) :
    ∃ c, FxCurve.new cal xs (xs.map w) none o? dc dom for_ = .ok c ∧ c.base.base.domain = xs ∧ c.base.base.interp = none ∧
      (∀ x ≤ d, c.price cal x = .ok (some (Real.exp (flin (logPts (timePts (dc.fn cal) o (xs.map fun x => (x, w x))))
        (dc.fn cal o x))))) ∧ (∀ x ∈ xs, c.price cal x = .ok (some (w x))) ∧
      (∀ x, d < x → ∀ e, dom d x = .error e → c.price cal x = .error e) ∧
      c.base.base = dateCurveOf (dc.fn cal) o o? dc none logLinearScheme (xs.map fun x => (x, w x)) := by
  have hne : xs ≠ [] := List.ne_nil_of_mem hd
  obtain ⟨b, b1, b2, -, b3, b4⟩ := fwd_flat (cal := cal) (pts := xs.map fun x => (x, w x)) (o? := o?) (o := o) (dc := dc)
    (by simpa using hne) (by rw [graph_fst]; exact hinc)
    (fun p hp => by obtain ⟨x, hx, rfl⟩ := List.mem_map.1 hp; exact hpos x hx) (by rw [graph_fst]; exact ho) hu hτ 0
  rw [graph_fst, graph_snd] at b1
  have hdom : b.base.domain = xs := by rw [b2, dateCurveOf, graph_fst]
  have hlast : pyLast xs = .ok d := by
    rw [pyLast_getLast hne]
    have h1 := hmax _ (List.getLast_mem hne)
    obtain ⟨l, z, e⟩ := (List.eq_nil_or_concat' xs).resolve_left hne
    subst e
    rw [List.getLast_append_singleton] at h1 ⊢
    rcases List.mem_append.1 hd with h | h
    · rw [List.pairwise_append] at hinc
      exact absurd h1 (not_le.2 (hinc.2.2 d h z (by simp)))
    · rw [List.mem_singleton.1 h]
  refine ⟨⟨b, dom, for_⟩, by simp only [FxCurve.new, b1, Py.ok_bind], hdom, by simp only [b2, dateCurveOf], ?_, ?_, ?_, b2⟩
  · intro x hx
    simp only [FxCurve.price, hdom, hlast, Py.ok_bind, hx, if_true]
    exact b3 rfl x
  · intro x hx
    simp only [FxCurve.price, hdom, hlast, Py.ok_bind, hmax x hx, if_true]
    exact b4 _ (List.mem_map.2 ⟨x, hx, rfl⟩)
  · intro x hx e he
    have hb := b4 (d, w d) (List.mem_map.2 ⟨d, hd, rfl⟩)
    dsimp only at hb
    simp only [FxCurve.price, hdom, hlast, Py.ok_bind, not_le.2 hx, if_false, hb, he, Py.error_bind]

/-- C127 (fx curves): a shifted fx curve has the moved dates with the prices the curve has there, keeps origin and
interpolation, and raises `AttributeError` beyond its last date. -/
theorem C127_fx_shift {c : FxCurve D} {δ o d : D} {u : D → ℝ} (hinc : (c.base.base.domain.map (· + δ)).Pairwise (· < ·))
    (hd : d ∈ c.base.base.domain.map (· + δ)) (hmax : ∀ x ∈ c.base.base.domain.map (· + δ), x ≤ d)
    (hi : c.base.base.interp = none) (hu : ∀ x ∈ c.base.base.domain.map (· + δ), c.price cal x = .ok (some (u x)))
    (hpos : ∀ x ∈ c.base.base.domain.map (· + δ), 0 < u x)
    (ho : c.base.base.origin?.or (c.base.base.domain.map (· + δ)).head? = some o) (hdc : c.base.base.dc.kwarg.Usable)
    (hτ : GoodDayCount (c.base.base.dc.kwarg.fn cal)) :
    ∃ c', c.shifted cal δ = .ok c' ∧ c'.base.base.domain = c.base.base.domain.map (· + δ) ∧ c'.base.base.interp = none ∧
      c'.base.base.origin = some o ∧ (∀ x ∈ c.base.base.domain.map (· + δ), c'.price cal x = c.price cal x) ∧
      (∀ x ≤ d, c'.price cal x = .ok (some (Real.exp (flin (logPts (timePts (c.base.base.dc.kwarg.fn cal) o
        ((c.base.base.domain.map (· + δ)).map fun x => (x, u x)))) (c.base.base.dc.kwarg.fn cal o x))))) ∧
      ∀ x, d < x → c'.price cal x = .error .attribute := by
  obtain ⟨c', h1, h2, h3, h4, h5, h6, h7⟩ := fx_flat (cal := cal) hinc hd hmax hpos ho hdc hτ (fun _ _ => .error .attribute)
    (fun _ _ => .error .attribute)
  have hx : (if δ ≠ 0 then c.base.base.domain.map (· + δ) else c.base.base.domain) = c.base.base.domain.map (· + δ) := by
    by_cases hδ : δ = 0
    · subst hδ; simp
    · simp [hδ]
  refine ⟨c', ?_, h2, h3, ?_, fun x hx => by rw [h5 x hx, hu x hx], h4, fun x hx => h6 x hx _ rfl⟩
  · simp only [FxCurve.shifted, hx]
    rw [pyMap_ok (g := u) fun x hx => by simp only [FxCurve.num, hu x hx, Py.ok_bind, pyNum], hi, show keepInterp none (none : Option FuncSpec) = .ok none from rfl]
    exact h1
  · rw [h7]
    exact dateCurveOf_origin (by simpa [Function.comp_def] using ho)

/-- Non-vacuity of C127_fx_shift: a spot rate moved by a year. -/
example : ∃ c c', FxCurve.new floatCal [0] [2] none none .default (fun _ _ => .ok (1 / 2)) (fun _ _ => .ok 1) = .ok c ∧
    c.shifted floatCal 1 = .ok c' ∧ c'.price floatCal 1 = .ok (some 1) ∧ c'.price floatCal 2 = .error .attribute := by
  obtain ⟨c, h1, h2, h3, -, h5, -, h7⟩ := fx_flat (cal := floatCal) (xs := [0]) (w := fun _ => 2) (o? := none) (o := 0) (d := 0)
    (dc := .default) (by simp) (by simp) (by simp) (by simp) rfl trivial goodDayCount_real (fun _ _ => .ok (1 / 2))
    (fun _ _ => .ok 1)
  have h0 : c.base.price floatCal 0 = .ok (some 2) := by
    have := h5 0 (by simp)
    simpa [FxCurve.price, h2, pyLast] using this
  have hd : c.base.base.dc = .default := by rw [h7]; rfl
  have hp : c.price floatCal 1 = .ok (some 1) := by
    have e1 : c.domestic 0 1 = .ok (1 / 2) := by
      simp only [FxCurve.new, Py.bind_eq_ok] at h1
      obtain ⟨b, -, h⟩ := h1
      rw [← Except.ok.inj h]
    have e2 : c.foreign 0 1 = .ok 1 := by
      simp only [FxCurve.new, Py.bind_eq_ok] at h1
      obtain ⟨b, -, h⟩ := h1
      rw [← Except.ok.inj h]
    simp [FxCurve.price, h2, pyLast, h0, e1, e2, pyNum, pyDiv]
  obtain ⟨c', k1, -, -, -, k5, -, k6⟩ := C127_fx_shift (cal := floatCal) (c := c) (δ := 1) (o := 1) (d := 1) (u := fun _ => 1)
    (by simp [h2]) (by simp [h2]) (by simp [h2]) h3 (by simpa [h2] using hp) (by simp) (by rw [h7]; simp [dateCurveOf])
    (by rw [hd]; trivial) (by rw [hd]; exact goodDayCount_real)
  exact ⟨c, c', h1, k1, by rw [k5 1 (by simp [h2]), hp], k6 2 (by norm_num)⟩

/-- C140 (fx curves): results at the joint dates as for forward curves, but any date beyond the last one raises
`AttributeError`, whatever the curves of the operands. -/
theorem C140_fx_violated {f g g' : FxCurve D} {o o' d : D} (hof : f.base.base.origin = some o)
    (hog : g.base.base.origin = some o') (hg' : g.shifted cal (o - o') = .ok g') (hτ : GoodDayCount cal.dayCount)
    (hfi : f.base.base.interp = none) (hfd : f.base.base.dc.Usable) (hfτ : GoodDayCount (f.base.base.dc.fn cal))
    (hd : d ∈ f.base.base.domain ++ g'.base.base.domain) (hmax : ∀ x ∈ f.base.base.domain ++ g'.base.base.domain, x ≤ d)
    (op : ℝ → ℝ → ℝ) {u v : D → ℝ}
    (hu : ∀ x ∈ f.base.base.domain ++ g'.base.base.domain, f.price cal x = .ok (some (u x)))
    (hv : ∀ x ∈ f.base.base.domain ++ g'.base.base.domain, g'.price cal x = .ok (some (v x)))
    (hpos : ∀ x ∈ f.base.base.domain ++ g'.base.base.domain, 0 < op (u x) (v x)) :
    ∃ h, f.binop cal op g = .ok h ∧
      (∀ x ∈ f.base.base.domain ++ g'.base.base.domain, h.price cal x = .ok (some (op (u x) (v x)))) ∧
      (∃ a, (sortedSet (f.base.base.domain ++ g'.base.base.domain)).head? = some a ∧ ∀ x ≤ d,
        h.price cal x = .ok (some (Real.exp (flin (logPts (timePts cal.dayCount a
          ((sortedSet (f.base.base.domain ++ g'.base.base.domain)).map fun x => (x, op (u x) (v x)))))
          (cal.dayCount a x))))) ∧
      ∀ x, d < x → h.price cal x = .error .attribute := by
  set xs := sortedSet (f.base.base.domain ++ g'.base.base.domain) with hxs
  have hinc : xs.Pairwise (· < ·) := sortedSet_strict _
  have hmem : ∀ x, x ∈ xs ↔ x ∈ f.base.base.domain ++ g'.base.base.domain := fun x => sortedSet_mem
  have hd' : d ∈ xs := (hmem d).2 hd
  have hmax' : ∀ x ∈ xs, x ≤ d := fun x hx => hmax x ((hmem x).1 hx)
  have hpos' : ∀ x ∈ xs, 0 < op (u x) (v x) := fun x hx => hpos x ((hmem x).1 hx)
  obtain ⟨a, ha⟩ : ∃ a, xs.head? = some a := ⟨_, List.head?_eq_some_head (List.ne_nil_of_mem hd')⟩
  obtain ⟨h, h1, h2, h3, h4, h5, h6, -⟩ := fx_flat (cal := cal) (w := fun x => op (u x) (v x)) (o? := none) (o := a)
    (dc := .default) hinc hd' hmax' hpos' (by simpa using ha) trivial hτ (fun _ _ => .error .attribute)
    (fun _ _ => .error .attribute)
  obtain ⟨k, k1, -⟩ := fx_flat (cal := cal) (w := fun x => op (u x) (v x)) (o? := f.base.base.origin) (o := o)
    (dc := f.base.base.dc) hinc hd' hmax' hpos' (by simp [hof]) hfd hfτ (fun _ _ => .error .attribute)
    (fun _ _ => .error .attribute)
  refine ⟨h, ?_, fun x hx => h5 x ((hmem x).2 hx), ⟨a, ha, h4⟩, fun x hx => h6 x hx _ rfl⟩
  simp only [FxCurve.binop, originDiff, hof, hog, pyDate, Py.ok_bind, hg']
  rw [← hxs, pyMap_ok (g := fun x => op (u x) (v x)), Py.ok_bind, hfi, h1, Py.ok_bind, h2,
    pyMap_ok (g := fun x => op (u x) (v x)), Py.ok_bind, h3, ← hof, k1, Py.ok_bind]
  · intro x hx; simp [FxCurve.num, h5 x hx, pyNum]
  · intro x hx
    have hx := (hmem x).1 hx
    simp [FxCurve.num, hu x hx, hv x hx, pyNum]

/-- The first failure decides if all failures are the same. -/
theorem pyMap_fails {α β : Type} {F : α → Py β} {e : PyErr} {l : List α} (h : ∀ a ∈ l, (∃ b, F a = .ok b) ∨ F a = .error e)
    (h' : ∃ a ∈ l, F a = .error e) : pyMap F l = .error e := by
  induction l with
  | nil => simp at h'
  | cons a l ih =>
    rw [pyMap_cons]
    rcases h a (by simp) with ⟨b, hb⟩ | hb
    · have : pyMap F l = .error e := by
        refine ih (fun x hx => h x (by simp [hx])) ?_
        obtain ⟨x, hx, hx'⟩ := h'
        rcases List.mem_cons.1 hx with rfl | hx
        · rw [hb] at hx'; cases hx'
        · exact ⟨x, hx, hx'⟩
      rw [hb, Py.ok_bind, this, Py.error_bind]
    · rw [hb, Py.error_bind]

/-- C140 (fx curves, refuted): if the second curve ends before the first, sum, difference and product raise
`AttributeError`, although both curves give a rate at every date. -/
theorem C140_fx_short_violated {xs ys : List D} {u v : D → ℝ} {o d d' : D} {o? : Option D}
    (hx : xs.Pairwise (· < ·)) (hy : ys.Pairwise (· < ·)) (hd : d ∈ xs) (hxm : ∀ x ∈ xs, x ≤ d) (hd' : d' ∈ ys)
    (hym : ∀ y ∈ ys, y ≤ d') (hlt : d' < d) (hu : ∀ x ∈ xs, 0 < u x) (hv : ∀ y ∈ ys, 0 < v y)
    (hox : o?.or xs.head? = some o) (hoy : o?.or ys.head? = some o) (hτ : GoodDayCount cal.dayCount)
    (dom for_ dom' for' : D → D → Py ℝ) (op : ℝ → ℝ → ℝ) :
    ∃ f g, FxCurve.new cal xs (xs.map u) none o? .default dom for_ = .ok f ∧
      FxCurve.new cal ys (ys.map v) none o? .default dom' for' = .ok g ∧ f.binop cal op g = .error .attribute := by
  have e0 : DayCountArg.fn cal (.default : DayCountArg D) = cal.dayCount := rfl
  obtain ⟨f, f1, f2, f3, f4, f5, -, f7⟩ := fx_flat (cal := cal) (dc := .default) hx hd hxm hu hox trivial hτ dom for_
  obtain ⟨g, g1, g2, g3, g4, g5, -, g7⟩ := fx_flat (cal := cal) (dc := .default) hy hd' hym hv hoy trivial hτ dom' for'
  obtain ⟨k, k1, k2, k3, k4, k5, k6, -⟩ := fx_flat (cal := cal) (dc := .default) hy hd' hym hv hoy trivial hτ
    (fun _ _ => .error .attribute) (fun _ _ => .error .attribute)
  refine ⟨f, g, f1, g1, ?_⟩
  have hg' : g.shifted cal (o - o) = .ok k := by
    have h3 : g.base.base.origin? = o? := by rw [g7]; rfl
    have h4 : g.base.base.dc.kwarg = .default := by rw [g7]; rfl
    simp only [FxCurve.shifted, sub_self, ne_eq, not_true_eq_false, if_false, g2]
    rw [pyMap_ok (g := v) fun x hx => by simp [FxCurve.num, g5 x hx, pyNum], Py.ok_bind, g3, h3, h4]
    exact k1
  have hof : f.base.base.origin = some o := by rw [f7]; exact dateCurveOf_origin (by rw [graph_fst]; exact hox)
  have hog : g.base.base.origin = some o := by rw [g7]; exact dateCurveOf_origin (by rw [graph_fst]; exact hoy)
  simp only [FxCurve.binop, originDiff, hof, hog, pyDate, Py.ok_bind, hg']
  have hfn : ∀ x, x ≤ d → ∃ b, f.num cal x = .ok b := fun x hx => ⟨_, by simp only [FxCurve.num, f4 x hx, Py.ok_bind, pyNum]; rfl⟩
  have hkn : ∀ x, d' < x → k.num cal x = .error .attribute := fun x hx => by
    simp only [FxCurve.num, k6 x hx _ rfl, Py.error_bind]
  rw [pyMap_fails (e := .attribute), Py.error_bind]
  · intro x hx
    rw [f2, k2, sortedSet_mem, List.mem_append] at hx
    have hxd : x ≤ d := hx.elim (hxm x) fun h => (hym x h).trans hlt.le
    obtain ⟨b, hb⟩ := hfn x hxd
    by_cases hxy : x ≤ d'
    · left
      obtain ⟨b', hb'⟩ : ∃ b', k.num cal x = .ok b' := ⟨_, by simp only [FxCurve.num, k4 x hxy, Py.ok_bind, pyNum]; rfl⟩
      exact ⟨op b b', by simp only [hb, hb', Py.ok_bind]⟩
    · right
      simp only [hb, Py.ok_bind, hkn x (not_le.1 hxy), Py.error_bind]
  · refine ⟨d, ?_, ?_⟩
    · rw [f2, sortedSet_mem]
      exact List.mem_append_left _ hd
    · obtain ⟨b, hb⟩ := hfn d le_rfl
      simp only [hb, Py.ok_bind, hkn d hlt, Py.error_bind]

end

/-- Half way between two dates the price is the geometric mean. -/
theorem mid_price {a b : ℝ} (ha : 0 < a) (hb : 0 < b) :
    Real.exp (flin (logPts (timePts floatCal.dayCount 0 [(0, a), (2, b)])) (floatCal.dayCount 0 1)) = Real.sqrt (a * b) := by
  have : flin (logPts (timePts floatCal.dayCount 0 [(0, a), (2, b)])) (floatCal.dayCount 0 1) =
      Real.log (Real.sqrt (a * b)) := by
    rw [Real.log_sqrt (mul_pos ha hb).le, Real.log_mul ha.ne' hb.ne']
    norm_num [logPts, timePts, floatCal, flin, chord]
    ring
  rw [this, Real.exp_log (Real.sqrt_pos.2 (mul_pos ha hb))]

/-- C140 (refuted, sums): between the dates the sum of two curves is not the sum of the prices: 2 and 1 add up to the
square root of 10. -/
theorem C140_sum_violated : ∃ f g h, ForwardCurve.new floatCal [0, 2] [1, 4] none none .default (.flat 0) = .ok f ∧
    ForwardCurve.new floatCal [0, 2] [1, 1] none none .default (.flat 0) = .ok g ∧ f.binop floatCal (· + ·) g = .ok h ∧
    f.price floatCal 1 = .ok (some 2) ∧ g.price floatCal 1 = .ok (some 1) ∧
    h.price floatCal 1 = .ok (some (Real.sqrt 10)) := by
  obtain ⟨f, f1, fb, -, f3, f4⟩ := fwd_flat (cal := floatCal) (pts := [(0, 1), (2, 4)]) (o? := none) (o := 0)
    (dc := .default) (by simp) (by simp) (by simp) rfl trivial goodDayCount_real 0
  obtain ⟨g, g1, gb, -, g3, g4⟩ := fwd_flat (cal := floatCal) (pts := [(0, 1), (2, 1)]) (o? := none) (o := 0)
    (dc := .default) (by simp) (by simp) (by simp) rfl trivial goodDayCount_real 0
  have hgs : g.shifted floatCal (0 - 0) = .ok g := by
    rw [sub_self, fwd_shift_zero (pts := [(0, 1), (2, 1)]) (o := 0) (by simp) (by simp) (by simp) rfl goodDayCount_real g1, g1]
  have hfd : f.base.domain = [0, 2] := by rw [fb]; rfl
  have hgd : g.base.domain = [0, 2] := by rw [gb]; rfl
  obtain ⟨h, h1, -, -, -, a, ha, h2⟩ := C140_grid (f := f) (g := g) (g' := g) (o := 0) (o' := 0)
    (u := fun x => if x = 0 then 1 else 4) (v := fun _ => 1)
    (by rw [fb]; exact dateCurveOf_origin rfl) (by rw [gb]; exact dateCurveOf_origin rfl) hgs goodDayCount_real
    (by rw [fb]; rfl) (by rw [fb]; trivial) (by rw [fb]; exact goodDayCount_real) (by rw [hfd]; simp) (· + ·)
    (by
      rw [hfd, hgd]
      intro x hx
      simp only [List.cons_append, List.nil_append, List.mem_cons, List.not_mem_nil, or_false] at hx
      rcases hx with rfl | rfl | rfl | rfl
      · simpa using f4 (0, 1) (by simp)
      · simpa using f4 (2, 4) (by simp)
      · simpa using f4 (0, 1) (by simp)
      · simpa using f4 (2, 4) (by simp))
    (by
      rw [hfd, hgd]
      intro x hx
      simp only [List.cons_append, List.nil_append, List.mem_cons, List.not_mem_nil, or_false] at hx
      rcases hx with rfl | rfl | rfl | rfl
      · exact g4 (0, 1) (by simp)
      · exact g4 (2, 1) (by simp)
      · exact g4 (0, 1) (by simp)
      · exact g4 (2, 1) (by simp))
    (fun x _ => by split_ifs <;> norm_num)
  have hxs : sortedSet (f.base.domain ++ g.base.domain) = [0, 2] := by
    rw [hfd, hgd]
    have h1 := sortedSet_strict ([0, 2] ++ [0, 2] : List ℝ)
    refine ((List.perm_ext_iff_of_nodup (h1.imp fun h => h.ne) (by simp)).2 fun x => ?_).eq_of_pairwise (le := (· < ·))
      (fun a b _ _ h h' => absurd h h'.asymm) h1 (by simp)
    rw [sortedSet_mem]
    simp only [List.cons_append, List.nil_append, List.mem_cons, List.not_mem_nil, or_false]
    tauto
  rw [hxs] at ha h2
  obtain rfl : (0 : ℝ) = a := by simpa using ha
  have e : DayCountArg.fn floatCal (.default : DayCountArg ℝ) = floatCal.dayCount := rfl
  refine ⟨f, g, h, f1, g1, h1, ?_, ?_, ?_⟩
  · rw [f3 rfl, e, mid_price (by norm_num) (by norm_num)]
    rw [show (1 : ℝ) * 4 = 2 ^ 2 by norm_num, Real.sqrt_sq (by norm_num)]
  · rw [g3 rfl, e, mid_price (by norm_num) (by norm_num)]
    simp
  · rw [h2]
    have e2 : (List.map (fun x : ℝ => (x, ((if x = 0 then 1 else 4) + 1 : ℝ))) [0, 2]) = [(0, 2), (2, 5)] := by norm_num
    rw [e2, mid_price (by norm_num) (by norm_num)]
    norm_num

/-- The case of two curves on days with different dates: 2 and 6, 3 and 12 have the product 6 and 72 at the outer dates, and
its prices grow at a constant rate between the dates. -/
example : ∃ f g h, ForwardCurve.new dayCal [0, 100] [2, 6] none none .default (.flat (5/100)) = .ok f ∧
    ForwardCurve.new dayCal [0, 100] [3, 12] none none .default (.flat 0) = .ok g ∧ f.binop dayCal (· * ·) g = .ok h ∧
    h.price dayCal 0 = .ok (some 6) ∧ h.price dayCal 100 = .ok (some 72) := by
  obtain ⟨f, f1, fb, -, f3, f4⟩ := fwd_flat (cal := dayCal) (pts := [(0, 2), (100, 6)]) (o? := none) (o := 0)
    (dc := .default) (by simp) (by simp) (by simp) rfl trivial goodDayCount_int (5/100)
  obtain ⟨g, g1, gb, -, g3, g4⟩ := fwd_flat (cal := dayCal) (pts := [(0, 3), (100, 12)]) (o? := none) (o := 0)
    (dc := .default) (by simp) (by simp) (by simp) rfl trivial goodDayCount_int 0
  have hgs : g.shifted dayCal (0 - 0) = .ok g := by
    rw [sub_self, fwd_shift_zero (pts := [(0, 3), (100, 12)]) (o := 0) (by simp) (by simp) (by simp) rfl goodDayCount_int g1, g1]
  have hfd : f.base.domain = [0, 100] := by rw [fb]; rfl
  have hgd : g.base.domain = [0, 100] := by rw [gb]; rfl
  have hm : ∀ x ∈ f.base.domain ++ g.base.domain, x = 0 ∨ x = 100 := by
    rw [hfd, hgd]; intro x hx; simp at hx; omega
  obtain ⟨h, h1, -, h2, -⟩ := C140_grid (f := f) (g := g) (g' := g) (o := 0) (o' := 0)
    (u := fun x => if x = 0 then 2 else 6) (v := fun x => if x = 0 then 3 else 12)
    (by rw [fb]; exact dateCurveOf_origin rfl) (by rw [gb]; exact dateCurveOf_origin rfl) hgs goodDayCount_int
    (by rw [fb]; rfl) (by rw [fb]; trivial) (by rw [fb]; exact goodDayCount_int) (by rw [hfd]; simp) (· * ·)
    (fun x hx => by
      rcases hm x hx with rfl | rfl
      · simpa using f4 (0, 2) (by simp)
      · simpa using f4 (100, 6) (by simp))
    (fun x hx => by
      rcases hm x hx with rfl | rfl
      · simpa using g4 (0, 3) (by simp)
      · simpa using g4 (100, 12) (by simp))
    (fun x _ => by split_ifs <;> norm_num)
  refine ⟨f, g, h, f1, g1, h1, ?_, ?_⟩
  · have := h2 0 (by rw [hfd]; simp)
    norm_num at this
    exact this
  · have := h2 100 (by rw [hfd]; simp)
    norm_num at this
    exact this

/-- The difference of two equal spots fails; their quotient fails. -/
example : ∃ f, ForwardCurve.new dayCal [0] [3] none none .default (.flat 0) = .ok f ∧
    f.binop dayCal (· - ·) f = .error .value ∧ f.div dayCal f = .error .attribute := by
  obtain ⟨g, g1, gb, -, g3, g4⟩ := fwd_flat (cal := dayCal) (pts := [(0, 3)]) (o? := none) (o := 0)
    (dc := .default) (by simp) (by simp) (by simp) rfl trivial goodDayCount_int 0
  have hgs : g.shifted dayCal (0 - 0) = .ok g := by
    rw [sub_self, fwd_shift_zero (pts := [(0, 3)]) (o := 0) (by simp) (by simp) (by simp) rfl goodDayCount_int g1, g1]
  have hgd : g.base.domain = [0] := by rw [gb]; rfl
  have hog : g.base.origin = some 0 := by rw [gb]; exact dateCurveOf_origin rfl
  have hm : ∀ x ∈ g.base.domain ++ g.base.domain, g.price dayCal x = .ok (some 3) := by
    rw [hgd]; intro x hx; simp at hx; subst hx; exact g4 (0, 3) (by simp)
  exact ⟨g, g1, C140_nonpositive_violated (u := fun _ => 3) (v := fun _ => 3) hog hog hgs goodDayCount_int (by rw [gb]; rfl) _
    hm hm ⟨0, by rw [hgd]; simp, by norm_num⟩,
    C140_div_violated (u := fun _ => 3) (v := fun _ => 3) hog hog hgs goodDayCount_int (by rw [gb]; rfl)
      (by rw [hgd]; simp) hm hm (by simp) (by simp)⟩

/-- Two fx curves, the second ending earlier: no product. -/
example : ∃ f g, FxCurve.new dayCal [0, 100] [2, 3] none none .default (fun _ _ => .ok 1) (fun _ _ => .ok 1) = .ok f ∧
    FxCurve.new dayCal [0] [5] none none .default (fun _ _ => .ok 1) (fun _ _ => .ok 1) = .ok g ∧
    f.binop dayCal (· * ·) g = .error .attribute := by
  have := C140_fx_short_violated (cal := dayCal) (xs := [0, 100]) (ys := [0]) (u := fun x => if x = 0 then 2 else 3)
    (v := fun _ => 5) (o := 0) (d := 100) (d' := 0) (o? := none) (by simp) (by simp) (by simp) (by simp) (by simp) (by simp)
    (by norm_num) (by simp) (by simp) rfl rfl goodDayCount_int (fun _ _ => .ok 1) (fun _ _ => .ok 1) (fun _ _ => .ok 1)
    (fun _ _ => .ok 1) (· * ·)
  norm_num at this
  obtain ⟨f, h1, g, h2, h3⟩ := this
  exact ⟨f, g, h1, h2, h3⟩

/-- Prices 2 to 8 in a hundred days times a constant 3. -/
example : ∃ f g h, ForwardCurve.new dayCal [0, 100] [2, 8] none none .default (.flat 0) = .ok f ∧
    ForwardCurve.new dayCal [0] [3] none none .default (.flat 0) = .ok g ∧
    f.binop dayCal (· * ·) g = .ok h ∧ ∀ x, ∃ u v, f.price dayCal x = .ok (some u) ∧ g.price dayCal x = .ok (some v) ∧
      h.price dayCal x = .ok (some (u * v)) :=
  C140_product (cal := dayCal) (A := [(0, 2), (100, 8)]) (B := [(0, 3)]) (oa := none) (ob := none) (o := 0) goodDayCount_int
    (by simp) (by simp) (by simp) (by simp) (by simp) (by simp) rfl rfl

/-! ### The hypotheses can be met: each theorem applied -/

/-- Spots 2 and 3 growing with 2% and 1% lose both. -/
example := C140_yield_violated (cal := dayCal) goodDayCount_int (two_pos : (0 : ℝ) < 2) (three_pos : (0 : ℝ) < 3) (r := 2 / 100) (s := 1 / 100) 0

/-- Two exchange rate curves over the same dates. -/
example : ∃ f g h, FxCurve.new dayCal [0, 100] [2, 3] none none .default (fun _ _ => .ok 1) (fun _ _ => .ok 1) = .ok f ∧
    FxCurve.new dayCal [0, 100] [5, 5] none none .default (fun _ _ => .ok 1) (fun _ _ => .ok 1) = .ok g ∧
    f.binop dayCal (· * ·) g = .ok h ∧ h.price dayCal 0 = .ok (some 10) ∧ h.price dayCal 100 = .ok (some 15) ∧
      h.price dayCal 101 = .error .attribute := by
  obtain ⟨f, f1, f2, f3, -, f5, -, f7⟩ := fx_flat (cal := dayCal) (xs := [0, 100]) (w := fun x => if x = 0 then 2 else 3) (o? := none) (o := 0) (d := 100)
    (dc := .default) (by simp) (by simp) (by simp) (by simp) rfl trivial goodDayCount_int (fun _ _ => .ok 1) (fun _ _ => .ok 1)
  obtain ⟨g, g1, g2, g3, -, g5, -, g7⟩ := fx_flat (cal := dayCal) (xs := [0, 100]) (w := fun _ => 5) (o? := none) (o := 0) (d := 100)
    (dc := .default) (by simp) (by simp) (by simp) (by simp) rfl trivial goodDayCount_int (fun _ _ => .ok 1) (fun _ _ => .ok 1)
  have hfd : f.base.base.dc = .default := by rw [f7]; rfl
  have hgd : g.base.base.dc.kwarg = .default := by rw [g7]; rfl
  have hof : f.base.base.origin = some 0 := by rw [f7]; exact dateCurveOf_origin rfl
  have hog : g.base.base.origin = some 0 := by rw [g7]; exact dateCurveOf_origin rfl
  have hmap : g.base.base.domain.map (· + (0 - 0 : ℤ)) = [0, 100] := by simp [g2]
  obtain ⟨g', k1, k2, -, -, k5, -⟩ := C127_fx_shift (cal := dayCal) (c := g) (δ := 0 - 0) (o := 0) (d := 100) (u := fun _ => 5)
    (by rw [hmap]; simp) (by rw [hmap]; simp) (by rw [hmap]; simp) g3 (by rw [hmap]; exact g5) (by simp)
    (by rw [hmap, g7]; rfl) (by rw [hgd]; trivial) (by rw [hgd]; exact goodDayCount_int)
  rw [hmap] at k2 k5
  have hm : ∀ x, x ∈ f.base.base.domain ++ g'.base.base.domain ↔ x ∈ ([0, 100] : List ℤ) := by rw [f2, k2]; intro x; simp; tauto
  obtain ⟨h, h1, h2, -, h4⟩ := C140_fx_violated (d := 100) hof hog k1 goodDayCount_int f3 (by rw [hfd]; trivial) (by rw [hfd]; exact goodDayCount_int)
    ((hm _).2 (by simp)) (fun x hx => by have := (hm x).1 hx; simp at this; omega) (· * ·)
    (u := fun x => if x = 0 then 2 else 3) (v := fun _ => 5)
    (fun x hx => f5 x ((hm x).1 hx)) (fun x hx => by rw [k5 x ((hm x).1 hx)]; exact g5 x ((hm x).1 hx)) (fun x _ => by split_ifs <;> norm_num)
  refine ⟨f, g, h, by simpa using f1, by simpa using g1, h1, ?_, ?_, h4 101 (by norm_num)⟩
  · rw [h2 0 ((hm 0).2 (by simp))]; norm_num
  · rw [h2 100 ((hm 100).2 (by simp))]; norm_num

end Dcf
