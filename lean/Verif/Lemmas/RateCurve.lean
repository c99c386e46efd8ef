import Verif.Lemmas.Curve
import Verif.Model.RateCurve
import Mathlib.Tactic.NormNum

/-! # Lemmas on rate curves built from points -/

set_option linter.unusedSectionVars false
set_option linter.unusedSimpArgs false
set_option linter.unusedVariables false

namespace Dcf

open Spec

/-! ### Interpolation of rates -/

theorem chord_neg (p q : ℝ × ℝ) (x : ℝ) : chord (p.1, -p.2) (q.1, -q.2) x = -chord p q x := by
  unfold chord; ring

/-- Change the sign of all values. -/
def negPts (l : List (ℝ × ℝ)) : List (ℝ × ℝ) := l.map fun p => (p.1, -p.2)

theorem negPts_strict {l : List (ℝ × ℝ)} (h : StrictX l) : StrictX (negPts l) := by
  unfold StrictX negPts at *; rw [List.pairwise_map]; exact h

theorem plin_neg (l : List (ℝ × ℝ)) (x : ℝ) : plin (negPts l) x = -plin l x := by
  induction l with
  | nil => simp [negPts, plin]
  | cons p t ih =>
    match t, ih with
    | [], _ => rfl
    | [q], _ => exact chord_neg p q x
    | q :: r :: t, ih =>
      simp only [negPts, List.map_cons, plin] at ih ⊢
      split_ifs
      · exact chord_neg p q x
      · exact ih

/-- Points `(t, -log(y)/t)` of the zero rates implied by discount factors. -/
noncomputable def ratePts (pts : List (ℝ × ℝ)) : List (ℝ × ℝ) :=
  (pts.filter fun p => p.1 ≠ 0).map fun p => (p.1, -Real.log p.2 / p.1)

theorem ratePts_nodup {pts : List (ℝ × ℝ)} (hn : (pts.map Prod.fst).Nodup) : ((ratePts pts).map Prod.fst).Nodup :=
  storedPts_nodup .logconstantrate hn

theorem sort_ratePts {pts : List (ℝ × ℝ)} (hn : (pts.map Prod.fst).Nodup) :
    sortPairs (storedPts .loglinearrate pts) = negPts (sortPairs (ratePts pts)) := by
  have h1 : negPts (ratePts pts) = storedPts .loglinearrate pts := by
    unfold negPts ratePts storedPts
    rw [List.map_map]
    apply List.map_congr_left
    intro p _
    simp only [Function.comp, neg_div, neg_neg]
  rw [← sortPairs_eq_self (negPts_strict (sortPairs_strict (ratePts_nodup hn)))]
  apply sortPairs_congr
  rw [← h1]
  exact ((sortPairs_perm (ratePts pts)).map _).symm

theorem ratePts_ne {pts : List (ℝ × ℝ)} (h : ∃ p ∈ pts, p.1 ≠ 0) : ratePts pts ≠ [] :=
  storedPts_ne_nil .logconstantrate h

/-- Away from zero the scheme interpolates the implied zero rates linearly and flat outside. -/
theorem funcOf_rate_call {pts : List (ℝ × ℝ)} (hn : (pts.map Prod.fst).Nodup) (h0 : ∃ p ∈ pts, p.1 ≠ 0) {x : ℝ}
    (hx : x ≠ 0) : (funcOf logLinearRateScheme pts).call x =
      .ok (some (Real.exp (-(flin (sortPairs (ratePts pts)) x * x)))) := by
  have hs := sortPairs_strict (ratePts_nodup hn)
  have hne := sortPairs_ne_nil (ratePts_ne h0)
  have e : storedPts .logconstantrate pts = ratePts pts := rfl
  simp only [logLinearRateScheme, funcOf, Func.call, interpOf, e, first_xs hne, last_xs hne, Py.ok_bind,
    Interp.call, hx, if_false, sort_ratePts hn]
  split_ifs with h1 h2
  · rw [leftCall_first hs hne h1, Py.map_ok, flin_left hne fun p hp => ?_, neg_mul]
    exact h1.le.trans (head_le_of_strict hs hne hp)
  · rw [leftCall_last hs hne h2.le, Py.map_ok, flin_ge_last hs hne h2.le, neg_mul]
  · rw [linearCall_eq (negPts_strict hs) (by unfold negPts; simpa using hne), Py.map_ok, plin_neg,
      flin_eq_plin hs hne (not_lt.1 h1) (not_lt.1 h2), neg_mul]

/-- At zero it returns the value given there, or `None`. -/
theorem funcOf_rate_zero {pts : List (ℝ × ℝ)} (hn : (pts.map Prod.fst).Nodup) (h0 : ∃ p ∈ pts, p.1 ≠ 0) :
    (funcOf logLinearRateScheme pts).call 0 = .ok ((pts.find? fun p => p.1 = 0).map Prod.snd) := by
  have hne := sortPairs_ne_nil (ratePts_ne h0)
  have e : storedPts .logconstantrate pts = ratePts pts := rfl
  simp only [logLinearRateScheme, funcOf, Func.call, interpOf, e, first_xs hne, last_xs hne, Py.ok_bind,
    Interp.call, if_true, storedZero, Kind.isRate, ite_self]

/-- Left of a node everything can be dropped. -/
theorem flin_drop {l1 l2 : List (ℝ × ℝ)} {p : ℝ × ℝ} (hl : StrictX (l1 ++ p :: l2)) {x : ℝ} (hx : p.1 ≤ x) :
    flin (l1 ++ p :: l2) x = flin (p :: l2) x := by
  induction l1 with
  | nil => rfl
  | cons a l1 ih =>
    have hl' : StrictX (l1 ++ p :: l2) := (List.pairwise_cons.1 hl).2
    have hap : a.1 < p.1 := (List.pairwise_cons.1 hl).1 p (by simp)
    rw [List.cons_append, ← ih hl']
    cases hr : l1 ++ p :: l2 with
    | nil => simp at hr
    | cons q t =>
      simp only [flin]
      rw [if_neg (not_le.2 (hap.trans_le hx))]
      split_ifs with hq
      · have hqa : a.1 < q.1 := (List.pairwise_cons.1 hl).1 q (by show q ∈ l1 ++ p :: l2; rw [hr]; simp)
        have hqp : q.1 ≤ p.1 := by
          have := head_le_of_strict hl' (by simp) (p := p) (by simp)
          simpa [hr] using this
        have : x = q.1 := le_antisymm hq (hqp.trans hx)
        rw [this, chord_right hqa, flin_le_first le_rfl]
      · rfl

/-- Rebuilding a flat extrapolated piecewise linear function from its values on a grid that contains, from the
grid point `p` on, all its nodes gives the same function from `p` on. -/
theorem flin_rebuild {A : List (ℝ × ℝ)} (hA : StrictX A) (hA0 : A ≠ []) {xs : List ℝ} (hs : xs.Pairwise (· < ·))
    {p : ℝ} (hp : p ∈ xs) (hAx : ∀ q ∈ A, p ≤ q.1 → q.1 ∈ xs) {g : ℝ → ℝ} (hg : ∀ y ∈ xs, p ≤ y → g y = flin A y)
    {x : ℝ} (hx : p ≤ x) : flin (xs.map fun y => (y, g y)) x = flin A x := by
  obtain ⟨xs1, xs2, rfl⟩ := List.append_of_mem hp
  rw [List.map_append, List.map_cons, flin_drop (p := (p, g p)) ?_ hx]
  · have hs2 : (p :: xs2).Pairwise (· < ·) := (List.pairwise_append.1 hs).2.1
    have hle : ∀ y ∈ p :: xs2, p ≤ y := by
      intro y hy
      rcases List.mem_cons.1 hy with rfl | hy
      · exact le_rfl
      · exact ((List.pairwise_cons.1 hs2).1 y hy).le
    have hmem : ∀ q ∈ A, p ≤ q.1 → q.1 ∈ p :: xs2 := by
      intro q hq hpq
      rcases List.mem_append.1 (hAx q hq hpq) with h | h
      · exact absurd ((List.pairwise_append.1 hs).2.2 _ h p (by simp)) hpq.not_gt
      · exact h
    have e : ((p, g p) :: xs2.map fun y => (y, g y)) = (p :: xs2).map fun y => (y, flin A (max p y)) := by
      rw [← List.map_cons (f := fun y => (y, g y))]
      apply List.map_congr_left
      intro y hy
      have hy' : y ∈ xs1 ++ p :: xs2 := List.mem_append.2 (.inr hy)
      rw [max_eq_right (hle y hy), hg y hy' (hle y hy)]
    have := flin_unique (g := fun y => flin A (max p y)) hs2 (by simp) ?_ ?_ ?_ x
    · rw [max_eq_right hx] at this
      rw [← this, e]
    · intro y hy
      have := hy p (by simp)
      simp only [List.head_cons, max_eq_left this, max_self]
    · intro y hy
      have hpy : p ≤ y := hy p (by simp)
      have hlast : (p :: xs2).getLast (by simp) ∈ p :: xs2 := List.getLast_mem _
      have h1 : ∀ q ∈ A, q.1 ≤ (p :: xs2).getLast (by simp) := by
        intro q hq
        rcases le_or_gt p q.1 with h | h
        · exact strict_le_last hs2 (by simp) (hmem q hq h)
        · exact h.le.trans (hle _ hlast)
      simp only [max_eq_right hpy, max_eq_right (hle _ hlast)]
      rw [flin_right hA hA0 h1, flin_right hA hA0 fun q hq => (h1 q hq).trans (hy _ hlast)]
    · intro a ha b hb hab hno
      obtain ⟨c, m, h⟩ := flin_affine hA hA0 hab (fun q hq => by
        rcases le_or_gt p q.1 with h | h
        · exact hno _ (hmem q hq h)
        · exact .inl (h.le.trans (hle a ha)))
      exact ⟨c, m, fun y hy1 hy2 => by
        simp only [max_eq_right ((hle a ha).trans hy1)]; exact h y hy1 hy2⟩
  · have := graph_strict hs g
    rwa [List.map_append, List.map_cons] at this

/-- Two flat extrapolated piecewise linear functions agree from a common node `p` on if the first has all nodes of
the second from there on and its values there are those of the second. -/
theorem flin_agree {A B : List (ℝ × ℝ)} (hA : StrictX A) (hA0 : A ≠ []) (hB : StrictX B) {p : ℝ}
    (hp : ∃ q ∈ B, q.1 = p) (hAB : ∀ q ∈ A, p ≤ q.1 → ∃ r ∈ B, r.1 = q.1)
    (hval : ∀ q ∈ B, p ≤ q.1 → q.2 = flin A q.1) {x : ℝ} (hx : p ≤ x) : flin B x = flin A x := by
  have e : B = (B.map Prod.fst).map fun y => (y, flin B y) := by
    conv_lhs => rw [← List.map_id' B]
    rw [List.map_map]
    apply List.map_congr_left
    intro q hq
    simp only [Function.comp]
    rw [flin_node hB (x := q.1) (y := q.2) hq]
  have hs : (B.map Prod.fst).Pairwise (· < ·) := by rw [List.pairwise_map]; exact hB
  have := flin_rebuild hA hA0 hs (p := p) (g := flin B) ?_ ?_ ?_ hx
  · rw [← this, ← e]
  · obtain ⟨q, hq, rfl⟩ := hp
    exact List.mem_map.2 ⟨q, hq, rfl⟩
  · intro q hq hpq
    obtain ⟨r, hr, e⟩ := hAB q hq hpq
    exact List.mem_map.2 ⟨r, hr, e⟩
  · intro y hy hpy
    obtain ⟨q, hq, rfl⟩ := List.mem_map.1 hy
    rw [flin_node hB (x := q.1) (y := q.2) hq, hval q hq hpy]

/-! ### Rate curves built from points -/

section
variable {D P : Type} [LinearOrder D] (cal : Cal D P)

/-- An interest rate curve built from points. -/
noncomputable def irOf (o : D) (o? : Option D) (dc : DayCountArg D) (i : Option FuncSpec) (cls : IRClass) (tenor : Option P)
    (pts : List (D × ℝ)) : IRCurve D P :=
  ⟨⟨dateCurveOf (dc.fn cal) o o? dc i cls.dflt pts, tenor, none⟩, cls⟩

theorem IRCurve_new_eq {pts : List (D × ℝ)} {i : Option FuncSpec} {o? : Option D} {dc : DayCountArg D} {o : D}
    {cls : IRClass} {tenor : Option P} (hn : (pts.map Prod.fst).Nodup)
    (hpos : (i.getD cls.dflt).isLog → ∀ p ∈ pts, 0 < p.2)
    (ho : o?.or (pts.map Prod.fst).head? = some o) (hd : dc.Usable) (hτ : GoodDayCount (dc.fn cal)) :
    IRCurve.new cal cls (pts.map Prod.fst) (pts.map Prod.snd) i o? dc tenor =
      .ok (irOf cal o o? dc i cls tenor pts) := by
  simp only [IRCurve.new]
  rw [DateCurve_new_eq cal i o? dc cls.dflt ho hd (timePts_nodup hτ o hn) hpos]
  rfl

theorem irOf_origin {pts : List (D × ℝ)} {i : Option FuncSpec} {o? : Option D} {dc : DayCountArg D} {o : D}
    {cls : IRClass} {tenor : Option P} (ho : o?.or (pts.map Prod.fst).head? = some o) :
    (irOf cal o o? dc i cls tenor pts).base.origin = some o := ho

theorem irOf_dayCount {pts : List (D × ℝ)} {i : Option FuncSpec} {o? : Option D} {dc : DayCountArg D} {o : D}
    {cls : IRClass} {tenor : Option P} (hd : dc.Usable) (s e : D) :
    (irOf cal o o? dc i cls tenor pts).dayCount cal s e = .ok (dc.fn cal s e) :=
  DayCountArg.eval_eq cal hd s e

/-- Calling a curve without spread and fixings. -/
theorem irOf_call {pts : List (D × ℝ)} {i : Option FuncSpec} {o? : Option D} {dc : DayCountArg D} {o : D}
    {cls : IRClass} {tenor : Option P} (ho : o?.or (pts.map Prod.fst).head? = some o) (hd : dc.Usable) (x : D) :
    (irOf cal o o? dc i cls tenor pts).call cal x =
      (do pyNum (← (funcOf (i.getD cls.dflt) (timePts (dc.fn cal) o pts)).call (dc.fn cal o x))) := by
  have := dateCurveOf_call cal (i := i) (dflt := cls.dflt) ho hd x
  simp only [IRCurve.call, RateCurve.call, irOf, this, Py.ok_bind]
  cases (funcOf (i.getD cls.dflt) (timePts (dc.fn cal) o pts)).call (dc.fn cal o x) with
  | error e => rfl
  | ok y => cases y <;> simp [pyNum]

theorem irOf_call_some {pts : List (D × ℝ)} {i : Option FuncSpec} {o? : Option D} {dc : DayCountArg D} {o : D}
    {cls : IRClass} {tenor : Option P} (ho : o?.or (pts.map Prod.fst).head? = some o) (hd : dc.Usable) {x : D} {y : ℝ}
    (h : (funcOf (i.getD cls.dflt) (timePts (dc.fn cal) o pts)).call (dc.fn cal o x) = .ok (some y)) :
    (irOf cal o o? dc i cls tenor pts).call cal x = .ok y := by
  rw [irOf_call cal ho hd, h]; rfl

/-- Values at the given points. -/
theorem irOf_node {pts : List (D × ℝ)} {i : Option FuncSpec} {o? : Option D} {dc : DayCountArg D} {o : D}
    {cls : IRClass} {tenor : Option P} (ho : o?.or (pts.map Prod.fst).head? = some o) (hd : dc.Usable)
    (hτ : GoodDayCount (dc.fn cal)) (hn : (pts.map Prod.fst).Nodup)
    (hpos : (i.getD cls.dflt).isLog → ∀ p ∈ pts, 0 < p.2) (h0 : (i.getD cls.dflt).needsNonzero → ∃ p ∈ pts, p.1 ≠ o)
    {x : D} {y : ℝ} (hm : (x, y) ∈ pts) : (irOf cal o o? dc i cls tenor pts).call cal x = .ok y := by
  apply irOf_call_some cal ho hd
  refine funcOf_node _ (timePts_nodup hτ o hn) (fun h p hp => ?_) (fun h => ?_) (List.mem_map.2 ⟨_, hm, rfl⟩)
  · obtain ⟨q, hq, rfl⟩ := List.mem_map.1 hp
    exact hpos h q hq
  · obtain ⟨p, hp, hne⟩ := h0 h
    exact ⟨_, List.mem_map.2 ⟨p, hp, rfl⟩, hτ.ne_zero (Ne.symm hne)⟩

/-- The function of a curve with linear interpolation. -/
noncomputable def linVal (τ : D → D → ℝ) (o : D) (pts : List (D × ℝ)) (x : D) : ℝ :=
  flin (sortPairs (timePts τ o pts)) (τ o x)

theorem irOf_linear {pts : List (D × ℝ)} {i : Option FuncSpec} {o? : Option D} {dc : DayCountArg D} {o : D}
    {cls : IRClass} {tenor : Option P} (hi : i.getD cls.dflt = linearScheme)
    (ho : o?.or (pts.map Prod.fst).head? = some o) (hd : dc.Usable)
    (hτ : GoodDayCount (dc.fn cal)) (hn : (pts.map Prod.fst).Nodup) (hne : pts ≠ []) (x : D) :
    (irOf cal o o? dc i cls tenor pts).call cal x = .ok (linVal (dc.fn cal) o pts x) := by
  apply irOf_call_some cal ho hd
  rw [hi]
  exact funcOf_linear_call (timePts_nodup hτ o hn) (by unfold timePts; simpa using hne) _

/-- The function of a curve interpolating implied zero rates, away from the origin. -/
theorem irOf_rate {pts : List (D × ℝ)} {i : Option FuncSpec} {o? : Option D} {dc : DayCountArg D} {o : D}
    {cls : IRClass} {tenor : Option P} (hi : i.getD cls.dflt = logLinearRateScheme)
    (ho : o?.or (pts.map Prod.fst).head? = some o) (hd : dc.Usable)
    (hτ : GoodDayCount (dc.fn cal)) (hn : (pts.map Prod.fst).Nodup) (h0 : ∃ p ∈ pts, p.1 ≠ o) {x : D} (hx : x ≠ o) :
    (irOf cal o o? dc i cls tenor pts).call cal x =
      .ok (Real.exp (-(flin (sortPairs (ratePts (timePts (dc.fn cal) o pts))) (dc.fn cal o x) * dc.fn cal o x))) := by
  apply irOf_call_some cal ho hd
  rw [hi]
  refine funcOf_rate_call (timePts_nodup hτ o hn) ?_ (hτ.ne_zero (Ne.symm hx))
  obtain ⟨p, hp, hne⟩ := h0
  exact ⟨_, List.mem_map.2 ⟨p, hp, rfl⟩, hτ.ne_zero (Ne.symm hne)⟩

/-- At an origin that is not a given date such a curve has no value. -/
theorem irOf_rate_origin {pts : List (D × ℝ)} {i : Option FuncSpec} {o? : Option D} {dc : DayCountArg D} {o : D}
    {cls : IRClass} {tenor : Option P} (hi : i.getD cls.dflt = logLinearRateScheme)
    (ho : o?.or (pts.map Prod.fst).head? = some o) (hd : dc.Usable)
    (hτ : GoodDayCount (dc.fn cal)) (hn : (pts.map Prod.fst).Nodup) (hne : pts ≠ []) (h0 : ∀ p ∈ pts, p.1 ≠ o) :
    (irOf cal o o? dc i cls tenor pts).call cal o = .error .type := by
  have hz : ∀ p ∈ timePts (dc.fn cal) o pts, p.1 ≠ 0 := by
    intro p hp
    obtain ⟨q, hq, rfl⟩ := List.mem_map.1 hp
    exact hτ.ne_zero (Ne.symm (h0 q hq))
  have hne' : timePts (dc.fn cal) o pts ≠ [] := by unfold timePts; simpa using hne
  obtain ⟨p, hp⟩ := List.exists_mem_of_ne_nil _ hne'
  rw [irOf_call cal ho hd, hi, hτ.self, funcOf_rate_zero (timePts_nodup hτ o hn) ⟨p, hp, hz p hp⟩, find_zero_none hz]
  rfl

end

end Dcf
