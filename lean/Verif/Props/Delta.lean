import Verif.Props.PresentValue
import Verif.Props.RateExtra

/-! # Basis point value and bucketed delta: C61-C63 -/

set_option linter.unusedSectionVars false
set_option linter.unusedVariables false
set_option linter.unusedSimpArgs false

namespace Dcf

open Spec

section
variable {D P : Type} [LinearOrder D] {cal : Cal D P}

/-! ## Spreads on several curves -/

/-- The curves at the addresses have the spread `s`, everything else is as before. -/
def World.spreadOn (w : World D P) (as : List ℕ) (s : Option (D → Py (Option ℝ))) : World D P :=
  { w with curves := fun a => if a ∈ as then { w.curves a with spread := s } else w.curves a }

theorem setSpread_run (a : ℕ) (f : Option (D → Py (Option ℝ))) (w : World D P)
    (h : f = none ∨ (w.curves a).spread = none) : setSpread a f w = (.ok (), w.spreadOn [a] f) := by
  have : ¬ (f.isSome ∧ (w.curves a).toRateCurve.spread.isSome) := by
    rcases h with rfl | h
    · simp
    · simp [h]
  rw [setSpread, RateCurve.setSpread, if_neg this]
  simp only [World.setCurve, World.spreadOn]
  congr 2
  funext b
  by_cases hb : b = a
  · subst hb; simp
  · simp [hb]

theorem setSpread_refused (a : ℕ) (f : D → Py (Option ℝ)) (w : World D P) (h : (w.curves a).spread ≠ none) :
    setSpread a (some f) w = (.error .type, w) := by
  rw [setSpread, C91_reset h]

theorem spreadOn_nil (w : World D P) (s : Option (D → Py (Option ℝ))) : w.spreadOn [] s = w := by
  simp [World.spreadOn]

theorem spreadOn_cons (w : World D P) (a : ℕ) (l : List ℕ) (s : Option (D → Py (Option ℝ))) :
    (w.spreadOn [a] s).spreadOn l s = w.spreadOn (a :: l) s := by
  simp only [World.spreadOn]
  congr 1
  funext b
  by_cases h1 : b ∈ l <;> by_cases h2 : b = a <;> simp [h1, h2]

theorem spreadOn_twice (w : World D P) (l : List ℕ) (s t : Option (D → Py (Option ℝ))) :
    (w.spreadOn l s).spreadOn l t = w.spreadOn l t := by
  simp only [World.spreadOn]
  congr 1
  funext b
  by_cases h1 : b ∈ l <;> simp [h1]

theorem spreadOn_self (w : World D P) {l : List ℕ} (h : ∀ a ∈ l, (w.curves a).spread = none) : w.spreadOn l none = w := by
  simp only [World.spreadOn]
  congr 1
  funext b
  by_cases h1 : b ∈ l
  · simp only [h1, if_true]
    rw [← h b h1]
  · simp [h1]

theorem spreadOn_base (w : World D P) (l : List ℕ) (s : Option (D → Py (Option ℝ))) (a : ℕ) :
    ((w.spreadOn l s).curves a).base = (w.curves a).base := by
  simp only [World.spreadOn]
  split_ifs <;> rfl

theorem clear_run (l : List ℕ) (w : World D P) :
    PyM.forM (fun a => setSpread (D := D) (P := P) a none) l w = (.ok (), w.spreadOn l none) := by
  induction l generalizing w with
  | nil => rw [spreadOn_nil]; rfl
  | cons a l ih => rw [PyM.forM, PyM.bind_ok (setSpread_run a none w (.inl rfl)), ih, spreadOn_cons]

section Loop
variable {act : ℕ → PyM (World D P) Unit} {C : DateCurve D → Prop} [DecidablePred C] {f : D → Py (Option ℝ)}

/-- The curves can all be shifted. -/
structure Shiftable (C : DateCurve D → Prop) (l : List ℕ) (w : World D P) : Prop where
  nodup : l.Nodup
  free : ∀ a ∈ l, (w.curves a).spread = none
  good : ∀ a ∈ l, C (w.curves a).base

theorem Shiftable.cons {a : ℕ} {l : List ℕ} {w : World D P} :
    Shiftable C (a :: l) w ↔ (w.curves a).spread = none ∧ C (w.curves a).base ∧ Shiftable C l (w.spreadOn [a] (some f)) := by
  constructor
  · rintro ⟨h1, h2, h3⟩
    rw [List.nodup_cons] at h1
    refine ⟨h2 a (by simp), h3 a (by simp), h1.2, fun b hb => ?_, fun b hb => ?_⟩
    · have : b ≠ a := fun e => h1.1 (e ▸ hb)
      simp [World.spreadOn, this, h2 b (by simp [hb])]
    · rw [spreadOn_base]; exact h3 b (by simp [hb])
  · rintro ⟨h1, h2, h3, h4, h5⟩
    have ha : a ∉ l := fun h => by have := h4 a h; simp [World.spreadOn] at this
    refine ⟨List.nodup_cons.2 ⟨ha, h3⟩, fun b hb => ?_, fun b hb => ?_⟩
    · rcases List.mem_cons.1 hb with rfl | hb
      · exact h1
      · have : b ≠ a := fun e => ha (e ▸ hb)
        simpa [World.spreadOn, this] using h4 b hb
    · rcases List.mem_cons.1 hb with rfl | hb
      · exact h2
      · simpa [spreadOn_base] using h5 b hb

variable (hact : ∀ a w, act a w = if C (w.curves a).base then setSpread a (some f) w else (.error .type, w))
include hact

theorem shift_run {l : List ℕ} {w : World D P} (h : Shiftable C l w) :
    PyM.forM act l w = (.ok (), w.spreadOn l (some f)) := by
  induction l generalizing w with
  | nil => rw [spreadOn_nil]; rfl
  | cons a l ih =>
    obtain ⟨h1, h2, h3⟩ := Shiftable.cons.1 h
    have : act a w = (.ok (), w.spreadOn [a] (some f)) := by
      rw [hact, if_pos h2, setSpread_run a _ w (.inr h1)]
    rw [PyM.forM, PyM.bind_ok this, ih h3, spreadOn_cons]

theorem shift_ok {l : List ℕ} {w w' : World D P} (h : PyM.forM act l w = (.ok (), w')) :
    Shiftable C l w ∧ w' = w.spreadOn l (some f) := by
  induction l generalizing w with
  | nil =>
    cases h
    exact ⟨⟨by simp, by simp, by simp⟩, (spreadOn_nil _ _).symm⟩
  | cons a l ih =>
    rw [PyM.forM] at h
    obtain ⟨u, w1, h1, h2⟩ := PyM.bind_eq_ok.1 h
    rw [hact] at h1
    by_cases hC : C (w.curves a).base
    swap
    · rw [if_neg hC] at h1; cases h1
    rw [if_pos hC] at h1
    by_cases hs : (w.curves a).spread = none
    · rw [setSpread_run a _ w (.inr hs)] at h1
      cases h1
      obtain ⟨h3, h4⟩ := ih h2
      exact ⟨Shiftable.cons.2 ⟨hs, hC, h3⟩, by rw [h4, spreadOn_cons]⟩
    · rw [setSpread_refused a _ w hs] at h1
      cases h1

/-- At the first curve which already has a spread the loop stops; the curves before stay shifted. -/
theorem shift_stops {l m : List ℕ} {a : ℕ} {w : World D P} (h : Shiftable C l w)
    (ha : a ∈ l ∨ (w.curves a).spread ≠ none) :
    PyM.forM act (l ++ a :: m) w = (.error .type, w.spreadOn l (some f)) := by
  induction l generalizing w with
  | nil =>
    rw [spreadOn_nil, List.nil_append, PyM.forM]
    apply PyM.bind_error
    have hs : (w.curves a).spread ≠ none := by simpa using ha
    rw [hact]
    split_ifs
    · exact setSpread_refused a _ w hs
    · rfl
  | cons b l ih =>
    obtain ⟨h1, h2, h3⟩ := Shiftable.cons.1 h
    have : act b w = (.ok (), w.spreadOn [b] (some f)) := by
      rw [hact, if_pos h2, setSpread_run b _ w (.inr h1)]
    rw [List.cons_append, PyM.forM, PyM.bind_ok this, ih h3, spreadOn_cons]
    by_cases hb : a = b
    · right
      subst hb
      simp [World.spreadOn]
    · rcases ha with ha | ha
      · exact .inl (by simpa [hb] using ha)
      · right
        simpa [World.spreadOn, hb] using ha

end Loop

/-! ## Present values do not touch curves -/

theorem pvList_curves (c : CurveObj D P) (same : Bool) (v : Option D) (a : ℕ) (w : World D P) :
    (pvList cal c same v a w).2.curves = w.curves := by
  rw [pvList, PyM.get_bind, PyM.bind_run]
  have hm : (enterModel v (w.lists a) w).2.curves = w.curves := by
    rw [enterModel]
    split_ifs
    · cases (w.lists a).arg <;> rfl
    · rfl
  rcases he : enterModel v (w.lists a) w with ⟨e | s, w1⟩
  · rw [he] at hm; exact hm
  · rw [he] at hm
    simp only at hm ⊢
    rw [PyM.bind_run, PyM.lift_run]
    cases payDates v (w.lists a).domain with
    | error e => exact hm
    | ok ds =>
      simp only [PyM.get_bind]
      rw [PyM.bind_run, PyM.lift_run]
      cases (w1.list a).getitems cal ds with
      | error e => exact hm
      | ok fs =>
        simp only
        have hl : leaveModel s w1 = (.ok (), (leaveModel s w1).2) ∧ (leaveModel s w1).2.curves = w1.curves := by
          rcases s with _ | ⟨m, v'⟩ <;> exact ⟨rfl, rfl⟩
        rw [PyM.bind_ok hl.1, PyM.lift_run]
        exact hl.2.trans hm

mutual
theorem pvAt_curves (c : CurveObj D P) (same : Bool) (v : Option D) : ∀ (p : Product D) (w : World D P),
    (pvAt cal c same v p w).2.curves = w.curves
  | .list a, w => by rw [pvAt]; exact pvList_curves c same v a w
  | .legs ps d o, w => by
    rw [pvAt, PyM.bind_run]
    have := pvLegs_curves c same v ps w
    rcases h : pvLegs cal c same v ps w with ⟨_ | _, _⟩ <;> rw [h] at this <;> exact this
theorem pvLegs_curves (c : CurveObj D P) (same : Bool) (v : Option D) : ∀ (ps : List (Product D)) (w : World D P),
    (pvLegs cal c same v ps w).2.curves = w.curves
  | [], w => by rw [pvLegs]; rfl
  | p :: ps, w => by
    rw [pvLegs, PyM.bind_run]
    have h1 := pvAt_curves c same v p w
    rcases h : pvAt cal c same v p w with ⟨_ | x, w1⟩ <;> rw [h] at h1
    · exact h1
    · simp only
      rw [PyM.bind_run]
      have h2 := pvLegs_curves c same v ps w1
      rcases h' : pvLegs cal c same v ps w1 with ⟨_ | _, _⟩ <;> rw [h'] at h2 <;> exact h2.trans h1
end

theorem pvOn_curves (a : ℕ) (same : Bool) (v : Option D) (p : Product D) (w : World D P) :
    (pvOn cal a same v p w).2.curves = w.curves := by
  cases v <;> exact pvAt_curves _ _ _ _ _

theorem pvOn_state {a : ℕ} {same : Bool} {v : Option D} {p : Product D} {w w' : World D P} {x : ℝ}
    (h : pvOn cal a same v p w = (.ok x, w')) : w' = w := by
  cases v <;> exact pvAt_state h

/-! ## The parallel shift -/

theorem flat_spread (o : D) (s : ℝ) : ∃ S, DateCurve.new cal [o] [s] none none .default linearScheme = .ok S ∧
    S.asSpread cal = fun _ => .ok (some s) := by
  have ho : (none : Option D).or ([(o, s)].map Prod.fst).head? = some o := rfl
  refine ⟨_, DateCurve_new_eq cal (pts := [(o, s)]) none none .default linearScheme (o := o) rfl trivial
    (by simp [timePts]) (fun h => absurd h (by simp [linearScheme, FuncSpec.isLog, Kind.isLog])), ?_⟩
  funext x
  rw [DateCurve.asSpread, dateCurveOf_call cal (dc := .default) ho trivial, Option.getD_none, funcOf_linear_call (by simp [timePts])
    (by simp [timePts])]
  simp [timePts, sortPairs, flin]

theorem parallelShift_eq (shift : ℝ) (a : ℕ) (w : World D P) :
    parallelShift cal shift a w =
      if (w.curves a).base.origin ≠ none then setSpread a (some fun _ => .ok (some shift)) w else (.error .type, w) := by
  rw [parallelShift, PyM.get_bind]
  cases h : (w.curves a).base.origin with
  | none => simp [pyDate]; rfl
  | some o =>
    obtain ⟨S, h1, h2⟩ := flat_spread (cal := cal) o shift
    simp only [pyDate, ne_eq, reduceCtorEq, not_false_eq_true, if_true]
    rw [PyM.lift_ok_bind, shiftCurve, h1, PyM.lift_ok_bind, h2]

/-! ## C61: basis point value -/

variable {disc : ℕ} {same : Bool} {p : Product D} {v : Option D} {shift : ℝ} {w : World D P}

/-- The curves have an origin, no spread yet, and are all different. -/
abbrev Bumpable (l : List ℕ) (w : World D P) : Prop := Shiftable (fun c => c.origin ≠ none) l w

/-- The world with all these curves shifted by the same number. -/
abbrev World.bumped (w : World D P) (l : List ℕ) (shift : ℝ) : World D P := w.spreadOn l (some fun _ => .ok (some shift))

/-- C61: the call succeeds exactly if the curves can be shifted and the product has a present value before and after; the
result is the change of the present value scaled to one basis point, and all objects are as before. -/
theorem C61_value {delta : Option (List ℕ)} {z : ℝ} {w' : World D P} :
    basisPointValue cal disc same p v delta shift w = (.ok z, w') ↔
      w' = w ∧ shift ≠ 0 ∧ Bumpable (delta.getD [disc]) w ∧
      ∃ x y, pvOn cal disc same v p w = (.ok x, w) ∧
        pvOn cal disc same v p (w.bumped (delta.getD [disc]) shift) = (.ok y, w.bumped (delta.getD [disc]) shift) ∧
        z = (y - x) / shift * (1 / 10000) := by
  set l := delta.getD [disc]
  constructor
  · intro h
    rw [basisPointValue] at h
    obtain ⟨x, s, h1, k1⟩ := PyM.bind_eq_ok.1 h
    clear h
    obtain rfl := pvOn_state h1
    obtain ⟨u, s2, h2, k2⟩ := PyM.bind_eq_ok.1 k1
    clear k1
    obtain ⟨hb, rfl⟩ := shift_ok (C := fun c => c.origin ≠ none) (parallelShift_eq shift) h2
    obtain ⟨y, s', h3, h⟩ := PyM.bind_eq_ok.1 k2
    clear k2
    obtain rfl := pvOn_state h3
    rw [PyM.bind_ok (clear_run _ _), spreadOn_twice, spreadOn_self _ hb.free] at h
    by_cases h0 : shift = 0
    · subst h0
      rw [PyM.bind_run, PyM.lift_run] at h
      simp [pyDiv] at h
    · rw [pyDiv_ok h0, PyM.lift_ok_bind] at h
      cases h
      exact ⟨rfl, h0, hb, x, y, h1, h3, rfl⟩
  · rintro ⟨rfl, h0, hb, x, y, h1, h2, rfl⟩
    rw [basisPointValue, PyM.bind_ok h1]
    rw [PyM.bind_ok (shift_run (C := fun c => c.origin ≠ none) (parallelShift_eq shift) hb), PyM.bind_ok h2,
      PyM.bind_ok (clear_run _ _), spreadOn_twice, spreadOn_self _ hb.free, pyDiv_ok h0]
    rfl

/-- C61: the shift is parallel: every rate of a shifted curve is higher by the shift. -/
theorem C61_parallel {l : List ℕ} {a : ℕ} (ha : a ∈ l) (hf : (w.curves a).spread = none) {x : D} {y : ℝ}
    (h : (w.curves a).toRateCurve.call cal x = .ok y) (shift : ℝ) :
    ((w.bumped l shift).curves a).toRateCurve.call cal x = .ok (y + shift) := by
  simp only [World.spreadOn, ha, if_true]
  simp only [RateCurve.call, hf, Py.ok_bind] at h ⊢
  obtain ⟨b, hb, h⟩ := Py.bind_eq_ok.1 h
  obtain ⟨b', hb', h⟩ := Py.bind_eq_ok.1 h
  simp only [pyNum, Py.ok_bind, Except.ok.injEq, add_zero] at h
  rw [hb, Py.ok_bind, hb', Py.ok_bind]
  simp [pyNum, h]

/-- C61 (refuted for curves with a spread and for curves given twice): TypeError, and the curves before stay shifted. -/
theorem C61_spread_violated {l m : List ℕ} {a : ℕ} {x : ℝ} (hx : pvOn cal disc same v p w = (.ok x, w)) (hl : Bumpable l w)
    (ha : a ∈ l ∨ (w.curves a).spread ≠ none) :
    basisPointValue cal disc same p v (some (l ++ a :: m)) shift w = (.error .type, w.bumped l shift) := by
  rw [basisPointValue, PyM.bind_ok hx]
  exact PyM.bind_error (shift_stops (C := fun c => c.origin ≠ none) (parallelShift_eq shift) hl ha)

/-- C61 (refuted for failures): if the shifted present value raises, all curves stay shifted. -/
theorem C61_failing_violated {l : List ℕ} {x : ℝ} {e : PyErr} {w' : World D P} (hx : pvOn cal disc same v p w = (.ok x, w))
    (hl : Bumpable l w) (hy : pvOn cal disc same v p (w.bumped l shift) = (.error e, w')) :
    basisPointValue cal disc same p v (some l) shift w = (.error e, w') ∧ w'.curves = (w.bumped l shift).curves := by
  constructor
  · rw [basisPointValue, PyM.bind_ok hx]
    dsimp only [Option.getD_some]
    rw [PyM.bind_ok (shift_run (C := fun c => c.origin ≠ none) (parallelShift_eq shift) hl)]
    exact PyM.bind_error hy
  · have := pvOn_curves (cal := cal) disc same v p (w.bumped l shift)
    rw [hy] at this
    exact this

/-- C61: a shift of zero is a division by zero, with all curves restored. -/
theorem C61_no_shift {delta : Option (List ℕ)} {x y : ℝ} (hb : Bumpable (delta.getD [disc]) w)
    (hx : pvOn cal disc same v p w = (.ok x, w))
    (hy : pvOn cal disc same v p (w.bumped (delta.getD [disc]) 0) = (.ok y, w.bumped (delta.getD [disc]) 0)) :
    basisPointValue cal disc same p v delta 0 w = (.error .zeroDivision, w) := by
  rw [basisPointValue, PyM.bind_ok hx]
  rw [PyM.bind_ok (shift_run (C := fun c => c.origin ≠ none) (parallelShift_eq 0) hb), PyM.bind_ok hy,
    PyM.bind_ok (clear_run _ _), spreadOn_twice, spreadOn_self _ hb.free]
  simp [PyM.bind_run, pyDiv]

/-- Shifting all zero rates multiplies discount factors. -/
theorem zero_shift_factor {c : RateCurve D P} {τ : D → D → ℝ} (hτ : GoodDayCount τ)
    (hdc : ∀ s t, c.base.dayCount cal s t = .ok (τ s t)) (hf : c.spread = none) (shift : ℝ) {same : Bool} {s t : D} {y : ℝ}
    (h : (IRCurve.mk c .zero).factor cal same s t = .ok y) :
    (IRCurve.mk { c with spread := some fun _ => .ok (some shift) } .zero).factor cal same s t =
      .ok (y * Real.exp (-(shift * τ s t))) := by
  have hcall : ∀ {x z}, (IRCurve.mk c .zero).call cal x = .ok z →
      (IRCurve.mk { c with spread := some fun _ => .ok (some shift) } .zero).call cal x = .ok (z + shift) := by
    intro x z h
    simp only [IRCurve.call, RateCurve.call, hf, Py.ok_bind] at h ⊢
    obtain ⟨b, hb, h⟩ := Py.bind_eq_ok.1 h
    obtain ⟨b', hb', h⟩ := Py.bind_eq_ok.1 h
    simp only [pyNum, Py.ok_bind, Except.ok.injEq, add_zero] at h
    rw [hb, Py.ok_bind, hb', Py.ok_bind]
    simp [pyNum, h]
  by_cases hst : s = t
  · subst hst
    simp only [IRCurve.factor, if_true] at h ⊢
    cases h
    simp [hτ.self]
  · have hdc1 : ∀ a b, (IRCurve.mk c .zero).dayCount cal a b = .ok (τ a b) := hdc
    have hdc2 : ∀ a b, (IRCurve.mk { c with spread := some fun _ => .ok (some shift) } .zero).dayCount cal a b =
      .ok (τ a b) := hdc
    have h0 := hτ.ne_zero hst
    have hr : ∀ {r}, (IRCurve.mk c .zero).rate cal same s t = .ok r →
        (IRCurve.mk { c with spread := some fun _ => .ok (some shift) } .zero).rate cal same s t = .ok (r + shift) := by
      intro r hr
      simp only [IRCurve.rate, IRCurve.zeroRateOf, hst, false_and, if_false] at hr ⊢
      cases same with
      | true => simp only [if_true] at hr ⊢; exact hcall hr
      | false =>
        simp only [Bool.false_eq_true, if_false, IRCurve.zeroForward, hdc1, hdc2] at hr ⊢
        obtain ⟨o, ho, hr⟩ := Py.bind_eq_ok.1 hr
        obtain ⟨zs, hzs, hr⟩ := Py.bind_eq_ok.1 hr
        rw [Py.ok_bind] at hr
        obtain ⟨ze, hze, hr⟩ := Py.bind_eq_ok.1 hr
        rw [Py.ok_bind, Py.ok_bind, pyDiv_ok h0] at hr
        cases hr
        simp only [ho, hcall hzs, hcall hze, Py.ok_bind, pyDiv_ok h0]
        congr 1
        rw [← hτ.add o s t]
        field_simp
        ring
    simp only [IRCurve.factor, if_neg hst, hdc1, hdc2] at h ⊢
    obtain ⟨r, hr', h⟩ := Py.bind_eq_ok.1 h
    rw [Py.ok_bind, continuousCompounding] at h
    cases h
    rw [hr hr', Py.ok_bind, Py.ok_bind, continuousCompounding, ← Real.exp_add]
    congr 2
    ring

/-- C61 (zero rate curves): the basis point value of flows which do not depend on the discount curve. -/
theorem C61_zero {c : RateCurve D P} {τ : D → D → ℝ} (hτ : GoodDayCount τ) (hc : w.curves disc = ⟨c, .ir .zero⟩)
    (hdc : ∀ s t, c.base.dayCount cal s t = .ok (τ s t)) (hf : c.spread = none) (ho : c.base.origin ≠ none)
    {v : D} {L : List (D × ℝ)} {df : D → ℝ} (hp : Pays cal w v p L) (hp' : Pays cal (w.bumped [disc] shift) v p L)
    (hdf : ∀ q ∈ L, (w.curves disc).discountFactor cal same v q.1 = .ok (df q.1)) (hs : shift ≠ 0) :
    basisPointValue cal disc same p (some v) none shift w =
      (.ok ((L.map fun q => df q.1 * q.2 * ((Real.exp (-(shift * τ v q.1)) - 1) / shift)).sum * (1 / 10000)), w) := by
  rw [C61_value]
  refine ⟨rfl, hs, ⟨by simp, by simp [hc, hf], by simp [hc, ho]⟩, _, _, C54_flows hp hdf, C54_flows hp'
    (df := fun t => df t * Real.exp (-(shift * τ v t))) ?_, ?_⟩
  · intro q hq
    have := hdf q hq
    simp only [Option.getD_none, World.spreadOn, List.mem_singleton, if_true, hc, CurveObj.discountFactor, CurveObj.ir?] at this ⊢
    exact zero_shift_factor hτ hdc hf shift this
  · congr 1
    rw [eq_div_iff hs]
    induction L with
    | nil => simp
    | cons q L ih =>
      have ih' : ((L.map fun q => df q.1 * q.2 * ((Real.exp (-(shift * τ v q.1)) - 1) / shift)).sum) * shift =
          (L.map fun q => df q.1 * Real.exp (-(shift * τ v q.1)) * q.2).sum - (L.map fun q => df q.1 * q.2).sum := by
        clear ih hp hp' hdf
        induction L with
        | nil => simp
        | cons q L ih => 
          simp only [List.map_cons, List.sum_cons, add_mul, ih]
          field_simp
          ring
      simp only [List.map_cons, List.sum_cons, add_mul, ih']
      field_simp
      ring

theorem slope_neg {s t : ℝ} (hs : s ≠ 0) (ht : 0 < t) : (Real.exp (-(s * t)) - 1) / s < 0 := by
  rcases lt_or_gt_of_ne hs with h | h
  · refine div_neg_of_pos_of_neg ?_ h
    have : 1 < Real.exp (-(s * t)) := Real.one_lt_exp_iff.2 (by nlinarith)
    linarith
  · refine div_neg_of_neg_of_pos ?_ h
    have : Real.exp (-(s * t)) < 1 := Real.exp_lt_one_iff.2 (by nlinarith)
    linarith

/-- C61 (zero rate curves): a holder of flows, at least one of them in the future, loses if rates rise. -/
theorem C61_sign {c : RateCurve D P} {τ : D → D → ℝ} (hτ : GoodDayCount τ) (hc : w.curves disc = ⟨c, .ir .zero⟩)
    (hdc : ∀ s t, c.base.dayCount cal s t = .ok (τ s t)) (hf : c.spread = none) (ho : c.base.origin ≠ none)
    {v : D} {L : List (D × ℝ)} {df : D → ℝ} (hp : Pays cal w v p L) (hp' : Pays cal (w.bumped [disc] shift) v p L)
    (hdf : ∀ q ∈ L, (w.curves disc).discountFactor cal same v q.1 = .ok (df q.1)) (hs : shift ≠ 0)
    (h0 : ∀ q ∈ L, v ≤ q.1 ∧ 0 ≤ q.2) (h1 : ∃ q ∈ L, v < q.1 ∧ 0 < q.2) :
    ∃ z, basisPointValue cal disc same p (some v) none shift w = (.ok z, w) ∧ z < 0 := by
  refine ⟨_, C61_zero hτ hc hdc hf ho hp hp' hdf hs, ?_⟩
  have hpos : ∀ q ∈ L, 0 < df q.1 := by
    intro q hq
    have := hdf q hq
    simp only [hc, CurveObj.discountFactor, CurveObj.ir?, IRCurve.factor] at this
    split_ifs at this
    · rw [← Except.ok.inj this]; exact one_pos
    · obtain ⟨r, -, h⟩ := Py.bind_eq_ok.1 this
      obtain ⟨t, -, h⟩ := Py.bind_eq_ok.1 h
      rw [continuousCompounding] at h
      rw [← Except.ok.inj h]
      exact Real.exp_pos _
  have hle : ∀ q ∈ L, df q.1 * q.2 * ((Real.exp (-(shift * τ v q.1)) - 1) / shift) ≤ 0 := by
    intro q hq
    rcases (h0 q hq).1.eq_or_lt with e | e
    · rw [← e, hτ.self]; simp
    · exact mul_nonpos_of_nonneg_of_nonpos (mul_nonneg (hpos q hq).le (h0 q hq).2)
        (slope_neg hs ((hτ.pos _ _).2 e)).le
  have hlt : (L.map fun q => df q.1 * q.2 * ((Real.exp (-(shift * τ v q.1)) - 1) / shift)).sum < 0 := by
    have := List.sum_lt_sum (l := L) (f := fun q => df q.1 * q.2 * ((Real.exp (-(shift * τ v q.1)) - 1) / shift))
      (g := fun _ => 0) hle (by
        obtain ⟨q, hq, h2, h3⟩ := h1
        exact ⟨q, hq, mul_neg_of_pos_of_neg (mul_pos (hpos q hq) h3) (slope_neg hs ((hτ.pos _ _).2 h2))⟩)
    simpa using this
  linarith

/-! ## C62: the buckets -/

/-- The grid points of all buckets: each date with its neighbours; the shift at the date and zero at the neighbours. -/
def hatGrids (shift : ℝ) : Option D → List D → List (List (D × ℝ))
  | _, [] => []
  | none, [m] => [[(m, shift)]]
  | none, m :: h :: rest => [(m, shift), (h, 0)] :: hatGrids shift (some m) (h :: rest)
  | some l, [m] => [[(l, 0), (m, shift)]]
  | some l, m :: h :: rest => [(l, 0), (m, shift), (h, 0)] :: hatGrids shift (some m) (h :: rest)

/-- Points as lists of dates and values. -/
def splitPts (pts : List (D × ℝ)) : List D × List ℝ := (pts.map Prod.fst, pts.map Prod.snd)

theorem pyLast_cons {α : Type} (a b : α) (l : List α) : pyLast (a :: b :: l) = pyLast (b :: l) := by
  simp [pyLast, List.getLast?_cons_cons]

theorem pyLast_ok {α : Type} : ∀ {l : List α} (h : l ≠ []), ∃ z, pyLast l = .ok z
  | [a], _ => ⟨a, rfl⟩
  | a :: b :: l, _ => by rw [pyLast_cons]; exact pyLast_ok (by simp)

theorem hatGrids_tail (shift : ℝ) : ∀ (l : List D) (p m : D), ∃ z z', pyLast (p :: m :: l) = .ok z ∧
    pyLast (p :: m :: l).dropLast = .ok z' ∧
    (((p :: m :: l).zip ((m :: l).zip l)).map fun q => ([q.1, q.2.1, q.2.2], [0, shift, 0])) ++ [([z', z], [0, shift])] =
      (hatGrids shift (some p) (m :: l)).map splitPts
  | [], p, m => ⟨m, p, rfl, rfl, rfl⟩
  | h :: rest, p, m => by
    obtain ⟨z, z', h1, h2, h3⟩ := hatGrids_tail shift rest m h
    refine ⟨z, z', by rw [pyLast_cons]; exact h1, ?_, ?_⟩
    · rw [List.dropLast_cons_cons, List.dropLast_cons_cons, pyLast_cons, ← List.dropLast_cons_cons]
      exact h2
    · rw [hatGrids, List.map_cons, ← h3]
      rfl

theorem bucketShifts_eq (shift : ℝ) {grid : List D} (h : grid ≠ []) :
    bucketShifts shift grid = .ok ((hatGrids shift none grid).map splitPts) := by
  match grid, h with
  | [x], _ => rfl
  | [x, y], _ => rfl
  | x :: y :: a :: rest, _ =>
    obtain ⟨z, z', h1, h2, h3⟩ := hatGrids_tail shift (a :: rest) x y
    rw [bucketShifts.eq_4 _ _ _ _ (by simp), h1, Py.ok_bind, h2, Py.ok_bind, hatGrids, List.map_cons, ← h3]
    rfl

/-- The triangle at `m` between its neighbours, flat towards a missing neighbour (as in the documentation of
`get_bucketed_delta`). -/
noncomputable def hat (τ : D → D → ℝ) (shift : ℝ) (lo : Option D) (m : D) (hi : Option D) (x : D) : ℝ :=
  if x ≤ m then
    match lo with
    | none => shift
    | some l => if x ≤ l then 0 else shift * (τ l x / τ l m)
  else
    match hi with
    | none => shift
    | some h => if h ≤ x then 0 else shift * (τ x h / τ m h)

/-- The triangles of all grid dates. -/
noncomputable def hats (τ : D → D → ℝ) (shift : ℝ) : Option D → List D → List (D → ℝ)
  | _, [] => []
  | lo, m :: rest => hat τ shift lo m rest.head? :: hats τ shift (some m) rest

theorem hats_length (τ : D → D → ℝ) (shift : ℝ) : ∀ (grid : List D) (lo : Option D), (hats τ shift lo grid).length = grid.length
  | [], _ => rfl
  | m :: rest, lo => by rw [hats, List.length_cons, hats_length τ shift rest]; rfl

/-- The date curve through the points answers with `f`. -/
def CurveIs (cal : Cal D P) (g : List D × List ℝ) (f : D → ℝ) : Prop :=
  ∃ S, DateCurve.new cal g.1 g.2 none none .default linearScheme = .ok S ∧ ∀ x, S.call cal x = .ok (some (f x))

theorem sortPairs_sorted {l : List (ℝ × ℝ)} (h : StrictX l) : sortPairs l = l := by
  rw [sortPairs]
  refine List.Pairwise.insertionSort_eq (h.imp fun {a b} hab => ?_)
  exact .inl hab

theorem curveIs_flin (hτ : GoodDayCount cal.dayCount) {o : D} {y : ℝ} {pts : List (D × ℝ)}
    (hs : (((o, y) :: pts).map Prod.fst).Pairwise (· < ·)) :
    CurveIs cal (splitPts ((o, y) :: pts)) fun x => flin (timePts cal.dayCount o ((o, y) :: pts)) (cal.dayCount o x) := by
  have hn : (((o, y) :: pts).map Prod.fst).Nodup := hs.imp fun h => h.ne
  have ho : (none : Option D).or (((o, y) :: pts).map Prod.fst).head? = some o := rfl
  refine ⟨_, DateCurve_new_eq cal none none .default linearScheme (o := o) rfl trivial
    (timePts_nodup (τ := cal.dayCount) hτ o hn) (fun h => absurd h (by simp [linearScheme, FuncSpec.isLog, Kind.isLog])), ?_⟩
  intro x
  rw [dateCurveOf_call cal (dc := .default) ho trivial, Option.getD_none]
  refine (funcOf_linear_call (timePts_nodup (τ := cal.dayCount) hτ o hn) (by simp [timePts]) _).trans ?_
  rw [sortPairs_sorted]
  · rfl
  · have : ((timePts cal.dayCount o ((o, y) :: pts)).map Prod.fst).Pairwise (· < ·) := by
      rw [timePts_fst, List.pairwise_map]
      exact hs.imp fun {a b} h => (hτ.lt_iff o _ _).2 h
    rw [List.pairwise_map] at this
    exact this

theorem CurveIs.congr {g : List D × List ℝ} {f f' : D → ℝ} (h : CurveIs cal g f) (hf : ∀ x, f x = f' x) : CurveIs cal g f' := by
  obtain ⟨S, h1, h2⟩ := h
  exact ⟨S, h1, fun x => by rw [h2, hf]⟩

theorem hat_last (hτ : GoodDayCount cal.dayCount) (shift : ℝ) {l m : D} (h : l < m) :
    CurveIs cal (splitPts [(l, 0), (m, shift)]) (hat cal.dayCount shift (some l) m none) := by
  refine (curveIs_flin hτ (by simpa using h)).congr fun x => ?_
  have h0 := hτ.ne_zero h.ne
  simp only [timePts, List.map_cons, List.map_nil, flin, hτ.le_iff, hat]
  by_cases h1 : x ≤ l
  · simp [h1, h1.trans h.le]
  · by_cases h2 : x ≤ m
    · simp only [h1, h2, if_true, if_false, chord, hτ.self]
      field_simp
      simp
      ring
    · simp [h1, h2]

theorem hat_first (hτ : GoodDayCount cal.dayCount) (shift : ℝ) {m h : D} (hh : m < h) :
    CurveIs cal (splitPts [(m, shift), (h, 0)]) (hat cal.dayCount shift none m (some h)) := by
  refine (curveIs_flin hτ (by simpa using hh)).congr fun x => ?_
  have h0 := hτ.ne_zero hh.ne
  simp only [timePts, List.map_cons, List.map_nil, flin, hτ.le_iff, hat]
  by_cases h1 : x ≤ m
  · simp [h1]
  · by_cases h2 : x ≤ h
    · have e := hτ.add m x h
      by_cases h3 : h ≤ x
      · obtain rfl := le_antisymm h2 h3
        simp only [h1, h2, if_true, if_false, chord, hτ.self]
        field_simp
        simp
      · simp only [h1, h2, h3, if_true, if_false, chord, hτ.self]
        field_simp
        rw [← e]
        ring
    · simp [h1, h2, (not_le.1 h2).le]

theorem hat_mid (hτ : GoodDayCount cal.dayCount) (shift : ℝ) {l m h : D} (hl : l < m) (hh : m < h) :
    CurveIs cal (splitPts [(l, 0), (m, shift), (h, 0)]) (hat cal.dayCount shift (some l) m (some h)) := by
  refine (curveIs_flin hτ (by simp [hl, hh, hl.trans hh])).congr fun x => ?_
  have h0 := hτ.ne_zero hl.ne
  have h0' := hτ.ne_zero hh.ne
  have e1 := hτ.add l m h
  simp only [timePts, List.map_cons, List.map_nil, flin, hτ.le_iff, hat]
  by_cases h1 : x ≤ l
  · simp [h1, h1.trans hl.le]
  · by_cases h2 : x ≤ m
    · simp only [h1, h2, if_true, if_false, chord, hτ.self]
      field_simp
      simp
      ring
    · by_cases h3 : x ≤ h
      · have e := hτ.add m x h
        have e2 := hτ.add l m x
        by_cases h4 : h ≤ x
        · obtain rfl := le_antisymm h3 h4
          simp only [h1, h2, h3, if_true, if_false, chord, hτ.self]
          rw [← e1]
          simp only [add_sub_cancel_left]
          field_simp
          simp
        · simp only [h1, h2, h3, h4, if_true, if_false, chord, hτ.self]
          rw [← e1, ← e2]
          simp only [add_sub_cancel_left]
          field_simp
          rw [← e]
          ring
      · simp [h1, h2, h3, (not_le.1 h3).le]

theorem hatGrids_curves (hτ : GoodDayCount cal.dayCount) (shift : ℝ) : ∀ (grid : List D) (lo : Option D),
    (lo.toList ++ grid).Pairwise (· < ·) →
    List.Forall₂ (CurveIs cal) ((hatGrids shift lo grid).map splitPts) (hats cal.dayCount shift lo grid)
  | [], lo, _ => by rw [hatGrids.eq_1]; exact .nil
  | [m], none, h => by
    rw [hatGrids]
    refine .cons ((curveIs_flin hτ (by simp)).congr fun x => ?_) .nil
    simp [timePts, flin, hat]
  | [m], some l, h => by
    rw [hatGrids]
    simp only [Option.toList_some, List.cons_append, List.nil_append, List.pairwise_cons] at h
    exact .cons (hat_last hτ shift (h.1 m (by simp))) .nil
  | m :: k :: rest, none, h => by
    have ih := hatGrids_curves hτ shift (k :: rest) (some m) (by simpa using h)
    rw [hatGrids]
    simp only [Option.toList_none, List.nil_append, List.pairwise_cons] at h
    exact .cons (hat_first hτ shift (h.1 k (by simp))) ih
  | m :: k :: rest, some l, h => by
    simp only [Option.toList_some, List.cons_append, List.nil_append] at h
    rw [List.pairwise_cons] at h
    have ih := hatGrids_curves hτ shift (k :: rest) (some m) (by simpa using h.2)
    rw [hatGrids]
    exact .cons (hat_mid hτ shift (h.1 m (by simp)) ((List.pairwise_cons.1 h.2).1 k (by simp))) ih

/-- C62: for every increasing grid the shift curves are the documented triangles, one for each grid date. -/
theorem C62_triangles (hτ : GoodDayCount cal.dayCount) (shift : ℝ) {grid : List D} (hne : grid ≠ [])
    (hs : grid.Pairwise (· < ·)) :
    ∃ gs, bucketShifts shift grid = .ok gs ∧ gs.length = grid.length ∧
      List.Forall₂ (CurveIs cal) gs (hats cal.dayCount shift none grid) := by
  have h := hatGrids_curves hτ shift grid none (by simpa using hs)
  exact ⟨_, bucketShifts_eq shift hne, by rw [h.length_eq, hats_length], h⟩

theorem hats_sum_some {τ : D → D → ℝ} (hτ : GoodDayCount τ) (shift : ℝ) (x : D) : ∀ (rest : List D) (l m : D),
    (l :: m :: rest).Pairwise (· < ·) →
    ((hats τ shift (some l) (m :: rest)).map fun f => f x).sum =
      if x ≤ l then 0 else if x ≤ m then shift * (τ l x / τ l m) else shift
  | [], l, m, h => by
    simp only [hats, List.map_cons, List.map_nil, List.sum_cons, List.sum_nil, add_zero, hat, List.head?_nil]
    have hl : l < m := (List.pairwise_cons.1 h).1 m (by simp)
    by_cases h1 : x ≤ l
    · simp [h1, h1.trans hl.le]
    · by_cases h2 : x ≤ m <;> simp [h1, h2]
  | k :: rest, l, m, h => by
    have hl : l < m := (List.pairwise_cons.1 h).1 m (by simp)
    have hk : m < k := (List.pairwise_cons.1 (List.pairwise_cons.1 h).2).1 k (by simp)
    have ih := hats_sum_some hτ shift x rest m k (List.pairwise_cons.1 h).2
    rw [hats, List.map_cons, List.sum_cons, ih, List.head?_cons, hat]
    have h0 := hτ.ne_zero hk.ne
    by_cases h1 : x ≤ l
    · simp [h1, h1.trans hl.le]
    · by_cases h2 : x ≤ m
      · simp [h1, h2]
      · by_cases h3 : k ≤ x
        · by_cases h4 : x ≤ k
          · obtain rfl := le_antisymm h4 h3
            simp [h1, h2, div_self h0]
          · simp [h1, h2, h3, h4]
        · have h4 : x ≤ k := (not_le.1 h3).le
          simp only [h1, h2, h3, h4, if_true, if_false]
          have e := hτ.add m x k
          rw [← mul_add, ← add_div, add_comm, e, div_self h0, mul_one]

/-- C62: at every date, inside or outside the grid, the shifts of all buckets add up to the parallel shift. -/
theorem C62_partition {τ : D → D → ℝ} (hτ : GoodDayCount τ) (shift : ℝ) {grid : List D} (hne : grid ≠ [])
    (hs : grid.Pairwise (· < ·)) (x : D) : ((hats τ shift none grid).map fun f => f x).sum = shift := by
  match grid, hne, hs with
  | [m], _, _ => simp [hats, hat]
  | m :: k :: rest, _, h =>
    have hk : m < k := (List.pairwise_cons.1 h).1 k (by simp)
    rw [hats, List.map_cons, List.sum_cons, hats_sum_some hτ shift x rest m k h, List.head?_cons, hat]
    have h0 := hτ.ne_zero hk.ne
    by_cases h2 : x ≤ m
    · simp [h2]
    · by_cases h3 : k ≤ x
      · by_cases h4 : x ≤ k
        · obtain rfl := le_antisymm h4 h3
          simp [h2, div_self h0]
        · simp [h2, h3, h4]
      · have h4 : x ≤ k := (not_le.1 h3).le
        simp only [h2, h3, h4, if_true, if_false]
        have e := hτ.add m x k
        rw [← mul_add, ← add_div, add_comm, e, div_self h0, mul_one]

theorem hat_bounds {τ : D → D → ℝ} (hτ : GoodDayCount τ) {shift : ℝ} (h0 : 0 ≤ shift) (lo : Option D) (m : D) (hi : Option D)
    (x : D) : 0 ≤ hat τ shift lo m hi x ∧ hat τ shift lo m hi x ≤ shift := by
  have aux : ∀ {a b : ℝ}, 0 ≤ a → a ≤ b → 0 ≤ shift * (a / b) ∧ shift * (a / b) ≤ shift := by
    intro a b ha hab
    have := div_le_one_of_le₀ hab (ha.trans hab)
    have := div_nonneg ha (ha.trans hab)
    exact ⟨by positivity, by nlinarith⟩
  unfold hat
  by_cases h1 : x ≤ m
  · rw [if_pos h1]
    cases lo with
    | none => exact ⟨h0, le_rfl⟩
    | some l =>
      dsimp only
      split_ifs with h2
      · exact ⟨le_rfl, h0⟩
      · exact aux (hτ.nonneg (not_le.1 h2).le) ((hτ.le_iff l _ _).2 h1)
  · rw [if_neg h1]
    cases hi with
    | none => exact ⟨h0, le_rfl⟩
    | some h =>
      dsimp only
      split_ifs with h2
      · exact ⟨le_rfl, h0⟩
      · have e := hτ.add m x h
        have e' := hτ.nonneg (not_le.1 h1).le
        exact aux (hτ.nonneg (not_le.1 h2).le) (by linarith)

theorem mem_hats {τ : D → D → ℝ} {shift : ℝ} {f : D → ℝ} : ∀ {grid : List D} {lo : Option D}, f ∈ hats τ shift lo grid →
    ∃ lo m hi, f = hat τ shift lo m hi
  | [], _, h => by simp [hats] at h
  | m :: rest, lo, h => by
    rw [hats, List.mem_cons] at h
    rcases h with rfl | h
    · exact ⟨_, _, _, rfl⟩
    · exact mem_hats h

/-- C62: the shift of each bucket lies between zero and the parallel shift. -/
theorem C62_bounds {τ : D → D → ℝ} (hτ : GoodDayCount τ) {shift : ℝ} (h0 : 0 ≤ shift) {grid : List D} {f : D → ℝ}
    (hf : f ∈ hats τ shift none grid) (x : D) : 0 ≤ f x ∧ f x ≤ shift := by
  obtain ⟨lo, m, hi, rfl⟩ := mem_hats hf
  exact hat_bounds hτ h0 lo m hi x

theorem hat_zero_le {τ : D → D → ℝ} {shift : ℝ} {l m : D} (h : l < m) {hi : Option D} {x : D} (hx : x ≤ l) :
    hat τ shift (some l) m hi x = 0 := by
  simp [hat, hx, hx.trans h.le]

theorem hat_node {τ : D → D → ℝ} (hτ : GoodDayCount τ) (shift : ℝ) {lo : Option D} {m : D} {hi : Option D}
    (h : ∀ l, lo = some l → l < m) : hat τ shift lo m hi m = shift := by
  unfold hat
  rw [if_pos le_rfl]
  cases lo with
  | none => rfl
  | some l =>
    have := h l rfl
    simp [this, div_self (hτ.ne_zero this.ne)]

theorem hats_zero {τ : D → D → ℝ} {shift : ℝ} {f : D → ℝ} : ∀ {grid : List D} {l x : D}, (l :: grid).Pairwise (· < ·) →
    f ∈ hats τ shift (some l) grid → x ≤ l → f x = 0
  | [], _, _, _, h, _ => by simp [hats] at h
  | m :: rest, l, x, hs, h, hx => by
    have hl : l < m := (List.pairwise_cons.1 hs).1 m (by simp)
    rw [hats, List.mem_cons] at h
    rcases h with rfl | h
    · exact hat_zero_le hl hx
    · exact hats_zero (List.pairwise_cons.1 hs).2 h (hx.trans hl.le)

theorem hats_node {τ : D → D → ℝ} (hτ : GoodDayCount τ) (shift : ℝ) {f : D → ℝ} : ∀ {grid : List D} {lo : Option D},
    (lo.toList ++ grid).Pairwise (· < ·) → ∀ {i : ℕ}, (hats τ shift lo grid)[i]? = some f → ∀ {j : ℕ} (hj : j < grid.length),
      f grid[j] = if i = j then shift else 0
  | [], _, _, i, hi, _, _ => absurd hi (by simp [hats])
  | m :: rest, lo, h, i, hi, j, hj => by
    have hr : (m :: rest).Pairwise (· < ·) := by
      cases lo with
      | none => simpa using h
      | some l => simp only [Option.toList_some, List.cons_append, List.nil_append] at h; exact (List.pairwise_cons.1 h).2
    have hlo : ∀ l, lo = some l → l < m := by
      rintro l rfl
      simp only [Option.toList_some, List.cons_append, List.nil_append] at h
      exact (List.pairwise_cons.1 h).1 m (by simp)
    rw [hats] at hi
    cases i with
    | zero =>
      rw [List.getElem?_cons_zero] at hi
      cases hi
      cases j with
      | zero => rw [List.getElem_cons_zero, if_pos rfl, hat_node hτ shift hlo]
      | succ j =>
        rw [List.getElem_cons_succ, if_neg (by simp)]
        have hj' : j < rest.length := by simpa using hj
        have h1 : m < rest[j] := (List.pairwise_cons.1 hr).1 _ (List.getElem_mem _)
        cases rest with
        | nil => simp at hj'
        | cons k rest =>
          have h2 : k ≤ (k :: rest)[j] := by
            cases j with
            | zero => exact le_rfl
            | succ j => exact ((List.pairwise_cons.1 (List.pairwise_cons.1 hr).2).1 _ (List.getElem_mem _)).le
          rw [hat.eq_def, if_neg h1.not_ge]
          simp [h2]
    | succ i =>
      rw [List.getElem?_cons_succ] at hi
      cases j with
      | zero =>
        rw [List.getElem_cons_zero, if_neg (by simp)]
        exact hats_zero hr (List.mem_of_getElem? hi) le_rfl
      | succ j =>
        rw [List.getElem_cons_succ, hats_node hτ shift (lo := some m) (by simpa using hr) hi (by simpa using hj)]
        simp

/-- C62: at the grid dates the shift of a bucket is the whole shift at its own date and zero at the others. -/
theorem C62_node {τ : D → D → ℝ} (hτ : GoodDayCount τ) (shift : ℝ) {grid : List D} (hs : grid.Pairwise (· < ·)) {i : ℕ}
    {f : D → ℝ} (hf : (hats τ shift none grid)[i]? = some f) {j : ℕ} (hj : j < grid.length) :
    f grid[j] = if i = j then shift else 0 :=
  hats_node hτ shift (by simpa using hs) hf hj

/-! ## C63: bucketed deltas -/

/-- The world with the spread `φ` on the curves. -/
abbrev World.spreadBy (w : World D P) (l : List ℕ) (φ : D → ℝ) : World D P := w.spreadOn l (some fun x => .ok (some (φ x)))

theorem shiftCurve_eq {g : List D × List ℝ} {f : D → ℝ} (h : CurveIs cal g f) (a : ℕ) (w : World D P) :
    shiftCurve cal a g.1 g.2 w = setSpread a (some fun x => .ok (some (f x))) w := by
  obtain ⟨S, h1, h2⟩ := h
  rw [shiftCurve, h1, PyM.lift_ok_bind]
  congr 2
  funext x
  exact h2 x

/-- The curves have no spread yet and are all different. -/
abbrev Spreadable (l : List ℕ) (w : World D P) : Prop := Shiftable (fun _ => True) l w

theorem bucket_run {l : List ℕ} {x y : ℝ} (hs : shift ≠ 0) (hl : Spreadable l w) {g : List D × List ℝ} {f : D → ℝ}
    (hg : CurveIs cal g f) (hy : pvOn cal disc same v p (w.spreadBy l f) = (.ok y, w.spreadBy l f)) :
    bucket cal disc same p v l shift x g w = (.ok ((y - x) / shift * (1 / 10000)), w) := by
  have hact : ∀ a (w : World D P), shiftCurve cal a g.1 g.2 w =
      if (fun _ => True) (w.curves a).base then setSpread a (some fun x => .ok (some (f x))) w else (.error .type, w) := by
    intro a w
    rw [shiftCurve_eq hg]; simp
  rw [bucket, PyM.bind_ok (shift_run (C := fun _ => True) hact hl), PyM.bind_ok hy, PyM.bind_ok (clear_run _ _),
    spreadOn_twice, spreadOn_self _ hl.free, pyDiv_ok hs]
  rfl

theorem mapM_run {σ α β γ : Type} {R : α → γ → Prop} {F : α → PyM σ β} {G : γ → β} {s : σ} {l : List α} {m : List γ}
    (h : List.Forall₂ R l m) (hF : ∀ a c, R a c → c ∈ m → F a s = (.ok (G c), s)) :
    PyM.mapM F l s = (.ok (m.map G), s) := by
  induction h with
  | nil => rfl
  | cons h1 _ ih =>
    rw [PyM.mapM, PyM.bind_ok (hF _ _ h1 (by simp)), PyM.bind_ok (ih fun a c h hc => hF a c h (by simp [hc]))]
    rfl

/-- C63: the bucketed deltas are the scaled changes of the present value under the triangles, one for each grid date, and
all objects are as before. -/
theorem C63_buckets (hτ : GoodDayCount cal.dayCount) {delta : Option (List ℕ)} {grid : Option (List D)} {G : List D}
    (hG : deltaGrid (w.curves disc) grid = G) (hne : G ≠ []) (hinc : G.Pairwise (· < ·)) (hs : shift ≠ 0)
    (hl : Spreadable (delta.getD [disc]) w) {x : ℝ} {V : (D → ℝ) → ℝ} (hx : pvOn cal disc same v p w = (.ok x, w))
    (hV : ∀ f ∈ hats cal.dayCount shift none G, pvOn cal disc same v p (w.spreadBy (delta.getD [disc]) f) =
      (.ok (V f), w.spreadBy (delta.getD [disc]) f)) :
    bucketedDelta cal disc same p v delta grid shift w =
      (.ok ((hats cal.dayCount shift none G).map fun f => (V f - x) / shift * (1 / 10000)), w) := by
  obtain ⟨gs, h1, -, h2⟩ := C62_triangles hτ shift hne hinc
  rw [bucketedDelta, PyM.bind_ok hx, PyM.get_bind, hG, h1, PyM.lift_ok_bind]
  exact mapM_run h2 fun g f hg hf => bucket_run hs hl hg (hV f hf)

theorem sum_deltas (fs : List (D → ℝ)) (V : (D → ℝ) → ℝ) (x s : ℝ) :
    (fs.map fun f => (V f - x) / s * (1 / 10000)).sum = (fs.map fun f => V f - x).sum / s * (1 / 10000) := by
  induction fs with
  | nil => simp
  | cons f fs ih => simp only [List.map_cons, List.sum_cons, ih]; ring

/-- C63: if the present value is affine in the spread the bucketed deltas add up to the basis point value. -/
theorem C63_affine (hτ : GoodDayCount cal.dayCount) {delta : Option (List ℕ)} {grid : Option (List D)} {G : List D}
    (hG : deltaGrid (w.curves disc) grid = G) (hne : G ≠ []) (hinc : G.Pairwise (· < ·)) (hs : shift ≠ 0)
    (hl : Bumpable (delta.getD [disc]) w) {x : ℝ} {L : (D → ℝ) →ₗ[ℝ] ℝ} (hx : pvOn cal disc same v p w = (.ok x, w))
    (hV : ∀ φ : D → ℝ, pvOn cal disc same v p (w.spreadBy (delta.getD [disc]) φ) =
      (.ok (x + L φ), w.spreadBy (delta.getD [disc]) φ)) :
    ∃ ds, bucketedDelta cal disc same p v delta grid shift w = (.ok ds, w) ∧ ds.length = G.length ∧
      basisPointValue cal disc same p v delta shift w = (.ok ds.sum, w) := by
  refine ⟨_, C63_buckets hτ hG hne hinc hs ⟨hl.nodup, hl.free, fun _ _ => trivial⟩ hx (V := fun f => x + L f) fun f _ => hV f,
    by rw [List.length_map, hats_length], ?_⟩
  rw [C61_value]
  refine ⟨rfl, hs, hl, x, x + L fun _ => shift, hx, hV _, ?_⟩
  rw [sum_deltas]
  simp only [add_sub_cancel_left]
  congr 2
  rw [← map_list_sum]
  congr 1
  funext t
  rw [Pi.list_sum_apply]
  exact C62_partition hτ shift hne hinc t

theorem hats_after {τ : D → D → ℝ} (shift : ℝ) {t : D} {f : D → ℝ} : ∀ {G : List D} {lo : Option D}, (∀ d ∈ G, d < t) →
    ∀ {k : ℕ}, (hats τ shift lo G)[k]? = some f → f t = if k = G.length - 1 then shift else 0
  | [], _, _, k, h => absurd h (by simp [hats])
  | [m], lo, ht, k, h => by
    rw [hats, hats] at h
    have hm := ht m (by simp)
    cases k with
    | zero =>
      rw [List.getElem?_cons_zero] at h
      cases h
      simp [hat, hm.not_ge]
    | succ k => simp at h
  | m :: n :: rest, lo, ht, k, h => by
    rw [hats] at h
    have hm := ht m (by simp)
    have hn := ht n (by simp)
    cases k with
    | zero =>
      rw [List.getElem?_cons_zero] at h
      cases h
      simp [hat, hm.not_ge, hn.le]
    | succ k =>
      rw [List.getElem?_cons_succ] at h
      rw [hats_after shift (fun d hd => ht d (by simp [hd])) h]
      simp

/-- At the dates of the grid and outside of it exactly one bucket is shifted, by the whole shift. -/
theorem hats_alone {τ : D → D → ℝ} (hτ : GoodDayCount τ) (shift : ℝ) {G : List D} (hne : G ≠ []) (hinc : G.Pairwise (· < ·))
    {t : D} (ht : t ∈ G ∨ (∀ d ∈ G, t ≤ d) ∨ ∀ d ∈ G, d ≤ t) :
    ∃ i, i < G.length ∧ ∀ k f, (hats τ shift none G)[k]? = some f → f t = if k = i then shift else 0 := by
  by_cases hm : t ∈ G
  · obtain ⟨j, hj, rfl⟩ := List.getElem_of_mem hm
    exact ⟨j, hj, fun k f hf => C62_node hτ shift hinc hf hj⟩
  rcases ht with h | h | h
  · exact absurd h hm
  · obtain ⟨m, rest, rfl⟩ := List.exists_cons_of_ne_nil hne
    refine ⟨0, by simp, fun k f hf => ?_⟩
    rw [hats] at hf
    have h1 := h m (by simp)
    cases k with
    | zero =>
      rw [List.getElem?_cons_zero] at hf
      cases hf
      simp [hat, h1]
    | succ k =>
      rw [List.getElem?_cons_succ] at hf
      rw [hats_zero hinc (List.mem_of_getElem? hf) h1]
      simp
  · refine ⟨G.length - 1, by have := List.length_pos_iff.2 hne; omega, fun k f hf => hats_after shift (fun d hd => ?_) hf⟩
    exact lt_of_le_of_ne (h d hd) fun e => hm (e ▸ hd)

theorem sum_alone {F : ℝ → ℝ} {t : D} {s : ℝ} : ∀ {fs : List (D → ℝ)} {i : ℕ}, i < fs.length →
    (∀ k f, fs[k]? = some f → f t = if k = i then s else 0) → (fs.map fun f => F (f t) - F 0).sum = F s - F 0
  | [], i, hi, _ => absurd hi (by simp)
  | f :: fs, 0, hi, h => by
    have h0 := h 0 f rfl
    have hz : ∀ g ∈ fs, F (g t) - F 0 = 0 := by
      intro g hg
      obtain ⟨k, hk, rfl⟩ := List.getElem_of_mem hg
      have := h (k + 1) fs[k] (by simp [hk])
      rw [this]; simp
    rw [List.map_cons, List.sum_cons, List.map_congr_left hz, h0]
    simp
  | f :: fs, i + 1, hi, h => by
    have h0 := h 0 f rfl
    rw [List.map_cons, List.sum_cons, h0, sum_alone (s := s) (i := i) (by simpa using hi) (fun k g hg => by
      have := h (k + 1) g (by simpa using hg)
      rw [this]; simp)]
    simp

theorem sum_swap (fs : List (D → ℝ)) (T : List D) (F : D → ℝ → ℝ) :
    (fs.map fun f => (T.map fun t => F t (f t)).sum - (T.map fun t => F t 0).sum).sum =
      (T.map fun t => (fs.map fun f => F t (f t) - F t 0).sum).sum := by
  induction T with
  | nil => simp
  | cons t T ih =>
    simp only [List.map_cons, List.sum_cons, ← ih, ← List.sum_map_add]
    congr 1
    apply List.map_congr_left
    intro f _
    ring

theorem sum_sub (T : List D) (f g : D → ℝ) : (T.map fun t => f t - g t).sum = (T.map f).sum - (T.map g).sum := by
  induction T with
  | nil => simp
  | cons t T ih => simp only [List.map_cons, List.sum_cons, ih]; ring

/-- C63: if every flow reacts on the spread at its own date only, and these dates are on the grid or outside of it, the
bucketed deltas add up to the basis point value, whatever the dependence. -/
theorem C63_on_grid (hτ : GoodDayCount cal.dayCount) {delta : Option (List ℕ)} {grid : Option (List D)} {G : List D}
    (hG : deltaGrid (w.curves disc) grid = G) (hne : G ≠ []) (hinc : G.Pairwise (· < ·)) (hs : shift ≠ 0)
    (hl : Bumpable (delta.getD [disc]) w) {T : List D} (hT : ∀ t ∈ T, t ∈ G ∨ (∀ d ∈ G, t ≤ d) ∨ ∀ d ∈ G, d ≤ t)
    {F : D → ℝ → ℝ} (hx : pvOn cal disc same v p w = (.ok (T.map fun t => F t 0).sum, w))
    (hV : ∀ φ : D → ℝ, pvOn cal disc same v p (w.spreadBy (delta.getD [disc]) φ) =
      (.ok (T.map fun t => F t (φ t)).sum, w.spreadBy (delta.getD [disc]) φ)) :
    ∃ ds, bucketedDelta cal disc same p v delta grid shift w = (.ok ds, w) ∧ ds.length = G.length ∧
      basisPointValue cal disc same p v delta shift w = (.ok ds.sum, w) := by
  refine ⟨_, C63_buckets hτ hG hne hinc hs ⟨hl.nodup, hl.free, fun _ _ => trivial⟩ hx
    (V := fun f => (T.map fun t => F t (f t)).sum) fun f _ => hV f, by rw [List.length_map, hats_length], ?_⟩
  rw [C61_value]
  refine ⟨rfl, hs, hl, _, _, hx, hV _, ?_⟩
  rw [sum_deltas, sum_swap, ← sum_sub]
  congr 3
  apply List.map_congr_left
  intro t ht
  obtain ⟨i, hi, h⟩ := hats_alone hτ shift hne hinc (hT t ht)
  exact sum_alone (by rw [hats_length]; exact hi) h

/-! ### Zero rate curves -/

theorem spread_call {c : RateCurve D P} (hf : c.spread = none) {x : D} {y : ℝ} (h : c.call cal x = .ok y) (φ : D → ℝ) :
    RateCurve.call cal { c with spread := some fun x => .ok (some (φ x)) } x = .ok (y + φ x) := by
  simp only [RateCurve.call, hf, Py.ok_bind] at h ⊢
  obtain ⟨b, hb, h⟩ := Py.bind_eq_ok.1 h
  obtain ⟨b', hb', h⟩ := Py.bind_eq_ok.1 h
  simp only [pyNum, Py.ok_bind, Except.ok.injEq, add_zero] at h
  rw [hb, Py.ok_bind, hb', Py.ok_bind]
  simp [pyNum, h]

/-- A spread on zero rates multiplies the discount factors from the origin on. -/
theorem zero_spread_factor {c : RateCurve D P} {τ : D → D → ℝ} (hτ : GoodDayCount τ)
    (hdc : ∀ s t, c.base.dayCount cal s t = .ok (τ s t)) (hf : c.spread = none) {o : D} (ho : c.base.origin = some o)
    (φ : D → ℝ) {same : Bool} {t : D} {y : ℝ} (h : (IRCurve.mk c .zero).factor cal same o t = .ok y) :
    (IRCurve.mk { c with spread := some fun x => .ok (some (φ x)) } .zero).factor cal same o t =
      .ok (y * Real.exp (-(φ t * τ o t))) := by
  by_cases hst : o = t
  · subst hst
    simp only [IRCurve.factor, if_true] at h ⊢
    cases h
    simp [hτ.self]
  · have hdc1 : ∀ a b, (IRCurve.mk c .zero).dayCount cal a b = .ok (τ a b) := hdc
    have hdc2 : ∀ a b, (IRCurve.mk { c with spread := some fun x => .ok (some (φ x)) } .zero).dayCount cal a b =
      .ok (τ a b) := hdc
    have h0 := hτ.ne_zero hst
    have hr : ∀ {r}, (IRCurve.mk c .zero).rate cal same o t = .ok r →
        (IRCurve.mk { c with spread := some fun x => .ok (some (φ x)) } .zero).rate cal same o t = .ok (r + φ t) := by
      intro r hr
      simp only [IRCurve.rate, IRCurve.zeroRateOf, hst, false_and, if_false] at hr ⊢
      cases same with
      | true => simp only [if_true] at hr ⊢; exact spread_call hf hr φ
      | false =>
        simp only [Bool.false_eq_true, if_false, IRCurve.zeroForward, hdc1, hdc2, ho, pyDate, Py.ok_bind] at hr ⊢
        obtain ⟨zs, hzs, hr⟩ := Py.bind_eq_ok.1 hr
        obtain ⟨ze, hze, hr⟩ := Py.bind_eq_ok.1 hr
        rw [pyDiv_ok h0] at hr
        cases hr
        simp only [IRCurve.call] at hzs hze ⊢
        simp only [spread_call hf hzs φ, spread_call hf hze φ, Py.ok_bind, pyDiv_ok h0, hτ.self]
        congr 1
        field_simp
        ring
    simp only [IRCurve.factor, if_neg hst, hdc1, hdc2] at h ⊢
    obtain ⟨r, hr', h⟩ := Py.bind_eq_ok.1 h
    rw [Py.ok_bind, continuousCompounding] at h
    cases h
    rw [hr hr', Py.ok_bind, Py.ok_bind, continuousCompounding, ← Real.exp_add]
    congr 2
    ring

/-- The present value at the origin of a zero rate curve with a spread. -/
theorem zero_spread_pv {c : RateCurve D P} {τ : D → D → ℝ} (hτ : GoodDayCount τ) (hc : w.curves disc = ⟨c, .ir .zero⟩)
    (hdc : ∀ s t, c.base.dayCount cal s t = .ok (τ s t)) (hf : c.spread = none) {o : D} (ho : c.base.origin = some o)
    {L : List (D × ℝ)} {df : D → ℝ} (hp : ∀ φ : D → ℝ, Pays cal (w.spreadBy [disc] φ) o p L)
    (hdf : ∀ q ∈ L, (w.curves disc).discountFactor cal same o q.1 = .ok (df q.1)) (φ : D → ℝ) :
    pvOn cal disc same (some o) p (w.spreadBy [disc] φ) =
      (.ok (L.map fun q => df q.1 * Real.exp (-(φ q.1 * τ o q.1)) * q.2).sum, w.spreadBy [disc] φ) := by
  refine C54_flows (hp φ) (df := fun t => df t * Real.exp (-(φ t * τ o t))) fun q hq => ?_
  have := hdf q hq
  simp only [World.spreadOn, List.mem_singleton, if_true, hc, CurveObj.discountFactor, CurveObj.ir?] at this ⊢
  exact zero_spread_factor hτ hdc hf ho φ this

theorem exp_buckets : ∀ {as : List ℝ}, (∀ a ∈ as, 0 ≤ a) →
    (as.map fun a => Real.exp (-a) - 1).sum ≤ Real.exp (-as.sum) - 1 ∧
      ((∃ a ∈ as, 0 < a ∧ a < as.sum) → (as.map fun a => Real.exp (-a) - 1).sum < Real.exp (-as.sum) - 1)
  | [], _ => by simp
  | a :: as, h => by
    obtain ⟨h1, h2⟩ := exp_buckets (as := as) fun b hb => h b (by simp [hb])
    have ha := h a (by simp)
    have hS : 0 ≤ as.sum := List.sum_nonneg fun b hb => h b (by simp [hb])
    have e : Real.exp (-(a + as.sum)) = Real.exp (-a) * Real.exp (-as.sum) := by rw [← Real.exp_add]; congr 1; ring
    have k1 : Real.exp (-a) ≤ 1 := Real.exp_le_one_iff.2 (by linarith)
    have k2 : Real.exp (-as.sum) ≤ 1 := Real.exp_le_one_iff.2 (by linarith)
    simp only [List.map_cons, List.sum_cons, e]
    refine ⟨by nlinarith, ?_⟩
    have hboth : 0 < a → 0 < as.sum → Real.exp (-a) - 1 + (as.map fun a => Real.exp (-a) - 1).sum <
        Real.exp (-a) * Real.exp (-as.sum) - 1 := by
      intro ha hS
      have k1 : Real.exp (-a) < 1 := Real.exp_lt_one_iff.2 (by linarith)
      have k2 : Real.exp (-as.sum) < 1 := Real.exp_lt_one_iff.2 (by linarith)
      nlinarith
    rintro ⟨b, hb, hb0, hbS⟩
    rcases List.mem_cons.1 hb with rfl | hb'
    · exact hboth hb0 (by linarith)
    · rcases ha.eq_or_lt with ha | ha
      · subst ha
        simp only [neg_zero, Real.exp_zero, sub_self, zero_add, one_mul]
        exact h2 ⟨b, hb', hb0, by linarith⟩
      · exact hboth ha (hb0.trans_le (List.single_le_sum (fun b hb => h b (by simp [hb])) b hb'))

theorem bucket_sum_le {τ : D → D → ℝ} (hτ : GoodDayCount τ) (hτ' : GoodDayCount cal.dayCount) (hs : 0 < shift) {G : List D}
    (hne : G ≠ []) (hinc : G.Pairwise (· < ·)) {o t : D} (ht : o ≤ t) :
    ((hats cal.dayCount shift none G).map fun f => Real.exp (-(f t * τ o t)) - 1).sum ≤ Real.exp (-(shift * τ o t)) - 1 ∧
      (o < t → (∃ f ∈ hats cal.dayCount shift none G, 0 < f t ∧ f t < shift) →
        ((hats cal.dayCount shift none G).map fun f => Real.exp (-(f t * τ o t)) - 1).sum < Real.exp (-(shift * τ o t)) - 1) := by
  have h0 := hτ.nonneg ht
  have hsum : ((hats cal.dayCount shift none G).map fun f => f t * τ o t).sum = shift * τ o t := by
    rw [List.sum_map_mul_right, C62_partition hτ' shift hne hinc t]
  have key := exp_buckets (as := (hats cal.dayCount shift none G).map fun f => f t * τ o t) (by
    intro a ha
    obtain ⟨f, hf, rfl⟩ := List.mem_map.1 ha
    exact mul_nonneg (C62_bounds hτ' hs.le hf t).1 h0)
  rw [hsum, List.map_map] at key
  refine ⟨key.1, fun hot ⟨f, hf, h1, h2⟩ => key.2 ⟨f t * τ o t, List.mem_map.2 ⟨f, hf, rfl⟩, ?_, ?_⟩⟩
  · exact mul_pos h1 ((hτ.pos _ _).2 hot)
  · exact mul_lt_mul_of_pos_right h2 ((hτ.pos _ _).2 hot)

/-- C63 (zero rate curves): for positive flows and a positive shift the bucketed deltas are in sum at most the basis point
value, and strictly below it as soon as one flow falls between two grid dates. -/
theorem C63_zero {c : RateCurve D P} {τ : D → D → ℝ} (hτ : GoodDayCount τ) (hτ' : GoodDayCount cal.dayCount)
    (hc : w.curves disc = ⟨c, .ir .zero⟩)
    (hdc : ∀ s t, c.base.dayCount cal s t = .ok (τ s t)) (hf : c.spread = none) {o : D} (ho : c.base.origin = some o)
    {L : List (D × ℝ)} {df : D → ℝ} (hp0 : Pays cal w o p L) (hp : ∀ φ : D → ℝ, Pays cal (w.spreadBy [disc] φ) o p L)
    (hdf : ∀ q ∈ L, (w.curves disc).discountFactor cal same o q.1 = .ok (df q.1)) (hpos : ∀ q ∈ L, o ≤ q.1 ∧ 0 < q.2)
    {grid : Option (List D)} {G : List D}
    (hG : deltaGrid (w.curves disc) grid = G) (hne : G ≠ []) (hinc : G.Pairwise (· < ·)) (hs : 0 < shift) :
    ∃ ds z, bucketedDelta cal disc same p (some o) none grid shift w = (.ok ds, w) ∧
      basisPointValue cal disc same p (some o) none shift w = (.ok z, w) ∧ ds.sum ≤ z ∧
      ((∃ q ∈ L, o < q.1 ∧ ∃ f ∈ hats cal.dayCount shift none G, 0 < f q.1 ∧ f q.1 < shift) → ds.sum < z) := by
  have hx : pvOn cal disc same (some o) p w = (.ok (L.map fun q => df q.1 * q.2).sum, w) := C54_flows hp0 hdf
  have hV := zero_spread_pv (same := same) hτ hc hdc hf ho hp hdf
  have hb : Bumpable ((none : Option (List ℕ)).getD [disc]) w := ⟨by simp, by simp [hc, hf], by simp [hc, ho]⟩
  refine ⟨_, _, C63_buckets hτ' hG hne hinc hs.ne' ⟨hb.nodup, hb.free, fun _ _ => trivial⟩ hx
    (V := fun f => (L.map fun q : D × ℝ => df q.1 * Real.exp (-(f q.1 * τ o q.1)) * q.2).sum) fun f _ => hV f,
    C61_value.2 ⟨rfl, hs.ne', hb, _, _, hx, hV _, rfl⟩, ?_⟩
  have hdfp : ∀ q ∈ L, 0 < df q.1 := by
    intro q hq
    have := hdf q hq
    simp only [hc, CurveObj.discountFactor, CurveObj.ir?, IRCurve.factor] at this
    split_ifs at this
    · rw [← Except.ok.inj this]; exact one_pos
    · obtain ⟨r, -, h⟩ := Py.bind_eq_ok.1 this
      obtain ⟨t, -, h⟩ := Py.bind_eq_ok.1 h
      rw [continuousCompounding] at h
      rw [← Except.ok.inj h]
      exact Real.exp_pos _
  have hswap : ((hats cal.dayCount shift none G).map fun f => (L.map fun q => df q.1 * Real.exp (-(f q.1 * τ o q.1)) * q.2).sum -
      (L.map fun q => df q.1 * q.2).sum).sum = (L.map fun q => df q.1 * q.2 *
        ((hats cal.dayCount shift none G).map fun f => Real.exp (-(f q.1 * τ o q.1)) - 1).sum).sum := by
    clear hp0 hp hdf hpos hx hV hdfp
    induction L with
    | nil => simp
    | cons q L ih =>
      conv_rhs => rw [List.map_cons, List.sum_cons, ← ih, ← List.sum_map_mul_left, ← List.sum_map_add]
      congr 1
      apply List.map_congr_left
      intro f _
      simp only [List.map_cons, List.sum_cons]
      ring
  have hz : (L.map fun q => df q.1 * Real.exp (-(shift * τ o q.1)) * q.2).sum - (L.map fun q => df q.1 * q.2).sum =
      (L.map fun q => df q.1 * q.2 * (Real.exp (-(shift * τ o q.1)) - 1)).sum := by
    clear hp0 hp hdf hpos hx hV hdfp hswap
    induction L with
    | nil => simp
    | cons q L ih =>
      simp only [List.map_cons, List.sum_cons, ← ih]
      ring
  have hle : ∀ q ∈ L, df q.1 * q.2 * ((hats cal.dayCount shift none G).map fun f => Real.exp (-(f q.1 * τ o q.1)) - 1).sum ≤
      df q.1 * q.2 * (Real.exp (-(shift * τ o q.1)) - 1) := fun q hq =>
    mul_le_mul_of_nonneg_left (bucket_sum_le hτ hτ' hs hne hinc (hpos q hq).1).1 (mul_pos (hdfp q hq) (hpos q hq).2).le
  rw [sum_deltas, hswap, hz]
  refine ⟨?_, ?_⟩
  · refine mul_le_mul_of_nonneg_right (div_le_div_of_nonneg_right ?_ hs.le) (by norm_num)
    exact List.sum_le_sum hle
  · rintro ⟨q, hq, h1, h2⟩
    refine mul_lt_mul_of_pos_right (div_lt_div_of_pos_right ?_ hs) (by norm_num)
    exact List.sum_lt_sum _ _ hle ⟨q, hq, mul_lt_mul_of_pos_left ((bucket_sum_le hτ hτ' hs hne hinc (hpos q hq).1).2 h1 h2)
      (mul_pos (hdfp q hq) (hpos q hq).2)⟩

/-- Between two neighbouring grid dates two buckets are partly shifted. -/
theorem hats_between {τ : D → D → ℝ} (hτ : GoodDayCount τ) (hs : 0 < shift) {t : D} : ∀ {G : List D} {lo : Option D} {i : ℕ}
    (hi : i + 1 < G.length), G[i] < t → t < G[i + 1] → ∃ f ∈ hats τ shift lo G, 0 < f t ∧ f t < shift
  | m :: n :: rest, lo, 0, hi, h1, h2 => by
    refine ⟨hat τ shift lo m (some n), by simp [hats], ?_⟩
    simp only [List.getElem_cons_zero, List.getElem_cons_succ, zero_add] at h1 h2
    simp only [hat, h1.not_ge, h2.not_ge, if_false]
    have k1 := (hτ.pos _ _).2 h1
    have k2 := (hτ.pos _ _).2 h2
    have e := hτ.add m t n
    have k3 : τ t n / τ m n < 1 := by rw [div_lt_one (by linarith)]; linarith
    refine ⟨mul_pos hs (div_pos k2 (by linarith)), by nlinarith⟩
  | m :: rest, lo, i + 1, hi, h1, h2 => by
    obtain ⟨f, hf, h⟩ := hats_between hτ hs (G := rest) (lo := some m) (i := i) (by simpa using hi) (by simpa using h1)
      (by simpa using h2)
    exact ⟨f, by rw [hats]; exact List.mem_cons_of_mem _ hf, h⟩
  | [m], _, 0, hi, _, _ => absurd hi (by simp)
  | [], _, _, hi, _, _ => absurd hi (by simp)

end

/-! ## C103: the default grid -/

section
variable {D P : Type} [LinearOrder D] {cal : Cal D P}

theorem hatGrids_length (shift : ℝ) : ∀ (G : List D) (lo : Option D), (hatGrids shift lo G).length = G.length
  | [], none => by rw [hatGrids]; rfl
  | [], some _ => by rw [hatGrids]; rfl
  | [m], none => by rw [hatGrids]; rfl
  | [m], some l => by rw [hatGrids]; rfl
  | m :: k :: rest, none => by rw [hatGrids, List.length_cons, hatGrids_length shift (k :: rest)]; rfl
  | m :: k :: rest, some l => by rw [hatGrids, List.length_cons, hatGrids_length shift (k :: rest)]; rfl

theorem mapM_length {σ α β : Type} {F : α → PyM σ β} : ∀ {l : List α} {s s' : σ} {ys : List β},
    PyM.mapM F l s = (.ok ys, s') → ys.length = l.length
  | [], s, s', ys, h => by
    cases h
    rfl
  | a :: l, s, s', ys, h => by
    rw [PyM.mapM] at h
    obtain ⟨b, s1, -, h⟩ := PyM.bind_eq_ok.1 h
    obtain ⟨bs, s2, h2, h⟩ := PyM.bind_eq_ok.1 h
    cases h
    simp [mapM_length h2]

/-- C103: one delta for each date of a given grid. -/
theorem C103_given {disc : ℕ} {same : Bool} {p : Product D} {v : Option D} {delta : Option (List ℕ)} {G : List D}
    {shift : ℝ} {w w' : World D P} {ds : List ℝ} (hG : G ≠ [])
    (h : bucketedDelta cal disc same p v delta (some G) shift w = (.ok ds, w')) : ds.length = G.length := by
  rw [bucketedDelta] at h
  obtain ⟨x, s, -, h⟩ := PyM.bind_eq_ok.1 h
  rw [PyM.get_bind] at h
  obtain ⟨m, G, rfl⟩ := List.exists_cons_of_ne_nil hG
  rw [deltaGrid, bucketShifts_eq shift hG, PyM.lift_ok_bind] at h
  rw [mapM_length h, List.length_map, hatGrids_length]

/-- C103 (refuted): without a given grid there is one delta for each date of the discount curve, whatever the curves
shifted. -/
theorem C103_default_violated {disc : ℕ} {same : Bool} {p : Product D} {v : Option D} {delta : Option (List ℕ)}
    {grid : Option (List D)} (hg : grid = none ∨ grid = some [])
    {shift : ℝ} {w w' : World D P} {ds : List ℝ}
    (h : bucketedDelta cal disc same p v delta grid shift w = (.ok ds, w')) :
    ds.length = (w.curves disc).base.domain.length := by
  rw [bucketedDelta] at h
  obtain ⟨x, s, hx, h'⟩ := PyM.bind_eq_ok.1 h
  clear h
  obtain rfl := pvOn_state hx
  rw [PyM.get_bind] at h'
  have hd : deltaGrid (s.curves disc) grid = (s.curves disc).base.domain := by rcases hg with rfl | rfl <;> rfl
  rw [hd] at h'
  by_cases h0 : (s.curves disc).base.domain = []
  · rw [h0, bucketShifts, PyM.lift_error_bind] at h'
    cases h'
  · rw [bucketShifts_eq shift h0, PyM.lift_ok_bind] at h'
    rw [mapM_length h', List.length_map, hatGrids_length]

end

/-! ### Examples -/

theorem exPays {w : World ℝ FloatPeriod} (h : w.lists = exWorld.lists) : Pays floatCal w 0 (.list 1) [(1, 1), (3, 2)] := by
  refine ⟨[[(1, 1), (3, 2)]], ?_, by simp⟩
  rw [Product.leaves]
  refine .cons ⟨fun h' => absurd h' (by simp [h, exWorld]), fun d => if d = 1 then 1 else 2, ?_, ?_⟩ .nil
  · intro d hd hv
    simp only [h, exWorld, List.mem_cons, List.not_mem_nil, or_false] at hd
    rcases hd with rfl | rfl
    · simp [World.list, World.dated, h, exWorld, CFList.getitem, Dict.ofPairs, Dict.get, Dict.set, PayOff.eval]
    · simp [World.list, World.dated, h, exWorld, CFList.getitem, Dict.ofPairs, Dict.get, Dict.set, PayOff.eval]
  · norm_num [h, exWorld, List.filter]

theorem exBump : Bumpable [0] exWorld :=
  ⟨by simp, fun a ha => rfl, fun a ha => by simp [exWorld, flatZero, irOf, dateCurveOf, DateCurve.origin, IRCurve.obj]⟩

/-- Non-vacuity of C61: flows of 1 and 2 after one and three years, shifted by 1%. -/
example : ∃ z, basisPointValue floatCal 0 false (.list 1) (some 0) none (1 / 100) exWorld = (.ok z, exWorld) ∧ z < 0 := by
  refine C61_sign (c := (flatZero floatCal none .default none 0 (5 / 100)).toRateCurve) goodDayCount_real rfl
    (fun s t => rfl) rfl (by simp [flatZero, irOf, dateCurveOf, DateCurve.origin]) (exPays rfl) (exPays rfl)
    (df := fun t => Real.exp (-(5 / 100 * (t - 0)))) (fun q _ => exDf 0 q.1) (by norm_num) ?_ ⟨(1, 1), by simp, by norm_num⟩
  simp

/-- C61 (refuted): a curve given twice keeps the shift of the failed call. -/
theorem C61_violated : ∃ e w', basisPointValue floatCal 0 false (.list 1) (some 0) (some [0, 0]) (1 / 100) exWorld = (.error e, w') ∧
    (w'.curves 0).toRateCurve.call floatCal 1 = .ok (6 / 100) ∧ (exWorld.curves 0).toRateCurve.call floatCal 1 = .ok (5 / 100) := by
  have hx : pvOn floatCal 0 false (some 0) (.list 1) exWorld = (.ok _, exWorld) := C54_flows (exPays rfl)
    (df := fun t => Real.exp (-(5 / 100 * (t - 0)))) fun q _ => exDf 0 q.1
  have h5 : (exWorld.curves 0).toRateCurve.call floatCal 1 = .ok (5 / 100) :=
    flatZero_call floatCal (o? := none) (dc := .default) (tenor := none) trivial goodDayCount_real 0 (5 / 100) 1
  refine ⟨_, _, C61_spread_violated (l := [0]) (a := 0) (m := []) hx exBump (.inl (by simp)), ?_, h5⟩
  rw [C61_parallel (by simp) rfl h5]
  norm_num

/-- C103 (refuted): shifting a curve with two dates gives one delta if the discount curve has one date. -/
theorem C103_violated : ∃ (w : World ℝ FloatPeriod) (x : ℝ), (w.curves 1).base.domain = [0, 1] ∧
    bucketedDelta floatCal 0 false (.list 1) (some 0) (some [1]) none (1 / 100) w = (.ok [x], w) := by
  set w : World ℝ FloatPeriod := exWorld.setCurve 1
    ⟨⟨dateCurveOf floatCal.dayCount 0 none .default none linearScheme [(0, 0), (1, 0)], none, none⟩, .ir .zero⟩
  have hpv : ∀ w' : World ℝ FloatPeriod, w'.lists = exWorld.lists → w'.curves 0 = exWorld.curves 0 →
      pvOn floatCal 0 false (some 0) (.list 1) w' = (.ok _, w') := fun w' h1 h2 => C54_flows (exPays h1)
    (df := fun t => Real.exp (-(5 / 100 * (t - 0)))) fun q _ => by rw [h2]; exact exDf 0 q.1
  refine ⟨w, _, rfl, C63_buckets (G := [0]) goodDayCount_real rfl (by simp) (by simp) (by norm_num)
    ⟨by simp, fun a ha => ?_, fun _ _ => trivial⟩ (hpv w rfl rfl) (V := fun _ => _) fun f _ => hpv _ rfl ?_⟩
  · simp only [Option.getD_some, List.mem_singleton] at ha
    subst ha; rfl
  · rfl

/-- Non-vacuity of C62 and C63: the grid 0, 2, 4 and flows between its dates. -/
example : ∃ ds z, bucketedDelta floatCal 0 false (.list 1) (some 0) none (some [0, 2, 4]) (1 / 100) exWorld = (.ok ds, exWorld) ∧
    basisPointValue floatCal 0 false (.list 1) (some 0) none (1 / 100) exWorld = (.ok z, exWorld) ∧ ds.sum < z := by
  obtain ⟨ds, z, h1, h2, -, h3⟩ := C63_zero (same := false) (p := .list 1) (w := exWorld) (disc := 0) (shift := 1 / 100)
    (c := (flatZero floatCal none .default none 0 (5 / 100)).toRateCurve) goodDayCount_real goodDayCount_real rfl
    (fun s t => rfl) rfl (o := 0) rfl (exPays rfl) (fun φ => exPays rfl)
    (df := fun t => Real.exp (-(5 / 100 * (t - 0)))) (fun q _ => exDf 0 q.1) (by simp) (grid := some [0, 2, 4]) (G := [0, 2, 4]) rfl
    (by simp) (by norm_num) (by norm_num)
  refine ⟨ds, z, h1, h2, h3 ⟨(1, 1), by simp, by norm_num, ?_⟩⟩
  exact hats_between goodDayCount_real (by norm_num) (i := 0) (by simp) (by norm_num) (by norm_num)

/-! ### The hypotheses can be met: each theorem applied -/

/-- The value of the flows of the example. -/
noncomputable def exFlowsValue : ℝ := ([((1 : ℝ), (1 : ℝ)), (3, 2)].map fun q => Real.exp (-(5 / 100 * (q.1 - 0))) * q.2).sum

theorem exValued (w' : World ℝ FloatPeriod) (h1 : w'.lists = exWorld.lists) (h2 : w'.curves 0 = exWorld.curves 0) :
    pvOn floatCal 0 false (some 0) (.list 1) w' = (.ok exFlowsValue, w') :=
  C54_flows (exPays h1) (df := fun t => Real.exp (-(5 / 100 * (t - 0)))) fun q _ => by rw [h2]; exact exDf 0 q.1

theorem exSpreads (φ : ℝ → ℝ) : pvOn floatCal 0 false (some 0) (.list 1) (exWorld.spreadBy [0] φ) =
    (.ok ([((1 : ℝ), (1 : ℝ)), (3, 2)].map fun q => Real.exp (-(5 / 100 * (q.1 - 0))) * Real.exp (-(φ q.1 * (q.1 - 0))) * q.2).sum, exWorld.spreadBy [0] φ) :=
  zero_spread_pv (c := (flatZero floatCal none .default none 0 (5 / 100)).toRateCurve) (df := fun t => Real.exp (-(5 / 100 * (t - 0))))
    goodDayCount_real rfl (fun s t => rfl) rfl rfl (fun φ => exPays rfl) (fun q _ => exDf 0 q.1) φ

example := C61_parallel (cal := floatCal) (w := exWorld) (l := [0]) (a := 0) (by simp) rfl (x := 1)
  (flatZero_call floatCal (o? := none) (dc := .default) (tenor := none) trivial goodDayCount_real 0 (5 / 100) 1) (1 / 100)
example := C61_spread_violated (shift := 1 / 100) (l := [0]) (a := 0) (m := []) (exValued exWorld rfl rfl) exBump (.inl (by simp))
example := C61_zero (w := exWorld) (disc := 0) (c := (flatZero floatCal none .default none 0 (5 / 100)).toRateCurve) (shift := 1 / 100) (same := false)
  goodDayCount_real rfl (fun s t => rfl) rfl (by simp [flatZero, irOf, dateCurveOf, DateCurve.origin]) (exPays rfl) (exPays rfl)
  (df := fun t => Real.exp (-(5 / 100 * (t - 0)))) (fun q _ => exDf 0 q.1) (by norm_num)
example := C62_triangles (cal := floatCal) goodDayCount_real (1 / 100) (grid := [0, 2, 4]) (by simp) (by norm_num)
example := C62_partition (D := ℝ) goodDayCount_real (1 / 100) (grid := [0, 2, 4]) (by simp) (by norm_num)
example := C62_bounds (D := ℝ) goodDayCount_real (shift := 1 / 100) (by norm_num) (grid := [0, 2, 4]) (List.head_mem (by simp [hats]))
example := C62_node (D := ℝ) goodDayCount_real (1 / 100) (grid := [0, 2, 4]) (by norm_num) (i := 0) (f := hat _ _ _ _ _) rfl (j := 1) (by simp)
example := C63_buckets (cal := floatCal) (w := exWorld) (disc := 0) (same := false) (p := .list 1) (v := some 0) (grid := some [0, 2, 4])
  (G := [0, 2, 4]) (shift := 1 / 100) (delta := none) goodDayCount_real rfl (by simp) (by norm_num)
  (by norm_num) ⟨exBump.nodup, exBump.free, fun _ _ => trivial⟩ (exValued exWorld rfl rfl) (fun f _ => exSpreads f)

/-- The flows of the example, moved by a spread of the curve. -/
noncomputable def exMoved (t z : ℝ) : ℝ := (if t = 1 then 1 else 2) * Real.exp (-(5 / 100 * t)) * Real.exp (-(z * t))

example : True := by
  obtain ⟨ds, h, -⟩ := C63_on_grid (cal := floatCal) (w := exWorld) (disc := 0) (same := false) (p := .list 1) (v := some 0) (grid := some [1, 2, 3])
    (G := [1, 2, 3]) (shift := 1 / 100) (delta := none) goodDayCount_real rfl (by simp) (by norm_num) (by norm_num) exBump (T := [1, 3]) (by simp)
    (F := exMoved)
    (by
      refine (exValued exWorld rfl rfl).trans ?_
      norm_num [exMoved, exFlowsValue]
      ring)
    (by
      intro φ
      refine (exSpreads φ).trans ?_
      norm_num [exMoved]
      ring)
  have := C103_given (by simp) h
  trivial

/-- A second curve that does not discount: shifting it does not move the value. -/
noncomputable def exIdle : World ℝ FloatPeriod := exWorld.setCurve 1
  ⟨⟨dateCurveOf floatCal.dayCount 0 none .default none linearScheme [(0, 0), (1, 0)], none, none⟩, .ir .zero⟩

theorem exIdle_bump : Bumpable [1] exIdle := by
  refine ⟨by simp, fun a ha => ?_, fun a ha => ?_⟩ <;> rw [List.mem_singleton] at ha <;> subst ha
  · rfl
  · simp [exIdle, World.setCurve, dateCurveOf, DateCurve.origin]

example : True := by
  obtain ⟨ds, h, -⟩ := C63_affine (cal := floatCal) (w := exIdle) (disc := 0) (delta := some [1]) (grid := none) (G := [0]) (shift := 1 / 100) goodDayCount_real
    rfl (by simp) (by simp) (by norm_num) exIdle_bump (L := 0) (exValued exIdle rfl rfl)
    (fun φ => by rw [LinearMap.zero_apply, add_zero]; exact exValued _ rfl rfl)
  have := C103_default_violated (.inl rfl) h
  trivial
example := C61_no_shift (delta := some [1]) exIdle_bump (exValued exIdle rfl rfl) (exValued _ rfl rfl)

end Dcf
