import Verif.Props.CurveArith
import Verif.Model.Containers

/-! # Lists and tuples as domains: C132 -/

set_option linter.unusedSectionVars false
set_option linter.unusedSimpArgs false
set_option linter.unusedVariables false

namespace Dcf

open Spec

/-- C132: plain curves with points can be added, whatever containers the points came in. -/
theorem C132_curve {b₁ b₂ : Box} {xs₁ ys₁ xs₂ ys₂ : List ℝ} {i₁ i₂ : Option FuncSpec} {f g : Boxed Curve} (h₁ : xs₁ ≠ [])
    (h₂ : xs₂ ≠ []) (hf : Curve.newBoxed b₁ xs₁ ys₁ i₁ = .ok f) (hg : Curve.newBoxed b₂ xs₂ ys₂ i₂ = .ok g)
    (op : ℝ → ℝ → ℝ) : Boxed.obj <$> Curve.binopBoxed op f g = Curve.binop op f.obj g.obj := by
  simp only [Curve.newBoxed, Py.bind_eq_ok] at hf hg
  obtain ⟨c, -, hf⟩ := hf
  obtain ⟨d, -, hg⟩ := hg
  rw [← Except.ok.inj hf, ← Except.ok.inj hg]
  simp only [Curve.binopBoxed, h₁, h₂, if_false, Box.plus, if_true, Py.ok_bind]
  cases Curve.binop op c d <;> rfl

/-- C132: a curve made by arithmetic, even of curves without points in tuples, can be added to curves with points. -/
theorem C132_chain {f g s h : Boxed Curve} {op : ℝ → ℝ → ℝ} (hs : Curve.binopBoxed op f g = .ok s) {b : Box} {xs ys : List ℝ}
    {i : Option FuncSpec} (hx : xs ≠ []) (hh : Curve.newBoxed b xs ys i = .ok h) (op' : ℝ → ℝ → ℝ) :
    Boxed.obj <$> Curve.binopBoxed op' s h = Curve.binop op' s.obj h.obj ∧
      Boxed.obj <$> Curve.binopBoxed op' h s = Curve.binop op' h.obj s.obj := by
  simp only [Curve.binopBoxed, Py.bind_eq_ok] at hs
  obtain ⟨-, -, c, -, hs⟩ := hs
  simp only [Curve.newBoxed, Py.bind_eq_ok] at hh
  obtain ⟨d, -, hh⟩ := hh
  rw [← Except.ok.inj hs, ← Except.ok.inj hh]
  simp only [Curve.binopBoxed, hx, if_false, Box.plus, if_true, Py.ok_bind]
  constructor
  · cases Curve.binop op' c d <;> rfl
  · cases Curve.binop op' d c <;> rfl

/-- The sum of two curves without points meets the hypotheses. -/
example : ∃ f s h, Curve.newBoxed .tuple [] [] none = .ok f ∧ Curve.binopBoxed (· + ·) f f = .ok s ∧
    Curve.newBoxed .tuple [1] [2] none = .ok h := by
  have h2 := Curve_new_eq none (pts := [((1 : ℝ), (2 : ℝ))]) (by simp) (by simp)
  simp only [List.map_cons, List.map_nil] at h2
  simp [Curve.newBoxed, Curve.binopBoxed, Curve.binop, Box.plus, h2, Curve.new, fitFunc, sortPairs, linearScheme, Func.new, Interp.new, sortedSet, pyMap]

/-- C132 (refuted): the curve without arguments can not be added to a curve with points. -/
theorem C132_empty_violated {xs ys : List ℝ} {i : Option FuncSpec} {g : Boxed Curve} (h : xs ≠ []) {b : Box}
    (hg : Curve.newBoxed b xs ys i = .ok g) (op : ℝ → ℝ → ℝ) :
    ∃ f, Curve.newBoxed .tuple [] [] none = .ok f ∧ Curve.binopBoxed op f g = .error .type ∧
      Curve.binopBoxed op g f = .error .type := by
  have hnew : ∃ c, Curve.new [] [] none = .ok c := by
    simp [Curve.new, fitFunc, sortPairs, linearScheme, Func.new, Interp.new]
  obtain ⟨c, hc⟩ := hnew
  refine ⟨⟨c, .tuple⟩, by simp [Curve.newBoxed, hc], ?_, ?_⟩ <;>
  · simp only [Curve.newBoxed, Py.bind_eq_ok] at hg
    obtain ⟨d, -, hg⟩ := hg
    rw [← Except.ok.inj hg]
    simp [Curve.binopBoxed, h, Box.plus]

section
variable {D P : Type} [LinearOrder D] [AddCommGroup D] {cal : Cal D P}

theorem originDiff_self {f g : DateCurve D} (h : f.origin = g.origin) (ho : f.origin.isSome) : originDiff f g = .ok 0 := by
  obtain ⟨o, ho⟩ := Option.isSome_iff_exists.1 ho
  simp [originDiff, ← h, ho, pyDate]

/-- C132: date curves with the same origin and the same container are added as if there were lists only. -/
theorem C132_date {f g : Boxed (DateCurve D)} (h : f.obj.origin = g.obj.origin) (ho : f.obj.origin.isSome) (hb : f.box = g.box)
    (op : ℝ → ℝ → ℝ) : Boxed.obj <$> DateCurve.binopBoxed cal op f g = DateCurve.binop cal op f.obj g.obj := by
  simp only [DateCurve.binopBoxed, originDiff_self h ho, Py.ok_bind, DateCurve.shiftedBoxed, ne_eq, not_true_eq_false, if_false]
  cases hs : g.obj.shifted cal 0 with
  | error e => simp [DateCurve.binop, originDiff_self h ho, hs]
  | ok g' =>
    simp only [Py.ok_bind, hb, Box.plus, if_true]
    cases DateCurve.binop cal op f.obj g.obj <;> rfl

/-- C132: with lists as domains the sum is defined for different origins too. -/
theorem C132_lists {f g : Boxed (DateCurve D)} (hf : f.box = .list) (hg : g.box = .list) (op : ℝ → ℝ → ℝ) :
    Boxed.obj <$> DateCurve.binopBoxed cal op f g = DateCurve.binop cal op f.obj g.obj := by
  simp only [DateCurve.binopBoxed, DateCurve.shiftedBoxed]
  cases hd : originDiff f.obj g.obj with
  | error e => simp [DateCurve.binop, hd]
  | ok δ =>
    simp only [Py.ok_bind]
    cases hs : g.obj.shifted cal δ with
    | error e => simp [DateCurve.binop, hd, hs]
    | ok g' =>
      simp only [Py.ok_bind, hf, hg, Box.plus, ite_self, if_true]
      cases DateCurve.binop cal op f.obj g.obj <;> rfl

/-- C132 (refuted): one curve given by lists, the other by tuples, is a `TypeError`. -/
theorem C132_mixed_violated {f g : Boxed (DateCurve D)} (h : f.obj.origin = g.obj.origin) (ho : f.obj.origin.isSome)
    (hb : f.box ≠ g.box) {g' : DateCurve D} (hs : g.obj.shifted cal 0 = .ok g') (op : ℝ → ℝ → ℝ) :
    DateCurve.binopBoxed cal op f g = .error .type := by
  simp only [DateCurve.binopBoxed, originDiff_self h ho, Py.ok_bind, DateCurve.shiftedBoxed, ne_eq, not_true_eq_false, if_false,
    hs, Box.plus, hb]
  rfl

/-- C132 (refuted): two curves given by tuples with different origins. -/
theorem C132_origins_violated {f g : Boxed (DateCurve D)} (hf : f.box = .tuple) {o o' : D} (hof : f.obj.origin = some o)
    (hog : g.obj.origin = some o') (hne : o ≠ o') {g' : DateCurve D} (hs : g.obj.shifted cal (o - o') = .ok g') (op : ℝ → ℝ → ℝ) :
    DateCurve.binopBoxed cal op f g = .error .type := by
  have hd : originDiff f.obj g.obj = .ok (o - o') := by simp [originDiff, hof, hog, pyDate]
  have h0 : o - o' ≠ 0 := sub_ne_zero.2 hne
  simp [DateCurve.binopBoxed, hd, DateCurve.shiftedBoxed, hs, h0, hf, Box.plus]

/-- C132 (refuted): the sum of two curves given by tuples works before, but no longer after a point was set on one of them. -/
theorem C132_setitem_violated {f f' g : Boxed (DateCurve D)} (hf : f.box = .tuple) (hg : g.box = .tuple) {x : D} {y : ℝ}
    (hset : DateCurve.setitemBoxed cal f x y = .ok f') (h : f'.obj.origin = g.obj.origin) (ho : f'.obj.origin.isSome)
    {g' : DateCurve D} (hs : g.obj.shifted cal 0 = .ok g') (op : ℝ → ℝ → ℝ) :
    DateCurve.binopBoxed cal op f' g = .error .type := by
  simp only [DateCurve.setitemBoxed, Py.bind_eq_ok] at hset
  obtain ⟨c, -, hset⟩ := hset
  have hb : f'.box = .list := by rw [← Except.ok.inj hset]
  exact C132_mixed_violated h ho (by simp [hb, hg]) hs op

/-- C132 (refuted): two curves given by tuples have a sum, but a third curve given by a tuple cannot be added to it. -/
theorem C132_chain_violated {f g h s : Boxed (DateCurve D)} (hh : h.box = .tuple) {op : ℝ → ℝ → ℝ}
    (hs : DateCurve.binopBoxed cal op f g = .ok s) (ho : s.obj.origin = h.obj.origin) (hi : s.obj.origin.isSome)
    {h' : DateCurve D} (hsh : h.obj.shifted cal 0 = .ok h') (op' : ℝ → ℝ → ℝ) :
    DateCurve.binopBoxed cal op' s h = .error .type := by
  simp only [DateCurve.binopBoxed, Py.bind_eq_ok] at hs
  obtain ⟨_, _, _, _, _, _, c, -, e⟩ := hs
  have hb : s.box = .list := by rw [← Except.ok.inj e]
  exact C132_mixed_violated ho hi (by simp [hb, hh]) hsh op'

/-- C132: date curves built from points keep the container they were given; with a common origin their sum is defined
exactly if both were given by the same kind of container. -/
theorem C132_built {b₁ b₂ : Box} {xs₁ xs₂ : List D} {ys₁ ys₂ : List ℝ} {i₁ i₂ : Option FuncSpec} {o₁ o₂ : Option D}
    {dc₁ dc₂ : DayCountArg D} {d₁ d₂ : FuncSpec} {f g : Boxed (DateCurve D)}
    (hf : DateCurve.newBoxed cal b₁ xs₁ ys₁ i₁ o₁ dc₁ d₁ = .ok f) (hg : DateCurve.newBoxed cal b₂ xs₂ ys₂ i₂ o₂ dc₂ d₂ = .ok g)
    (h : f.obj.origin = g.obj.origin) (ho : f.obj.origin.isSome) {op : ℝ → ℝ → ℝ} {s : DateCurve D}
    (hs : DateCurve.binop cal op f.obj g.obj = .ok s) :
    DateCurve.new cal xs₁ ys₁ i₁ o₁ dc₁ d₁ = .ok f.obj ∧
      ((∃ b, DateCurve.binopBoxed cal op f g = .ok ⟨s, b⟩) ↔ b₁ = b₂) := by
  simp only [DateCurve.newBoxed, Py.bind_eq_ok] at hf hg
  obtain ⟨c, hc, hf⟩ := hf
  obtain ⟨d, hd, hg⟩ := hg
  obtain rfl := (Except.ok.inj hf).symm
  obtain rfl := (Except.ok.inj hg).symm
  refine ⟨hc, ?_⟩
  have hs' := hs
  simp only [DateCurve.binop, originDiff_self h ho, Py.ok_bind, Py.bind_eq_ok] at hs'
  obtain ⟨g', hg', -⟩ := hs'
  constructor
  · rintro ⟨b, hb⟩
    by_contra hne
    rw [C132_mixed_violated h ho hne hg'] at hb
    simp at hb
  · rintro rfl
    have h1 := C132_date (cal := cal) h ho rfl op (f := ⟨c, b₁⟩) (g := ⟨d, b₁⟩)
    cases hr : DateCurve.binopBoxed cal op ⟨c, b₁⟩ ⟨d, b₁⟩ with
    | error e => rw [hr, hs] at h1; simp at h1
    | ok r =>
      rw [hr, hs] at h1
      have : r.obj = s := Except.ok.inj h1
      exact ⟨r.box, by rw [← this]⟩

end

/-! ### Examples -/

/-- Curves to which the theorems apply: one point at date `0`. -/
theorem exBox (b : Box) : ∃ c : DateCurve ℤ, DateCurve.newBoxed dayCal b [0] [2] none none .default linearScheme = .ok ⟨c, b⟩ ∧
    c.origin = some 0 ∧ ∃ c', c.shifted dayCal 0 = .ok c' := by
  have hn : (([(0, 2)] : List (ℤ × ℝ)).map Prod.fst).Nodup := by simp
  have hlog : (Option.getD none linearScheme).isLog = false := by simp [linearScheme, FuncSpec.isLog, Kind.isLog]
  have hnz : (Option.getD none linearScheme).needsNonzero = false := by simp [linearScheme, FuncSpec.needsNonzero, Kind.isRate]
  have hnew := DateCurve_new_eq dayCal (pts := [((0 : ℤ), (2 : ℝ))]) none none .default linearScheme (o := 0) rfl trivial
    (timePts_nodup goodDayCount_int 0 hn) (fun h => absurd (hlog.symm.trans h) (by simp))
  have hv := DateCurve_values dayCal (c := dateCurveOf dayCal.dayCount 0 none .default none linearScheme [((0 : ℤ), (2 : ℝ))])
    (pts := [((0 : ℤ), (2 : ℝ))]) (o := 0) rfl trivial goodDayCount_int rfl hn rfl
    (fun h => absurd (hlog.symm.trans h) (by simp)) (fun h => absurd (hnz.symm.trans h) (by simp)) (x := 0) (y := 2) (by simp)
  refine ⟨_, by simp only [DateCurve.newBoxed]; rw [show ([0] : List ℤ) = [((0 : ℤ), (2 : ℝ))].map Prod.fst from rfl,
    show ([2] : List ℝ) = [((0 : ℤ), (2 : ℝ))].map Prod.snd from rfl, hnew]; rfl, rfl, ?_⟩
  refine ⟨dateCurveOf (DayCountArg.fn dayCal .default) 0 none .default none linearScheme [((0 : ℤ), (2 : ℝ))], ?_⟩
  · simp only [DateCurve.shifted, ne_eq, not_true_eq_false, if_false, DateCurve.resample]
    have hdom : (dateCurveOf (DayCountArg.fn dayCal .default) 0 none .default none linearScheme [((0 : ℤ), (2 : ℝ))]).domain = [0] := rfl
    rw [hdom]
    simp only [pyMap, DateCurve.num]
    erw [hv]
    exact hnew

example : ∃ f g : Boxed (DateCurve ℤ), DateCurve.newBoxed dayCal .list [0] [2] none none .default linearScheme = .ok f ∧
    DateCurve.newBoxed dayCal .tuple [0] [2] none none .default linearScheme = .ok g ∧
    DateCurve.binopBoxed dayCal (· + ·) f g = .error .type := by
  obtain ⟨c, h1, h2, c', h3⟩ := exBox .list
  obtain ⟨d, k1, k2, d', k3⟩ := exBox .tuple
  exact ⟨_, _, h1, k1, C132_mixed_violated (by rw [h2, k2]) (by rw [h2]; rfl) (by simp) k3 _⟩

/-! ### The hypotheses can be met: each theorem applied -/

theorem exBoxed (b : Box) : ∃ c, Curve.newBoxed b [1] [2] none = .ok c := by
  have h := Curve_new_eq none (pts := [((1 : ℝ), (2 : ℝ))]) (by simp) (by simp)
  simp only [List.map_cons, List.map_nil] at h
  exact ⟨_, by simp only [Curve.newBoxed]; rw [h]; rfl⟩

example := C132_curve (xs₁ := [1]) (xs₂ := [1]) (by simp) (by simp) (exBoxed .list).choose_spec (exBoxed .tuple).choose_spec (· + ·)
example : True := by
  obtain ⟨f, s, h, -, h2, h3⟩ : ∃ f s h, Curve.newBoxed .tuple [] [] none = .ok f ∧ Curve.binopBoxed (· + ·) f f = .ok s ∧
      Curve.newBoxed .tuple [1] [2] none = .ok h := by
    have h2 := Curve_new_eq none (pts := [((1 : ℝ), (2 : ℝ))]) (by simp) (by simp)
    simp only [List.map_cons, List.map_nil] at h2
    simp [Curve.newBoxed, Curve.binopBoxed, Curve.binop, Box.plus, h2, Curve.new, fitFunc, sortPairs, linearScheme, Func.new, Interp.new, sortedSet, pyMap]
  have := C132_chain h2 (by simp) h3 (· * ·)
  trivial
example := C132_empty_violated (xs := [1]) (by simp) (exBoxed .list).choose_spec (· + ·)

example (b : Box) : True := by
  obtain ⟨c, h1, h2, c', h3⟩ := exBox b
  have := C132_date (cal := dayCal) (f := ⟨c, b⟩) (g := ⟨c, b⟩) rfl (by rw [h2]; rfl) rfl (· + ·)
  trivial
example : True := by
  obtain ⟨c, h1, h2, c', h3⟩ := exBox .list
  have := C132_lists (cal := dayCal) (f := ⟨c, .list⟩) (g := ⟨c, .list⟩) rfl rfl (· + ·)
  trivial


end Dcf
