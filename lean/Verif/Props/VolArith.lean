import Verif.Props.VolPeriods
import Verif.Props.CreditArith
import Verif.Model.VolArith

/-! # Arithmetic of volatility curves: C143 -/

set_option linter.unusedSectionVars false
set_option linter.unusedSimpArgs false
set_option linter.unusedVariables false

namespace Dcf

open Spec

section
variable {D P : Type} [LinearOrder D] {cal : Cal D P} {before after ten : D → D}

/-- A calendar of dates: a day and ten years can be added, a day can be subtracted, no date counts as false. -/
structure VolCalendar (cal : Cal D P) (before after ten : D → D) : Prop where
  good : GoodDayCount cal.dayCount
  prev : ∀ x, cal.sub x cal.oneDay = .ok (before x) ∧ before x < x
  next : ∀ x, cal.add x cal.oneDay = .ok (after x) ∧ x < after x
  later : ∀ x, cal.add x cal.tenYears = .ok (ten x) ∧ x < ten x
  truthy : ∀ x, cal.falsy x = false

/-- The dates of a curve cast to a volatility class. -/
def VolDate (before after ten : D → D) (cls : VolClass) (o : D) (l : List D) (x : D) : Prop :=
  match cls with
  | .instantaneous => ∃ y, (y ∈ l ∨ y = o) ∧ (x = before y ∨ x = y ∨ x = after y)
  | .terminal => x ∈ l ∨ x = after o ∨ ∃ m ∈ l, (∀ y ∈ l, y ≤ m) ∧ x = ten m

theorem VolDate.of_mem {cls : VolClass} {o : D} {l : List D} {x : D} (h : x ∈ l) : VolDate before after ten cls o l x := by
  cases cls with
  | instantaneous => exact ⟨x, .inl h, .inr (.inl rfl)⟩
  | terminal => exact .inl h

theorem vol_storage {c : VolCurve D P} (cls : VolClass) (hc : c.cls = cls) (scipy : Bool) (limit : ℕ) (x : D) :
    cls.storage cal scipy (limit + 1) c x = c.call cal x := by
  subst hc
  simp only [VolClass.storage, VolCurve.instantaneousVol, VolCurve.terminalVol]
  rcases h : c.cls with _ | _ <;> simp [VolCurve.terminalVolT]

theorem vol_new (hτ : GoodDayCount cal.dayCount) {ys : List D} (hy : ys.Nodup) {o : D} {o? : Option D} (ho : o?.or ys.head? = some o)
    (cls : VolClass) (floor : Option ℝ) (w : D → ℝ) (t : Option P) :
    VolCurve.new cal cls floor ys (ys.map w) none o? .default t =
      .ok (volOf cal o o? .default none cls floor t (ys.map fun x => (x, w x))) := by
  have hfst : (ys.map fun x => (x, w x)).map Prod.fst = ys := graph_fst _ _
  have := VolCurve_new_eq (cal := cal) (pts := ys.map fun x => (x, w x)) (i := none) (o? := o?) (dc := .default) (o := o) (cls := cls)
    (floor := floor) (tenor := t) (by rw [hfst]; exact hy) (by simp [VolClass.dflt, linearScheme, FuncSpec.isLog, Kind.isLog])
    (by rw [hfst]; exact ho) trivial hτ
  rwa [hfst, graph_snd] at this

/-- A volatility curve cast to its own class has its values on the grid with the dates added. -/
theorem vol_cast_own (hcal : VolCalendar cal before after ten) {c : VolCurve D P} {w : D → ℝ} (hw : ∀ x, c.call cal x = .ok (w x))
    {o : D} (ho : c.base.origin = some o) (hdc : c.base.dc = .default) (hne : c.base.domain ≠ []) (floor : Option ℝ) (scipy : Bool)
    (limit : ℕ) (t : Option P) :
    ∃ ys : List D, VolCurve.cast cal c.cls floor scipy (limit + 1) c none none .default t =
        .ok (volOf cal o (some o) .default none c.cls floor t (ys.map fun x => (x, w x))) ∧ ys.Pairwise (· < ·) ∧
      ∀ x, x ∈ ys ↔ VolDate before after ten c.cls o c.base.domain x := by
  have hor : cal.or (some o) c.base.origin? = some o := or_origin fun h => by simp [hcal.truthy] at h
  have hdcd : (DayCountArg.default : DayCountArg D).or c.base.dc.kwarg = .default := by rw [hdc]; rfl
  have hst : ∀ ys : List D, pyMap (c.cls.storage cal scipy (limit + 1) c) ys = .ok (ys.map w) := fun ys =>
    pyMap_ok fun y _ => by rw [vol_storage _ rfl]; exact hw y
  obtain ⟨m, hm, hmax⟩ := exists_max hne
  simp only [VolCurve.cast, ho, Option.none_or, pyDate, Py.ok_bind, hor, hdcd, hst]
  rcases hcls : c.cls with _ | _
  · set all := (c.base.domain ++ [o]).map fun x => [before x, x, after x] with hall
    have hmap : pyMap (fun d => do
        let a ← cal.sub d cal.oneDay
        let b ← cal.add d cal.oneDay
        .ok [a, d, b]) (c.base.domain ++ [o]) = .ok all :=
      pyMap_ok (g := fun x => [before x, x, after x]) fun x _ => by rw [(hcal.prev x).1, Py.ok_bind, (hcal.next x).1, Py.ok_bind]
    have hst' := hst (sortedSet all.flatten)
    rw [hcls] at hst'
    refine ⟨sortedSet all.flatten, ?_, sortedSet_strict _, fun x => ?_⟩
    · simp only [hmap, Py.ok_bind, hst']
      exact vol_new hcal.good ((sortedSet_strict _).imp fun h => h.ne) rfl _ _ _ _
    · rw [sortedSet_mem, List.mem_flatten]
      simp only [VolDate, hall, List.mem_map, List.mem_append, List.mem_singleton]
      constructor
      · rintro ⟨_, ⟨y, hy, rfl⟩, hx⟩
        exact ⟨y, hy, by simpa using hx⟩
      · rintro ⟨y, hy, hx⟩
        exact ⟨_, ⟨y, hy, rfl⟩, by simpa using hx⟩
  · have hst' := hst (sortedSet (c.base.domain ++ [after o, ten m]))
    rw [hcls] at hst'
    refine ⟨sortedSet (c.base.domain ++ [after o, ten m]), ?_, sortedSet_strict _, fun x => ?_⟩
    · simp only [(hcal.next o).1, (hcal.later m).1, maxDate_eq hm hmax, Py.ok_bind, hst']
      exact vol_new hcal.good ((sortedSet_strict _).imp fun h => h.ne) rfl _ _ _ _
    · rw [sortedSet_mem]
      simp only [VolDate, List.mem_append, List.mem_cons, List.not_mem_nil, or_false]
      refine or_congr_right (or_congr_right ⟨fun e => ⟨m, hm, hmax, e⟩, ?_⟩)
      rintro ⟨m', hm', hmax', rfl⟩
      rw [le_antisymm (hmax' m hm) (hmax m' hm')]

end

section
variable {D P : Type} [LinearOrder D] [AddCommGroup D] {cal : Cal D P} {before after ten : D → D}

/-- Two volatility curves of one class with the same origin, built from points with default settings. -/
structure VolOperands (cal : Cal D P) (before after ten : D → D) (cls : VolClass) (floor : Option ℝ) (A B : List (D × ℝ)) (o : D)
    (oa ob : Option D) (ta tb : Option P) (f g : VolCurve D P) : Prop where
  calendar : VolCalendar cal before after ten
  left : (A.map Prod.fst).Nodup
  right : (B.map Prod.fst).Nodup
  leftNe : A ≠ []
  rightNe : B ≠ []
  leftOrigin : oa.or (A.map Prod.fst).head? = some o
  rightOrigin : ob.or (B.map Prod.fst).head? = some o
  newLeft : VolCurve.new cal cls floor (A.map Prod.fst) (A.map Prod.snd) none oa .default ta = .ok f
  newRight : VolCurve.new cal cls floor (B.map Prod.fst) (B.map Prod.snd) none ob .default tb = .ok g

/-- The dates on which the sum of `f` and `g` is computed. -/
def SumDate (before after ten : D → D) (cls : VolClass) (o : D) (f g : VolCurve D P) (x : D) : Prop :=
  x ∈ f.base.domain ∨ VolDate before after ten cls o g.base.domain x

/-- `S` quotes on the dates of both curves `op` of what they quote, starts at the first date, and keeps class, floor and tenor. -/
structure VolResult (cal : Cal D P) (before after ten : D → D) (op : ℝ → ℝ → ℝ) (o m : D) (f g S : VolCurve D P) : Prop where
  grid : ∀ x, SumDate before after ten f.cls o f g x → ∃ u v, f.call cal x = .ok u ∧ g.call cal x = .ok v ∧ S.call cal x = .ok (op u v)
  first : SumDate before after ten f.cls o f g m ∧ ∀ x, SumDate before after ten f.cls o f g x → m ≤ x
  origin : S.base.origin = some m
  sorted : S.base.domain.Pairwise (· < ·)
  domain : ∃ xs : List D, (∀ x, x ∈ xs ↔ SumDate before after ten f.cls o f g x) ∧
    ∀ x, x ∈ S.base.domain ↔ VolDate before after ten f.cls m xs x
  cls : S.cls = f.cls
  floor : S.floor = f.floor
  tenor : S.tenor = f.tenor
  dayCount : S.base.dc = .default

variable {cls : VolClass} {floor : Option ℝ} {A B : List (D × ℝ)} {o : D} {oa ob : Option D} {ta tb : Option P} {f g : VolCurve D P}

theorem VolOperands.eq (h : VolOperands cal before after ten cls floor A B o oa ob ta tb f g) :
    f = volOf cal o oa .default none cls floor ta A ∧ g = volOf cal o ob .default none cls floor tb B := by
  have hτ : GoodDayCount (DayCountArg.fn cal .default) := h.calendar.good
  have h1 := h.newLeft
  have h2 := h.newRight
  have hl : ∀ {L : List (D × ℝ)}, (Option.getD none cls.dflt).isLog → ∀ p ∈ L, 0 < p.2 := by
    simp [VolClass.dflt, linearScheme, FuncSpec.isLog, Kind.isLog]
  rw [VolCurve_new_eq (cal := cal) h.left hl h.leftOrigin (dc := .default) trivial hτ] at h1
  rw [VolCurve_new_eq (cal := cal) h.right hl h.rightOrigin (dc := .default) trivial hτ] at h2
  exact ⟨(Except.ok.inj h1).symm, (Except.ok.inj h2).symm⟩

/-- What arithmetic gives. -/
theorem vol_binop (h : VolOperands cal before after ten cls floor A B o oa ob ta tb f g) (op : ℝ → ℝ → ℝ) (scipy : Bool) (limit : ℕ) :
    ∃ (xs ys : List D) (m : D), xs.Pairwise (· < ·) ∧ ys.Pairwise (· < ·) ∧ xs.head? = some m ∧
      (∀ x, x ∈ xs ↔ x ∈ A.map Prod.fst ∨ VolDate before after ten cls o (B.map Prod.fst) x) ∧
      (∀ x, x ∈ ys ↔ VolDate before after ten cls m xs x) ∧
      f.binop cal op scipy (limit + 1) g = .ok (volOf cal m (some m) .default none cls floor ta (ys.map fun x => (x,
        linVal cal.dayCount m (xs.map fun x => (x, op (linVal cal.dayCount o A x) (linVal cal.dayCount o B x))) x))) := by
  obtain ⟨rfl, rfl⟩ := h.eq
  have hτ := h.calendar.good
  have hu := (volOf_answers (cal := cal) (dc := .default) (cls := cls) (floor := floor) (tenor := ta) h.left h.leftNe h.leftOrigin trivial hτ).1
  have hv := (volOf_answers (cal := cal) (dc := .default) (cls := cls) (floor := floor) (tenor := tb) h.right h.rightNe h.rightOrigin trivial hτ).1
  set u := linVal cal.dayCount o A with hud
  set v := linVal cal.dayCount o B with hvd
  obtain ⟨gs, hcast, hgs, hgm⟩ := vol_cast_own h.calendar hv.call h.rightOrigin rfl (by simpa [volOf, dateCurveOf] using h.rightNe) floor scipy limit none
  have hgm' : ∀ x, x ∈ gs ↔ VolDate before after ten cls o (B.map Prod.fst) x := hgm
  have hgn : gs.Nodup := hgs.imp fun h => h.ne
  have hBg : ∀ x ∈ B.map Prod.fst, x ∈ gs := fun x hx => (hgm' x).2 (.of_mem hx)
  have hgne : gs ≠ [] := List.ne_nil_of_mem (hBg _ (List.head_mem (by simpa using h.rightNe)))
  have hfst : (gs.map fun x => (x, v x)).map Prod.fst = gs := graph_fst _ _
  -- on the finer grid the second curve is unchanged
  have hgv : ∀ x, linVal cal.dayCount o (gs.map fun x => (x, v x)) x = v x := by
    intro x
    have := linVal_finer hτ h.right h.right h.rightNe h.rightNe hgs hBg hBg o o 1 0 x
    simpa using this
  have hg1 := (volOf_answers (cal := cal) (dc := .default) (cls := cls) (floor := floor) (tenor := (none : Option P)) (o? := some o)
    (pts := gs.map fun x => (x, v x)) (by rw [hfst]; exact hgn) (by simpa using hgne) rfl trivial hτ).1
  set g₁ : VolCurve D P := volOf cal o (some o) .default none cls floor none (gs.map fun x => (x, v x)) with hg₁
  have hg1c : ∀ x, g₁.call cal x = .ok (v x) := fun x => by rw [hg1.call]; exact congrArg _ (hgv x)
  have hoperand : (volOf cal o oa .default none cls floor ta A).operand cal scipy (limit + 1) (volOf cal o ob .default none cls floor tb B) = .ok g₁ := by
    simp only [VolCurve.operand]
    rw [show (volOf cal o oa .default none cls floor ta A).cls = cls from rfl,
      show (volOf cal o oa .default none cls floor ta A).floor = floor from rfl]
    have hcast' : VolCurve.cast cal cls floor scipy (limit + 1) (volOf cal o ob .default none cls floor tb B) none none .default none = .ok g₁ := hcast
    rw [hcast', Py.ok_bind]
    have hod : originDiff (volOf cal o oa .default none cls floor ta A).base g₁.base = .ok 0 := by
      have e1 : (volOf cal o oa .default none cls floor ta A).base.origin = some o := h.leftOrigin
      have e2 : g₁.base.origin = some o := rfl
      simp [originDiff, e1, e2, pyDate]
    rw [hod, Py.ok_bind]
    simp only [VolCurve.shifted, ne_eq, not_true_eq_false, if_false, VolCurve.castOn]
    rw [show g₁.base.domain = gs from hfst, pyMap_ok (g := v) fun y _ => by
      rw [vol_storage _ rfl]; exact hg1c y, Py.ok_bind]
    exact vol_new hτ hgn rfl cls floor v none
  set xs := sortedSet (A.map Prod.fst ++ gs) with hxs
  have hs : xs.Pairwise (· < ·) := sortedSet_strict _
  have hxn : xs.Nodup := hs.imp fun h => h.ne
  have hxne : xs ≠ [] := List.ne_nil_of_mem (sortedSet_mem.2 (List.mem_append_left _ (List.head_mem (by simpa using h.leftNe))))
  obtain ⟨m, hxm⟩ : ∃ m, xs.head? = some m := by
    obtain ⟨a, l, h⟩ := List.exists_cons_of_ne_nil hxne; exact ⟨a, by rw [h]; rfl⟩
  set z := linVal cal.dayCount m (xs.map fun x => (x, op (u x) (v x))) with hz
  have hf2 : (xs.map fun x => (x, op (u x) (v x))).map Prod.fst = xs := graph_fst _ _
  have hnw := (volOf_answers (cal := cal) (dc := .default) (cls := cls) (floor := floor) (tenor := (none : Option P)) (o? := none) (o := m)
    (pts := xs.map fun x => (x, op (u x) (v x))) (by rw [hf2]; exact hxn) (by simpa using hxne) (by rw [hf2]; exact hxm) trivial hτ).1
  set nw : VolCurve D P := volOf cal m none .default none cls floor none (xs.map fun x => (x, op (u x) (v x))) with hnwd
  obtain ⟨ys, hc2, hys, hym⟩ := vol_cast_own h.calendar hnw.call hnw.origin rfl
    (show nw.base.domain ≠ [] by rw [show nw.base.domain = xs from hf2]; exact hxne) floor scipy limit ta
  rw [show nw.base.domain = xs from hf2] at hym
  refine ⟨xs, ys, m, hs, hys, hxm, fun x => by rw [hxs, sortedSet_mem, List.mem_append, hgm'], hym, ?_⟩
  simp only [VolCurve.binop, hoperand, Py.ok_bind]
  have hd1 : (volOf cal o oa .default none cls floor ta A).base.domain = A.map Prod.fst := rfl
  have hd2 : g₁.base.domain = gs := hfst
  have hcl : (volOf cal o oa .default none cls floor ta A).cls = cls := rfl
  have hfl : (volOf cal o oa .default none cls floor ta A).floor = floor := rfl
  have hin : (volOf cal o oa .default none cls floor ta A).base.interp = none := rfl
  have hdc : (volOf cal o oa .default none cls floor ta A).base.dc = .default := rfl
  have hog : (volOf cal o oa .default none cls floor ta A).base.origin = some o := h.leftOrigin
  rw [hd1, hd2, ← hxs, pyMap_ok (g := fun x => op (u x) (v x)) (fun x _ => by
      rw [hu.call, Py.ok_bind, hg1c, Py.ok_bind]; rfl), Py.ok_bind, hcl, hin, hfl, vol_new hτ hxn (o? := none) hxm, Py.ok_bind]
  rw [← hnwd, show nw.base.domain = xs from hf2, pyMap_ok (g := z) fun x _ => hnw.call x, Py.ok_bind,
    show nw.base.interp = none from rfl, hog, hdc, vol_new hτ hxn (o? := some o) rfl, Py.ok_bind]
  exact hc2

/-- C143: sums, differences, products of volatility curves quote on the dates of both curves the sums, differences, products. -/
theorem C143_grid (h : VolOperands cal before after ten cls floor A B o oa ob ta tb f g) (op : ℝ → ℝ → ℝ) (scipy : Bool) (limit : ℕ) :
    ∃ S m, f.binop cal op scipy (limit + 1) g = .ok S ∧ VolResult cal before after ten op o m f g S := by
  obtain ⟨xs, ys, m, hxs, hys, hxm, hx, hy, hS⟩ := vol_binop h op scipy limit
  have hτ := h.calendar.good
  refine ⟨_, m, hS, ?_⟩
  obtain ⟨rfl, rfl⟩ := h.eq
  have hu := (volOf_answers (cal := cal) (dc := .default) (cls := cls) (floor := floor) (tenor := ta) h.left h.leftNe h.leftOrigin trivial hτ).1
  have hv := (volOf_answers (cal := cal) (dc := .default) (cls := cls) (floor := floor) (tenor := tb) h.right h.rightNe h.rightOrigin trivial hτ).1
  set u := linVal cal.dayCount o A with hud
  set v := linVal cal.dayCount o B with hvd
  have hxn : xs.Nodup := hxs.imp fun h => h.ne
  have hyn : ys.Nodup := hys.imp fun h => h.ne
  have hfy : ∀ w : D → ℝ, (ys.map fun x => (x, w x)).map Prod.fst = ys := fun w => graph_fst _ _
  have hmin := head_min hxs hxm
  have hxne : xs ≠ [] := List.ne_nil_of_mem hmin.1
  have hyne : ys ≠ [] := List.ne_nil_of_mem ((hy m).2 (.of_mem hmin.1))
  have hnode : ∀ {zs : List D} (k : D) (w : D → ℝ), zs.Nodup → ∀ x ∈ zs, linVal cal.dayCount k (zs.map fun x => (x, w x)) x = w x := by
    intro zs k w hz x hx
    exact flin_node (sortPairs_strict (timePts_nodup hτ k (by rw [graph_fst]; exact hz)))
      ((sortPairs_perm _).mem_iff.2 (List.mem_map.2 ⟨(x, w x), List.mem_map.2 ⟨x, hx, rfl⟩, rfl⟩))
  refine ⟨fun x hxx => ⟨_, _, hu.call x, hv.call x, ?_⟩, ⟨(hx m).1 hmin.1, fun x hxx => hmin.2 x ((hx x).2 hxx)⟩, rfl, ?_, ⟨xs, hx, ?_⟩, rfl,
    rfl, rfl, rfl⟩
  · have hxm : x ∈ xs := (hx x).2 hxx
    rw [(volOf_answers (cal := cal) (dc := .default) (cls := cls) (floor := floor) (tenor := ta) (o? := some m) (o := m)
      (pts := ys.map fun x => (x, linVal cal.dayCount m (xs.map fun x => (x, op (u x) (v x))) x)) (by rw [hfy]; exact hyn)
      (by simpa using hyne) rfl trivial hτ).1.call]
    exact congrArg _ ((hnode m _ hyn x ((hy x).2 (.of_mem hxm))).trans (hnode m _ hxn x hxm))
  · show (List.map Prod.fst _).Pairwise _
    rw [hfy]; exact hys
  · intro x
    show x ∈ List.map Prod.fst _ ↔ _
    rw [hfy]; exact hy x

/-- C143: sums and differences are pointwise at every date. -/
theorem C143_pointwise (h : VolOperands cal before after ten cls floor A B o oa ob ta tb f g) (scipy : Bool) (limit : ℕ) {S : VolCurve D P} :
    (f.binop cal (· + ·) scipy (limit + 1) g = .ok S → ∀ x, ∃ u v, f.call cal x = .ok u ∧ g.call cal x = .ok v ∧ S.call cal x = .ok (u + v)) ∧
    (f.binop cal (· - ·) scipy (limit + 1) g = .ok S → ∀ x, ∃ u v, f.call cal x = .ok u ∧ g.call cal x = .ok v ∧ S.call cal x = .ok (u - v)) := by
  have key : ∀ (op : ℝ → ℝ → ℝ) (a b : ℝ), (∀ x y, op x y = a * x + b * y) → f.binop cal op scipy (limit + 1) g = .ok S →
      ∀ x, ∃ u v, f.call cal x = .ok u ∧ g.call cal x = .ok v ∧ S.call cal x = .ok (op u v) := by
    intro op a b hop e x
    obtain ⟨xs, ys, m, hxs, hys, hxm, hx, hy, hS⟩ := vol_binop h op scipy limit
    obtain rfl := Except.ok.inj (hS.symm.trans e)
    have hτ := h.calendar.good
    obtain ⟨rfl, rfl⟩ := h.eq
    have hu := (volOf_answers (cal := cal) (dc := .default) (cls := cls) (floor := floor) (tenor := ta) h.left h.leftNe h.leftOrigin trivial hτ).1
    have hv := (volOf_answers (cal := cal) (dc := .default) (cls := cls) (floor := floor) (tenor := tb) h.right h.rightNe h.rightOrigin trivial hτ).1
    have hmin := head_min hxs hxm
    have hyne : ys ≠ [] := List.ne_nil_of_mem ((hy m).2 (.of_mem hmin.1))
    have hfy : ∀ w : D → ℝ, (ys.map fun x => (x, w x)).map Prod.fst = ys := fun w => graph_fst _ _
    refine ⟨_, _, hu.call x, hv.call x, ?_⟩
    rw [(volOf_answers (cal := cal) (dc := .default) (cls := cls) (floor := floor) (tenor := ta) (o? := some m) (o := m)
      (by rw [hfy]; exact hys.imp fun h => h.ne) (by simpa using hyne) rfl trivial hτ).1.call]
    have hxw : ∀ x, linVal cal.dayCount m (xs.map fun x => (x, op (linVal cal.dayCount o A x) (linVal cal.dayCount o B x))) x =
        a * linVal cal.dayCount o A x + b * linVal cal.dayCount o B x := by
      intro x
      simp only [hop]
      exact linVal_finer hτ h.left h.right h.leftNe h.rightNe hxs (fun x hA => (hx x).2 (.inl hA)) (fun x hB => (hx x).2 (.inr (.of_mem hB)))
        o m a b x
    simp only [hxw]
    simp only [hop]
    exact congrArg _ (linVal_finer hτ h.left h.right h.leftNe h.rightNe hys (fun x hA => (hy x).2 (.of_mem ((hx x).2 (.inl hA))))
      (fun x hB => (hy x).2 (.of_mem ((hx x).2 (.inr (.of_mem hB))))) o m a b x)
  exact ⟨key (· + ·) 1 1 (by intros; ring), key (· - ·) 1 (-1) (by intros; ring)⟩

/-- C143: sums and differences of terminal volatility curves whose origin is the first date of one of them have the sums and differences
as terminal volatilities from the origin. -/
theorem C143_terminal (h : VolOperands cal before after ten .terminal floor A B o oa ob ta tb f g)
    (hmem : o ∈ A.map Prod.fst ∨ o ∈ B.map Prod.fst) (hfirst : ∀ d ∈ A.map Prod.fst ++ B.map Prod.fst, o ≤ d) (scipy : Bool) (limit : ℕ) :
    ∃ S T, f.binop cal (· + ·) scipy (limit + 1) g = .ok S ∧ f.binop cal (· - ·) scipy (limit + 1) g = .ok T ∧
      S.base.origin = some o ∧ T.base.origin = some o ∧ ∀ scipy' limit' x, ∃ u v,
        f.terminalVol cal scipy' (limit' + 1) o (some x) = .ok u ∧ g.terminalVol cal scipy' (limit' + 1) o (some x) = .ok v ∧
        S.terminalVol cal scipy' (limit' + 1) o (some x) = .ok (u + v) ∧
        T.terminalVol cal scipy' (limit' + 1) o (some x) = .ok (u - v) := by
  obtain ⟨S, m, hS, hRS⟩ := C143_grid h (· + ·) scipy limit
  obtain ⟨T, m', hT, hRT⟩ := C143_grid h (· - ·) scipy limit
  obtain ⟨ef, eg⟩ := h.eq
  have hfd : f.base.domain = A.map Prod.fst := by rw [ef]; rfl
  have hgd : g.base.domain = B.map Prod.fst := by rw [eg]; rfl
  have hfc : f.cls = .terminal := by rw [ef]; rfl
  have hgc : g.cls = .terminal := by rw [eg]; rfl
  have key : ∀ {m : D}, (SumDate before after ten f.cls o f g m ∧ ∀ x, SumDate before after ten f.cls o f g x → m ≤ x) → m = o := by
    intro m hm
    simp only [SumDate, VolDate, hfc, hfd, hgd] at hm
    refine le_antisymm (hm.2 o (hmem.imp_right .inl)) ?_
    rcases hm.1 with h1 | h1 | h1 | ⟨y, h1, -, h2⟩
    · exact hfirst _ (List.mem_append_left _ h1)
    · exact hfirst _ (List.mem_append_right _ h1)
    · rw [h1]; exact (h.calendar.next o).2.le
    · rw [h2]; exact (hfirst y (List.mem_append_right _ h1)).trans (h.calendar.later y).2.le
  have hSo : S.base.origin = some o := by rw [hRS.origin, key hRS.first]
  have hTo : T.base.origin = some o := by rw [hRT.origin, key hRT.first]
  have hfo : f.base.origin = some o := by rw [ef]; exact h.leftOrigin
  have hgo : g.base.origin = some o := by rw [eg]; exact h.rightOrigin
  refine ⟨S, T, hS, hT, hSo, hTo, fun scipy' limit' x => ?_⟩
  obtain ⟨u, v, h1, h2, h3⟩ := (C143_pointwise h scipy limit).1 hS x
  obtain ⟨u', v', h1', h2', h3'⟩ := (C143_pointwise h scipy limit).2 hT x
  obtain rfl := Except.ok.inj (h1.symm.trans h1')
  obtain rfl := Except.ok.inj (h2.symm.trans h2')
  refine ⟨u, v, ?_, ?_, ?_, ?_⟩ <;>
    simp [VolCurve.terminalVol, VolCurve.terminalVolT, hfc, hgc, hRS.cls, hRT.cls, hSo, hTo, hfo, hgo, h1, h2, h3, h3']

/-- C143 (refuted): the sum of terminal volatility curves quoted after their origin starts at another date: the day after the
origin if no quote is earlier. -/
theorem C143_origin_violated (h : VolOperands cal before after ten .terminal floor A B o oa ob ta tb f g)
    (hlater : ∀ d ∈ A.map Prod.fst ++ B.map Prod.fst, o < d) (op : ℝ → ℝ → ℝ) (scipy : Bool) (limit : ℕ) :
    ∃ S m, f.binop cal op scipy (limit + 1) g = .ok S ∧ S.base.origin = some m ∧ o < m ∧ m ≤ after o := by
  obtain ⟨S, m, hS, hR⟩ := C143_grid h op scipy limit
  obtain ⟨ef, eg⟩ := h.eq
  have hfd : f.base.domain = A.map Prod.fst := by rw [ef]; rfl
  have hgd : g.base.domain = B.map Prod.fst := by rw [eg]; rfl
  have hfc : f.cls = .terminal := by rw [ef]; rfl
  obtain ⟨h1, h2⟩ := hR.first
  simp only [SumDate, VolDate, hfc, hfd, hgd] at h1 h2
  refine ⟨S, m, hS, hR.origin, ?_, h2 _ (.inr (.inr (.inl rfl)))⟩
  rcases h1 with h1 | h1 | h1 | ⟨y, h1, -, h2⟩
  · exact hlater _ (List.mem_append_left _ h1)
  · exact hlater _ (List.mem_append_right _ h1)
  · rw [h1]; exact (h.calendar.next o).2
  · rw [h2]; exact (hlater y (List.mem_append_right _ h1)).trans (h.calendar.later y).2

/-- C143 (refuted): so the terminal volatility of a sum from the origin is not the sum of the terminal volatilities, for any two curves
quoted after their origin and any date whose quotes have another sum than the first. -/
theorem C143_volatility_violated (h : VolOperands cal before after ten .terminal none A B o oa ob ta tb f g)
    (hlater : ∀ d ∈ A.map Prod.fst ++ B.map Prod.fst, o < d) (scipy : Bool) (limit : ℕ) {t : D} (ht : o < t) {u v u₀ v₀ : ℝ}
    (hu : f.call cal t = .ok u) (hv : g.call cal t = .ok v) (hu₀ : f.call cal o = .ok u₀) (hv₀ : g.call cal o = .ok v₀)
    (hne : (u + v) ^ 2 ≠ (u₀ + v₀) ^ 2) :
    ∃ S, f.binop cal (· + ·) scipy (limit + 1) g = .ok S ∧ ∀ scipy' limit',
      f.terminalVol cal scipy' (limit' + 1) o (some t) = .ok u ∧ g.terminalVol cal scipy' (limit' + 1) o (some t) = .ok v ∧
      S.terminalVol cal scipy' (limit' + 1) o (some t) ≠ .ok (u + v) := by
  obtain ⟨S, m, hS, hSo, hom, -⟩ := C143_origin_violated h hlater (· + ·) scipy limit
  obtain ⟨S', m', hS', hR⟩ := C143_grid h (· + ·) scipy limit
  obtain rfl := Except.ok.inj (hS.symm.trans hS')
  obtain ⟨ef, eg⟩ := h.eq
  have hfc : f.cls = .terminal := by rw [ef]; rfl
  have hgc : g.cls = .terminal := by rw [eg]; rfl
  have hfo : f.base.origin = some o := by rw [ef]; exact h.leftOrigin
  have hgo : g.base.origin = some o := by rw [eg]; exact h.rightOrigin
  have hfl : S.floor = none := by rw [hR.floor, ef]; rfl
  have hSc : S.cls = .terminal := by rw [hR.cls, hfc]
  have hτ := h.calendar.good
  refine ⟨S, hS, fun scipy' limit' => ⟨?_, ?_, fun e => ?_⟩⟩
  · simp [VolCurve.terminalVol, VolCurve.terminalVolT, hfc, hfo, hu]
  · simp [VolCurve.terminalVol, VolCurve.terminalVolT, hgc, hgo, hv]
  have hpt := (C143_pointwise h scipy limit).1 hS
  choose a b ha hb hab using hpt
  have hans : VolAnswers cal S (fun x => a x + b x) cal.dayCount m := by
    refine ⟨hab, fun s e => ?_, hτ, hSo⟩
    simp [VolCurve.dayCount, DateCurve.dayCount, hR.dayCount]
    rfl
  have e1 := forwardVol_eq hans ht.ne
  have e2 : S.terminalVol cal scipy' (limit' + 1) o (some t) = S.forwardVol cal o t := by
    simp [VolCurve.terminalVol, VolCurve.terminalVolT, hSc, hSo, hom.ne, ht.ne, ht.not_gt]
  have hat := Except.ok.inj ((ha t).symm.trans hu)
  have hbt := Except.ok.inj ((hb t).symm.trans hv)
  have hao := Except.ok.inj ((ha o).symm.trans hu₀)
  have hbo := Except.ok.inj ((hb o).symm.trans hv₀)
  have hmul := fwdVar_mul (o := m) (v := fun x => a x + b x) hτ ht.ne
  simp only [hat, hbt, hao, hbo] at hmul
  rw [e2, e1, hfl] at e
  split_ifs at e with hneg
  have hge : 0 ≤ fwdVar cal.dayCount m (fun x => a x + b x) o t := by
    by_contra hc
    exact hneg ⟨not_le.1 hc, rfl⟩
  have hsq : fwdVar cal.dayCount m (fun x => a x + b x) o t = (u + v) ^ 2 := by
    rw [← Except.ok.inj e, Real.sq_sqrt hge]
  have hadd := hτ.add m o t
  rw [hsq, ← hadd] at hmul
  have hz : cal.dayCount m o * ((u + v) ^ 2 - (u₀ + v₀) ^ 2) = 0 := by linear_combination -hmul
  rcases mul_eq_zero.1 hz with h0 | h0
  · exact hτ.ne_zero hom.ne' h0
  · exact hne (sub_eq_zero.1 h0)

/-- Neighbours in a sorted list are next to each other. -/
theorem neighbours_split {l : List D} (hs : l.Pairwise (· < ·)) {a b : D} (ha : a ∈ l) (hb : b ∈ l) (hab : a < b)
    (hbt : ∀ d ∈ l, d ≤ a ∨ b ≤ d) : ∃ l₁ l₂, l = l₁ ++ a :: b :: l₂ := by
  obtain ⟨l₁, r, rfl⟩ := List.append_of_mem ha
  rw [List.pairwise_append, List.pairwise_cons] at hs
  obtain ⟨h1, ⟨h2, h3⟩, h4⟩ := hs
  have hbr : b ∈ r := by
    rcases List.mem_append.1 hb with h | h
    · exact absurd (h4 b h a (by simp)) hab.not_gt
    · rcases List.mem_cons.1 h with h | h
      · exact absurd h hab.ne'
      · exact h
  cases r with
  | nil => simp at hbr
  | cons e r =>
    refine ⟨l₁, r, ?_⟩
    have hae := h2 e (by simp)
    have hbe : b ≤ e := (hbt e (by simp)).resolve_left hae.not_ge
    rcases List.mem_cons.1 hbr with h | h
    · rw [h]
    · exact absurd ((List.pairwise_cons.1 h3).1 b h) hbe.not_gt

/-- Between neighbouring dates linear interpolation is on the chord. -/
theorem linVal_between {τ : D → D → ℝ} (hτ : GoodDayCount τ) {xs : List D} (hs : xs.Pairwise (· < ·)) {a b x : D} (hx : Around xs x a b)
    (o : D) (w : D → ℝ) :
    linVal τ o (xs.map fun d => (d, w d)) x = w a + (w b - w a) * (τ a x / τ a b) := by
  obtain ⟨l₁, l₂, rfl⟩ := neighbours_split hs hx.mema hx.memb (hx.le.trans_lt hx.lt) hx.between
  have hst : StrictX (timePts τ o ((l₁ ++ a :: b :: l₂).map fun d => (d, w d))) := by
    simp only [StrictX, timePts, List.map_map, List.pairwise_map]
    exact hs.imp fun h => (hτ.lt_iff o _ _).2 h
  simp only [linVal, sortPairs_eq_self hst]
  simp only [timePts, List.map_append, List.map_cons, List.map_map, Function.comp_def] at hst ⊢
  rw [flin_drop hst ((hτ.le_iff o a x).2 hx.le)]
  have hab := (hτ.pos a b).2 (hx.le.trans_lt hx.lt)
  have e1 := hτ.add o a b
  have e2 := hτ.add o a x
  have hxb : τ o x ≤ τ o b := (hτ.le_iff o x b).2 hx.lt.le
  simp only [flin, chord]
  split_ifs with h1
  · have : τ a x = 0 := by linarith [hτ.nonneg hx.le]
    simp [this]
  · have e3 : τ o b - τ o a = τ a b := by linarith
    have e4 : τ o x - τ o a = τ a x := by linarith
    rw [e3, e4]; ring

/-- C143 (refuted): between neighbouring dates where both volatilities change a product is not the product. -/
theorem C143_product_violated (h : VolOperands cal before after ten cls floor A B o oa ob ta tb f g) (scipy : Bool) (limit : ℕ)
    {xs : List D} (hxs : ∀ x, x ∈ xs ↔ SumDate before after ten cls o f g x) {a b x : D} (hx : Around xs x a b) (hax : a < x)
    {u v u₀ v₀ u₁ v₁ : ℝ} (hu : f.call cal x = .ok u) (hv : g.call cal x = .ok v) (hu₀ : f.call cal a = .ok u₀)
    (hv₀ : g.call cal a = .ok v₀) (hu₁ : f.call cal b = .ok u₁) (hv₁ : g.call cal b = .ok v₁) (hune : u₀ ≠ u₁) (hvne : v₀ ≠ v₁) :
    ∃ S s, f.binop cal (· * ·) scipy (limit + 1) g = .ok S ∧ S.call cal x = .ok s ∧ s ≠ u * v := by
  obtain ⟨zs, ys, m, hzs, hys, hzm, hz, hy, hS⟩ := vol_binop h (· * ·) scipy limit
  obtain ⟨rfl, rfl⟩ := h.eq
  have hτ := h.calendar.good
  have hfa := (volOf_answers (cal := cal) (dc := .default) (cls := cls) (floor := floor) (tenor := ta) h.left h.leftNe h.leftOrigin trivial hτ).1
  have hga := (volOf_answers (cal := cal) (dc := .default) (cls := cls) (floor := floor) (tenor := tb) h.right h.rightNe h.rightOrigin trivial hτ).1
  rw [hfa.call] at hu hu₀ hu₁
  rw [hga.call] at hv hv₀ hv₁
  have hmem : ∀ x, x ∈ zs ↔ x ∈ xs := fun x => (hz x).trans (hxs x).symm
  have hx' : Around zs x a b := ⟨(hmem a).2 hx.mema, (hmem b).2 hx.memb, hx.le, hx.lt, fun d hd => hx.between d ((hmem d).1 hd)⟩
  have hAz : ∀ x ∈ A.map Prod.fst, x ∈ zs := fun x hA => (hz x).2 (.inl hA)
  have hBz : ∀ x ∈ B.map Prod.fst, x ∈ zs := fun x hB => (hz x).2 (.inr (.of_mem hB))
  have hzne : zs ≠ [] := List.ne_nil_of_mem hx'.mema
  have hyz : ∀ x ∈ zs, x ∈ ys := fun x hx => (hy x).2 (.of_mem hx)
  have hyne : ys ≠ [] := List.ne_nil_of_mem (hyz _ hx'.mema)
  set U := linVal cal.dayCount o A with hU
  set V := linVal cal.dayCount o B with hV
  have e1 : U x = U a + (U b - U a) * (cal.dayCount a x / cal.dayCount a b) := by
    rw [← linVal_between hτ hzs hx' o U]
    have := linVal_finer hτ h.left h.left h.leftNe h.leftNe hzs hAz hAz o o 1 0 x
    simpa using this.symm
  have e2 : V x = V a + (V b - V a) * (cal.dayCount a x / cal.dayCount a b) := by
    rw [← linVal_between hτ hzs hx' o V]
    have := linVal_finer hτ h.right h.right h.rightNe h.rightNe hzs hBz hBz o o 1 0 x
    simpa using this.symm
  have e3 := linVal_between hτ hzs hx' m fun x => U x * V x
  have hfz : (zs.map fun x => (x, U x * V x)).map Prod.fst = zs := graph_fst _ _
  have e4 : linVal cal.dayCount m (ys.map fun x => (x, linVal cal.dayCount m (zs.map fun x => (x, U x * V x)) x)) x =
      linVal cal.dayCount m (zs.map fun x => (x, U x * V x)) x := by
    have hzn : ((zs.map fun x => (x, U x * V x)).map Prod.fst).Nodup := by rw [hfz]; exact hzs.imp fun h => h.ne
    have := linVal_finer hτ hzn hzn (by simpa using hzne) (by simpa using hzne) hys (by rw [hfz]; exact hyz) (by rw [hfz]; exact hyz) m m 1 0 x
    simpa using this
  refine ⟨_, _, hS, (volOf_answers (cal := cal) (dc := .default) (cls := cls) (floor := floor) (tenor := ta) (o? := some m) (o := m)
      (by rw [graph_fst]; exact hys.imp fun h => h.ne) (by simpa using hyne) rfl trivial hτ).1.call x, ?_⟩
  have hab : a < b := hx.le.trans_lt hx.lt
  have hτab := (hτ.pos a b).2 hab
  have hl0 : 0 < cal.dayCount a x / cal.dayCount a b := div_pos ((hτ.pos a x).2 hax) hτab
  have hl1 : cal.dayCount a x / cal.dayCount a b < 1 := by
    rw [div_lt_one hτab]
    have := hτ.add a x b
    have := (hτ.pos x b).2 hx.lt
    linarith
  obtain rfl : U x = u := Except.ok.inj hu
  obtain rfl : V x = v := Except.ok.inj hv
  obtain rfl : U a = u₀ := Except.ok.inj hu₀
  obtain rfl : V a = v₀ := Except.ok.inj hv₀
  obtain rfl : U b = u₁ := Except.ok.inj hu₁
  obtain rfl : V b = v₁ := Except.ok.inj hv₁
  intro e
  have e' : linVal cal.dayCount m (ys.map fun x => (x, linVal cal.dayCount m (zs.map fun x => (x, U x * V x)) x)) x = U x * V x := e
  rw [e4, e3, e1, e2] at e'
  set r := cal.dayCount a x / cal.dayCount a b with hr
  have hz0 : r * (1 - r) * ((U b - U a) * (V b - V a)) = 0 := by linear_combination e'
  rcases mul_eq_zero.1 hz0 with h0 | h0
  · rcases mul_eq_zero.1 h0 with h1 | h1 <;> linarith
  · rcases mul_eq_zero.1 h0 with h1 | h1
    · exact hune (sub_eq_zero.1 h1).symm
    · exact hvne (sub_eq_zero.1 h1).symm

/-- C143 (refuted): the sum of instantaneous volatility curves always starts a day or more before them. -/
theorem C143_instantaneous_violated (h : VolOperands cal before after ten .instantaneous floor A B o oa ob ta tb f g) (op : ℝ → ℝ → ℝ)
    (scipy : Bool) (limit : ℕ) :
    ∃ S m, f.binop cal op scipy (limit + 1) g = .ok S ∧ S.base.origin = some m ∧ m ≤ before o ∧ before o < o := by
  obtain ⟨S, m, hS, hR⟩ := C143_grid h op scipy limit
  obtain ⟨ef, eg⟩ := h.eq
  have hfc : f.cls = .instantaneous := by rw [ef]; rfl
  obtain ⟨h1, h2⟩ := hR.first
  simp only [SumDate, VolDate, hfc] at h1 h2
  exact ⟨S, m, hS, hR.origin, h2 _ (.inr ⟨o, .inr rfl, .inl rfl⟩), (h.calendar.prev o).2⟩

/-- C143 (refuted): volatility curves can not be divided. -/
theorem C143_div_violated (scipy : Bool) (limit : ℕ) (f g S : VolCurve D P) : f.div cal scipy limit g ≠ .ok S := by
  intro e
  simp only [VolCurve.div, Py.bind_eq_ok] at e
  obtain ⟨_, _, b, _, e⟩ := e
  split_ifs at e with hb
  · simp [Py.throw_eq, Py.error_bind] at e
  · simp only [Py.pure_eq, Py.ok_bind, Py.bind_eq_ok] at e
    obtain ⟨_, _, _, _, e⟩ := e
    simp [Py.throw_eq] at e

end

/-- C143 (refuted for dates that are numbers): no volatility curve with a date can be added, subtracted or multiplied. -/
theorem C143_float_violated (op : ℝ → ℝ → ℝ) (scipy : Bool) (limit : ℕ) (f g : VolCurve ℝ FloatPeriod) (hg : g.base.domain ≠ []) :
    f.binop floatCal op scipy limit g = .error .type := by
  obtain ⟨d, l, hal⟩ := List.exists_cons_of_ne_nil hg
  obtain ⟨o, ho⟩ : ∃ o, g.base.origin = some o := by
    simp only [DateCurve.origin, hal]
    cases g.base.origin? <;> simp
  have e1 : ∀ x, floatCal.add x floatCal.oneDay = .error .type := fun _ => rfl
  have e2 : ∀ x, floatCal.sub x floatCal.oneDay = .error .type := fun _ => rfl
  have hcast : VolCurve.cast floatCal f.cls f.floor scipy limit g none none .default none = .error .type := by
    simp only [VolCurve.cast, ho, Option.none_or, pyDate, Py.ok_bind]
    rcases f.cls with _ | _
    · simp [hal, pyMap, e2]
    · simp [e1]
  simp [VolCurve.binop, VolCurve.operand, hcast]

/-! Examples. -/

theorem dayCal_volCalendar : VolCalendar dayCal (· - 1) (· + 1) (· + 3652) where
  good := goodDayCount_int
  prev x := ⟨rfl, by omega⟩
  next x := ⟨rfl, by omega⟩
  later x := ⟨rfl, by omega⟩
  truthy _ := rfl

theorem exVolOperands (cls : VolClass) (A B : List (ℤ × ℝ)) (hA : (A.map Prod.fst).Nodup) (hB : (B.map Prod.fst).Nodup) (hA0 : A ≠ [])
    (hB0 : B ≠ []) : ∃ f g, VolOperands dayCal (· - 1) (· + 1) (· + 3652) cls none A B 0 (some 0) (some 0) none none f g :=
  ⟨_, _, dayCal_volCalendar, hA, hB, hA0, hB0, rfl, rfl,
    VolCurve_new_eq (i := none) (dc := .default) hA (by simp [VolClass.dflt, linearScheme, FuncSpec.isLog, Kind.isLog]) rfl trivial goodDayCount_int,
    VolCurve_new_eq (i := none) (dc := .default) hB (by simp [VolClass.dflt, linearScheme, FuncSpec.isLog, Kind.isLog]) rfl trivial goodDayCount_int⟩

/-- Volatilities from the origin of terminal curves quoted on their origin do add up. -/
example : ∃ f g, VolOperands dayCal (· - 1) (· + 1) (· + 3652) .terminal none [((0 : ℤ), (0.2 : ℝ)), (365, 0.3)] [(365, 0.1)] 0 (some 0)
    (some 0) none none f g ∧ ∃ S, f.binop dayCal (· + ·) true 1 g = .ok S ∧ S.base.origin = some 0 := by
  obtain ⟨f, g, h⟩ := exVolOperands .terminal [((0 : ℤ), (0.2 : ℝ)), (365, 0.3)] [(365, 0.1)] (by simp) (by simp) (by simp) (by simp)
  obtain ⟨S, _, hS, _, ho, _⟩ := C143_terminal h (.inl (by simp)) (by simp) true 0
  exact ⟨f, g, h, S, hS, ho⟩

/-- Sums of instantaneous curves at every date. -/
example : ∃ f g, VolOperands dayCal (· - 1) (· + 1) (· + 3652) .instantaneous none [((0 : ℤ), (0.2 : ℝ)), (365, 0.3)] [(365, 0.1)] 0 (some 0)
    (some 0) none none f g ∧ ∃ S, f.binop dayCal (· + ·) true 1 g = .ok S ∧ (∃ m, S.base.origin = some m ∧ m < 0) ∧
      ∀ x, ∃ u v, f.call dayCal x = .ok u ∧ g.call dayCal x = .ok v ∧ S.call dayCal x = .ok (u + v) := by
  obtain ⟨f, g, h⟩ := exVolOperands .instantaneous [((0 : ℤ), (0.2 : ℝ)), (365, 0.3)] [(365, 0.1)] (by simp) (by simp) (by simp) (by simp)
  obtain ⟨S, m, hS, ho, h1, h2⟩ := C143_instantaneous_violated h (· + ·) true 0
  exact ⟨f, g, h, S, hS, ⟨m, ho, h1.trans_lt h2⟩, (C143_pointwise h true 0).1 hS⟩

/-- The sum of 20% after one and 25% after two years with 5%: the volatility for two years from the origin is not 30%. -/
example : ∃ f g S : VolCurve ℤ ℤ, f.binop dayCal (· + ·) true 1 g = .ok S ∧ f.terminalVol dayCal true 1 0 (some 730) = .ok 0.25 ∧
    g.terminalVol dayCal true 1 0 (some 730) = .ok 0.05 ∧ S.terminalVol dayCal true 1 0 (some 730) ≠ .ok (0.25 + 0.05) := by
  obtain ⟨f, g, h⟩ := exVolOperands .terminal [((365 : ℤ), (0.2 : ℝ)), (730, 0.25)] [(365, 0.05)] (by simp) (by simp) (by simp) (by simp)
  obtain ⟨ef, eg⟩ := h.eq
  have hf : ∀ x, f.call dayCal x = .ok (linVal dayCal.dayCount 0 [((365 : ℤ), (0.2 : ℝ)), (730, 0.25)] x) := by
    rw [ef]
    exact (volOf_answers (cal := dayCal) (dc := .default) (cls := .terminal) (floor := none) (tenor := none) h.left h.leftNe h.leftOrigin trivial h.calendar.good).1.call
  have hg : ∀ x, g.call dayCal x = .ok (linVal dayCal.dayCount 0 [((365 : ℤ), (0.05 : ℝ))] x) := by
    rw [eg]
    exact (volOf_answers (cal := dayCal) (dc := .default) (cls := .terminal) (floor := none) (tenor := none) h.right h.rightNe h.rightOrigin trivial h.calendar.good).1.call
  have hst : StrictX (timePts dayCal.dayCount 0 [((365 : ℤ), (0.2 : ℝ)), (730, 0.25)]) := by
    norm_num [StrictX, timePts, dayCal]
  have hst2 : StrictX (timePts dayCal.dayCount 0 [((365 : ℤ), (0.05 : ℝ))]) := by norm_num [StrictX, timePts, dayCal]
  have f0 : f.call dayCal 0 = .ok 0.2 := by
    rw [hf, linVal, sortPairs_eq_self hst]; norm_num [timePts, flin, dayCal]
  have f2 : f.call dayCal 730 = .ok 0.25 := by
    rw [hf, linVal, sortPairs_eq_self hst]; norm_num [timePts, flin, dayCal, chord]
  have g0 : ∀ x, g.call dayCal x = .ok 0.05 := by
    intro x; rw [hg, linVal, sortPairs_eq_self hst2]; simp [timePts, flin]
  obtain ⟨S, hS, hv⟩ := C143_volatility_violated h (by simp) true 0 (t := 730) (by norm_num) f2 (g0 730) f0 (g0 0) (by norm_num)
  exact ⟨f, g, S, hS, (hv true 0).1, (hv true 0).2.1, (hv true 0).2.2⟩

/-- The square of a curve rising from 20% to 30% over a year is not the square in between. -/
example : ∃ f, VolOperands dayCal (· - 1) (· + 1) (· + 3652) .terminal none [((0 : ℤ), (0.2 : ℝ)), (365, 0.3)]
    [((0 : ℤ), (0.2 : ℝ)), (365, 0.3)] 0 (some 0) (some 0) none none f f ∧
    ∃ S u s, f.binop dayCal (· * ·) true 1 f = .ok S ∧ f.call dayCal 100 = .ok u ∧ S.call dayCal 100 = .ok s ∧ s ≠ u * u := by
  obtain ⟨f, g, h⟩ := exVolOperands .terminal [((0 : ℤ), (0.2 : ℝ)), (365, 0.3)] [((0 : ℤ), (0.2 : ℝ)), (365, 0.3)] (by simp) (by simp)
    (by simp) (by simp)
  obtain ⟨ef, eg⟩ := h.eq
  obtain rfl : f = g := ef.trans eg.symm
  refine ⟨f, h, ?_⟩
  have hf : ∀ x, f.call dayCal x = .ok (linVal dayCal.dayCount 0 [((0 : ℤ), (0.2 : ℝ)), (365, 0.3)] x) := by
    rw [ef]
    exact (volOf_answers (cal := dayCal) (dc := .default) (cls := .terminal) (floor := none) (tenor := none) h.left h.leftNe h.leftOrigin trivial h.calendar.good).1.call
  have hst : StrictX (timePts dayCal.dayCount 0 [((0 : ℤ), (0.2 : ℝ)), (365, 0.3)]) := by
    norm_num [StrictX, timePts, dayCal]
  have hd : f.base.domain = [0, 365] := by rw [ef]; rfl
  have f1 : linVal dayCal.dayCount 0 [((0 : ℤ), (0.2 : ℝ)), (365, 0.3)] 1 < 0.3 := by
    rw [linVal, sortPairs_eq_self hst]; norm_num [timePts, flin, dayCal, chord]
  have f2 : linVal dayCal.dayCount 0 [((0 : ℤ), (0.2 : ℝ)), (365, 0.3)] 365 = 0.3 := by
    rw [linVal, sortPairs_eq_self hst]; norm_num [timePts, flin, dayCal, chord]
  have hxs : ∀ x, x ∈ [(0 : ℤ), 1, 365, 4017] ↔ SumDate (· - 1) (· + 1) (· + 3652) .terminal 0 f f x := by
    intro x
    simp only [SumDate, VolDate, hd]
    constructor
    · intro hx
      simp only [List.mem_cons, List.not_mem_nil, or_false] at hx
      rcases hx with rfl | rfl | rfl | rfl
      · simp
      · simp
      · simp
      · exact .inr (.inr (.inr ⟨365, by simp, by simp, by norm_num⟩))
    · rintro (hx | hx | hx | ⟨m, hm, hmax, rfl⟩)
      · simp at hx ⊢; omega
      · simp at hx ⊢; omega
      · simp at hx ⊢; omega
      · have := hmax 365 (by simp)
        simp at hm ⊢; omega
  have hx : Around [(0 : ℤ), 1, 365, 4017] 100 1 365 := ⟨by simp, by simp, by norm_num, by norm_num, by simp⟩
  obtain ⟨S, s, hS, hs, hne⟩ := C143_product_violated h true 0 hxs hx (by norm_num) (hf _) (hf _) (hf _) (hf _) (hf _) (hf _)
    (by rw [f2]; exact f1.ne) (by rw [f2]; exact f1.ne)
  exact ⟨S, _, s, hS, hf _, hs, hne⟩

/-- Volatility curves on numbers can not be added. -/
example : ∃ f, VolCurve.new floatCal .terminal none [(0 : ℝ), 1] [0.2, 0.3] none none .default none = .ok f ∧
    f.binop floatCal (· + ·) true 5 f = .error .type ∧ ∀ S, f.div floatCal true 5 f ≠ .ok S :=
  ⟨_, VolCurve_new_eq (cal := floatCal) (i := none) (dc := .default) (o? := none) (pts := [((0 : ℝ), (0.2 : ℝ)), (1, 0.3)]) (by simp)
    (by simp [VolClass.dflt, linearScheme, FuncSpec.isLog, Kind.isLog]) rfl trivial goodDayCount_real,
    C143_float_violated _ _ _ _ _ (by simp [volOf, dateCurveOf]), fun _ => C143_div_violated _ _ _ _ _⟩

end Dcf
