import Verif.Lemmas.Curve
import Verif.Spec.Dates

/-! # Curves, date curves and forward curves: C18, C19, C21-C27, C74, C75 -/

set_option linter.unusedSectionVars false
set_option linter.unusedSimpArgs false
set_option linter.unusedVariables false

namespace Dcf

open Spec

/-! ## C18: order of the points -/

/-- C18 (curves): any permutation of the points gives the identical curve object, hence the same
domain, the same values and the same exception if there is one. -/
theorem C18_curve (pts pts' : List (ℝ × ℝ)) (h : pts.Perm pts') (i : Option FuncSpec) :
    Curve.new (pts.map Prod.fst) (pts.map Prod.snd) i =
      Curve.new (pts'.map Prod.fst) (pts'.map Prod.snd) i := by
  simp only [Curve.new]
  rw [if_neg (by simp), if_neg (by simp), fitFunc_congr_perm _ h]

/-- C18 (curves): the domain is increasing and has exactly the given abscissae. -/
theorem C18_domain (pts : List (ℝ × ℝ)) (hn : (pts.map Prod.fst).Nodup) (i : Option FuncSpec)
    (c : Curve) (hc : Curve.new (pts.map Prod.fst) (pts.map Prod.snd) i = .ok c) :
    c.domain.Pairwise (· < ·) ∧ ∀ x, x ∈ c.domain ↔ x ∈ pts.map Prod.fst := by
  simp only [Curve.new] at hc
  rw [if_neg (by simp)] at hc
  simp only [fitFunc, Py.pure_eq, zip_unzip'] at hc
  rw [Py.bind_eq_ok] at hc
  obtain ⟨⟨d, f⟩, h1, h2⟩ := hc
  rw [Py.bind_eq_ok] at h1
  obtain ⟨g, -, h3⟩ := h1
  simp only [Except.ok.injEq, Prod.mk.injEq] at h2 h3
  obtain ⟨rfl, rfl⟩ := h3
  subst h2
  refine ⟨?_, fun x => ((sortPairs_perm pts).map _).mem_iff⟩
  rw [List.pairwise_map]
  exact sortPairs_strict hn

section Date
variable {D P : Type} [LinearOrder D] (cal : Cal D P)

/-- C18 (date curves): with an explicit origin any permutation of the points gives the same
function. -/
theorem C18_date_curve (pts pts' : List (D × ℝ)) (h : pts.Perm pts') (hn : (pts.map Prod.fst).Nodup)
    (i : Option FuncSpec) (dflt : FuncSpec) (o : D) (dc : DayCountArg D) (hd : dc.Usable)
    (hτ : GoodDayCount (dc.fn cal)) (hpos : (i.getD dflt).isLog → ∀ p ∈ pts, 0 < p.2) :
    ∃ c c', DateCurve.new cal (pts.map Prod.fst) (pts.map Prod.snd) i (some o) dc dflt = .ok c ∧
      DateCurve.new cal (pts'.map Prod.fst) (pts'.map Prod.snd) i (some o) dc dflt = .ok c' ∧
      c.domain.Perm c'.domain ∧ ∀ x, c.call cal x = c'.call cal x := by
  have hn' := (h.map Prod.fst).nodup_iff.1 hn
  refine ⟨_, _, DateCurve_new_eq cal i _ dc dflt rfl hd (timePts_nodup hτ o hn) hpos,
    DateCurve_new_eq cal i _ dc dflt rfl hd (timePts_nodup hτ o hn') fun hl p hp =>
      hpos hl p (h.mem_iff.2 hp), h.map _, fun x => ?_⟩
  rw [dateCurveOf_call cal rfl hd, dateCurveOf_call cal rfl hd,
    funcOf_perm _ (timePts_perm _ o h) (timePts_nodup hτ o hn)]

/-- C18 (date curves): without explicit origin the first given date becomes the origin; the values
still do not depend on the order unless the interpolation treats the origin specially. -/
theorem C18_date_curve_no_origin (pts pts' : List (D × ℝ)) (h : pts.Perm pts') (hne : pts ≠ [])
    (hn : (pts.map Prod.fst).Nodup)
    (i : Option FuncSpec) (dflt : FuncSpec) (hs : (i.getD dflt).isRate = false) (dc : DayCountArg D)
    (hd : dc.Usable) (hτ : GoodDayCount (dc.fn cal)) (hpos : (i.getD dflt).isLog → ∀ p ∈ pts, 0 < p.2) :
    ∃ c c', DateCurve.new cal (pts.map Prod.fst) (pts.map Prod.snd) i none dc dflt = .ok c ∧
      DateCurve.new cal (pts'.map Prod.fst) (pts'.map Prod.snd) i none dc dflt = .ok c' ∧
      ∀ x, c.call cal x = c'.call cal x := by
  have hn' := (h.map Prod.fst).nodup_iff.1 hn
  have hne' : pts' ≠ [] := by rintro rfl; exact hne h.eq_nil
  obtain ⟨p, l, rfl⟩ := List.exists_cons_of_ne_nil hne
  obtain ⟨p', l', rfl⟩ := List.exists_cons_of_ne_nil hne'
  refine ⟨_, _, DateCurve_new_eq cal i none dc dflt (o := p.1) rfl hd (timePts_nodup hτ _ hn) hpos,
    DateCurve_new_eq cal i none dc dflt (o := p'.1) rfl hd (timePts_nodup hτ _ hn') fun hl q hq =>
      hpos hl q (h.mem_iff.2 hq), fun x => ?_⟩
  rw [dateCurveOf_call cal rfl hd, dateCurveOf_call cal rfl hd,
    dateCurve_origin_indep hτ hs p.1 p'.1,
    funcOf_perm _ (timePts_perm _ p'.1 h)
      (timePts_nodup hτ _ hn)]

end Date

example : ([(2, 5), (0, 1)] : List (ℝ × ℝ)).Perm [(0, 1), (2, 5)] := List.Perm.swap _ _ _

/-! ## C19: assignment -/

/-- The map a sequence of assignments produces. -/
def assignMap {D : Type} [DecidableEq D] (m : D → Option ℝ) (ops : List (D × ℝ)) : D → Option ℝ :=
  ops.foldl (fun m kv => Function.update m kv.1 (some kv.2)) m

/-- The map given by a list of points. -/
def pointMap {D : Type} [DecidableEq D] (pts : List (D × ℝ)) : D → Option ℝ := fun x => pts.lookup x

theorem pointMap_some {D : Type} [DecidableEq D] {l : List (D × ℝ)} (h : (l.map Prod.fst).Nodup) {x : D} {y : ℝ} :
    pointMap l x = some y ↔ (x, y) ∈ l := by
  unfold pointMap
  induction l with
  | nil => simp
  | cons p l ih =>
    obtain ⟨a, b⟩ := p
    simp only [List.map_cons, List.nodup_cons] at h
    rw [List.lookup_cons]
    by_cases hx : x = a
    · subst hx
      have : (x, y) ∉ l := fun hm => h.1 (List.mem_map.2 ⟨_, hm, rfl⟩)
      simp [this, eq_comm]
    · have : (x == a) = false := by simpa using hx
      simp [this, ih h.2, hx]

theorem pointMap_put {D : Type} [DecidableEq D] {l : List (D × ℝ)} (h : (l.map Prod.fst).Nodup) (k : D) (v : ℝ) :
    pointMap (putPt l k v) = Function.update (pointMap l) k (some v) := by
  funext x
  apply Option.ext
  intro y
  rw [pointMap_some (putPt_nodup h k v), putPt_mem]
  by_cases hx : x = k
  · subst hx; simp [eq_comm]
  · rw [Function.update_of_ne hx, pointMap_some h]; simp [hx]

theorem assign_points {D : Type} [DecidableEq D] {l : List (D × ℝ)} (h : (l.map Prod.fst).Nodup)
    (ops : List (D × ℝ)) :
    pointMap (ops.foldl (fun l kv => putPt l kv.1 kv.2) l) = assignMap (pointMap l) ops ∧
      ((ops.foldl (fun l kv => putPt l kv.1 kv.2) l).map Prod.fst).Nodup ∧
      (∀ p ∈ ops.foldl (fun l kv => putPt l kv.1 kv.2) l, p ∈ l ∨ p ∈ ops) := by
  induction ops generalizing l with
  | nil => exact ⟨rfl, h, fun p hp => .inl hp⟩
  | cons o ops ih =>
    obtain ⟨h1, h2, h3⟩ := ih (putPt_nodup h o.1 o.2)
    refine ⟨?_, h2, fun p hp => ?_⟩
    · rw [List.foldl_cons, h1, pointMap_put h]; rfl
    · rcases h3 p hp with h4 | h4
      · rcases putPt_mem.1 h4 with rfl | ⟨h5, -⟩
        · exact .inr (by simp)
        · exact .inl h5
      · exact .inr (by simp [h4])

/-- C19 (curves): along every sequence of assignments `c[k] = v` the curve behaves as the finite map
receiving the same updates: the domain has exactly the keys, in increasing order, `c(k)` and `c[k]`
are the values and `c[x]` raises `KeyError` elsewhere. -/
theorem C19_assign (i : Option FuncSpec) (start ops : List (ℝ × ℝ)) (hn : (start.map Prod.fst).Nodup)
    (hpos : (i.getD linearScheme).isLog → ∀ p ∈ start ++ ops, 0 < p.2)
    (h0 : (i.getD linearScheme).needsNonzero → ∃ p ∈ start, p.1 ≠ 0) :
    ∃ c, (do let c ← Curve.new (start.map Prod.fst) (start.map Prod.snd) i
             ops.foldlM (fun c (kv : ℝ × ℝ) => Curve.setitem c kv.1 kv.2) c) = .ok c ∧
      c.domain.Pairwise (· < ·) ∧
      (∀ x, x ∈ c.domain ↔ (assignMap (pointMap start) ops x).isSome) ∧
      (∀ x y, assignMap (pointMap start) ops x = some y →
        c.call x = .ok (some y) ∧ c.getitem x = .ok (some y)) ∧
      ∀ x, assignMap (pointMap start) ops x = none → c.getitem x = .error .key := by
  have hfold : ∀ (ops start : List (ℝ × ℝ)), (start.map Prod.fst).Nodup →
      ((i.getD linearScheme).isLog → ∀ p ∈ start ++ ops, 0 < p.2) →
      ((i.getD linearScheme).needsNonzero → ∃ p ∈ start, p.1 ≠ 0) →
      ops.foldlM (fun c kv => Curve.setitem c kv.1 kv.2) (curveOf i start) =
        .ok (curveOf i (ops.foldl (fun l kv => putPt l kv.1 kv.2) start)) ∧
      ((i.getD linearScheme).needsNonzero →
        ∃ p ∈ ops.foldl (fun l kv => putPt l kv.1 kv.2) start, p.1 ≠ 0) := by
    intro ops
    induction ops with
    | nil => intro start _ _ h; exact ⟨rfl, h⟩
    | cons o ops ih =>
      intro start hn hpos h0
      rw [List.foldlM_cons, Curve_setitem_eq i hn (fun h p hp => hpos h p (by simp [hp])) h0 _ _
        (fun h => hpos h o (by simp)), Py.ok_bind, List.foldl_cons]
      refine ih _ (putPt_nodup hn _ _) (fun h p hp => ?_) (fun h => ?_)
      · rcases List.mem_append.1 hp with hp | hp
        · rcases putPt_mem.1 hp with rfl | ⟨hp, -⟩
          · exact hpos h o (by simp)
          · exact hpos h p (by simp [hp])
        · exact hpos h p (by simp [hp])
      · obtain ⟨p, hp, hp0⟩ := h0 h
        by_cases e : p.1 = o.1
        · exact ⟨(o.1, o.2), putPt_mem.2 (.inl rfl), by rw [← e]; exact hp0⟩
        · exact ⟨p, putPt_mem.2 (.inr ⟨hp, e⟩), hp0⟩
  obtain ⟨hf, h0'⟩ := hfold ops start hn hpos h0
  obtain ⟨hm, hn', hsub⟩ := assign_points hn ops
  set pts := ops.foldl (fun l kv => putPt l kv.1 kv.2) start with hpts
  have hpos' : (i.getD linearScheme).isLog → ∀ p ∈ pts, 0 < p.2 := fun h p hp =>
    hpos h p (List.mem_append.2 (hsub p hp))
  have hdom : ∀ x, x ∈ (curveOf i pts).domain ↔ (assignMap (pointMap start) ops x).isSome := by
    intro x
    rw [← hm, Option.isSome_iff_exists]
    simp only [curveOf, ((sortPairs_perm pts).map Prod.fst).mem_iff, pointMap_some hn']
    simp
  refine ⟨curveOf i pts, ?_, ?_, hdom, ?_, ?_⟩
  · rw [Curve_new_eq i hn (fun h p hp => hpos h p (by simp [hp])), Py.ok_bind, hf]
  · simp only [curveOf]; rw [List.pairwise_map]; exact sortPairs_strict hn'
  · intro x y hxy
    have hcall : (curveOf i pts).call x = .ok (some y) :=
      curveOf_node i hn' hpos' h0' ((pointMap_some hn').1 (by rw [hm]; exact hxy))
    refine ⟨hcall, ?_⟩
    unfold Curve.getitem
    rw [if_pos ((hdom x).2 (by rw [hxy]; rfl)), hcall]
  · intro x hx
    unfold Curve.getitem
    rw [if_neg]
    rw [hdom, hx]; simp

section Date
variable {D P : Type} [LinearOrder D] (cal : Cal D P)

/-- C19 (date curves): the same for date curves without fixings. -/
theorem C19_assign_date (i : Option FuncSpec) (dflt : FuncSpec) (o : D) (dc : DayCountArg D) (hd : dc.Usable)
    (hτ : GoodDayCount (dc.fn cal)) (start ops : List (D × ℝ)) (hn : (start.map Prod.fst).Nodup)
    (hpos : (i.getD dflt).isLog → ∀ p ∈ start ++ ops, 0 < p.2)
    (h0 : (i.getD dflt).needsNonzero → ∃ p ∈ start, p.1 ≠ o) :
    ∃ c, (do let c ← DateCurve.new cal (start.map Prod.fst) (start.map Prod.snd) i (some o) dc dflt
             ops.foldlM (fun c (kv : D × ℝ) => DateCurve.setitem cal c kv.1 kv.2) c) = .ok c ∧
      (∀ x, x ∈ c.domain ↔ (assignMap (pointMap start) ops x).isSome) ∧
      (∀ x y, assignMap (pointMap start) ops x = some y → c.call cal x = .ok (some y)) := by
  have hstep : ∀ (pts : List (D × ℝ)), (pts.map Prod.fst).Nodup →
      ((i.getD dflt).isLog → ∀ p ∈ pts, 0 < p.2) → ((i.getD dflt).needsNonzero → ∃ p ∈ pts, p.1 ≠ o) →
      ∀ k v, ((i.getD dflt).isLog → 0 < v) →
      (dateCurveOf (dc.fn cal) o (some o) dc i dflt pts).setitem cal k v =
        .ok (dateCurveOf (dc.fn cal) o (some o) dc i dflt (putPt pts k v)) := by
    intro pts hn hpos h0 k v hv
    set c := dateCurveOf (dc.fn cal) o (some o) dc i dflt pts with hc
    have hvals : pyMap (c.num cal) c.domain = .ok (pts.map Prod.snd) := by
      have : ∀ l : List (D × ℝ), (∀ p ∈ l, p ∈ pts) →
          pyMap (c.num cal) (l.map Prod.fst) = .ok (l.map Prod.snd) := by
        intro l
        induction l with
        | nil => intro _; rfl
        | cons p l ih =>
          intro h
          have hp : c.num cal p.1 = .ok p.2 := by
            have := DateCurve_values cal (c := c) (o := o) rfl hd hτ rfl hn rfl hpos h0 (h p (by simp))
            simp [DateCurve.num, this, pyNum]
          rw [List.map_cons, pyMap_cons, hp, Py.ok_bind, ih fun q hq => h q (by simp [hq])]; rfl
      exact this pts fun p hp => hp
    unfold DateCurve.setitem DateCurve.setitemWith
    rw [hvals, Py.ok_bind]
    simp only [show c.domain = pts.map Prod.fst from rfl, setPoint_eq hn]
    rw [update_eq cal (c := c) (o := o) rfl hd (timePts_nodup hτ o (putPt_nodup hn k v))]
    · rfl
    · intro hl p hp
      rcases putPt_mem.1 hp with rfl | ⟨hp, -⟩
      · exact hv hl
      · exact hpos hl p hp
  have hfold : ∀ (ops start : List (D × ℝ)), (start.map Prod.fst).Nodup →
      ((i.getD dflt).isLog → ∀ p ∈ start ++ ops, 0 < p.2) →
      ((i.getD dflt).needsNonzero → ∃ p ∈ start, p.1 ≠ o) →
      ops.foldlM (fun c kv => DateCurve.setitem cal c kv.1 kv.2)
        (dateCurveOf (dc.fn cal) o (some o) dc i dflt start) =
        .ok (dateCurveOf (dc.fn cal) o (some o) dc i dflt (ops.foldl (fun l kv => putPt l kv.1 kv.2) start)) ∧
      ((i.getD dflt).needsNonzero →
        ∃ p ∈ ops.foldl (fun l kv => putPt l kv.1 kv.2) start, p.1 ≠ o) := by
    intro ops
    induction ops with
    | nil => intro start _ _ h; exact ⟨rfl, h⟩
    | cons a ops ih =>
      intro start hn hpos h0
      rw [List.foldlM_cons, hstep start hn (fun h p hp => hpos h p (by simp [hp])) h0 _ _
        (fun h => hpos h a (by simp)), Py.ok_bind, List.foldl_cons]
      refine ih _ (putPt_nodup hn _ _) (fun h p hp => ?_) (fun h => ?_)
      · rcases List.mem_append.1 hp with hp | hp
        · rcases putPt_mem.1 hp with rfl | ⟨hp, -⟩
          · exact hpos h a (by simp)
          · exact hpos h p (by simp [hp])
        · exact hpos h p (by simp [hp])
      · obtain ⟨p, hp, hp0⟩ := h0 h
        by_cases e : p.1 = a.1
        · exact ⟨(a.1, a.2), putPt_mem.2 (.inl rfl), by rw [← e]; exact hp0⟩
        · exact ⟨p, putPt_mem.2 (.inr ⟨hp, e⟩), hp0⟩
  obtain ⟨hf, h0'⟩ := hfold ops start hn hpos h0
  obtain ⟨hm, hn', hsub⟩ := assign_points hn ops
  set pts := ops.foldl (fun l kv => putPt l kv.1 kv.2) start with hpts
  refine ⟨dateCurveOf (dc.fn cal) o (some o) dc i dflt pts, ?_, fun x => ?_, fun x y hxy => ?_⟩
  · rw [DateCurve_new_eq cal i (some o) dc dflt rfl hd (timePts_nodup hτ o hn)
      (fun h p hp => hpos h p (by simp [hp])), Py.ok_bind, hf]
  · rw [← hm, Option.isSome_iff_exists]
    simp only [dateCurveOf, pointMap_some hn']
    simp
  · exact DateCurve_values cal (c := dateCurveOf (dc.fn cal) o (some o) dc i dflt pts) (o := o) rfl hd hτ
      rfl hn' rfl (fun h p hp => hpos h p (List.mem_append.2 (hsub p hp))) h0'
      ((pointMap_some hn').1 (by rw [hm]; exact hxy))

end Date

/-- A non-trivial run: overriding one point and adding another. -/
example : assignMap (pointMap [((0 : ℤ), (1 : ℝ)), (2, 3)]) [(2, 5), (1, 4)] 2 = some 5 ∧
    assignMap (pointMap [((0 : ℤ), (1 : ℝ)), (2, 3)]) [(2, 5), (1, 4)] 0 = some 1 := by
  constructor <;> simp [assignMap, pointMap, Function.update, List.lookup]

/-! ### The hypotheses can be met: each theorem applied -/

example := C18_curve [(1, 2), (3, 4)] [(3, 4), (1, 2)] (.swap _ _ _) (some linearScheme)
example : True := by
  have h := Curve_new_eq none (pts := [((3 : ℝ), (4 : ℝ)), (1, 2)]) (by norm_num) (by simp [linearScheme, FuncSpec.isLog, Kind.isLog])
  have := C18_domain [(3, 4), (1, 2)] (by norm_num) none _ h
  trivial
example := C18_date_curve dayCal [(0, 2), (100, 4)] [(100, 4), (0, 2)] (.swap _ _ _) (by decide) none logLinearScheme 0 .default trivial
  goodDayCount_int (by simp)
example := C18_date_curve_no_origin dayCal [(0, 2), (100, 4)] [(100, 4), (0, 2)] (.swap _ _ _) (by simp) (by decide) none linearScheme rfl .default trivial
  goodDayCount_int (by simp)
example := C19_assign none [(1, 2), (3, 4)] [(2, 5), (3, 6)] (by norm_num) (by simp) (by simp [linearScheme, FuncSpec.needsNonzero, Kind.isRate])
example := C19_assign_date dayCal none linearScheme 0 .default trivial goodDayCount_int [(0, 2), (100, 4)] [(50, 5), (100, 6)] (by decide) (by simp)
  (by simp [linearScheme, FuncSpec.needsNonzero, Kind.isRate])

end Dcf
