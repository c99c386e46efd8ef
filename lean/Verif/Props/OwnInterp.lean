import Verif.Props.Curve
import Verif.Model.OwnInterp

/-! # C165: interpolations written by the user -/

set_option linter.unusedSectionVars false
set_option linter.unusedSimpArgs false
set_option linter.unusedVariables false

namespace Dcf

/-- An interpolation function as the documentation asks for: on points with increasing `x` it returns a function through them. -/
def Spec.Reproduces (γ : Fit) : Prop :=
  ∀ pts : List (ℝ × ℝ), (pts.map Prod.fst).Pairwise (· < ·) →
    ∃ g, γ (pts.map Prod.fst) (pts.map Prod.snd) = .ok g ∧ ∀ p ∈ pts, g p.1 = .ok (some p.2)

section
variable {γ : Fit} {i : InterpArg} {r : Option Fit}

theorem ownFit_points (γ : Fit) (pts : List (ℝ × ℝ)) : ownFit γ (pts.map Prod.fst) (pts.map Prod.snd) =
    (fun g => ((sortPairs pts).map Prod.fst, g)) <$> γ ((sortPairs pts).map Prod.fst) ((sortPairs pts).map Prod.snd) := by
  simp only [ownFit, zip_unzip']
  cases γ ((sortPairs pts).map Prod.fst) ((sortPairs pts).map Prod.snd) <;> rfl

theorem ownNew_points (i : InterpArg) (pts : List (ℝ × ℝ)) : OwnCurve.new (pts.map Prod.fst) (pts.map Prod.snd) i =
    (fun g => ⟨(sortPairs pts).map Prod.fst, i, g⟩) <$>
      i.call (libFit linearScheme) ((sortPairs pts).map Prod.fst) ((sortPairs pts).map Prod.snd) := by
  unfold OwnCurve.new
  rw [if_neg (by simp), ownFit_points]
  cases i.call (libFit linearScheme) ((sortPairs pts).map Prod.fst) ((sortPairs pts).map Prod.snd) <;> rfl

theorem ownNew_ok (hγ : Spec.Reproduces γ) (hi : i.call (libFit linearScheme) = γ) {pts : List (ℝ × ℝ)}
    (hn : (pts.map Prod.fst).Nodup) :
    ∃ c, OwnCurve.new (pts.map Prod.fst) (pts.map Prod.snd) i = .ok c ∧ c.domain = (sortPairs pts).map Prod.fst ∧ c.interp = i ∧
      γ ((sortPairs pts).map Prod.fst) ((sortPairs pts).map Prod.snd) = .ok c.func ∧ ∀ p ∈ pts, c.call p.1 = .ok (some p.2) := by
  obtain ⟨g, hg, hp⟩ := hγ (sortPairs pts) (by rw [List.pairwise_map]; exact sortPairs_strict hn)
  refine ⟨⟨(sortPairs pts).map Prod.fst, i, g⟩, ?_, rfl, rfl, hg, fun p hm => hp p ((sortPairs_perm pts).mem_iff.2 hm)⟩
  rw [ownNew_points, hi, hg]; rfl

/-- C165 (order): the points are sorted before they are passed on: the order they are given in does not matter, whatever the function. -/
theorem C165_order (i : InterpArg) {pts pts' : List (ℝ × ℝ)} (h : pts.Perm pts') :
    OwnCurve.new (pts.map Prod.fst) (pts.map Prod.snd) i = OwnCurve.new (pts'.map Prod.fst) (pts'.map Prod.snd) i := by
  rw [ownNew_points, ownNew_points, sortPairs_congr h]

/-- C165 (points): the function gets the sorted points, the curve is what it returns; with a function through its points
the curve takes the given values. -/
theorem C165_points (hγ : Spec.Reproduces γ) {pts : List (ℝ × ℝ)} (hn : (pts.map Prod.fst).Nodup) :
    ∃ c, ∃ sorted : List (ℝ × ℝ), OwnCurve.new (pts.map Prod.fst) (pts.map Prod.snd) (.func γ r) = .ok c ∧ sorted.Perm pts ∧
      c.domain = sorted.map Prod.fst ∧ c.domain.Pairwise (· < ·) ∧
      (∃ g, γ (sorted.map Prod.fst) (sorted.map Prod.snd) = .ok g ∧ ∀ x, c.call x = g x) ∧
      (∀ p ∈ pts, c.call p.1 = .ok (some p.2) ∧ c.getitem p.1 = .ok (some p.2)) := by
  obtain ⟨c, h1, h2, -, h4, h5⟩ := ownNew_ok (i := .func γ r) hγ rfl hn
  refine ⟨c, sortPairs pts, h1, sortPairs_perm pts, h2, ?_, ⟨c.func, h4, fun x => rfl⟩, fun p hp => ⟨h5 p hp, ?_⟩⟩
  · rw [h2, List.pairwise_map]; exact sortPairs_strict hn
  · unfold OwnCurve.getitem
    rw [if_pos, h5 p hp]
    rw [h2]
    exact ((sortPairs_perm pts).map Prod.fst).mem_iff.2 (List.mem_map.2 ⟨p, hp, rfl⟩)

theorem ownSet_points (hγ : Spec.Reproduces γ) (hi : i.call (libFit linearScheme) = γ) {pts : List (ℝ × ℝ)}
    (hn : (pts.map Prod.fst).Nodup) {c : OwnCurve} (hc : OwnCurve.new (pts.map Prod.fst) (pts.map Prod.snd) i = .ok c) (k v : ℝ) :
    c.setitem k v = OwnCurve.new ((putPt pts k v).map Prod.fst) ((putPt pts k v).map Prod.snd) i := by
  obtain ⟨c', h1, h2, h3, h4, h5⟩ := ownNew_ok hγ hi hn
  rw [hc] at h1
  obtain rfl := Except.ok.inj h1
  have hp := sortPairs_perm pts
  have hns : ((sortPairs pts).map Prod.fst).Nodup := (hp.map Prod.fst).nodup_iff.2 hn
  have hv : pyMap c.num c.domain = .ok ((sortPairs pts).map Prod.snd) := by
    rw [h2, pyMap_map]
    exact pyMap_ok fun p hm => by simp [OwnCurve.num, h5 p (hp.mem_iff.1 hm), pyNum]
  unfold OwnCurve.setitem
  rw [hv, Py.ok_bind, h2]
  simp only [setPoint_eq hns, h3, ownFit_points, ownNew_points]
  rw [sortPairs_congr (putPt_perm_nodup hp hns k v)]
  cases i.call (libFit linearScheme) ((sortPairs (putPt pts k v)).map Prod.fst) ((sortPairs (putPt pts k v)).map Prod.snd) <;> rfl

/-- C165 (assignment): along every sequence of assignments the curve is the one the function builds from the points of the map
receiving the same updates. -/
theorem C165_assign (hγ : Spec.Reproduces γ) (start ops : List (ℝ × ℝ)) (hn : (start.map Prod.fst).Nodup) :
    ∃ c, ∃ pts : List (ℝ × ℝ),
      (do let c ← OwnCurve.new (start.map Prod.fst) (start.map Prod.snd) (.func γ r)
          ops.foldlM (fun c (kv : ℝ × ℝ) => OwnCurve.setitem c kv.1 kv.2) c) = .ok c ∧
      OwnCurve.new (pts.map Prod.fst) (pts.map Prod.snd) (.func γ r) = .ok c ∧ (pts.map Prod.fst).Nodup ∧
      (∀ x y, (x, y) ∈ pts ↔ assignMap (pointMap start) ops x = some y) ∧
      (∀ x y, assignMap (pointMap start) ops x = some y → c.call x = .ok (some y) ∧ c.getitem x = .ok (some y)) ∧
      ∀ x, assignMap (pointMap start) ops x = none → c.getitem x = .error .key := by
  have hfold : ∀ (ops start : List (ℝ × ℝ)), (start.map Prod.fst).Nodup → ∀ c,
      OwnCurve.new (start.map Prod.fst) (start.map Prod.snd) (.func γ r) = .ok c →
      ops.foldlM (fun c (kv : ℝ × ℝ) => OwnCurve.setitem c kv.1 kv.2) c =
        OwnCurve.new ((ops.foldl (fun l kv => putPt l kv.1 kv.2) start).map Prod.fst)
          ((ops.foldl (fun l kv => putPt l kv.1 kv.2) start).map Prod.snd) (.func γ r) := by
    intro ops
    induction ops with
    | nil => intro start _ c hc; exact hc.symm
    | cons o ops ih =>
      intro start hn c hc
      obtain ⟨c', hc', -⟩ := ownNew_ok (i := .func γ r) hγ rfl (putPt_nodup hn o.1 o.2)
      rw [List.foldlM_cons, ownSet_points hγ rfl hn hc, hc', Py.ok_bind, List.foldl_cons]
      exact ih _ (putPt_nodup hn _ _) _ hc'
  obtain ⟨c₀, h0, -⟩ := ownNew_ok (i := .func γ r) hγ rfl hn
  obtain ⟨hm, hn', -⟩ := assign_points hn ops
  have hf := hfold ops start hn c₀ h0
  set pts := ops.foldl (fun l kv => putPt l kv.1 kv.2) start with hpts
  obtain ⟨c, h1, h2, -, -, h5⟩ := ownNew_ok (i := .func γ r) hγ rfl hn'
  have hmem : ∀ x y, (x, y) ∈ pts ↔ assignMap (pointMap start) ops x = some y := fun x y => by rw [← hm, pointMap_some hn']
  have hdom : ∀ x, x ∈ c.domain ↔ (assignMap (pointMap start) ops x).isSome := by
    intro x
    rw [h2, ((sortPairs_perm pts).map Prod.fst).mem_iff, Option.isSome_iff_exists]
    simp only [← hmem]
    simp
  refine ⟨c, pts, ?_, h1, hn', hmem, fun x y hxy => ?_, fun x hx => ?_⟩
  · rw [h0, Py.ok_bind, hf, h1]
  · have hcall := h5 _ ((hmem x y).2 hxy)
    refine ⟨hcall, ?_⟩
    unfold OwnCurve.getitem
    rw [if_pos ((hdom x).2 (by rw [hxy]; rfl))]
    exact hcall
  · unfold OwnCurve.getitem
    rw [if_neg]
    rw [hdom, hx]; simp

/-- C165 (arithmetic): sums, differences and products are built by the function of the first curve on the joint grid, where the
second curve may use another function. -/
theorem C165_arithmetic (op : ℝ → ℝ → ℝ) (hγ : Spec.Reproduces γ) {f g : OwnCurve} (hf : f.interp = .func γ r) {u v : ℝ → ℝ}
    (hu : ∀ x ∈ f.domain ++ g.domain, f.call x = .ok (some (u x))) (hv : ∀ x ∈ f.domain ++ g.domain, g.call x = .ok (some (v x))) :
    ∃ h, f.binop op g = .ok h ∧ (∀ x, x ∈ h.domain ↔ x ∈ f.domain ∨ x ∈ g.domain) ∧ h.domain.Pairwise (· < ·) ∧ h.interp = .func γ r ∧
      (∀ x ∈ h.domain, h.call x = .ok (some (op (u x) (v x)))) ∧
      γ h.domain (h.domain.map fun x => op (u x) (v x)) = .ok h.func := by
  set X := sortedSet (f.domain ++ g.domain) with hX
  set pts : List (ℝ × ℝ) := X.map fun x => (x, op (u x) (v x)) with hpts
  have e1 : pts.map Prod.fst = X := by simp [hpts, Function.comp_def]
  have e2 : pts.map Prod.snd = X.map fun x => op (u x) (v x) := by simp [hpts, Function.comp_def]
  have hs : StrictX pts := by
    have : (pts.map Prod.fst).Pairwise (· < ·) := by rw [e1]; exact sortedSet_strict _
    rw [List.pairwise_map] at this; exact this
  obtain ⟨h, h1, h2, h3, h4, h5⟩ := ownNew_ok (i := .func γ r) hγ rfl hs.nodup
  rw [sortPairs_eq_self hs] at h2 h4
  have hmem : ∀ x, x ∈ h.domain ↔ x ∈ f.domain ++ g.domain := fun x => by rw [h2, e1, hX, sortedSet_mem]
  refine ⟨h, ?_, fun x => by rw [hmem, List.mem_append], by rw [h2, e1]; exact sortedSet_strict _, h3, fun x hx => ?_, ?_⟩
  · unfold OwnCurve.binop
    simp only []
    rw [pyMap_ok (g := fun x : ℝ => op (u x) (v x)), Py.ok_bind, hf, ← hX, ← e2]
    · conv_lhs => rw [← e1]
      exact h1
    · intro x hx
      have hx' := sortedSet_mem.1 hx
      simp [OwnCurve.num, hu x hx', hv x hx', pyNum]
  · exact h5 (x, op (u x) (v x)) (List.mem_map.2 ⟨x, by rw [h2, e1] at hx; exact hx, rfl⟩)
  · rw [e1, e2] at h4
    rw [h2, e1]; exact h4

/-- C165 (sums everywhere): if the function is additive in the values, sums of curves on the same points are sums everywhere. -/
theorem C165_additive (hγ : Spec.Reproduces γ)
    (hadd : ∀ (pts : List ℝ) (u v : ℝ → ℝ) a b c, γ pts (pts.map u) = .ok a → γ pts (pts.map v) = .ok b →
      γ pts (pts.map fun x => u x + v x) = .ok c → ∀ x ya yb, a x = .ok (some ya) → b x = .ok (some yb) → c x = .ok (some (ya + yb)))
    {X : List ℝ} (hX : X.Nodup) (u v : ℝ → ℝ) :
    ∃ f g h, OwnCurve.new X (X.map u) (.func γ r) = .ok f ∧ OwnCurve.new X (X.map v) (.func γ r) = .ok g ∧
      f.binop (· + ·) g = .ok h ∧ ∀ x y z, f.call x = .ok (some y) → g.call x = .ok (some z) → h.call x = .ok (some (y + z)) := by
  have key : ∀ w : ℝ → ℝ, ∃ c, OwnCurve.new X (X.map w) (.func γ r) = .ok c ∧ c.domain = X.insertionSort (· ≤ ·) ∧ c.interp = .func γ r ∧
      γ c.domain (c.domain.map w) = .ok c.func ∧ ∀ x ∈ X, c.call x = .ok (some (w x)) := by
    intro w
    set pts : List (ℝ × ℝ) := X.map fun x => (x, w x) with hpts
    have e1 : pts.map Prod.fst = X := by simp [hpts, Function.comp_def]
    have e2 : pts.map Prod.snd = X.map w := by simp [hpts, Function.comp_def]
    obtain ⟨c, h1, h2, h3, h4, h5⟩ := ownNew_ok (i := .func γ r) hγ rfl (pts := pts) (by rw [e1]; exact hX)
    rw [e1, e2] at h1
    have hsort : (sortPairs pts).map Prod.fst = X.insertionSort (· ≤ ·) := by
      refine List.Perm.eq_of_pairwise' (r := (· ≤ ·)) ?_ (List.pairwise_insertionSort _ _) ?_
      · have := sortPairs_strict (l := pts) (by rw [e1]; exact hX)
        rw [List.pairwise_map]; exact this.imp fun {a b} h => le_of_lt h
      · have := (sortPairs_perm pts).map Prod.fst
        rw [e1] at this
        exact this.trans (List.perm_insertionSort _ _).symm
    refine ⟨c, h1, by rw [h2, hsort], h3, ?_, fun x hx => h5 (x, w x) (List.mem_map.2 ⟨x, hx, rfl⟩)⟩
    have hsnd : (sortPairs pts).map Prod.snd = ((sortPairs pts).map Prod.fst).map w := by
      rw [List.map_map]
      refine List.map_congr_left fun p hp => ?_
      obtain ⟨x, -, rfl⟩ := List.mem_map.1 ((sortPairs_perm pts).mem_iff.1 hp)
      rfl
    rw [h2, ← hsnd]; exact h4
  obtain ⟨f, f1, f2, f3, f4, f5⟩ := key u
  obtain ⟨g, g1, g2, g3, g4, g5⟩ := key v
  have hsub : ∀ x ∈ f.domain ++ g.domain, x ∈ X := by
    intro x hx
    rw [f2, g2, List.mem_append, or_self] at hx
    exact (List.perm_insertionSort _ _).mem_iff.1 hx
  obtain ⟨h, h1, h2, hh, h3, h4, h5⟩ := C165_arithmetic (r := r) (· + ·) hγ f3 (u := u) (v := v) (fun x hx => f5 x (hsub x hx)) fun x hx => g5 x (hsub x hx)
  have hd : h.domain = f.domain := by
    have p1 : f.domain.Pairwise (· ≤ ·) := by rw [f2]; exact List.pairwise_insertionSort _ _
    have p2 : f.domain.Nodup := by rw [f2]; exact (List.perm_insertionSort _ _).nodup_iff.2 hX
    refine List.Perm.eq_of_pairwise' (r := (· ≤ ·)) (hh.imp fun {a b} => le_of_lt) p1 ?_
    refine (List.perm_ext_iff_of_nodup (hh.imp fun {a b} => ne_of_lt) p2).2 fun x => ?_
    rw [h2, g2, ← f2, or_self]
  refine ⟨f, g, h, f1, g1, h1, fun x y z hy hz => ?_⟩
  have hgd : g.domain = f.domain := by rw [f2, g2]
  rw [hgd] at g4
  rw [hd] at h5
  exact hadd _ u v _ _ _ f4 g4 h5 x y z hy hz

/-- C165 (curves from curves): a function found under its name is handed on: a curve built on new points from another one is the function's on
these points, at the values of the old one; giving a function explicitly does the same. -/
theorem C165_resample (hγ : Spec.Reproduces γ) {c : OwnCurve} {X : List ℝ} (hX : X.Nodup) {u : ℝ → ℝ} (hu : ∀ x ∈ X, c.call x = .ok (some (u x)))
    {a : InterpArg} (ha : a = .func γ r ∨ a = .default ∧ (∃ δ, c.interp = .func δ (some γ)) ∧ ∀ x ∈ c.domain, ∃ y, c.call x = .ok y) :
    ∃ d, ∃ pts : List (ℝ × ℝ), OwnCurve.resample X c a = .ok d ∧ pts.Perm (X.map fun x => (x, u x)) ∧ d.domain = pts.map Prod.fst ∧
      d.domain.Pairwise (· < ·) ∧ γ (pts.map Prod.fst) (pts.map Prod.snd) = .ok d.func ∧ ∀ x ∈ X, d.call x = .ok (some (u x)) := by
  set pts : List (ℝ × ℝ) := X.map fun x => (x, u x) with hpts
  have e1 : pts.map Prod.fst = X := by simp [hpts, Function.comp_def]
  have e2 : pts.map Prod.snd = X.map u := by simp [hpts, Function.comp_def]
  have hn : (pts.map Prod.fst).Nodup := by rw [e1]; exact hX
  have hv : pyMap c.num X = .ok (X.map u) := pyMap_ok fun x hx => by simp [OwnCurve.num, hu x hx, pyNum]
  have key : ∀ i : InterpArg, i.call (libFit linearScheme) = γ → OwnCurve.resample X c a = OwnCurve.new X (X.map u) i →
      ∃ d, ∃ pts' : List (ℝ × ℝ), OwnCurve.resample X c a = .ok d ∧ pts'.Perm pts ∧ d.domain = pts'.map Prod.fst ∧
      d.domain.Pairwise (· < ·) ∧ γ (pts'.map Prod.fst) (pts'.map Prod.snd) = .ok d.func ∧ ∀ x ∈ X, d.call x = .ok (some (u x)) := by
    intro i hi he
    obtain ⟨d, h1, h2, h3, h4, h5⟩ := ownNew_ok hγ hi hn
    rw [e1, e2] at h1
    refine ⟨d, sortPairs pts, he.trans h1, sortPairs_perm pts, h2, ?_, h4, fun x hx => h5 (x, u x) (List.mem_map.2 ⟨x, hx, rfl⟩)⟩
    rw [h2, List.pairwise_map]; exact sortPairs_strict hn
  rcases ha with rfl | ⟨rfl, ⟨δ, hδ⟩, hd⟩
  · exact key (.func γ r) rfl (by simp only [OwnCurve.resample, Py.ok_bind, hv])
  · refine key (.named (some γ)) rfl ?_
    have hk : c.kwargs = .ok (.named (some γ)) := by
      unfold OwnCurve.kwargs
      choose! w hw using hd
      rw [pyMap_ok (g := w) hw, hδ]; rfl
    simp only [OwnCurve.resample, hk, Py.ok_bind, hv]

/-- C165 (copies): the copy of a curve whose function is found under its name is the same function on the same points; copies of copies too. -/
theorem C165_copy (hγ : Spec.Reproduces γ) {pts : List (ℝ × ℝ)} (hn : (pts.map Prod.fst).Nodup) :
    ∃ c d d', OwnCurve.new (pts.map Prod.fst) (pts.map Prod.snd) (.func γ (some γ)) = .ok c ∧ c.copy .default = .ok d ∧
      d.copy .default = .ok d' ∧ d.domain = c.domain ∧ (∀ x, d.call x = c.call x) ∧ d'.domain = c.domain ∧ ∀ x, d'.call x = c.call x := by
  have key : ∀ i, i.call (libFit linearScheme) = γ → i.kwarg = .named (some γ) → ∀ c,
      OwnCurve.new (pts.map Prod.fst) (pts.map Prod.snd) i = .ok c →
      ∃ d, c.copy .default = .ok d ∧ d.domain = c.domain ∧ (∀ x, d.call x = c.call x) ∧
        OwnCurve.new (pts.map Prod.fst) (pts.map Prod.snd) (.named (some γ)) = .ok d := by
    intro i hi hk c hc
    obtain ⟨c', h1, h2, h3, h4, h5⟩ := ownNew_ok hγ hi hn
    rw [hc] at h1
    obtain rfl := Except.ok.inj h1
    have hp := sortPairs_perm pts
    obtain ⟨d, k1, k2, k3, k4, k5⟩ := ownNew_ok (i := .named (some γ)) hγ rfl hn
    have hf : d.func = c.func := Except.ok.inj (k4.symm.trans h4)
    refine ⟨d, ?_, by rw [k2, h2], fun x => congrFun hf x, k1⟩
    have hv : pyMap c.num c.domain = .ok ((sortPairs pts).map Prod.snd) := by
      rw [h2, pyMap_map]
      exact pyMap_ok fun p hm => by simp [OwnCurve.num, h5 p (hp.mem_iff.1 hm), pyNum]
    have hkw : c.kwargs = .ok (.named (some γ)) := by
      unfold OwnCurve.kwargs
      rw [h2, pyMap_map, pyMap_ok (g := fun p : ℝ × ℝ => some p.2) fun p hm => h5 p (hp.mem_iff.1 hm), h3, hk]; rfl
    simp only [OwnCurve.copy, OwnCurve.resample, hkw, hv, Py.ok_bind]
    rw [h2, ← k1]
    exact C165_order _ hp
  obtain ⟨c, h1, -⟩ := ownNew_ok (i := .func γ (some γ)) hγ rfl hn
  obtain ⟨d, d1, d2, d3, d4⟩ := key _ rfl rfl c h1
  obtain ⟨d', e1, e2, e3, -⟩ := key _ rfl rfl d d4
  exact ⟨c, d, d', h1, d1, e1, d2, d3, e2.trans d2, fun x => (e3 x).trans (d3 x)⟩

/-- C165 (shifted curves): shifting a curve whose function is found under its name moves its points, at the values the curve has there (as
for curves with the classes of the package). -/
theorem C165_shift (hγ : Spec.Reproduces γ) {c : OwnCurve} (hs : c.domain.Pairwise (· < ·)) (hi : ∃ δ, c.interp = .func δ (some γ))
    (hd : ∀ x ∈ c.domain, ∃ y, c.call x = .ok y) {delta : ℝ} {u : ℝ → ℝ} (hu : ∀ x ∈ c.domain, c.call (x + delta) = .ok (some (u x))) :
    ∃ d, c.shifted delta = .ok d ∧ d.domain = c.domain.map (· + delta) ∧ γ d.domain (c.domain.map u) = .ok d.func ∧
      ∀ x ∈ c.domain, d.call (x + delta) = .ok (some (u x)) := by
  have hX : (c.domain.map (· + delta)).Pairwise (· < ·) := by
    rw [List.pairwise_map]; exact hs.imp fun h => by linarith
  have hn : (c.domain.map (· + delta)).Nodup := hX.imp fun h => h.ne
  obtain ⟨d, pts, h1, h2, h3, h4, h5, h6⟩ := C165_resample (c := c) (X := c.domain.map (· + delta)) (r := none) (u := fun x => u (x - delta)) hγ hn
    (by simpa using hu) (a := .default) (.inr ⟨rfl, hi, hd⟩)
  have e2 : pts = c.domain.map fun x => (x + delta, u x) := by
    have h2' : pts.Perm (c.domain.map fun x => (x + delta, u x)) := by simpa [Function.comp_def] using h2
    refine List.Perm.eq_of_pairwise (le := fun a b : ℝ × ℝ => a.1 < b.1) (fun a b _ _ h h' => absurd h' (not_lt.2 h.le)) ?_ ?_ h2'
    · rw [h3, List.pairwise_map] at h4; exact h4
    · rw [List.pairwise_map]; exact hs.imp fun h => by simpa using h
  subst e2
  refine ⟨d, ?_, by simpa [Function.comp_def] using h3, ?_, fun x hx => ?_⟩
  · rw [← h1, OwnCurve.shifted]
    split_ifs with h0
    · rfl
    · rw [not_not.1 h0]; simp
  · rw [h3]; simpa [Function.comp_def] using h5
  · simpa using h6 (x + delta) (List.mem_map_of_mem hx)

/-- C165 (violation): a function that is not registered under its name is lost: copies and shifted curves raise a TypeError, whatever the points. -/
theorem C165_unregistered_violated (hγ : Spec.Reproduces γ) {pts : List (ℝ × ℝ)} (hn : (pts.map Prod.fst).Nodup) :
    ∃ c, OwnCurve.new (pts.map Prod.fst) (pts.map Prod.snd) (.func γ none) = .ok c ∧ c.copy .default = .error .type ∧
      c.shifted 0 = .error .type ∧ (∀ X : List ℝ, (∀ x ∈ X, ∃ y, c.call x = .ok (some y)) → OwnCurve.resample X c .default = .error .type) ∧
      ∃ d, c.copy (.func γ none) = .ok d ∧ ∀ x, d.call x = c.call x := by
  obtain ⟨c, h1, h2, h3, h4, h5⟩ := ownNew_ok (i := .func γ none) hγ rfl hn
  have hp := sortPairs_perm pts
  have hv : pyMap c.num c.domain = .ok ((sortPairs pts).map Prod.snd) := by
    rw [h2, pyMap_map]
    exact pyMap_ok fun p hm => by simp [OwnCurve.num, h5 p (hp.mem_iff.1 hm), pyNum]
  have hkw : c.kwargs = .ok (.named none) := by
    unfold OwnCurve.kwargs
    rw [h2, pyMap_map, pyMap_ok (g := fun p : ℝ × ℝ => some p.2) fun p hm => h5 p (hp.mem_iff.1 hm), h3]; rfl
  have hcopy : c.copy .default = .error .type := by
    simp only [OwnCurve.copy, OwnCurve.resample, hkw, hv, Py.ok_bind]
    rw [h2, ownNew_points]; rfl
  refine ⟨c, h1, hcopy, by simpa [OwnCurve.shifted, OwnCurve.copy] using hcopy, fun X hX => ?_, c, ?_, fun x => rfl⟩
  · choose! w hw using hX
    simp only [OwnCurve.resample, hkw, Py.ok_bind]
    rw [pyMap_ok (g := w) fun x hx => by simp [OwnCurve.num, hw x hx, pyNum], Py.ok_bind]
    unfold OwnCurve.new
    rw [if_neg (by simp)]; rfl
  · simp only [OwnCurve.copy, OwnCurve.resample, hv, Py.ok_bind]
    rw [h2, ← h1]
    exact C165_order _ hp

/-- C165 (errors): what the function raises on the sorted points is what the constructor raises, what the returned function raises is what the curve
raises; lists of different lengths are refused before the function is called. -/
theorem C165_errors (γ : Fit) (r : Option Fit) :
    (∀ xs ys, xs.length ≠ ys.length → OwnCurve.new xs ys (.func γ r) = .error .value) ∧
    (∀ (pts : List (ℝ × ℝ)) e, (pts.map Prod.fst).Pairwise (· < ·) → γ (pts.map Prod.fst) (pts.map Prod.snd) = .error e →
      OwnCurve.new (pts.map Prod.fst) (pts.map Prod.snd) (.func γ r) = .error e) ∧
    (∀ (pts : List (ℝ × ℝ)) g, (pts.map Prod.fst).Pairwise (· < ·) → γ (pts.map Prod.fst) (pts.map Prod.snd) = .ok g →
      ∃ c, OwnCurve.new (pts.map Prod.fst) (pts.map Prod.snd) (.func γ r) = .ok c ∧ ∀ x, c.call x = g x) := by
  refine ⟨fun xs ys h => ?_, fun pts e hs h => ?_, fun pts g hs h => ?_⟩
  · unfold OwnCurve.new
    rw [if_pos h]; rfl
  · rw [List.pairwise_map] at hs
    rw [ownNew_points, sortPairs_eq_self hs]
    show _ <$> γ _ _ = _
    rw [h]; rfl
  · rw [List.pairwise_map] at hs
    refine ⟨⟨pts.map Prod.fst, .func γ r, g⟩, ?_, fun x => rfl⟩
    rw [ownNew_points, sortPairs_eq_self hs]
    show _ <$> γ _ _ = _
    rw [h]; rfl

end

/-! ### The classes of the package -/

/-- The same interpolation, one of the package: `i` as a class or string of `dcf/interpolation.py`, `a` as a function. -/
def Spec.SameInterp (i : Option FuncSpec) (a : InterpArg) : Prop :=
  match i with
  | none => a = .default
  | some s => (KeptInterp (some s) → a = .func (libFit s) (some (libFit s)) ∨ a = .named (some (libFit s))) ∧
    (¬ KeptInterp (some s) → a = .func (libFit s) none)

/-- The same curve. -/
def Spec.SameCurve (c : Curve) (d : OwnCurve) : Prop :=
  c.domain = d.domain ∧ Spec.SameInterp c.interp d.interp ∧ ∀ x, c.call x = d.call x

/-- The same curve, or the same exception. -/
def Spec.SameResult (x : Py Curve) (y : Py OwnCurve) : Prop :=
  (∃ c d, x = .ok c ∧ y = .ok d ∧ Spec.SameCurve c d) ∨ ∃ e, x = .error e ∧ y = .error e

theorem Spec.SameInterp.call {i : Option FuncSpec} {a : InterpArg} (h : Spec.SameInterp i a) :
    a.call (libFit linearScheme) = libFit (i.getD linearScheme) := by
  match i, h with
  | none, h => rw [show a = .default from h]; rfl
  | some s, h =>
    by_cases hk : KeptInterp (some s)
    · rcases h.1 hk with rfl | rfl <;> rfl
    · rw [h.2 hk]; rfl

theorem sameFit (s : FuncSpec) (xs ys : List ℝ) : ownFit (libFit s) xs ys = (fun p => (p.1, p.2.call)) <$> fitFunc s xs ys := by
  simp only [ownFit, fitFunc, libFit]
  cases Func.new s ((sortPairs (xs.zip ys)).map Prod.fst) ((sortPairs (xs.zip ys)).map Prod.snd) <;> rfl

theorem sameNew {i : Option FuncSpec} {a : InterpArg} (h : Spec.SameInterp i a) (xs ys : List ℝ) :
    Spec.SameResult (Curve.new xs ys i) (OwnCurve.new xs ys a) := by
  unfold Curve.new OwnCurve.new
  rw [h.call]
  by_cases hl : xs.length = ys.length
  · rw [if_neg (not_not.2 hl), if_neg (not_not.2 hl), sameFit]
    cases fitFunc (i.getD linearScheme) xs ys with
    | error e => exact .inr ⟨e, rfl, rfl⟩
    | ok p => exact .inl ⟨_, _, rfl, rfl, rfl, h, fun x => rfl⟩
  · rw [if_pos hl, if_pos hl]
    exact .inr ⟨_, rfl, rfl⟩

theorem Spec.SameCurve.num {c : Curve} {d : OwnCurve} (h : Spec.SameCurve c d) (x : ℝ) : d.num x = c.num x := by
  unfold OwnCurve.num Curve.num; rw [h.2.2]

/-- C165 (package): with the classes of the package as functions the curves are those of the package: the same values, domains and exceptions, in the
constructor, assignments, arithmetic, and curves built from curves. -/
theorem C165_package {c c₂ : Curve} {d d₂ : OwnCurve} (h : Spec.SameCurve c d) (h₂ : Spec.SameCurve c₂ d₂) {i : Option FuncSpec} {a : InterpArg}
    (hi : Spec.SameInterp i a) :
    (∀ xs ys, Spec.SameResult (Curve.new xs ys i) (OwnCurve.new xs ys a)) ∧
    (∀ x, c.call x = d.call x ∧ c.getitem x = d.getitem x) ∧
    (∀ k v, Spec.SameResult (c.setitem k v) (d.setitem k v)) ∧
    (∀ op, Spec.SameResult (c.binop op c₂) (d.binop op d₂)) ∧
    ((∀ x ∈ c.domain, ∃ y, c.call x = .ok (some y)) → (∀ X, (∀ x ∈ X, ∃ y, c.call x = .ok (some y)) →
      Spec.SameResult (Curve.resample X c i) (OwnCurve.resample X d a)) ∧ Spec.SameResult (c.copy i) (d.copy a)) := by
  refine ⟨sameNew hi, fun x => ⟨h.2.2 x, ?_⟩, fun k v => ?_, fun op => ?_, fun hd => ?_⟩
  · unfold Curve.getitem OwnCurve.getitem; rw [h.1, h.2.2]
  · unfold Curve.setitem OwnCurve.setitem
    rw [pyMap_congr (l := d.domain) fun x _ => h.num x, h.1]
    cases pyMap c.num d.domain with
    | error e => exact .inr ⟨e, rfl, rfl⟩
    | ok data =>
      simp only [Py.ok_bind, h.2.1.call, sameFit]
      cases fitFunc (c.interp.getD linearScheme) (setPoint d.domain data k v).1 (setPoint d.domain data k v).2 with
      | error e => exact .inr ⟨e, rfl, rfl⟩
      | ok p => exact .inl ⟨_, _, rfl, rfl, rfl, h.2.1, fun x => rfl⟩
  · unfold Curve.binop OwnCurve.binop
    simp only [h.num, h₂.num, h.1, h₂.1]
    cases pyMap (fun x => do .ok (op (← c.num x) (← c₂.num x))) (sortedSet (d.domain ++ d₂.domain)) with
    | error e => exact .inr ⟨e, rfl, rfl⟩
    | ok ys => exact sameNew h.2.1 _ _
  · have hkw : d.kwargs = .ok d.interp.kwarg := by
      unfold OwnCurve.kwargs
      choose! w hw using hd
      rw [pyMap_ok (g := fun x : ℝ => some (w x))]
      · rfl
      · intro x hx
        rw [← h.2.2]; exact hw x (by rw [h.1]; exact hx)
    have hre : ∀ X, (∀ x ∈ X, ∃ y, c.call x = .ok (some y)) → Spec.SameResult (Curve.resample X c i) (OwnCurve.resample X d a) := by
      intro X hX
      choose! w hw using hX
      have hv : pyMap c.num X = .ok (X.map w) := pyMap_ok fun x hx => by simp [Curve.num, hw x hx, pyNum]
      have hv' : pyMap d.num X = .ok (X.map w) := by rw [pyMap_congr (g := c.num) fun x _ => h.num x, hv]
      unfold Curve.resample OwnCurve.resample
      rw [hv, hv']
      match i, hi with
      | none, hi =>
        obtain rfl : a = .default := hi
        simp only [hkw, Py.ok_bind]
        have hs := h.2.1
        revert hs
        cases hci : c.interp with
        | none =>
          intro hs
          rw [show d.interp = .default from hs]
          exact sameNew (i := none) rfl _ _
        | some s =>
          intro hs
          by_cases hk : KeptInterp (some s)
          · rw [keepInterp_kept hk]
            rcases hs.1 hk with he | he <;> rw [he] <;>
              exact sameNew (i := some s) ⟨fun _ => .inr rfl, fun hn => absurd hk hn⟩ _ _
          · rw [keepInterp_lost hk, hs.2 hk]
            refine .inr ⟨.type, rfl, ?_⟩
            unfold OwnCurve.new
            rw [if_neg (by simp)]; rfl
      | some s, hi =>
        simp only [keepInterp, Py.ok_bind]
        by_cases hk : KeptInterp (some s)
        · rcases hi.1 hk with rfl | rfl <;> exact sameNew hi _ _
        · obtain rfl := hi.2 hk
          exact sameNew hi _ _
    exact ⟨hre, by unfold Curve.copy OwnCurve.copy; rw [← h.1]; exact hre _ hd⟩

/-! ### Date curves -/

section
variable {D P : Type} [DecidableEq D] {cal : Cal D P} {γ : Fit} {i : InterpArg} {r : Option Fit} {dc : DayCountArg D} {τ : D → D → ℝ} {o : D}

theorem ownUpdate_points (hγ : Spec.Reproduces γ) {c : OwnDateCurve D} (hi : c.interp.call (libFit c.dflt) = γ) (ho : c.origin = some o)
    (hτ : ∀ a b, c.dc.eval cal a b = .ok (τ a b)) {pts : List (D × ℝ)} (hn : (pts.map fun p => τ o p.1).Nodup) :
    ∃ g, c.update cal (pts.map Prod.fst) (pts.map Prod.snd) = .ok { c with domain := pts.map Prod.fst, func := g } ∧
      γ ((sortPairs (timePts τ o pts)).map Prod.fst) ((sortPairs (timePts τ o pts)).map Prod.snd) = .ok g ∧
      ∀ p ∈ pts, g (τ o p.1) = .ok (some p.2) := by
  have hn' : ((timePts τ o pts).map Prod.fst).Nodup := by rw [timePts_fst, List.map_map]; exact hn
  obtain ⟨g, hg, hp⟩ := hγ (sortPairs (timePts τ o pts)) (by rw [List.pairwise_map]; exact sortPairs_strict hn')
  refine ⟨g, ?_, hg, fun p hm => hp (τ o p.1, p.2) ((sortPairs_perm _).mem_iff.2 (List.mem_map.2 ⟨p, hm, rfl⟩))⟩
  unfold OwnDateCurve.update
  rw [pyMap_ok (g := τ o) fun x _ => by simp [OwnDateCurve.time, ho, pyDate, hτ], Py.ok_bind, ← timePts_fst, ← timePts_snd τ o pts, hi,
    ownFit_points, hg]
  rfl

theorem ownDates_new (hγ : Spec.Reproduces γ) (hi : ∀ f, i.call f = γ) (hτ : ∀ a b, dc.eval cal a b = .ok (τ a b)) {pts : List (D × ℝ)}
    (hn : (pts.map fun p => τ o p.1).Nodup) (dflt : FuncSpec) :
    ∃ c, ∃ sorted : List (ℝ × ℝ), OwnDateCurve.new cal (pts.map Prod.fst) (pts.map Prod.snd) i (some o) dc dflt = .ok c ∧
      c.domain = pts.map Prod.fst ∧ sorted.Perm (pts.map fun p => (τ o p.1, p.2)) ∧ (sorted.map Prod.fst).Pairwise (· < ·) ∧
      (∃ g, γ (sorted.map Prod.fst) (sorted.map Prod.snd) = .ok g ∧ ∀ x, c.call cal x = g (τ o x)) ∧
      ∀ p ∈ pts, c.call cal p.1 = .ok (some p.2) := by
  have hn' : ((timePts τ o pts).map Prod.fst).Nodup := by rw [timePts_fst, List.map_map]; exact hn
  set raw : OwnDateCurve D := ⟨pts.map Prod.fst, some o, dc, i, dflt, [], fun _ => .ok none⟩ with hraw
  obtain ⟨g, h1, h2, h3⟩ := ownUpdate_points (cal := cal) (c := raw) hγ (hi _) rfl hτ hn
  have hcall : ∀ x, OwnDateCurve.call cal { raw with domain := pts.map Prod.fst, func := g } x = g (τ o x) := by
    intro x
    show (do g (← OwnDateCurve.time cal _ x)) = _
    have : OwnDateCurve.time cal { raw with domain := pts.map Prod.fst, func := g } x = .ok (τ o x) := by
      show dc.eval cal o x = _
      rw [hτ]
    rw [this]; rfl
  refine ⟨_, sortPairs (timePts τ o pts), ?_, rfl, sortPairs_perm _, ?_, ⟨g, h2, hcall⟩, fun p hp => (hcall _).trans (h3 p hp)⟩
  · unfold OwnDateCurve.new
    rw [if_neg (by simp)]
    exact h1
  · rw [List.pairwise_map]; exact sortPairs_strict hn'

/-- C165 (date curves): the function gets the year fractions from the origin to the given dates in increasing order, and the curve is what it returns at the
year fraction of a date; the given values are taken. -/
theorem C165_dates (hγ : Spec.Reproduces γ) (hτ : ∀ a b, dc.eval cal a b = .ok (τ a b)) {pts : List (D × ℝ)}
    (hn : (pts.map fun p => τ o p.1).Nodup) (dflt : FuncSpec) :
    ∃ c, ∃ sorted : List (ℝ × ℝ), OwnDateCurve.new cal (pts.map Prod.fst) (pts.map Prod.snd) (.func γ r) (some o) dc dflt = .ok c ∧
      c.domain = pts.map Prod.fst ∧ sorted.Perm (pts.map fun p => (τ o p.1, p.2)) ∧ (sorted.map Prod.fst).Pairwise (· < ·) ∧
      (∃ g, γ (sorted.map Prod.fst) (sorted.map Prod.snd) = .ok g ∧ ∀ x, c.call cal x = g (τ o x)) ∧
      ∀ p ∈ pts, c.call cal p.1 = .ok (some p.2) :=
  ownDates_new (i := .func γ r) hγ (fun _ => rfl) hτ hn dflt

/-- C165 (assignment, date curves): along every sequence of assignments the curve takes the values of the map receiving the same updates. -/
theorem C165_dates_assign (hγ : Spec.Reproduces γ) (hτ : ∀ a b, dc.eval cal a b = .ok (τ a b)) (hinj : Function.Injective (τ o))
    (start ops : List (D × ℝ)) (hn : (start.map Prod.fst).Nodup) (dflt : FuncSpec) :
    ∃ c, (do let c ← OwnDateCurve.new cal (start.map Prod.fst) (start.map Prod.snd) (.func γ r) (some o) dc dflt
             ops.foldlM (fun c (kv : D × ℝ) => OwnDateCurve.setitem cal c kv.1 kv.2) c) = .ok c ∧
      (∀ x, x ∈ c.domain ↔ (assignMap (pointMap start) ops x).isSome) ∧
      (∀ x y, assignMap (pointMap start) ops x = some y → c.call cal x = .ok (some y)) := by
  let mk : List (D × ℝ) → (ℝ → Py (Option ℝ)) → OwnDateCurve D := fun pts g => ⟨pts.map Prod.fst, some o, dc, .func γ r, dflt, [], g⟩
  have hnt : ∀ pts : List (D × ℝ), (pts.map Prod.fst).Nodup → (pts.map fun p => τ o p.1).Nodup := by
    intro pts h
    have := h.map hinj
    rwa [List.map_map] at this
  have hcall : ∀ pts g x, (mk pts g).call cal x = g (τ o x) := by
    intro pts g x
    show (do g (← OwnDateCurve.time cal _ x)) = _
    have : OwnDateCurve.time cal (mk pts g) x = .ok (τ o x) := by
      show dc.eval cal o x = _
      rw [hτ]
    rw [this]; rfl
  have hstep : ∀ pts g, (pts.map Prod.fst).Nodup → (∀ p ∈ pts, g (τ o p.1) = .ok (some p.2)) → ∀ k v,
      ∃ g', (mk pts g).setitem cal k v = .ok (mk (putPt pts k v) g') ∧ ∀ p ∈ putPt pts k v, g' (τ o p.1) = .ok (some p.2) := by
    intro pts g hn hg k v
    have hv : pyMap ((mk pts g).num cal) (mk pts g).domain = .ok (pts.map Prod.snd) := by
      show pyMap _ (pts.map Prod.fst) = _
      rw [pyMap_map]
      exact pyMap_ok fun p hp => by simp [OwnDateCurve.num, hcall, hg p hp, pyNum]
    obtain ⟨g', h1, -, h3⟩ := ownUpdate_points (cal := cal) (c := mk pts g) (o := o) hγ rfl rfl hτ (hnt _ (putPt_nodup hn k v))
    refine ⟨g', ?_, h3⟩
    unfold OwnDateCurve.setitem
    rw [hv, Py.ok_bind]
    show OwnDateCurve.update cal (mk pts g) (setPoint (pts.map Prod.fst) (pts.map Prod.snd) k v).1 (setPoint (pts.map Prod.fst) (pts.map Prod.snd) k v).2 = _
    rw [setPoint_eq hn]
    exact h1
  have hfold : ∀ (ops pts : List (D × ℝ)) g, (pts.map Prod.fst).Nodup → (∀ p ∈ pts, g (τ o p.1) = .ok (some p.2)) →
      ∃ g', ops.foldlM (fun c (kv : D × ℝ) => OwnDateCurve.setitem cal c kv.1 kv.2) (mk pts g) =
        .ok (mk (ops.foldl (fun l kv => putPt l kv.1 kv.2) pts) g') ∧
        ∀ p ∈ ops.foldl (fun l kv => putPt l kv.1 kv.2) pts, g' (τ o p.1) = .ok (some p.2) := by
    intro ops
    induction ops with
    | nil => intro pts g _ hg; exact ⟨g, rfl, hg⟩
    | cons q ops ih =>
      intro pts g hn hg
      obtain ⟨g', e, hg'⟩ := hstep pts g hn hg q.1 q.2
      rw [List.foldlM_cons, e, Py.ok_bind, List.foldl_cons]
      exact ih _ _ (putPt_nodup hn _ _) hg'
  obtain ⟨g, h1, -, h3⟩ := ownUpdate_points (cal := cal) (c := mk start fun _ => .ok none) (o := o) hγ rfl rfl hτ (hnt _ hn)
  obtain ⟨g', e, hg'⟩ := hfold ops start g hn h3
  obtain ⟨hm, hn', -⟩ := assign_points hn ops
  set pts := ops.foldl (fun l kv => putPt l kv.1 kv.2) start with hpts
  refine ⟨mk pts g', ?_, fun x => ?_, fun x y hxy => ?_⟩
  · have : OwnDateCurve.new cal (start.map Prod.fst) (start.map Prod.snd) (.func γ r) (some o) dc dflt = .ok (mk start g) := by
      unfold OwnDateCurve.new
      rw [if_neg (by simp)]
      exact h1
    rw [this, Py.ok_bind, e]
  · rw [← hm, Option.isSome_iff_exists]
    simp only [pointMap_some hn']
    simp [mk]
  · rw [hcall]
    exact hg' (x, y) ((pointMap_some hn').1 (by rw [hm]; exact hxy))

/-- C165 (date curves from date curves): the function is handed on if it is found under its name, otherwise there is a TypeError. -/
theorem C165_dates_resample (hγ : Spec.Reproduces γ) (hτ : ∀ a b, dc.kwarg.eval cal a b = .ok (τ a b)) {c : OwnDateCurve D} (hc : c.dc = dc)
    (ho : c.origin? = some o) (hd : ∀ x ∈ c.domain, ∃ y, c.call cal x = .ok y) {X : List D} {u : D → ℝ}
    (hX : (X.map (τ o)).Nodup) (hu : ∀ x ∈ X, c.call cal x = .ok (some (u x))) :
    (∀ δ, c.interp = .func δ (some γ) → ∃ d, ∃ sorted : List (ℝ × ℝ), c.resample cal X = .ok d ∧ d.domain = X ∧
      sorted.Perm (X.map fun x => (τ o x, u x)) ∧ (sorted.map Prod.fst).Pairwise (· < ·) ∧
      (∃ g, γ (sorted.map Prod.fst) (sorted.map Prod.snd) = .ok g ∧ ∀ x, d.call cal x = g (τ o x)) ∧
      ∀ x ∈ X, d.call cal x = .ok (some (u x))) ∧
    (∀ δ, c.interp = .func δ none → c.resample cal X = .error .type) := by
  set pts : List (D × ℝ) := X.map fun x => (x, u x) with hpts
  have e1 : pts.map Prod.fst = X := by simp [hpts, Function.comp_def]
  have e2 : pts.map Prod.snd = X.map u := by simp [hpts, Function.comp_def]
  have e3 : (pts.map fun p => τ o p.1) = X.map (τ o) := by simp [hpts, Function.comp_def]
  have e4 : (pts.map fun p => (τ o p.1, p.2)) = X.map fun x => (τ o x, u x) := by simp [hpts, Function.comp_def]
  have hv : pyMap (c.num cal) X = .ok (X.map u) := pyMap_ok fun x hx => by simp [OwnDateCurve.num, hu x hx, pyNum]
  have hre : c.resample cal X = OwnDateCurve.new cal X (X.map u) c.interp.kwarg (some o) dc.kwarg c.dflt := by
    choose! w hw using hd
    unfold OwnDateCurve.resample
    rw [pyMap_ok (g := w) hw, Py.ok_bind, hv, Py.ok_bind, ho, hc]
  refine ⟨fun δ hδ => ?_, fun δ hδ => ?_⟩
  · obtain ⟨d, sorted, h1, h2, h3, h4, h5, h6⟩ := ownDates_new (cal := cal) (i := .named (some γ)) hγ (fun _ => rfl) hτ (o := o) (pts := pts)
      (by rw [e3]; exact hX) c.dflt
    rw [e1, e2] at h1
    rw [e4] at h3
    rw [hre, hδ]
    exact ⟨d, sorted, h1, h2.trans e1, h3, h4, h5, fun x hx => h6 (x, u x) (List.mem_map.2 ⟨x, hx, rfl⟩)⟩
  · rw [hre, hδ]
    unfold OwnDateCurve.new OwnDateCurve.update
    rw [if_neg (by simp)]
    rw [pyMap_ok (g := τ o) fun x _ => by simp [OwnDateCurve.time, OwnDateCurve.origin, pyDate, hτ]]
    rfl

end

/-! ### Examples -/

/-- A function through its points that is `0` elsewhere. -/
noncomputable def exSpikes : Fit := fun xs ys => .ok fun x => .ok (some (((xs.zip ys).lookup x).getD 0))

theorem exSpikes_reproduces : Spec.Reproduces exSpikes := by
  intro pts hs
  refine ⟨_, rfl, fun p hp => ?_⟩
  have hn : (pts.map Prod.fst).Nodup := hs.imp fun {a b} => ne_of_lt
  have := (pointMap_some hn (x := p.1) (y := p.2)).2 hp
  unfold pointMap at this
  rw [zip_unzip', this]; rfl

/-- C165 (violation): a function named like a class of the package, here `linear`, is replaced by that class in copies, without an error. -/
theorem C165_renamed_violated : Spec.Reproduces exSpikes ∧ ∃ c d, OwnCurve.new [0, 2] [1, 3] (.func exSpikes (some (libFit (.base .linear)))) = .ok c ∧
    c.copy .default = .ok d ∧ c.call 1 = .ok (some 0) ∧ d.call 1 = .ok (some 2) := by
  refine ⟨exSpikes_reproduces, ?_⟩
  have hn : (([(0, 1), (2, 3)] : List (ℝ × ℝ)).map Prod.fst).Nodup := by simp
  have hs : StrictX ([(0, 1), (2, 3)] : List (ℝ × ℝ)) := by simp [StrictX]
  obtain ⟨c, h1, h2, h3, h4, h5⟩ := ownNew_ok (i := .func exSpikes (some (libFit (.base .linear)))) exSpikes_reproduces rfl hn
  rw [sortPairs_eq_self hs] at h2 h4
  have hv : pyMap c.num c.domain = .ok [1, 3] := by
    have a1 := h5 (0, 1) (by simp)
    have a2 := h5 (2, 3) (by simp)
    rw [h2]
    simp [pyMap_cons, OwnCurve.num, a1, a2, pyNum]
  have hkw : c.kwargs = .ok (.named (some (libFit (.base .linear)))) := by
    have a1 := h5 (0, 1) (by simp)
    have a2 := h5 (2, 3) (by simp)
    unfold OwnCurve.kwargs
    rw [h2, h3]
    simp [pyMap_cons, a1, a2, InterpArg.kwarg]
  have hd : c.copy .default = (fun g : Func => ⟨[0, 2], .named (some (libFit (.base .linear))), g.call⟩) <$> Func.new (.base .linear) [0, 2] [1, 3] := by
    simp only [OwnCurve.copy, OwnCurve.resample, hkw, hv, Py.ok_bind]
    rw [h2]
    have := ownNew_points (.named (some (libFit (.base .linear)))) [(0, 1), (2, 3)]
    rw [sortPairs_eq_self hs] at this
    refine this.trans ?_
    show _ <$> (Func.call <$> Func.new (.base .linear) [0, 2] [1, 3]) = _
    cases Func.new (.base .linear) [0, 2] [1, 3] <;> rfl
  rw [show Func.new (.base .linear) [0, 2] [1, 3] = .ok (funcOf (.base .linear) [(0, 1), (2, 3)]) from
    Func_new_eq (.base .linear) (pts := [(0, 1), (2, 3)]) hn (by simp [FuncSpec.isLog, Kind.isLog])] at hd
  refine ⟨c, _, h1, hd, ?_, ?_⟩
  · have := Except.ok.inj h4
    show c.func 1 = _
    rw [← this]
    have e1 : ((1 : ℝ) == 0) = false := by norm_num
    have e2 : ((1 : ℝ) == 2) = false := by norm_num
    simp [List.lookup_cons, e1, e2]
  · show (funcOf (.base .linear) [(0, 1), (2, 3)]).call 1 = _
    simp only [funcOf, Func.call, Interp.call, interpOf, storedPts, sortPairs_eq_self hs, linearCall_eq hs (by simp), plin, Spec.chord, Py.map_ok]
    norm_num

/-- C165 (fixings): a fixing of a date curve is its value there, whatever the function does. -/
theorem C165_fixings {D P : Type} [DecidableEq D] (cal : Cal D P) {c : OwnDateCurve D} {x : D} {y : ℝ} (h : c.fixings.get x = some y) :
    c.call cal x = .ok (some y) := by
  simp [OwnDateCurve.call, h]

/-- The functions of the examples meet the hypotheses: points, sums and copies of curves with an own function. -/
example : ∃ c, OwnCurve.new [2, 0] [3, 1] (.func exSpikes none) = .ok c ∧ c.call 2 = .ok (some 3) ∧ c.call 0 = .ok (some 1) ∧ c.call 1 = .ok (some 0) := by
  obtain ⟨c, s, h1, h2, h3, h4, ⟨g, h5, h6⟩, h7⟩ := C165_points (r := none) exSpikes_reproduces (pts := [(2, 3), (0, 1)]) (by simp)
  refine ⟨c, h1, (h7 (2, 3) (by simp)).1, (h7 (0, 1) (by simp)).1, ?_⟩
  rw [h6, ← Except.ok.inj h5]
  have : s.lookup 1 = none := by
    rw [List.lookup_eq_none_iff]
    intro p hp
    have := h2.mem_iff.1 hp
    simp only [List.mem_cons, List.not_mem_nil, or_false] at this
    rcases this with rfl | rfl <;> norm_num
  simp [zip_unzip', this]

example {X : List ℝ} (hX : X.Nodup) (u v : ℝ → ℝ) : ∃ f g h, OwnCurve.new X (X.map u) (.func exSpikes none) = .ok f ∧
    OwnCurve.new X (X.map v) (.func exSpikes none) = .ok g ∧ f.binop (· + ·) g = .ok h ∧
      ∀ x y z, f.call x = .ok (some y) → g.call x = .ok (some z) → h.call x = .ok (some (y + z)) := by
  refine C165_additive exSpikes_reproduces (fun X u v a b c ha hb hc x ya yb hya hyb => ?_) hX u v
  obtain rfl := Except.ok.inj ha
  obtain rfl := Except.ok.inj hb
  obtain rfl := Except.ok.inj hc
  have key : ∀ (X : List ℝ) (w : ℝ → ℝ), ((X.zip (X.map w)).lookup x).getD 0 = if x ∈ X then w x else 0 := by
    intro X w
    induction X with
    | nil => simp
    | cons p l ih =>
      rw [List.map_cons, List.zip_cons_cons, List.lookup_cons]
      by_cases hx : x = p
      · subst hx; simp
      · have : (x == p) = false := by simpa using hx
        simp only [this, List.mem_cons, hx, false_or]
        exact ih
  simp only [key, Except.ok.injEq, Option.some.injEq] at hya hyb ⊢
  rw [← hya, ← hyb]
  split_ifs <;> simp

example : Spec.SameInterp (some (.base .linear)) (.func (libFit (.base .linear)) (some (libFit (.base .linear)))) :=
  ⟨fun _ => .inl rfl, fun h => absurd (fun l m r h => by simp at h) h⟩

example : ∃ c, OwnDateCurve.new dayCal [30, 10] [3, 1] (.func exSpikes none) (some 10) .default linearScheme = .ok c ∧ c.call dayCal 30 = .ok (some 3) := by
  obtain ⟨c, s, h1, -, -, -, -, h⟩ := C165_dates (cal := dayCal) (r := none) (τ := dayCal.dayCount) (o := 10) exSpikes_reproduces (dc := .default) (fun a b => rfl)
    (pts := [(30, 3), (10, 1)]) (by simp [dayCal]; norm_num) linearScheme
  exact ⟨c, h1, h (30, 3) (by simp)⟩

/-! ### The hypotheses can be met: each theorem applied -/

example := C165_assign (r := none) exSpikes_reproduces [(2, 3), (0, 1)] [(5, 4), (2, 7)] (by simp)
example := C165_copy exSpikes_reproduces (pts := [(2, 3), (0, 1)]) (by simp)
example := C165_unregistered_violated exSpikes_reproduces (pts := [(2, 3), (0, 1)]) (by simp)
example := C165_dates_assign (cal := dayCal) (τ := dayCal.dayCount) (dc := .default) (o := 10) (r := none) exSpikes_reproduces (fun _ _ => rfl)
  (fun a b h => by simpa [dayCal] using h) [(30, 3), (10, 1)] [(20, 2), (30, 5)] (by simp) linearScheme

/-- Spikes added, sampled, shifted and resampled: they are numbers everywhere. -/
theorem exSpikes_call {c : OwnCurve} {pts : List (ℝ × ℝ)} {r : Option Fit} (h : OwnCurve.new (pts.map Prod.fst) (pts.map Prod.snd) (.func exSpikes r) = .ok c)
    (hn : (pts.map Prod.fst).Nodup) : ∃ u : ℝ → ℝ, ∀ x, c.call x = .ok (some (u x)) := by
  obtain ⟨c', s, h1, h2, h3, h4, ⟨g, h5, h6⟩, h7⟩ := C165_points (r := r) exSpikes_reproduces hn
  obtain rfl := Except.ok.inj (h1.symm.trans h)
  exact ⟨_, fun x => by rw [h6, ← Except.ok.inj h5]⟩

example : ∃ c h d e, OwnCurve.new [2, 0] [3, 1] (.func exSpikes (some exSpikes)) = .ok c ∧ c.binop (· * ·) c = .ok h ∧
    OwnCurve.resample [1, 5] c .default = .ok d ∧ c.shifted 3 = .ok e := by
  obtain ⟨c, h1, h2, hi, -⟩ := ownNew_ok exSpikes_reproduces (i := .func exSpikes (some exSpikes)) rfl (pts := [(2, 3), (0, 1)]) (by simp)
  obtain ⟨u, hu⟩ := exSpikes_call h1 (by simp)
  obtain ⟨h, hh, -⟩ := C165_arithmetic (r := some exSpikes) (· * ·) exSpikes_reproduces hi (fun x _ => hu x) (fun x _ => hu x)
  obtain ⟨d, -, hd, -⟩ := C165_resample (r := none) (X := [1, 5]) exSpikes_reproduces (by norm_num) (fun x _ => hu x) (.inr ⟨rfl, ⟨_, hi⟩, fun x _ => ⟨_, hu x⟩⟩)
  obtain ⟨e, he, -⟩ := C165_shift exSpikes_reproduces (c := c) (by rw [h2, List.pairwise_map]; exact sortPairs_strict (by simp)) ⟨_, hi⟩ (fun x _ => ⟨_, hu x⟩) (delta := 3) (fun x _ => hu _)
  exact ⟨c, h, d, e, h1, hh, hd, he⟩

end Dcf
