import Verif.Props.OwnProbability
import Verif.Props.MarginalArith

/-! # C190: arithmetic and `kwargs` of marginal probability curves with an interpolation written by the user -/

set_option linter.unusedSectionVars false
set_option linter.unusedSimpArgs false
set_option linter.unusedVariables false

namespace Dcf

open Spec

/-- An interpolation through its points that stays between `a` and 1 if its points do. -/
structure Spec.BandInterpolation (γ : Fit) (a : ℝ) : Prop where
  interpolates : Spec.Interpolates γ
  band : ∀ pts : List (ℝ × ℝ), pts ≠ [] → (pts.map Prod.fst).Pairwise (· < ·) → (∀ p ∈ pts, a ≤ p.2 ∧ p.2 ≤ 1) →
    ∀ g : ℝ → ℝ, γ (pts.map Prod.fst) (pts.map Prod.snd) = .ok (fun x => .ok (some (g x))) → ∀ x, a ≤ g x ∧ g x ≤ 1

/-- What the constructor makes of a marginal probability. -/
noncomputable def marginalProb (cls : CRClass) (y : ℝ) : ℝ := if cls = .marginalDefault then clampProb (1 - y) else clampProb y

theorem marginalProb_le (cls : CRClass) (y : ℝ) : marginalProb cls y ≤ 1 := by unfold marginalProb; split_ifs <;> exact (clampProb_mem _).2

section
variable {D P : Type} [LinearOrder D] {cal : Cal D P} {γ γ' : Fit} {r r' : Option Fit} {dc : DayCountArg D} {o : D} {o? : Option D}
  {tenor : Option P} {pts : List (D × ℝ)}

/-- The curve object of a marginal probability class with an own interpolation. -/
theorem ownMarg_eq (hγ : Spec.Interpolates γ) (hn : (pts.map Prod.fst).Nodup) (hne : pts ≠ []) (ho : o?.or (pts.map Prod.fst).head? = some o)
    (hd : dc.Usable) (hτ : GoodDayCount (dc.fn cal)) {cls : CRClass} (hcls : cls = .marginal ∨ cls = .marginalDefault) (tenor : Option P) :
    ∃ (c : CRCurve D P) (w : D → ℝ), (∀ r, CRCurve.own cal cls (pts.map Prod.fst) (pts.map Prod.snd) (.func γ r) o? dc tenor = .ok c) ∧
      CRCurve.own cal cls (pts.map Prod.fst) (pts.map Prod.snd) (.named (some γ)) o? dc tenor = .ok c ∧
      (∀ x, c.call cal x = .ok (w x)) ∧ (∀ p ∈ pts, w p.1 = marginalProb cls p.2) ∧ c.base.origin = some o ∧ c.base.origin? = o? ∧ c.base.dc = dc ∧
      c.base.domain = pts.map Prod.fst ∧ c.cls = cls ∧ c.tenor = tenor ∧ (∀ a, Spec.BandInterpolation γ a → (∀ p ∈ pts, a ≤ marginalProb cls p.2) → ∀ x, a ≤ w x ∧ w x ≤ 1) ∧
      ∃ g : ℝ → ℝ, (∀ x, w x = g (dc.fn cal o x)) ∧ γ ((sortPairs (timePts (dc.fn cal) o (pts.map fun p => (p.1, marginalProb cls p.2)))).map Prod.fst)
        ((sortPairs (timePts (dc.fn cal) o (pts.map fun p => (p.1, marginalProb cls p.2)))).map Prod.snd) = .ok (fun t => .ok (some (g t))) := by
  set pts' := pts.map fun p => (p.1, marginalProb cls p.2) with hpts
  have e1 : pts'.map Prod.fst = pts.map Prod.fst := by simp [hpts, Function.comp_def]
  have e2 : pts'.map Prod.snd = (pts.map Prod.snd).map (marginalProb cls) := by simp [hpts, Function.comp_def]
  have hn' : (pts'.map Prod.fst).Nodup := by rw [e1]; exact hn
  have hne' : pts' ≠ [] := by simpa [hpts] using hne
  have hpos : ∀ y, 0 < marginalProb cls y := fun y => by unfold marginalProb; split_ifs <;> exact clampProb_pos _
  obtain ⟨g, h1, h2, h3, h4⟩ := ownRate_eq (r := none) (tenor := tenor) (pts := pts') hγ hn' hne' (by rw [e1]; exact ho) hd hτ cls.dflt
  have hrun := fun i => ownRate_run (cal := cal) (tenor := tenor) (pts := pts') hd (by rw [e1]; exact ho) i cls.dflt
  rw [e1] at h1 h2
  have hdata : (cls.complement (pts.map Prod.snd)).map clampProb = pts'.map Prod.snd := by
    rw [e2]
    rcases hcls with rfl | rfl
    · simp [CRClass.complement, marginalProb, Function.comp_def]
    · simp [CRClass.complement, marginalProb, Function.comp_def]
  have hp : cls.isProb = true := by rcases hcls with rfl | rfl <;> rfl
  have hz : ¬ ¬ ∀ y ∈ pts'.map Prod.snd, y ≠ 0 := fun h => h fun y hy => by
    rw [e2] at hy
    obtain ⟨q, -, rfl⟩ := List.mem_map.1 hy
    exact (hpos q).ne'
  refine ⟨⟨ownOf o? dc cls.dflt tenor (pts.map Prod.fst) fun x => .ok (some (g x)), cls⟩, fun x => g (dc.fn cal o x), fun r => ?_, ?_, h2,
    fun p hp' => h3 (p.1, marginalProb cls p.2) (List.mem_map.2 ⟨p, hp', rfl⟩), ho, rfl, rfl, rfl, rfl, rfl, fun a hγ' ha x => ?_, g, fun _ => rfl, h4⟩
  · unfold CRCurve.own
    simp only [hp, if_true, hdata, true_and]
    rw [if_neg hz, ← e1, hrun]
    show (do let c ← _ <$> γ _ _; _) = _
    rw [h4]; rfl
  · unfold CRCurve.own
    simp only [hp, if_true, hdata, true_and]
    rw [if_neg hz, ← e1, hrun]
    show (do let c ← _ <$> γ _ _; _) = _
    rw [h4]; rfl
  · have hs := sortPairs_strict (timePts_nodup hτ o hn')
    refine hγ'.band (sortPairs (timePts (dc.fn cal) o pts')) (sortPairs_ne_nil (by simpa [timePts] using hne')) ?_ ?_ g h4 _
    · rw [List.pairwise_map]; exact hs
    · intro p hp'
      obtain ⟨q, hq, rfl⟩ := List.mem_map.1 ((sortPairs_perm _).subset hp')
      obtain ⟨q', hq', rfl⟩ := List.mem_map.1 hq
      exact ⟨ha q' hq', marginalProb_le _ _⟩

/-- C190 (`kwargs`): a marginal survival probability curve whose interpolation is found by its name is rebuilt from its `kwargs`; for a function that is
not found this raises. -/
theorem C190_kwargs (hγ : Spec.Interpolates γ) (hn : (pts.map Prod.fst).Nodup) (hne : pts ≠ []) (ho : o?.or (pts.map Prod.fst).head? = some o)
    (hτ : GoodDayCount cal.dayCount) (tenor : Option P) : ∃ c : CRCurve D P,
      (∀ r, CRCurve.own cal .marginal (pts.map Prod.fst) (pts.map Prod.snd) (.func γ r) o? .default tenor = .ok c) ∧
      c.ownRebuild cal (.func γ (some γ)) = .ok c ∧ c.ownRebuild cal (.func γ none) = .error .type := by
  have hτ' : GoodDayCount (DayCountArg.fn cal .default) := hτ
  obtain ⟨c, w, h1, h2, h3, h4, h5, h6, h7, h8, h9, h10, -⟩ := ownMarg_eq (dc := .default) hγ hn hne ho trivial hτ' (cls := .marginal) (.inl rfl) tenor
  have hv : pyMap (c.call cal) (pts.map Prod.fst) = .ok ((pts.map Prod.snd).map clampProb) := by
    rw [pyMap_map, List.map_map]; exact pyMap_ok fun p hp => by rw [h3, h4 p hp]; rfl
  have hcc : ((pts.map Prod.snd).map clampProb).map clampProb = (pts.map Prod.snd).map clampProb := by
    rw [List.map_map]; exact List.map_congr_left fun y _ => clampProb_clampProb y
  have hown : ∀ i : InterpArg, CRCurve.own cal .marginal (pts.map Prod.fst) ((pts.map Prod.snd).map clampProb) i o? (.default : DayCountArg D) tenor =
      CRCurve.own cal .marginal (pts.map Prod.fst) (pts.map Prod.snd) i o? .default tenor := fun i => by
    simp only [CRCurve.own, CRClass.complement, CRClass.isProb, if_true, hcc]
  refine ⟨c, h1, ?_, ?_⟩
  · simp only [CRCurve.ownRebuild, h6, h7, h8, h9, h10, hv, Py.ok_bind]
    exact (hown _).trans h2
  · simp only [CRCurve.ownRebuild, h6, h7, h8, h9, h10, hv, Py.ok_bind]
    refine (hown (.named none)).trans ?_
    have hz : ¬ ¬ ∀ y ∈ (pts.map Prod.snd).map clampProb, y ≠ 0 := fun h => h fun y hy => by
      obtain ⟨q, -, rfl⟩ := List.mem_map.1 hy
      exact (clampProb_pos q).ne'
    simp only [CRCurve.own, CRClass.complement, CRClass.isProb, if_true, true_and, if_neg hz]
    have e1 : (pts.map fun p => (p.1, clampProb p.2)).map Prod.fst = pts.map Prod.fst := by simp [Function.comp_def]
    have e2 : (pts.map fun p => (p.1, clampProb p.2)).map Prod.snd = (pts.map Prod.snd).map clampProb := by simp [Function.comp_def]
    rw [← e1, ← e2, ownRate_run (dc := .default) (o := o) trivial (by rw [e1]; exact ho)]; rfl

/-- C190 (`kwargs`, refuted for marginal default probabilities): the curve rebuilt from its `kwargs` has the complements, at the given dates. -/
theorem C190_kwargs_violated (hγ : Spec.Interpolates γ) (hn : (pts.map Prod.fst).Nodup) (hne : pts ≠ []) (ho : o?.or (pts.map Prod.fst).head? = some o)
    (hτ : GoodDayCount cal.dayCount) (tenor : Option P) : ∃ c c' : CRCurve D P,
      (∀ r, CRCurve.own cal .marginalDefault (pts.map Prod.fst) (pts.map Prod.snd) (.func γ r) o? .default tenor = .ok c) ∧
      c.ownRebuild cal (.func γ (some γ)) = .ok c' ∧ (∀ p ∈ pts, c.call cal p.1 = .ok (clampProb (1 - p.2)) ∧
        c'.call cal p.1 = .ok (clampProb (1 - clampProb (1 - p.2)))) ∧
      (∀ p ∈ pts, 0.1 ≤ p.2 → p.2 ≤ 0.9 → c.call cal p.1 = .ok (1 - p.2) ∧ c'.call cal p.1 = .ok p.2) := by
  have hτ' : GoodDayCount (DayCountArg.fn cal .default) := hτ
  obtain ⟨c, w, h1, h2, h3, h4, h5, h6, h7, h8, h9, h10, -⟩ := ownMarg_eq (dc := .default) hγ hn hne ho trivial hτ' (cls := .marginalDefault) (.inr rfl) tenor
  set pts' := pts.map fun p => (p.1, w p.1) with hpts
  have e1 : pts'.map Prod.fst = pts.map Prod.fst := by simp [hpts, Function.comp_def]
  have e2 : pts'.map Prod.snd = pts.map fun p => w p.1 := by simp [hpts, Function.comp_def]
  obtain ⟨c', w', k1, k2, k3, k4, -⟩ := ownMarg_eq (dc := .default) (pts := pts') hγ (by rw [e1]; exact hn) (by simpa [hpts] using hne) (by rw [e1]; exact ho) trivial hτ'
    (cls := .marginalDefault) (.inr rfl) tenor
  rw [e1, e2] at k2
  have hv : pyMap (c.call cal) (pts.map Prod.fst) = .ok (pts.map fun p => w p.1) := by
    rw [pyMap_map]; exact pyMap_ok fun p hp => by rw [h3]
  have ha : ∀ p ∈ pts, w p.1 = clampProb (1 - p.2) := fun p hp => by rw [h4 p hp]; simp [marginalProb]
  have hb : ∀ p ∈ pts, w' p.1 = clampProb (1 - clampProb (1 - p.2)) := fun p hp => by
    have := k4 (p.1, w p.1) (List.mem_map.2 ⟨p, hp, rfl⟩)
    simp only [marginalProb, if_true] at this
    rw [this, ha p hp]
  have hm : floatMin ≤ 0.1 := by
    have : (1 / 2 : ℝ) ^ 1022 ≤ (1 / 2) ^ 4 := pow_le_pow_of_le_one (by norm_num) (by norm_num) (by norm_num)
    refine this.trans (by norm_num)
  have hid : ∀ y : ℝ, 0.1 ≤ y → y ≤ 1 → clampProb y = y := fun y h h' => by rw [clampProb, min_eq_left h', max_eq_right (hm.trans h)]
  refine ⟨c, c', h1, ?_, fun p hp => ⟨by rw [h3, ha p hp], by rw [k3, hb p hp]⟩, fun p hp l1 l2 => ⟨?_, ?_⟩⟩
  · simp only [CRCurve.ownRebuild, h6, h7, h8, h9, h10, hv, Py.ok_bind]
    exact k2
  · rw [h3, ha p hp, hid _ (by linarith) (by linarith)]
  · rw [k3, hb p hp, hid (1 - p.2) (by linarith) (by linarith), sub_sub_cancel, hid _ l1 (by linarith)]

end

section
variable {D P : Type} [LinearOrder D] [AddCommGroup D] {cal : Cal D P} {γ γ' : Fit} {r r' : Option Fit} {o : D}
  {A B : List (D × ℝ)} {oa ob : Option D}

/-- The marginal probability over one tenor is the quoted one, whatever the interpolation. -/
theorem marginal_storage (hτ : GoodDayCount cal.dayCount) {c : CRCurve D P} (hc : c.cls = .marginal ∨ c.cls = .marginalDefault) (hdc : c.base.dc = .default)
    {x : D} (ht : ∃ e, cal.add x (c.forwardTenor cal) = .ok e ∧ x ≠ e) {y : ℝ} (h : c.call cal x = .ok y) (hy : 2 * floatMin ≤ y) (limit : ℕ) (same : D → Bool) :
    c.cls.storage cal limit same c x = .ok y := by
  have fm := floatMin_pos
  obtain ⟨e, he, hne⟩ := ht
  have hy0 : 0 < y := by linarith
  have hz := hτ.ne_zero hne
  have hd : ∀ s u, c.dayCount cal s u = .ok (cal.dayCount s u) := fun s u => by
    unfold CRCurve.dayCount DateCurve.dayCount; rw [hdc]; rfl
  have hloop : ∀ (up : ℝ → D → D → Py ℝ), stepLoop cal (c.forwardTenor cal) e up x 1 = .ok (x, 1) := fun up => by
    unfold stepLoop
    rw [pyWhile_step]
    simp [he]
  have e1 : c.cls.storage cal limit same c x = c.marginalFactorOf cal x e := by
    rcases hc with hc | hc <;> simp [CRClass.storage, he, CRCurve.factor, hc]
  rw [e1]
  simp only [CRCurve.marginalFactorOf, hne, if_false, hloop, Py.ok_bind, h, hy, if_true, he, hd, continuousRate, pyLog_ok hy0, pyDiv_ok hz,
    continuousCompounding]
  congr 1
  rw [one_mul, show -1 * (-Real.log y / cal.dayCount x e) * cal.dayCount x e = Real.log y by field_simp, Real.exp_log hy0]

/-- A curve of probabilities not too small for a float cast to its class on given dates is the curve of the package through its quotes there. -/
theorem marg_castOn {cls : CRClass} (hcls : cls = .marginal ∨ cls = .marginalDefault) (hτ : GoodDayCount cal.dayCount) {c : CRCurve D P} (hc : c.cls = cls)
    {a : D} (ho : c.base.origin = some a) (hdc : c.base.dc = .default) {ys : List D} {w : D → ℝ} (hw : ∀ y ∈ ys, c.call cal y = .ok (w y))
    (hpos : ∀ y ∈ ys, 2 * floatMin ≤ w y) (ht : ∀ x, ∃ e, cal.add x (c.forwardTenor cal) = .ok e ∧ x ≠ e) (hy : ys.Nodup) {o' : D} {org : Option D} (ho' : (cal.or org c.base.origin?).or ys.head? = some o') (t : Option P)
    (limit : ℕ) (same : D → Bool) :
    c.castOn cal cls (limit + 1) same ys none org .default t =
      .ok (crOf cal o' (cal.or org c.base.origin?) .default none cls t (ys.map fun x => (x, w x))) := by
  have fm := floatMin_pos
  subst hc
  have hdata : pyMap (c.cls.storage cal (limit + 1) same c) ys = .ok (ys.map w) :=
    pyMap_ok fun y hy => marginal_storage hτ hcls hdc (ht y) (hw y hy) (hpos y hy) _ _
  simp only [CRCurve.castOn, hdata, Py.ok_bind, hdc]
  have hfst : (ys.map fun x => (x, w x)).map Prod.fst = ys := graph_fst _ _
  have := CRCurve_make_eq cal (pts := ys.map fun x => (x, w x)) (cls := c.cls) (i := none) (o? := cal.or org c.base.origin?)
    (dc := .default) (tenor := t) (o := o') (by rw [hfst]; exact hy) (fun h p hp => by
      obtain ⟨q, hq, rfl⟩ := List.mem_map.1 hp; have := hpos q hq; show 0 < w q; linarith) (by rw [hfst]; exact ho') trivial hτ
  rw [hfst, graph_snd] at this
  exact this

/-- Cast to its class, the day after the origin and a date a year after the last one are added. -/
theorem marg_cast {cls : CRClass} (hcls : cls = .marginal ∨ cls = .marginalDefault) (hτ : GoodDayCount cal.dayCount) (hm : MovesOn cal) {c : CRCurve D P}
    (hc : c.cls = cls) (ho : c.base.origin = some o) (hdc : c.base.dc = .default) {w : D → ℝ} (hw : ∀ y, c.call cal y = .ok (w y)) (hpos : ∀ y, 2 * floatMin ≤ w y)
    (ht : ∀ x, ∃ e, cal.add x (c.forwardTenor cal) = .ok e ∧ x ≠ e)
    (hne : c.base.domain ≠ []) (hfirst : c.base.origin? = some o ∨ (o ∈ c.base.domain ∧ ∀ x ∈ c.base.domain, o ≤ x)) (t : Option P) (limit : ℕ)
    (same : D → Bool) :
    ∃ ys : List D, c.cast cal cls (limit + 1) same none none .default t =
        .ok (crOf cal o (cal.or (some o) c.base.origin?) .default none cls t (ys.map fun x => (x, w x))) ∧ ys.Pairwise (· < ·) ∧
      (∀ x, x ∈ ys ↔ CastDate cal cls o c.base.domain x) ∧ (cal.or (some o) c.base.origin?).or ys.head? = some o := by
  have hp : cls.isProb = true := by rcases hcls with rfl | rfl <;> rfl
  obtain ⟨m, hml, hmax⟩ := exists_max hne
  obtain ⟨a, ha, hoa⟩ := hm.day o
  obtain ⟨b, hb, hmb⟩ := hm.year m
  set ys := sortedSet (c.base.domain ++ [a, b]) with hys
  have hs : ys.Pairwise (· < ·) := sortedSet_strict _
  have hmy : ∀ x, x ∈ ys ↔ x ∈ c.base.domain ∨ x = a ∨ x = b := fun x => by rw [hys, sortedSet_mem, List.mem_append]; simp
  have hh : (cal.or (some o) c.base.origin?).or ys.head? = some o := by
    simp only [Cal.or]
    split_ifs
    · cases hq : c.base.origin? with
      | some q =>
        have : c.base.origin?.or c.base.domain.head? = some o := ho
        rw [hq] at this; simpa using this
      | none =>
        rcases hfirst with h | ⟨h, h'⟩
        · rw [hq] at h; cases h
        · rw [Option.none_or]
          refine head_of_min hs ((hmy o).2 (.inl h)) fun d hd => ?_
          rcases (hmy d).1 hd with e | rfl | rfl
          · exact h' d e
          · exact hoa.le
          · exact (h' m hml).trans hmb.le
    · rfl
  refine ⟨ys, ?_, hs, fun x => ?_, hh⟩
  · simp only [CRCurve.cast, hp, if_true, ho, Option.none_or, pyDate, Py.ok_bind, ha, maxDate_eq hml hmax, hb]
    exact marg_castOn hcls hτ hc ho hdc (fun y _ => hw y) (fun y _ => hpos y) ht (hs.imp fun h => h.ne) hh t limit same
  · rw [hmy, CastDate, ha]
    have hmem : (∃ m ∈ c.base.domain, (∀ y ∈ c.base.domain, y ≤ m) ∧ cal.add m cal.oneYear = .ok x) ↔ x = b :=
      ⟨fun ⟨n, hn, hnm, hx⟩ => by rw [le_antisymm (hmax n hn) (hnm m hml), hb] at hx; exact (Except.ok.inj hx).symm,
       fun h => ⟨m, hml, hmax, h ▸ hb⟩⟩
    rw [hmem]
    simp [hp, eq_comm]

/-- C190: sums, differences and products of two marginal survival or default probability curves with one origin and own interpolations that stay in a
band, if neither the second curve nor the results fall below the smallest float the class accepts.  The second curve is read at its dates, the day after
the origin and a year after the last, whatever its tenor, and interpolated as in the package elsewhere; the results at all these dates, cut off and
complemented by the constructor, are interpolated by the function of the first curve at the two dates added by the last cast, and as in the package
elsewhere. -/
theorem C190_marginal {cls : CRClass} (hcls : cls = .marginal ∨ cls = .marginalDefault) (hτ : GoodDayCount cal.dayCount) (hm : MovesOn cal) {a b e : ℝ}
    (hγ : Spec.BandInterpolation γ a) (hγe : Spec.BandInterpolation γ e) (hγ' : Spec.BandInterpolation γ' b) (hb : 2 * floatMin ≤ b) (he : 2 * floatMin ≤ e)
    (hA : (A.map Prod.fst).Nodup) (hA0 : A ≠ []) (hAa : ∀ p ∈ A, a ≤ marginalProb cls p.2) (hB : (B.map Prod.fst).Nodup) (hB0 : B ≠ [])
    (hBb : ∀ p ∈ B, b ≤ marginalProb cls p.2) (hoa : oa.or (A.map Prod.fst).head? = some o)
    (hob : ob.or (B.map Prod.fst).head? = some o) (hfirst : ob = some o ∨ ∀ p ∈ B, o ≤ p.1) {dc : DayCountArg D}
    (hdu : dc.Usable) (hdg : GoodDayCount (dc.fn cal)) (ta tb : Option P) (ht : ∀ x, ∃ z, cal.add x (tb.getD cal.oneYear) = .ok z ∧ x ≠ z)
    (op : ℝ → ℝ → ℝ) (hop : ∀ x y, a ≤ x → x ≤ 1 → b ≤ y → y ≤ 1 → e ≤ marginalProb cls (op x y)) (limit : ℕ) (same₀ same₁ same₂ same₃ : D → Bool) :
    ∃ (f g ĝ n S : CRCurve D P) (X : List D) (m : D) (y : D → ℝ),
      CRCurve.own cal cls (A.map Prod.fst) (A.map Prod.snd) (.func γ r) oa dc ta = .ok f ∧
      CRCurve.own cal cls (B.map Prod.fst) (B.map Prod.snd) (.func γ' r') ob .default tb = .ok g ∧
      g.cast cal cls (limit + 1) same₀ none none .default none = .ok ĝ ∧
      CRCurve.own cal cls X (X.map y) (.func γ r) none .default none = .ok n ∧
      f.ownBinop cal (.func γ r) op (limit + 1) same₁ same₂ same₃ g = .ok S ∧
      X.Pairwise (· < ·) ∧ X.head? = some m ∧ (∀ x, x ∈ X ↔ (∃ z, (x, z) ∈ A) ∨ CastDate cal cls o (B.map Prod.fst) x) ∧
      (∀ x ∈ X, ∃ a b, f.call cal x = .ok a ∧ ĝ.call cal x = .ok b ∧ y x = op a b ∧ S.call cal x = .ok (marginalProb cls (op a b))) ∧
      (∀ x, CastDate cal cls o (B.map Prod.fst) x → ∃ a b, f.call cal x = .ok a ∧ g.call cal x = .ok b ∧
        S.call cal x = .ok (marginalProb cls (op a b))) ∧
      (∀ x a b, (x, a) ∈ A → (x, b) ∈ B → S.call cal x = .ok (marginalProb cls (op (marginalProb cls a) (marginalProb cls b)))) ∧
      S.base.domain.Pairwise (· < ·) ∧ (∀ x, x ∈ S.base.domain ↔ CastDate cal cls m X x) ∧
      (∀ x ∈ S.base.domain, S.call cal x = n.call cal x) ∧
      S.cls = cls ∧ S.tenor = ta ∧ S.base.origin = some m ∧
      CRCurve.make cal cls S.base.domain (S.base.domain.map fun x => (n.call cal x).toOption.getD 0) none (cal.or (some m) none) .default ta = .ok S := by
  have hp : cls.isProb = true := by rcases hcls with rfl | rfl <;> rfl
  have hτ' : GoodDayCount (DayCountArg.fn cal .default) := hτ
  have hB0' : B.map Prod.fst ≠ [] := by simpa using hB0
  have fm := floatMin_pos
  have htn : ∀ x, ∃ z, cal.add x cal.oneYear = .ok z ∧ x ≠ z := fun x => by obtain ⟨z, hz, h⟩ := hm.year x; exact ⟨z, hz, h.ne⟩
  obtain ⟨f, u, f1, -, f3, f4, f5, f6, f7, f8, f9, f10, f11, -⟩ := ownMarg_eq hγ.interpolates hA hA0 hoa hdu hdg hcls ta
  obtain ⟨g, w, g1, -, g3, g4, g5, g6, g7, g8, g9, g10, g11, -⟩ := ownMarg_eq (dc := .default) hγ'.interpolates hB hB0 hob trivial hτ' hcls tb
  have hub := f11 a hγ hAa
  have hwb := g11 b hγ' hBb
  have hwlow : ∀ x, 2 * floatMin ≤ w x := fun x => hb.trans (hwb x).1
  have hwpos : ∀ x, 0 < w x := fun x => by have := hwlow x; linarith
  have hgf : g.base.origin? = some o ∨ (o ∈ g.base.domain ∧ ∀ x ∈ g.base.domain, o ≤ x) := by
    rw [g6, g8]
    cases hq : ob with
    | some q => rw [hq] at hob; exact .inl (by simpa using hob)
    | none =>
    rw [hq] at hob hfirst
    refine hfirst.imp_right fun h => ⟨List.mem_of_head? (by simpa using hob), fun x hx => ?_⟩
    obtain ⟨p, hp', rfl⟩ := List.mem_map.1 hx
    exact h p hp'
  obtain ⟨gs, c1, c2, c3, c4⟩ := marg_cast hcls hτ hm g9 g5 g7 g3 hwlow (by rw [CRCurve.forwardTenor, g10]; exact ht) (by rw [g8]; exact hB0') hgf none limit same₀
  obtain ⟨gs', c1', c2', c3', c4'⟩ := marg_cast hcls hτ hm g9 g5 g7 g3 hwlow (by rw [CRCurve.forwardTenor, g10]; exact ht) (by rw [g8]; exact hB0') hgf none limit same₁
  have hgg : gs' = gs := c2'.eq_of_mem_iff c2 fun x => by rw [c3, c3']
  subst hgg
  rw [g8] at c3
  set ob' := cal.or (some o) g.base.origin? with hob'
  have hgn : gs'.Nodup := c2.imp fun h => h.ne
  have hBg : ∀ x ∈ B.map Prod.fst, x ∈ gs' := fun x hx => (c3 x).2 (.inl hx)
  have hgne : gs' ≠ [] := List.ne_nil_of_mem (hBg _ (List.head_mem hB0'))
  have hfst : (gs'.map fun x => (x, w x)).map Prod.fst = gs' := graph_fst _ _
  have hgpos : ∀ p ∈ gs'.map fun x => (x, w x), 0 < p.2 := fun p hp' => by
    obtain ⟨q, -, rfl⟩ := List.mem_map.1 hp'; exact hwpos q
  have hmore : ∀ {k : D} {l : List D} {w : D → ℝ}, ∀ {ys : List D}, (∀ x, x ∈ ys ↔ CastDate cal cls k l x) →
      ∃ p ∈ ys.map fun x => (x, w x), p.1 ≠ k := fun {k l w ys} h => by
    obtain ⟨a, ha, hlt⟩ := hm.day k
    exact ⟨(a, w a), List.mem_map.2 ⟨a, (h a).2 (.inr (.inl ⟨hp, ha⟩)), rfl⟩, hlt.ne'⟩
  have hv := marginal_call hτ hcls (A := gs'.map fun x => (x, w x)) (by rw [hfst]; exact hgn) (by simpa using hgne) hgpos (o? := ob') (by rw [hfst]; exact c4)
    (none : Option P)
  have hvw : ∀ x ∈ gs', (crOf cal o ob' .default none cls (none : Option P) (gs'.map fun x => (x, w x))).call cal x = .ok (w x) := fun x hx =>
    crOf_node cal (dc := .default) (by rw [hfst]; exact c4) trivial hτ (by rw [hfst]; exact hgn) (fun _ => hgpos) (fun _ => hmore c3)
      (List.mem_map.2 ⟨x, hx, rfl⟩)
  set v : D → ℝ := fun x => Real.exp (linVal cal.dayCount o (lnPts (gs'.map fun x => (x, w x))) x) with hvd
  have hvb : ∀ x, b ≤ v x ∧ v x ≤ 1 := marginal_range hτ (A := gs'.map fun x => (x, w x)) (by rw [hfst]; exact hgn) (by simpa using hgne) (by linarith)
    (fun p hp' => by obtain ⟨q, -, rfl⟩ := List.mem_map.1 hp'; exact hwb q) o
  have hvw' : ∀ x ∈ gs', v x = w x := fun x hx => Except.ok.inj ((hv x).symm.trans (hvw x hx))
  set ĝ : CRCurve D P := crOf cal o ob' .default none cls none (gs'.map fun x => (x, w x)) with hĝ
  have hĝo : ĝ.base.origin = some o := by
    show ob'.or (List.map Prod.fst _).head? = _
    rw [hfst]; exact c4
  have hoperand : f.operand cal (limit + 1) same₁ same₂ g = .ok ĝ := by
    simp only [CRCurve.operand, f9]
    rw [c1', Py.ok_bind]
    have hod : originDiff f.base ĝ.base = .ok 0 := by simp [originDiff, f5, hĝo, pyDate]
    rw [hod, Py.ok_bind]
    simp only [CRCurve.shifted, ne_eq, not_true_eq_false, if_false]
    rw [show ĝ.base.domain = gs' from hfst]
    exact marg_castOn hcls hτ rfl hĝo rfl hvw (fun y _ => hwlow y) htn hgn c4 none limit same₂
  set X := sortedSet (A.map Prod.fst ++ gs') with hX
  have hs : X.Pairwise (· < ·) := sortedSet_strict _
  have hxn : X.Nodup := hs.imp fun h => h.ne
  have hxne : X ≠ [] := List.ne_nil_of_mem (sortedSet_mem.2 (List.mem_append_left _ (List.head_mem (by simpa using hA0))))
  obtain ⟨m, hxm⟩ : ∃ m, X.head? = some m := by
    obtain ⟨a, l, h⟩ := List.exists_cons_of_ne_nil hxne; exact ⟨a, by rw [h]; rfl⟩
  have hmem : ∀ x, x ∈ X ↔ (∃ z, (x, z) ∈ A) ∨ CastDate cal cls o (B.map Prod.fst) x := fun x => by
    rw [hX, sortedSet_mem, List.mem_append, c3]
    simp only [List.mem_map, Prod.exists, exists_and_right, exists_eq_right]
  set y : D → ℝ := fun x => op (u x) (v x) with hy
  have e1 : (X.map fun x => (x, y x)).map Prod.fst = X := graph_fst _ _
  have e2 : (X.map fun x => (x, y x)).map Prod.snd = X.map y := graph_snd _ _
  obtain ⟨n, z, n1, -, n3, n4, n5, n6, n7, n8, n9, n10, n11, -⟩ := ownMarg_eq (dc := .default) (o? := none) (o := m) (pts := X.map fun x => (x, y x)) hγ.interpolates
    (by rw [e1]; exact hxn) (by simpa using hxne) (by rw [e1]; exact hxm) trivial hτ' hcls (none : Option P)
  have hzlow : ∀ x, 2 * floatMin ≤ z x := fun x => he.trans (n11 e hγe (fun p hp' => by
    obtain ⟨q, -, rfl⟩ := List.mem_map.1 hp'
    exact hop _ _ (hub q).1 (hub q).2 (hvb q).1 (hvb q).2) x).1
  have hzpos : ∀ x, 0 < z x := fun x => by have := hzlow x; linarith
  rw [e1, e2] at n1
  rw [e1] at n8
  have hzy : ∀ x ∈ X, z x = marginalProb cls (y x) := fun x hx => n4 (x, y x) (List.mem_map.2 ⟨x, hx, rfl⟩)
  have e3 : (X.map fun x => (x, z x)).map Prod.fst = X := graph_fst _ _
  have e4 : (X.map fun x => (x, z x)).map Prod.snd = X.map z := graph_snd _ _
  obtain ⟨n', -, n1', -⟩ := ownMarg_eq (o? := some o) (o := o) (pts := X.map fun x => (x, z x)) hγ.interpolates
    (by rw [e3]; exact hxn) (by simpa using hxne) rfl hdu hdg hcls (none : Option P)
  rw [e3, e4] at n1'
  obtain ⟨ys, d1, d2, d3, d4⟩ := marg_cast hcls hτ hm n9 n5 n7 n3 hzlow (by rw [CRCurve.forwardTenor, n10]; exact htn) (by rw [n8]; exact hxne) (.inr (by rw [n8]; exact head_min hs hxm)) ta limit same₃
  rw [n6] at d1 d4
  rw [n8] at d3
  have hyn : ys.Nodup := d2.imp fun h => h.ne
  have hyX : ∀ x ∈ X, x ∈ ys := fun x hx => (d3 x).2 (.inl hx)
  have hfy : (ys.map fun x => (x, z x)).map Prod.fst = ys := graph_fst _ _
  set S : CRCurve D P := crOf cal m (cal.or (some m) none) .default none cls ta (ys.map fun x => (x, z x)) with hS
  have hSy : ∀ x ∈ ys, S.call cal x = .ok (z x) := fun x hx =>
    crOf_node cal (dc := .default) (by rw [hfy]; exact d4) trivial hτ (by rw [hfy]; exact hyn) (fun _ p hp' => by
      obtain ⟨q, -, rfl⟩ := List.mem_map.1 hp'; exact hzpos q) (fun _ => hmore d3) (List.mem_map.2 ⟨x, hx, rfl⟩)
  have hSX : ∀ x ∈ X, S.call cal x = .ok (marginalProb cls (op (u x) (v x))) := fun x hx => by rw [hSy x (hyX x hx), hzy x hx]
  have hSd : S.base.domain = ys := hfy
  refine ⟨f, g, ĝ, n, S, X, m, y, f1 r, g1 r', c1, n1 r, ?_, hs, hxm, hmem, fun x hx => ⟨u x, v x, f3 x, hv x, rfl, hSX x hx⟩,
    fun x hx => ⟨u x, w x, f3 x, g3 x, ?_⟩, fun x a b ha hb => ?_, by rw [hSd]; exact d2, by rw [hSd]; exact d3, ?_, rfl, rfl, ?_, ?_⟩
  · simp only [CRCurve.ownBinop, hoperand, Py.ok_bind, f5, f7, f8, f9, f10]
    rw [show ĝ.base.domain = gs' from hfst, ← hX, pyMap_ok (g := y) (fun x _ => by rw [f3, Py.ok_bind, hv]; rfl), Py.ok_bind, n1 r, Py.ok_bind, n8,
      pyMap_ok (g := z) (fun x hx => by rw [n3]), Py.ok_bind, n1' r, Py.ok_bind]
    exact d1
  · rw [hSX x ((hmem x).2 (.inr hx)), hvw' x ((c3 x).2 hx)]
  · have hxB : x ∈ B.map Prod.fst := List.mem_map.2 ⟨_, hb, rfl⟩
    have ha' : u x = marginalProb cls a := f4 (x, a) ha
    have hb' : w x = marginalProb cls b := g4 (x, b) hb
    rw [hSX x ((hmem x).2 (.inl ⟨a, ha⟩)), hvw' x (hBg x hxB), ha', hb']
  · rw [hSd]; exact fun x hx => by rw [hSy x hx, n3]
  · show (cal.or (some m) none).or (List.map Prod.fst _).head? = _
    rw [hfy]; exact d4
  · rw [hSd]
    have : (fun x => (n.call cal x).toOption.getD 0) = z := funext fun x => by rw [n3]; rfl
    rw [this]
    have := CRCurve_make_eq cal (pts := ys.map fun x => (x, z x)) (cls := cls) (i := none) (o? := cal.or (some m) none) (dc := .default) (tenor := ta) (o := m)
      (by rw [hfy]; exact hyn) (fun _ p hp' => by obtain ⟨q, -, rfl⟩ := List.mem_map.1 hp'; exact hzpos q) (by rw [hfy]; exact d4) trivial hτ
    rw [hfy, graph_snd] at this
    exact this

end

/-! ### Where the interpolation is lost -/

theorem exSecondYear_band {a b e : ℝ} (ha : e ≤ a ∧ a ≤ 1) (hb : e ≤ b ∧ b ≤ 1) : Spec.BandInterpolation (exSecondYear a b) e where
  interpolates := exSecondYear_interpolates a b
  band pts _ hs hpos g h x := by
    have := congrFun (Except.ok.inj h) x
    have := Option.some.inj (Except.ok.inj this)
    rw [← this, zip_unzip']
    cases hl : pts.lookup x with
    | none => simp only [Option.getD]; split_ifs <;> assumption
    | some y =>
      obtain ⟨l₁, l₂, e, -⟩ := List.lookup_eq_some_iff.1 hl
      exact hpos (x, y) (by rw [e]; simp)

/-- The marginal survival curve of the package through values of 1 is 1. -/
theorem marg_ones {D P : Type} [LinearOrder D] [AddCommGroup D] {cal : Cal D P} (hτ : GoodDayCount cal.dayCount) {xs : List D} (hx : xs.Nodup) {v : D → ℝ}
    (h1 : ∀ x ∈ xs, v x = 1) {o : D} {o? : Option D} (ho : o?.or xs.head? = some o) (hne : xs ≠ []) {t : Option P} {c : CRCurve D P}
    (hc : CRCurve.make cal .marginal xs (xs.map v) none o? .default t = .ok c) (x : D) : c.call cal x = .ok 1 := by
  have hfst : (xs.map fun x => (x, v x)).map Prod.fst = xs := graph_fst _ _
  have hpos : ∀ p ∈ xs.map fun x => (x, v x), 0 < p.2 := fun p hp => by
    obtain ⟨q, hq, rfl⟩ := List.mem_map.1 hp; rw [h1 q hq]; norm_num
  have := CRCurve_make_eq cal (pts := xs.map fun x => (x, v x)) (cls := .marginal) (i := none) (o? := o?) (dc := .default) (tenor := t) (o := o)
    (by rw [hfst]; exact hx) (fun _ => hpos) (by rw [hfst]; exact ho) trivial hτ
  rw [hfst, graph_snd, hc] at this
  rw [Except.ok.inj this]
  rw [marginal_call hτ (.inl rfl) (by rw [hfst]; exact hx) (by simpa using hne) hpos (by rw [hfst]; exact ho),
    linVal_zeros hτ (by rw [lnPts_fst, hfst]; exact hx) (by simpa [lnPts] using hne) (fun p hp => ?_), Real.exp_zero]
  obtain ⟨q, hq, rfl⟩ := List.mem_map.1 hp
  obtain ⟨q', hq', rfl⟩ := List.mem_map.1 hq
  simp [h1 q' hq']

theorem exSecondYear_marg {a b : ℝ} {pts : List (ℤ × ℝ)} (hn : (pts.map Prod.fst).Nodup) (hne : pts ≠ []) {o : ℤ} (ho : (pts.map Prod.fst).head? = some o)
    (h0 : ∀ p ∈ pts, marginalProb .marginal p.2 = b) {c : CRCurve ℤ ℤ}
    (hc : CRCurve.own dayCal .marginal (pts.map Prod.fst) (pts.map Prod.snd) (.func (exSecondYear a b) none) none .default none = .ok c) :
    (∀ x, x - o ≤ 365 ∨ 731 ≤ x - o → c.call dayCal x = .ok b) ∧
    (∀ x, x ∉ pts.map Prod.fst → 366 ≤ x - o → x - o ≤ 730 → c.call dayCal x = .ok a) ∧ ∃ w : ℤ → ℝ, ∀ x, c.call dayCal x = .ok (w x) := by
  obtain ⟨c', w, k1, -, k2, -, -, -, -, -, -, -, -, γ, k3, k4⟩ := ownMarg_eq (cal := dayCal) (γ := exSecondYear a b) (dc := .default) (o? := none) (o := o)
    (pts := pts) (exSecondYear_interpolates a b) hn hne ho trivial goodDayCount_int (cls := .marginal) (.inl rfl) (none : Option ℤ)
  obtain rfl : c = c' := Except.ok.inj (hc.symm.trans (k1 none))
  obtain ⟨k5, k6⟩ := exSecondYear_days (fun p hp => by
      obtain ⟨q, hq, rfl⟩ := List.mem_map.1 hp
      exact h0 q hq) k3 k4
  refine ⟨fun x hx => by rw [k2, k5 x hx], fun x hx h1 h2 => ?_, w, k2⟩
  rw [k2, k6 x (by simpa [Function.comp_def] using hx) h1 h2]

theorem floatMin_quarter : 2 * floatMin ≤ 1 / 4 := by
  have : (1 / 2 : ℝ) ^ 1022 ≤ (1 / 2) ^ 4 := pow_le_pow_of_le_one (by norm_num) (by norm_num) (by norm_num)
  have : floatMin ≤ 1 / 16 := this.trans (by norm_num)
  linarith

theorem clampProb_quarter {a y : ℝ} (ha : a ≤ 1) (h : a ≤ y) : a ≤ clampProb y := le_max_of_le_right (le_min h ha)

/-- C190 (violation): products are not pointwise.  A marginal survival probability curve with 1 at its dates and 1/2 after one and before two years: its
product with itself is 1. -/
theorem C190_pointwise_violated (limit : ℕ) (same₁ same₂ same₃ : ℤ → Bool) :
    (∀ e : ℝ, e ≤ 1 / 2 → Spec.BandInterpolation (exSecondYear (1 / 2) 1) e) ∧ ∃ f S : CRCurve ℤ ℤ,
      CRCurve.own dayCal .marginal [0, 1000] [1, 1] (.func (exSecondYear (1 / 2) 1) none) none .default none = .ok f ∧
      f.ownBinop dayCal (.func (exSecondYear (1 / 2) 1) none) (· * ·) (limit + 1) same₁ same₂ same₃ f = .ok S ∧
      f.call dayCal 500 = .ok (1 / 2) ∧ S.call dayCal 500 = .ok 1 := by
  have hγ : ∀ e : ℝ, e ≤ 1 / 2 → Spec.BandInterpolation (exSecondYear (1 / 2) 1) e := fun e he => exSecondYear_band ⟨he, by norm_num⟩ ⟨by linarith, le_rfl⟩
  have hone : marginalProb .marginal 1 = 1 := by simp [marginalProb, clampProb_one]
  have fs := floatMin_quarter
  obtain ⟨f, g, ĝ, n, S, X, m, y, h1, h2, h3, h4, h5, h6, h7, h8, h9, h10, h11, h12, h13, h14, h15, h16, h17, h18⟩ := C190_marginal (cal := dayCal) (γ := exSecondYear (1 / 2) 1)
    (γ' := exSecondYear (1 / 2) 1) (r := none) (r' := none) (cls := .marginal) (.inl rfl) goodDayCount_int movesOn_day (hγ (1 / 2) le_rfl) (hγ (1 / 4) (by norm_num))
    (hγ (1 / 2) le_rfl) (by linarith) fs (A := [(0, 1), (1000, 1)]) (B := [(0, 1), (1000, 1)]) (oa := none) (ob := none) (o := 0) (by simp) (by simp)
    (by simp [hone]; norm_num) (by simp) (by simp) (by simp [hone]; norm_num) rfl rfl (.inr (by simp)) (dc := .default) trivial goodDayCount_int none none
    (fun x => ⟨x + 365, rfl, by omega⟩) (· * ·)
    (fun x y hx hx' hy hy' => by
      simp only [marginalProb, reduceCtorEq, if_false]
      exact clampProb_quarter (by norm_num) (by nlinarith)) limit same₁ same₁ same₂ same₃
  obtain rfl : f = g := Except.ok.inj (h1.symm.trans h2)
  obtain ⟨k5, k6, -⟩ := exSecondYear_marg (a := 1 / 2) (b := 1) (pts := [((0 : ℤ), (1 : ℝ)), (1000, 1)]) (by simp) (by simp) (o := 0) rfl (by simp [hone]) h1
  have hyr : ∀ l : List ℤ, (∀ x ∈ l, 0 ≤ x ∧ x ≤ 1 ∨ 1000 ≤ x) → 1000 ∈ l → ∀ x, CastDate dayCal .marginal 0 l x → 0 ≤ x ∧ x ≤ 1 ∨ 1000 ≤ x := by
    rintro l hl hm x (h | ⟨-, e⟩ | ⟨m, h, h', e⟩)
    · exact hl x h
    · have : (0 : ℤ) + 1 = x := Except.ok.inj e
      omega
    · have : m + 365 = x := Except.ok.inj e
      have := h' 1000 hm
      omega
  have hXd : ∀ x ∈ X, CastDate dayCal .marginal 0 ([((0 : ℤ), (1 : ℝ)), (1000, 1)].map Prod.fst) x := fun x hx => by
    rcases (h8 x).1 hx with ⟨z, hz⟩ | hz
    · exact .inl (by simp at hz ⊢; omega)
    · exact hz
  have hX : ∀ x ∈ X, 0 ≤ x ∧ x ≤ 1 ∨ 1000 ≤ x := fun x hx => hyr _ (by simp) (by simp) x (hXd x hx)
  have hXc : ∀ x, x = 0 ∨ x = 1000 → x ∈ X := fun x hx => (h8 x).2 (.inl ⟨1, by rcases hx with rfl | rfl <;> simp⟩)
  have hm0 : m = 0 := by
    have := head_min h6 h7
    have h1' := hX m this.1
    have h2' := this.2 0 (hXc 0 (.inl rfl))
    omega
  subst hm0
  have hy : ∀ x ∈ X, marginalProb .marginal (y x) = 1 := fun x hx => by
    obtain ⟨a, b, e1, e2, e3⟩ := h10 x (hXd x hx)
    obtain ⟨a', b', e1', e2', e4, e5⟩ := h9 x hx
    have hab : marginalProb .marginal (a' * b') = marginalProb .marginal (a * b) := Except.ok.inj (e5.symm.trans e3)
    have h0 : f.call dayCal x = .ok 1 := k5 x (by have := hX x hx; omega)
    have ha : a = 1 := Except.ok.inj (e1.symm.trans h0)
    have hb : b = 1 := Except.ok.inj (e2.symm.trans h0)
    rw [e4]
    rw [hab, ha, hb, mul_one, hone]
  have e1 : (X.map fun x => (x, y x)).map Prod.fst = X := graph_fst _ _
  have e2 : (X.map fun x => (x, y x)).map Prod.snd = X.map y := graph_snd _ _
  have hxne : X ≠ [] := List.ne_nil_of_mem (hXc 0 (.inl rfl))
  obtain ⟨l5, -, z, l2⟩ := exSecondYear_marg (a := 1 / 2) (b := 1) (pts := X.map fun x => (x, y x)) (by rw [e1]; exact h6.imp fun h => h.ne) (by simpa using hxne)
    (o := 0) (by rw [e1]; exact h7) (fun p hp => by
      obtain ⟨q, hq, rfl⟩ := List.mem_map.1 hp
      exact hy q hq) (by rw [e1, e2]; exact h4)
  refine ⟨hγ, f, S, h1, h5, k6 500 (by simp) (by norm_num) (by norm_num), ?_⟩
  have hS0 : (0 : ℤ) ∈ S.base.domain := (h13 0).2 (.inl (hXc 0 (.inl rfl)))
  refine marg_ones goodDayCount_int (h12.imp fun h => h.ne) (fun x hx => ?_) (o := 0) (o? := some 0) rfl (List.ne_nil_of_mem hS0) h18 500
  have := hyr X hX (hXc 1000 (.inr rfl)) x ((h13 x).1 hx)
  rw [l5 x (by omega)]; rfl

/-! ### The hypotheses can be met: each theorem applied -/

example := C190_kwargs (cal := dayCal) (γ := exSpikesAt 0.03) (exSpikesAt_interpolates _) (pts := [((0 : ℤ), (1 : ℝ)), (365, 0.9)]) (o? := none) (o := 0) (by simp) (by simp) rfl
  goodDayCount_int none
example := C190_kwargs_violated (cal := dayCal) (γ := exSpikesAt 0.03) (exSpikesAt_interpolates _) (pts := [((1 : ℤ), (0.2 : ℝ)), (365, 0.3)]) (o? := none) (o := 1) (by simp)
  (by simp) rfl goodDayCount_int none
example := C190_marginal (cal := dayCal) (γ := exSecondYear 0.5 0.9) (γ' := exSecondYear 0.9 0.5) (r := none) (r' := none) (cls := .marginalDefault) (.inr rfl) goodDayCount_int
  movesOn_day (a := 0.5) (b := 0.5) (e := 0.5) (exSecondYear_band (by norm_num) (by norm_num)) (exSecondYear_band (by norm_num) (by norm_num))
  (exSecondYear_band (by norm_num) (by norm_num)) (by have := floatMin_quarter; norm_num at this ⊢; linarith) (by have := floatMin_quarter; norm_num at this ⊢; linarith)
  (A := [(0, 0), (365, 0.3)]) (B := [(0, 0), (365, 0.2), (730, 0.3)]) (oa := none) (ob := some 0) (o := 0) (by simp) (by simp)
  (by
    intro p hp
    simp only [marginalProb, if_true]
    refine clampProb_quarter (by norm_num) ?_
    simp at hp
    rcases hp with rfl | rfl <;> norm_num) (by simp) (by simp)
  (by
    intro p hp
    simp only [marginalProb, if_true]
    refine clampProb_quarter (by norm_num) ?_
    simp at hp
    rcases hp with rfl | rfl | rfl <;> norm_num) rfl rfl (.inl rfl) (dc := .default) trivial goodDayCount_int none (some 90) (fun x => ⟨x + 90, rfl, by omega⟩) (· - ·)
  (fun x y hx hx' hy hy' => by
    simp only [marginalProb, if_true]
    exact clampProb_quarter (by norm_num) (by norm_num at *; linarith)) 3

end Dcf
