import Verif.Props.OwnRateArith
import Verif.Props.CreditArith
import Verif.Props.VolArith

/-! # C188: arithmetic of credit and volatility curves with an interpolation written by the user -/

set_option linter.unusedSectionVars false
set_option linter.unusedSimpArgs false
set_option linter.unusedVariables false

namespace Dcf

open Spec

section
variable {D P : Type} [LinearOrder D] {cal : Cal D P} {γ γ' : Fit} {r r' : Option Fit} {dc : DayCountArg D} {o : D} {o? : Option D}
  {tenor : Option P} {pts : List (D × ℝ)}

/-- The volatility curve object with an own interpolation. -/
theorem ownVol_eq (hγ : Spec.Interpolates γ) (hn : (pts.map Prod.fst).Nodup) (hne : pts ≠ []) (ho : o?.or (pts.map Prod.fst).head? = some o)
    (hd : dc.Usable) (hτ : GoodDayCount (dc.fn cal)) (cls : VolClass) (floor : Option ℝ) (tenor : Option P) :
    ∃ (c : VolCurve D P) (w : D → ℝ), (∀ r, VolCurve.own cal cls floor (pts.map Prod.fst) (pts.map Prod.snd) (.func γ r) o? dc tenor = .ok c) ∧
      VolCurve.own cal cls floor (pts.map Prod.fst) (pts.map Prod.snd) (.named (some γ)) o? dc tenor = .ok c ∧
      (∀ x, c.call cal x = .ok (w x)) ∧ (∀ p ∈ pts, w p.1 = p.2) ∧ c.base.origin = some o ∧ c.base.origin? = o? ∧ c.base.dc = dc ∧
      c.base.domain = pts.map Prod.fst ∧ c.cls = cls ∧ c.floor = floor ∧ c.tenor = tenor ∧
      ∃ g : ℝ → ℝ, (∀ x, w x = g (dc.fn cal o x)) ∧
        γ ((sortPairs (timePts (dc.fn cal) o pts)).map Prod.fst) ((sortPairs (timePts (dc.fn cal) o pts)).map Prod.snd) = .ok (fun t => .ok (some (g t))) := by
  obtain ⟨g, h1, h2, h3, h4⟩ := ownRate_eq (r := none) (tenor := tenor) hγ hn hne ho hd hτ cls.dflt
  have hrun := fun i => ownRate_run (cal := cal) (tenor := tenor) hd ho i cls.dflt
  refine ⟨⟨ownOf o? dc cls.dflt tenor (pts.map Prod.fst) fun x => .ok (some (g x)), cls, floor⟩, fun x => g (dc.fn cal o x), fun r => ?_, ?_, h2, h3, ho,
    rfl, rfl, rfl, rfl, rfl, rfl, g, fun _ => rfl, h4⟩
  all_goals
    unfold VolCurve.own
    rw [hrun]
    show (do let c ← _ <$> γ _ _; _) = _
    rw [h4]; rfl

/-- The credit curve object of an intensity class with an own interpolation. -/
theorem ownCredit_eq (hγ : Spec.Interpolates γ) (hn : (pts.map Prod.fst).Nodup) (hne : pts ≠ []) (ho : o?.or (pts.map Prod.fst).head? = some o)
    (hd : dc.Usable) (hτ : GoodDayCount (dc.fn cal)) {cls : CRClass} (hcls : cls = .flat ∨ cls = .hazard) (tenor : Option P) :
    ∃ (c : CRCurve D P) (w : D → ℝ), (∀ r, CRCurve.own cal cls (pts.map Prod.fst) (pts.map Prod.snd) (.func γ r) o? dc tenor = .ok c) ∧
      CRCurve.own cal cls (pts.map Prod.fst) (pts.map Prod.snd) (.named (some γ)) o? dc tenor = .ok c ∧
      (∀ x, c.call cal x = .ok (w x)) ∧ (∀ p ∈ pts, w p.1 = p.2) ∧ c.base.origin = some o ∧ c.base.origin? = o? ∧ c.base.dc = dc ∧
      c.base.domain = pts.map Prod.fst ∧ c.cls = cls ∧ c.tenor = tenor ∧
      ∃ g : ℝ → ℝ, (∀ x, w x = g (dc.fn cal o x)) ∧
        γ ((sortPairs (timePts (dc.fn cal) o pts)).map Prod.fst) ((sortPairs (timePts (dc.fn cal) o pts)).map Prod.snd) = .ok (fun t => .ok (some (g t))) := by
  obtain ⟨g, h1, h2, h3, h4⟩ := ownRate_eq (r := none) (tenor := tenor) hγ hn hne ho hd hτ cls.dflt
  have hrun := fun i => ownRate_run (cal := cal) (tenor := tenor) hd ho i cls.dflt
  have hcomp : cls.complement (pts.map Prod.snd) = pts.map Prod.snd := by rcases hcls with rfl | rfl <;> rfl
  have hp : cls.isProb = false := by rcases hcls with rfl | rfl <;> rfl
  refine ⟨⟨ownOf o? dc cls.dflt tenor (pts.map Prod.fst) fun x => .ok (some (g x)), cls⟩, fun x => g (dc.fn cal o x), fun r => ?_, ?_, h2, h3, ho,
    rfl, rfl, rfl, rfl, rfl, g, fun _ => rfl, h4⟩
  all_goals
    unfold CRCurve.own
    simp only [hcomp, hp, Bool.false_eq_true, if_false, false_and]
    rw [hrun]
    show (do let c ← _ <$> γ _ _; _) = _
    rw [h4]; rfl

/-- C188 (`kwargs`): volatility and intensity curves whose interpolation is found by its name are rebuilt from their `kwargs`; for a function that is
not found this raises. -/
theorem C188_kwargs (hγ : Spec.Interpolates γ) (hn : (pts.map Prod.fst).Nodup) (hne : pts ≠ []) (ho : o?.or (pts.map Prod.fst).head? = some o)
    (hτ : GoodDayCount cal.dayCount) (tenor : Option P) :
    (∀ (cls : VolClass) (floor : Option ℝ), ∃ c : VolCurve D P,
      (∀ r, VolCurve.own cal cls floor (pts.map Prod.fst) (pts.map Prod.snd) (.func γ r) o? .default tenor = .ok c) ∧
      c.ownRebuild cal (.func γ (some γ)) = .ok c ∧ c.ownRebuild cal (.func γ none) = .error .type) ∧
    ∀ cls : CRClass, cls = .flat ∨ cls = .hazard → ∃ c : CRCurve D P,
      (∀ r, CRCurve.own cal cls (pts.map Prod.fst) (pts.map Prod.snd) (.func γ r) o? .default tenor = .ok c) ∧
      c.ownRebuild cal (.func γ (some γ)) = .ok c ∧ c.ownRebuild cal (.func γ none) = .error .type := by
  have hτ' : GoodDayCount (DayCountArg.fn cal .default) := hτ
  refine ⟨fun cls floor => ?_, fun cls hcls => ?_⟩
  · obtain ⟨c, w, h1, h2, h3, h4, h5, h6, h7, h8, h9, h10, h11, -⟩ := ownVol_eq (dc := .default) hγ hn hne ho trivial hτ' cls floor tenor
    have hv : pyMap (c.call cal) (pts.map Prod.fst) = .ok (pts.map Prod.snd) := by
      rw [pyMap_map]; exact pyMap_ok fun p hp => by rw [h3, h4 p hp]
    refine ⟨c, h1, ?_, ?_⟩
    · simp only [VolCurve.ownRebuild, h6, h7, h8, h9, h10, h11, hv, Py.ok_bind]
      exact h2
    · simp only [VolCurve.ownRebuild, h6, h7, h8, h9, h10, h11, hv, Py.ok_bind, VolCurve.own]
      show (do let c ← RateCurve.own cal cls.dflt _ _ (.named none) o? .default tenor; _) = _
      rw [ownRate_run (dc := .default) trivial ho]; rfl
  · obtain ⟨c, w, h1, h2, h3, h4, h5, h6, h7, h8, h9, h10, -⟩ := ownCredit_eq (dc := .default) hγ hn hne ho trivial hτ' hcls tenor
    have hcomp : cls.complement (pts.map Prod.snd) = pts.map Prod.snd := by rcases hcls with rfl | rfl <;> rfl
    have hp : cls.isProb = false := by rcases hcls with rfl | rfl <;> rfl
    have hv : pyMap (c.call cal) (pts.map Prod.fst) = .ok (pts.map Prod.snd) := by
      rw [pyMap_map]; exact pyMap_ok fun p hp => by rw [h3, h4 p hp]
    refine ⟨c, h1, ?_, ?_⟩
    · simp only [CRCurve.ownRebuild, h6, h7, h8, h9, h10, hv, Py.ok_bind]
      exact h2
    · simp only [CRCurve.ownRebuild, h6, h7, h8, h9, h10, hv, Py.ok_bind, CRCurve.own, hcomp, hp, Bool.false_eq_true, if_false, false_and]
      show (do let c ← RateCurve.own cal cls.dflt _ _ (.named none) o? .default tenor; _) = _
      rw [ownRate_run (dc := .default) trivial ho]; rfl

end

section
variable {D P : Type} [LinearOrder D] [AddCommGroup D] {cal : Cal D P} {γ γ' : Fit} {r r' : Option Fit} {o : D}
  {before after ten : D → D} {A B : List (D × ℝ)} {oa ob : Option D}

/-- C188 (volatilities): sums, differences and products of two volatility curves with one origin and own interpolations.  The second curve is read at its
dates and those added by the cast to its class, and interpolated as in the package elsewhere; the results at all these dates are interpolated by the
function of the first curve at the dates added by the last cast, and as in the package elsewhere. -/
theorem C188_volatility (hcal : VolCalendar cal before after ten) (hγ : Spec.Interpolates γ) (hγ' : Spec.Interpolates γ') (hA : (A.map Prod.fst).Nodup)
    (hA0 : A ≠ []) (hB : (B.map Prod.fst).Nodup) (hB0 : B ≠ []) (hoa : oa.or (A.map Prod.fst).head? = some o)
    (hob : ob.or (B.map Prod.fst).head? = some o) {dc : DayCountArg D} (hdu : dc.Usable) (hdg : GoodDayCount (dc.fn cal)) (cls : VolClass)
    (floor : Option ℝ) (ta tb : Option P) (op : ℝ → ℝ → ℝ) (scipy : Bool) (limit : ℕ) :
    ∃ (f g ĝ n S : VolCurve D P) (X : List D) (m : D) (y : D → ℝ),
      VolCurve.own cal cls floor (A.map Prod.fst) (A.map Prod.snd) (.func γ r) oa dc ta = .ok f ∧
      VolCurve.own cal cls floor (B.map Prod.fst) (B.map Prod.snd) (.func γ' r') ob .default tb = .ok g ∧
      VolCurve.cast cal cls floor scipy (limit + 1) g none none .default none = .ok ĝ ∧
      VolCurve.own cal cls floor X (X.map y) (.func γ r) none .default none = .ok n ∧
      f.ownBinop cal (.func γ r) op scipy (limit + 1) g = .ok S ∧
      X.Pairwise (· < ·) ∧ X.head? = some m ∧ (∀ x, x ∈ X ↔ (∃ z, (x, z) ∈ A) ∨ VolDate before after ten cls o (B.map Prod.fst) x) ∧
      (∀ x ∈ X, ∃ a b, f.call cal x = .ok a ∧ ĝ.call cal x = .ok b ∧ y x = op a b ∧ S.call cal x = .ok (op a b)) ∧
      (∀ x, VolDate before after ten cls o (B.map Prod.fst) x → ∃ a b, f.call cal x = .ok a ∧ g.call cal x = .ok b ∧ S.call cal x = .ok (op a b)) ∧
      (∀ x a b, (x, a) ∈ A → (x, b) ∈ B → S.call cal x = .ok (op a b)) ∧
      S.base.domain.Pairwise (· < ·) ∧ (∀ x, x ∈ S.base.domain ↔ VolDate before after ten cls m X x) ∧
      (∀ x ∈ S.base.domain, S.call cal x = n.call cal x) ∧
      VolCurve.new cal cls floor S.base.domain (S.base.domain.map fun x => (n.call cal x).toOption.getD 0) none (some m) .default ta = .ok S := by
  have hτ := hcal.good
  have hτ' : GoodDayCount (DayCountArg.fn cal .default) := hτ
  obtain ⟨f, u, f1, -, f3, f4, f5, f6, f7, f8, f9, f10, f11, -⟩ := ownVol_eq hγ hA hA0 hoa hdu hdg cls floor ta
  obtain ⟨g, w, g1, -, g3, g4, g5, g6, g7, g8, g9, g10, g11, -⟩ := ownVol_eq (dc := .default) hγ' hB hB0 hob trivial hτ' cls floor tb
  have hgd : g.base.domain ≠ [] := by rw [g8]; simpa using hB0
  obtain ⟨gs, c1, c2, c3⟩ := vol_cast_own hcal g3 g5 g7 hgd floor scipy limit none
  rw [g9] at c1 c3
  rw [g8] at c3
  have hgn : gs.Nodup := c2.imp fun h => h.ne
  have hBg : ∀ x ∈ B.map Prod.fst, x ∈ gs := fun x hx => (c3 x).2 (.of_mem hx)
  have hgne : gs ≠ [] := List.ne_nil_of_mem (hBg _ (List.head_mem (by simpa using hB0)))
  have hfst : (gs.map fun x => (x, w x)).map Prod.fst = gs := graph_fst _ _
  set ĝ : VolCurve D P := volOf cal o (some o) .default none cls floor none (gs.map fun x => (x, w x)) with hĝ
  have hnode : ∀ {zs : List D} (k : D) (w : D → ℝ), zs.Nodup → ∀ x ∈ zs, linVal cal.dayCount k (zs.map fun x => (x, w x)) x = w x := by
    intro zs k w hz x hx
    exact flin_node (sortPairs_strict (timePts_nodup hτ k (by rw [graph_fst]; exact hz)))
      ((sortPairs_perm _).mem_iff.2 (List.mem_map.2 ⟨(x, w x), List.mem_map.2 ⟨x, hx, rfl⟩, rfl⟩))
  have hans := (volOf_answers (cal := cal) (dc := .default) (cls := cls) (floor := floor) (tenor := (none : Option P)) (o? := some o)
    (pts := gs.map fun x => (x, w x)) (by rw [hfst]; exact hgn) (by simpa using hgne) rfl trivial hτ).1
  set v := linVal cal.dayCount o (gs.map fun x => (x, w x)) with hv
  have hvw : ∀ x ∈ gs, v x = w x := fun x hx => hnode o w hgn x hx
  have hoperand : f.operand cal scipy (limit + 1) g = .ok ĝ := by
    simp only [VolCurve.operand, f9, f10]
    rw [c1, Py.ok_bind]
    have hod : originDiff f.base ĝ.base = .ok 0 := by
      have e2 : ĝ.base.origin = some o := rfl
      simp [originDiff, f5, e2, pyDate]
    rw [hod, Py.ok_bind]
    simp only [VolCurve.shifted, ne_eq, not_true_eq_false, if_false, VolCurve.castOn]
    rw [show ĝ.base.domain = gs from hfst, pyMap_ok (g := w) fun y hy => by
      rw [vol_storage _ rfl]; exact (hans.call y).trans (congrArg _ (hvw y hy)), Py.ok_bind]
    exact vol_new hτ hgn rfl cls floor w none
  set X := sortedSet (A.map Prod.fst ++ gs) with hX
  have hs : X.Pairwise (· < ·) := sortedSet_strict _
  have hxn : X.Nodup := hs.imp fun h => h.ne
  have hxne : X ≠ [] := List.ne_nil_of_mem (sortedSet_mem.2 (List.mem_append_left _ (List.head_mem (by simpa using hA0))))
  obtain ⟨m, hxm⟩ : ∃ m, X.head? = some m := by
    obtain ⟨a, l, h⟩ := List.exists_cons_of_ne_nil hxne; exact ⟨a, by rw [h]; rfl⟩
  have hmem : ∀ x, x ∈ X ↔ (∃ z, (x, z) ∈ A) ∨ VolDate before after ten cls o (B.map Prod.fst) x := fun x => by
    rw [hX, sortedSet_mem, List.mem_append, c3]
    simp only [List.mem_map, Prod.exists, exists_and_right, exists_eq_right]
  set y : D → ℝ := fun x => op (u x) (v x) with hy
  have e1 : (X.map fun x => (x, y x)).map Prod.fst = X := graph_fst _ _
  have e2 : (X.map fun x => (x, y x)).map Prod.snd = X.map y := graph_snd _ _
  obtain ⟨n, z, n1, -, n3, n4, n5, n6, n7, n8, n9, n10, n11, -⟩ := ownVol_eq (dc := .default) (o? := none) (o := m) (pts := X.map fun x => (x, y x)) hγ
    (by rw [e1]; exact hxn) (by simpa using hxne) (by rw [e1]; exact hxm) trivial hτ' cls floor (none : Option P)
  obtain ⟨n', -, n1', -⟩ := ownVol_eq (o? := some o) (o := o) (pts := X.map fun x => (x, y x)) hγ
    (by rw [e1]; exact hxn) (by simpa using hxne) rfl hdu hdg cls floor (none : Option P)
  rw [e1, e2] at n1 n1'
  rw [e1] at n8
  have hzy : ∀ x ∈ X, z x = y x := fun x hx => n4 (x, y x) (List.mem_map.2 ⟨x, hx, rfl⟩)
  obtain ⟨ys, d1, d2, d3⟩ := vol_cast_own hcal n3 n5 n7 (by rw [n8]; exact hxne) floor scipy limit ta
  rw [n9] at d1 d3
  rw [n8] at d3
  have hyn : ys.Nodup := d2.imp fun h => h.ne
  have hyX : ∀ x ∈ X, x ∈ ys := fun x hx => (d3 x).2 (.of_mem hx)
  have hyne : ys ≠ [] := List.ne_nil_of_mem (hyX _ (List.head_mem hxne))
  have hfy : (ys.map fun x => (x, z x)).map Prod.fst = ys := graph_fst _ _
  set S : VolCurve D P := volOf cal m (some m) .default none cls floor ta (ys.map fun x => (x, z x)) with hS
  have hSans := (volOf_answers (cal := cal) (dc := .default) (cls := cls) (floor := floor) (tenor := ta) (o? := some m) (o := m)
    (pts := ys.map fun x => (x, z x)) (by rw [hfy]; exact hyn) (by simpa using hyne) rfl trivial hτ).1
  have hSy : ∀ x ∈ ys, S.call cal x = .ok (z x) := fun x hx => (hSans.call x).trans (congrArg _ (hnode m z hyn x hx))
  have hSX : ∀ x ∈ X, S.call cal x = .ok (op (u x) (v x)) := fun x hx => by rw [hSy x (hyX x hx), hzy x hx]
  have hSd : S.base.domain = ys := hfy
  refine ⟨f, g, ĝ, n, S, X, m, y, f1 r, g1 r', c1, n1 r, ?_, hs, hxm, hmem, fun x hx => ⟨u x, v x, f3 x, hans.call x, rfl, hSX x hx⟩,
    fun x hx => ⟨u x, w x, f3 x, g3 x, ?_⟩, fun x a b ha hb => ?_, by rw [hSd]; exact d2, by rw [hSd]; exact d3, ?_, ?_⟩
  · simp only [VolCurve.ownBinop, hoperand, Py.ok_bind, f5, f7, f8, f9, f10, f11]
    rw [show ĝ.base.domain = gs from hfst, ← hX, pyMap_ok (g := y) (fun x _ => by rw [f3, Py.ok_bind, hans.call]; rfl), Py.ok_bind, n1 r, Py.ok_bind, n8,
      pyMap_ok (g := y) (fun x hx => by rw [n3, hzy x hx]), Py.ok_bind, n1' r, Py.ok_bind]
    exact d1
  · rw [hSX x ((hmem x).2 (.inr hx)), hvw x ((c3 x).2 hx)]
  · have hxB : x ∈ B.map Prod.fst := List.mem_map.2 ⟨_, hb, rfl⟩
    have ha' : u x = a := f4 (x, a) ha
    have hb' : w x = b := g4 (x, b) hb
    rw [hSX x ((hmem x).2 (.inl ⟨a, ha⟩)), hvw x (hBg x hxB), ha', hb']
  · rw [hSd]; exact fun x hx => by rw [hSy x hx, n3]
  · rw [hSd]
    have : (fun x => (n.call cal x).toOption.getD 0) = z := funext fun x => by rw [n3]; rfl
    rw [this]
    exact vol_new hτ hyn rfl cls floor z ta

/-- A curve of intensities cast to its class on given dates is the curve of the package through its quotes there. -/
theorem intensity_castOn {cls : CRClass} (hcls : cls = .flat ∨ cls = .hazard) (hτ : GoodDayCount cal.dayCount) {c : CRCurve D P} (hc : c.cls = cls)
    {a : D} (ho : c.base.origin = some a) (hdc : c.base.dc = .default) {ys : List D} {w : D → ℝ} (hw : ∀ y ∈ ys, c.call cal y = .ok (w y))
    (hy : ys.Nodup) {o' : D} (ho' : c.base.origin?.or ys.head? = some o') (t : Option P) (limit : ℕ) (same : D → Bool) :
    c.castOn cal cls (limit + 1) same ys none none .default t = .ok (crOf cal o' c.base.origin? .default none cls t (ys.map fun x => (x, w x))) := by
  have hp : cls.isProb = false := by rcases hcls with rfl | rfl <;> rfl
  have hpl : cls.plain := .inr (.inr hcls)
  subst hc
  have hdata : pyMap (c.cls.storage cal (limit + 1) same c) ys = .ok (ys.map w) :=
    pyMap_ok fun y hy => by rw [storage_plain hpl (by rw [ho]; rfl), hw y hy]
  simp only [CRCurve.castOn, hdata, Py.ok_bind, hdc]
  have hfst : (ys.map fun x => (x, w x)).map Prod.fst = ys := graph_fst _ _
  have := CRCurve_make_eq cal (pts := ys.map fun x => (x, w x)) (cls := c.cls) (i := none) (o? := c.base.origin?)
    (dc := .default) (tenor := t) (o := o') (by rw [hfst]; exact hy) (fun h => absurd (plain_log hpl h) (by simp [hp])) (by rw [hfst]; exact ho') trivial hτ
  rw [hfst, graph_snd] at this
  exact this

/-- Cast to its class, a date a year after the last one is added. -/
theorem intensity_cast {cls : CRClass} (hcls : cls = .flat ∨ cls = .hazard) (hτ : GoodDayCount cal.dayCount) (hm : MovesOn cal) {c : CRCurve D P}
    (hc : c.cls = cls) (ho : c.base.origin = some o) (hdc : c.base.dc = .default) {w : D → ℝ} (hw : ∀ y, c.call cal y = .ok (w y))
    (hne : c.base.domain ≠ []) (hfirst : c.base.origin? = some o ∨ (o ∈ c.base.domain ∧ ∀ x ∈ c.base.domain, o ≤ x)) (t : Option P) (limit : ℕ)
    (same : D → Bool) :
    ∃ ys : List D, c.cast cal cls (limit + 1) same none none .default t =
        .ok (crOf cal o c.base.origin? .default none cls t (ys.map fun x => (x, w x))) ∧ ys.Pairwise (· < ·) ∧
      (∀ x, x ∈ ys ↔ CastDate cal cls o c.base.domain x) ∧ c.base.origin?.or ys.head? = some o := by
  have hp : cls.isProb = false := by rcases hcls with rfl | rfl <;> rfl
  obtain ⟨m, hml, hmax⟩ := exists_max hne
  obtain ⟨b, hb, hmb⟩ := hm.year m
  set ys := sortedSet (c.base.domain ++ [b]) with hys
  have hs : ys.Pairwise (· < ·) := sortedSet_strict _
  have hmy : ∀ x, x ∈ ys ↔ x ∈ c.base.domain ∨ x = b := fun x => by rw [hys, sortedSet_mem, List.mem_append]; simp
  have hh : c.base.origin?.or ys.head? = some o := by
    cases hq : c.base.origin? with
    | some q =>
      have : c.base.origin?.or c.base.domain.head? = some o := ho
      rw [hq] at this; simpa using this
    | none =>
      rcases hfirst with h | ⟨h, h'⟩
      · rw [hq] at h; cases h
      · rw [Option.none_or]
        refine head_of_min hs ((hmy o).2 (.inl h)) fun d hd => ?_
        rcases (hmy d).1 hd with e | rfl
        · exact h' d e
        · exact (h' m hml).trans hmb.le
  refine ⟨ys, ?_, hs, fun x => ?_, hh⟩
  · simp only [CRCurve.cast, hp, Bool.false_eq_true, if_false, maxDate_eq hml hmax, Py.ok_bind, hb]
    exact intensity_castOn hcls hτ hc ho hdc (fun y _ => hw y) (hs.imp fun h => h.ne) hh t limit same
  · rw [hmy, CastDate]
    simp only [hp, Bool.false_eq_true, false_and, false_or]
    exact or_congr_right ⟨fun h => ⟨m, hml, hmax, h ▸ hb⟩, fun ⟨n, hn, hnm, hx⟩ => by
      rw [le_antisymm (hmax n hn) (hnm m hml), hb] at hx; exact (Except.ok.inj hx).symm⟩

/-- Intensity curves of the package answer everywhere, and quote their points. -/
theorem intensity_answers {cls : CRClass} (hcls : cls = .flat ∨ cls = .hazard) (hτ : GoodDayCount cal.dayCount) {xs : List D} (hx : xs.Nodup)
    (hne : xs ≠ []) {o? : Option D} (ho : o?.or xs.head? = some o) (w : D → ℝ) (t : Option P) :
    (∀ x, ∃ y, (crOf cal o o? .default none cls t (xs.map fun x => (x, w x))).call cal x = .ok y) ∧
    ∀ x ∈ xs, (crOf cal o o? .default none cls t (xs.map fun x => (x, w x))).call cal x = .ok (w x) := by
  have hfst : (xs.map fun x => (x, w x)).map Prod.fst = xs := graph_fst _ _
  have hp : cls.isProb = false := by rcases hcls with rfl | rfl <;> rfl
  have hpl : cls.plain := .inr (.inr hcls)
  have hne' : (xs.map fun x => (x, w x)) ≠ [] := by simpa using hne
  refine ⟨fun x => ?_, fun x hx' => ?_⟩
  · rcases hcls with rfl | rfl
    · exact ⟨_, crOf_linear cal (dc := .default) rfl (by rw [hfst]; exact ho) trivial hτ (by rw [hfst]; exact hx) hne' x⟩
    · obtain ⟨y, h, -⟩ := hazard_left hτ (A := xs.map fun x => (x, w x)) (by rw [hfst]; exact hx) hne' (oa := o?) (by rw [hfst]; exact ho) t x
      exact ⟨y, h⟩
  · exact crOf_node cal (dc := .default) (by rw [hfst]; exact ho) trivial hτ (by rw [hfst]; exact hx)
      (fun h => absurd (plain_log hpl h) (by simp [hp])) (fun h => absurd (plain_nonzero hpl h) (by simp [hp])) (List.mem_map.2 ⟨x, hx', rfl⟩)

/-- C188 (intensities): sums, differences and products of two flat intensity curves or two hazard rate curves with one origin and own
interpolations.  The second curve is read at its dates and a year after the last, and interpolated as in the package elsewhere; the results at all these
dates are interpolated by the function of the first curve a year after the last, and as in the package elsewhere. -/
theorem C188_intensity {cls : CRClass} (hcls : cls = .flat ∨ cls = .hazard) (hτ : GoodDayCount cal.dayCount) (hm : MovesOn cal)
    (hγ : Spec.Interpolates γ) (hγ' : Spec.Interpolates γ') (hA : (A.map Prod.fst).Nodup)
    (hA0 : A ≠ []) (hB : (B.map Prod.fst).Nodup) (hB0 : B ≠ []) (hoa : oa.or (A.map Prod.fst).head? = some o)
    (hob : ob.or (B.map Prod.fst).head? = some o) (hfirst : ob = some o ∨ ∀ p ∈ B, o ≤ p.1) {dc : DayCountArg D} (hdu : dc.Usable)
    (hdg : GoodDayCount (dc.fn cal)) (ta tb : Option P) (op : ℝ → ℝ → ℝ) (limit : ℕ) (same₀ same₁ same₂ same₃ : D → Bool) :
    ∃ (f g ĝ n S : CRCurve D P) (X : List D) (m : D) (y : D → ℝ),
      CRCurve.own cal cls (A.map Prod.fst) (A.map Prod.snd) (.func γ r) oa dc ta = .ok f ∧
      CRCurve.own cal cls (B.map Prod.fst) (B.map Prod.snd) (.func γ' r') ob .default tb = .ok g ∧
      g.cast cal cls (limit + 1) same₀ none none .default none = .ok ĝ ∧
      CRCurve.own cal cls X (X.map y) (.func γ r) none .default none = .ok n ∧
      f.ownBinop cal (.func γ r) op (limit + 1) same₁ same₂ same₃ g = .ok S ∧
      X.Pairwise (· < ·) ∧ X.head? = some m ∧ (∀ x, x ∈ X ↔ (∃ z, (x, z) ∈ A) ∨ CastDate cal cls o (B.map Prod.fst) x) ∧
      (∀ x ∈ X, ∃ a b, f.call cal x = .ok a ∧ ĝ.call cal x = .ok b ∧ y x = op a b ∧ S.call cal x = .ok (op a b)) ∧
      (∀ x, CastDate cal cls o (B.map Prod.fst) x → ∃ a b, f.call cal x = .ok a ∧ g.call cal x = .ok b ∧ S.call cal x = .ok (op a b)) ∧
      (∀ x a b, (x, a) ∈ A → (x, b) ∈ B → S.call cal x = .ok (op a b)) ∧
      S.base.domain.Pairwise (· < ·) ∧ (∀ x, x ∈ S.base.domain ↔ CastDate cal cls m X x) ∧
      (∀ x ∈ S.base.domain, S.call cal x = n.call cal x) ∧
      CRCurve.new cal cls S.base.domain (S.base.domain.map fun x => (n.call cal x).toOption.getD 0) none none .default ta = .ok S := by
  have hp : cls.isProb = false := by rcases hcls with rfl | rfl <;> rfl
  have hpl : cls.plain := .inr (.inr hcls)
  have hτ' : GoodDayCount (DayCountArg.fn cal .default) := hτ
  obtain ⟨f, u, f1, -, f3, f4, f5, f6, f7, f8, f9, f10, -⟩ := ownCredit_eq hγ hA hA0 hoa hdu hdg hcls ta
  obtain ⟨g, w, g1, -, g3, g4, g5, g6, g7, g8, g9, g10, -⟩ := ownCredit_eq (dc := .default) hγ' hB hB0 hob trivial hτ' hcls tb
  have hB0' : B.map Prod.fst ≠ [] := by simpa using hB0
  have hgf : g.base.origin? = some o ∨ (o ∈ g.base.domain ∧ ∀ x ∈ g.base.domain, o ≤ x) := by
    rw [g6, g8]
    cases hq : ob with
    | some q => rw [hq] at hob; left; simpa using hob
    | none =>
      right
      rw [hq] at hob hfirst
      refine ⟨List.mem_of_head? (by simpa using hob), fun x hx => ?_⟩
      obtain ⟨p, hp', rfl⟩ := List.mem_map.1 hx
      exact (hfirst.resolve_left (by simp)) p hp'
  obtain ⟨gs, c1, c2, c3, c4⟩ := intensity_cast hcls hτ hm g9 g5 g7 g3 (by rw [g8]; exact hB0') hgf none limit same₀
  obtain ⟨gs', c1', c2', c3', c4'⟩ := intensity_cast hcls hτ hm g9 g5 g7 g3 (by rw [g8]; exact hB0') hgf none limit same₁
  have hgg : gs' = gs := c2'.eq_of_mem_iff c2 fun x => by rw [c3, c3']
  subst hgg
  rw [g8] at c3
  rw [g6] at c1 c1' c4
  have hgn : gs'.Nodup := c2.imp fun h => h.ne
  have hBg : ∀ x ∈ B.map Prod.fst, x ∈ gs' := fun x hx => (c3 x).2 (.inl hx)
  have hgne : gs' ≠ [] := List.ne_nil_of_mem (hBg _ (List.head_mem hB0'))
  have hfst : (gs'.map fun x => (x, w x)).map Prod.fst = gs' := graph_fst _ _
  obtain ⟨hans, hvw⟩ := intensity_answers hcls hτ hgn hgne c4 w (none : Option P)
  choose v hv using hans
  have hvw' : ∀ x ∈ gs', v x = w x := fun x hx => Except.ok.inj ((hv x).symm.trans (hvw x hx))
  set ĝ : CRCurve D P := crOf cal o ob .default none cls none (gs'.map fun x => (x, w x)) with hĝ
  have hĝo : ĝ.base.origin = some o := by
    show ob.or (List.map Prod.fst _).head? = _
    rw [hfst]; exact c4
  have hoperand : f.operand cal (limit + 1) same₁ same₂ g = .ok ĝ := by
    simp only [CRCurve.operand, f9]
    rw [c1', Py.ok_bind]
    have hod : originDiff f.base ĝ.base = .ok 0 := by simp [originDiff, f5, hĝo, pyDate]
    rw [hod, Py.ok_bind]
    simp only [CRCurve.shifted, ne_eq, not_true_eq_false, if_false]
    rw [show ĝ.base.domain = gs' from hfst]
    exact intensity_castOn hcls hτ rfl hĝo rfl hvw hgn c4 none limit same₂
  set X := sortedSet (A.map Prod.fst ++ gs') with hX
  have hs : X.Pairwise (· < ·) := sortedSet_strict _
  have hxn : X.Nodup := hs.imp fun h => h.ne
  have hxne : X ≠ [] := List.ne_nil_of_mem (sortedSet_mem.2 (List.mem_append_left _ (List.head_mem (by simpa using hA0))))
  obtain ⟨m, hxm⟩ : ∃ m, X.head? = some m := by
    obtain ⟨a, l, h⟩ := List.exists_cons_of_ne_nil hxne; exact ⟨a, by rw [h]; rfl⟩
  have hmem : ∀ x, x ∈ X ↔ (∃ z, (x, z) ∈ A) ∨ CastDate cal cls o (B.map Prod.fst) x := fun x => by
    rw [hX, sortedSet_mem, List.mem_append, c3]
    simp only [List.mem_map, Prod.exists, exists_and_right, exists_eq_right]
  set y : D → ℝ := fun x => op (u x) (v x) with hy
  have e1 : (X.map fun x => (x, y x)).map Prod.fst = X := graph_fst _ _
  have e2 : (X.map fun x => (x, y x)).map Prod.snd = X.map y := graph_snd _ _
  obtain ⟨n, z, n1, -, n3, n4, n5, n6, n7, n8, n9, n10, -⟩ := ownCredit_eq (dc := .default) (o? := none) (o := m) (pts := X.map fun x => (x, y x)) hγ
    (by rw [e1]; exact hxn) (by simpa using hxne) (by rw [e1]; exact hxm) trivial hτ' hcls (none : Option P)
  obtain ⟨n', -, n1', -⟩ := ownCredit_eq (o? := some o) (o := o) (pts := X.map fun x => (x, y x)) hγ
    (by rw [e1]; exact hxn) (by simpa using hxne) rfl hdu hdg hcls (none : Option P)
  rw [e1, e2] at n1 n1'
  rw [e1] at n8
  have hzy : ∀ x ∈ X, z x = y x := fun x hx => n4 (x, y x) (List.mem_map.2 ⟨x, hx, rfl⟩)
  obtain ⟨ys, d1, d2, d3, d4⟩ := intensity_cast hcls hτ hm n9 n5 n7 n3 (by rw [n8]; exact hxne) (.inr (by rw [n8]; exact head_min hs hxm)) ta limit same₃
  rw [n6] at d1 d4
  rw [n8] at d3
  have hyn : ys.Nodup := d2.imp fun h => h.ne
  have hyX : ∀ x ∈ X, x ∈ ys := fun x hx => (d3 x).2 (.inl hx)
  have hyne : ys ≠ [] := List.ne_nil_of_mem (hyX _ (List.head_mem hxne))
  have hfy : (ys.map fun x => (x, z x)).map Prod.fst = ys := graph_fst _ _
  have hSy := (intensity_answers hcls hτ hyn hyne d4 z ta).2
  set S : CRCurve D P := crOf cal m none .default none cls ta (ys.map fun x => (x, z x)) with hS
  have hSX : ∀ x ∈ X, S.call cal x = .ok (op (u x) (v x)) := fun x hx => by rw [hSy x (hyX x hx), hzy x hx]
  have hSd : S.base.domain = ys := hfy
  refine ⟨f, g, ĝ, n, S, X, m, y, f1 r, g1 r', c1, n1 r, ?_, hs, hxm, hmem, fun x hx => ⟨u x, v x, f3 x, hv x, rfl, hSX x hx⟩,
    fun x hx => ⟨u x, w x, f3 x, g3 x, ?_⟩, fun x a b ha hb => ?_, by rw [hSd]; exact d2, by rw [hSd]; exact d3, ?_, ?_⟩
  · simp only [CRCurve.ownBinop, hoperand, Py.ok_bind, f5, f7, f8, f9, f10]
    rw [show ĝ.base.domain = gs' from hfst, ← hX, pyMap_ok (g := y) (fun x _ => by rw [f3, Py.ok_bind, hv]; rfl), Py.ok_bind, n1 r, Py.ok_bind, n8,
      pyMap_ok (g := y) (fun x hx => by rw [n3, hzy x hx]), Py.ok_bind, n1' r, Py.ok_bind]
    exact d1
  · rw [hSX x ((hmem x).2 (.inr hx)), hvw' x ((c3 x).2 hx)]
  · have hxB : x ∈ B.map Prod.fst := List.mem_map.2 ⟨_, hb, rfl⟩
    have ha' : u x = a := f4 (x, a) ha
    have hb' : w x = b := g4 (x, b) hb
    rw [hSX x ((hmem x).2 (.inl ⟨a, ha⟩)), hvw' x (hBg x hxB), ha', hb']
  · rw [hSd]; exact fun x hx => by rw [hSy x hx, n3]
  · rw [hSd]
    have : (fun x => (n.call cal x).toOption.getD 0) = z := funext fun x => by rw [n3]; rfl
    rw [this, CRCurve_new_rate hp]
    have := CRCurve_make_eq cal (pts := ys.map fun x => (x, z x)) (cls := cls) (i := none) (o? := none) (dc := .default) (tenor := ta) (o := m)
      (by rw [hfy]; exact hyn) (fun h => absurd (plain_log hpl h) (by simp [hp])) (by rw [hfy]; exact d4) trivial hτ
    rw [hfy, graph_snd] at this
    exact this

/-- C188 (refuted): such curves can not be divided. -/
theorem C188_div_violated (i : InterpArg) (limit : ℕ) :
    (∀ (same₁ same₂ : D → Bool) (f g S : CRCurve D P), f.ownDiv cal i limit same₁ same₂ g ≠ .ok S) ∧
    ∀ (scipy : Bool) (f g S : VolCurve D P), f.ownDiv cal i scipy limit g ≠ .ok S := by
  refine ⟨fun same₁ same₂ f g S e => ?_, fun scipy f g S e => ?_⟩
  · simp only [CRCurve.ownDiv, Py.bind_eq_ok] at e
    obtain ⟨_, _, b, _, e⟩ := e
    split_ifs at e with hb
    · simp [Py.throw_eq, Py.error_bind] at e
    · simp only [Py.pure_eq, Py.ok_bind, Py.bind_eq_ok] at e
      obtain ⟨_, _, _, _, e⟩ := e
      simp [Py.throw_eq] at e
  · simp only [VolCurve.ownDiv, Py.bind_eq_ok] at e
    obtain ⟨_, _, b, _, e⟩ := e
    split_ifs at e with hb
    · simp [Py.throw_eq, Py.error_bind] at e
    · simp only [Py.pure_eq, Py.ok_bind, Py.bind_eq_ok] at e
      obtain ⟨_, _, _, _, e⟩ := e
      simp [Py.throw_eq] at e

end

/-! ### Where the interpolation is lost -/

/-- An interpolation with values of `a` after one and before two years, of `b` elsewhere, through any points. -/
noncomputable def exSecondYear (a b : ℝ) : Fit := fun xs ys => .ok fun x => .ok (some (((xs.zip ys).lookup x).getD (if 1 < x ∧ x < 2 then a else b)))

theorem exSecondYear_interpolates (a b : ℝ) : Spec.Interpolates (exSecondYear a b) := by
  intro pts _ hs
  refine ⟨fun x => (((pts.map Prod.fst).zip (pts.map Prod.snd)).lookup x).getD (if 1 < x ∧ x < 2 then a else b), rfl, fun p hp => ?_⟩
  have hn : (pts.map Prod.fst).Nodup := hs.imp fun {a b} => ne_of_lt
  have := (pointMap_some hn (x := p.1) (y := p.2)).2 hp
  unfold pointMap at this
  simp only [zip_unzip', this]; rfl

theorem exSecondYear_value {a b : ℝ} {l : List (ℝ × ℝ)} (h0 : ∀ p ∈ l, p.2 = b) {g : ℝ → ℝ} (h : exSecondYear a b (l.map Prod.fst) (l.map Prod.snd) = .ok fun t => .ok (some (g t))) :
    (∀ t, ¬(1 < t ∧ t < 2) → g t = b) ∧ ∀ t, t ∉ l.map Prod.fst → 1 < t → t < 2 → g t = a := by
  have hg : ∀ t, ((l.lookup t).getD (if 1 < t ∧ t < 2 then a else b)) = g t := fun t => by
    have := congrFun (Except.ok.inj h) t
    have := Option.some.inj (Except.ok.inj this)
    rwa [zip_unzip'] at this
  refine ⟨fun t ht => ?_, fun t hm h1 h2 => ?_⟩
  · rw [← hg, if_neg ht]
    cases hl : l.lookup t with
    | none => rfl
    | some y =>
      obtain ⟨l₁, l₂, e, -⟩ := List.lookup_eq_some_iff.1 hl
      exact h0 (t, y) (by rw [e]; simp)
  · have hl : l.lookup t = none := List.lookup_eq_none_iff.2 fun p hp => by
      simp only [bne_iff_ne, ne_eq]
      exact fun e => hm (List.mem_map.2 ⟨p, hp, e.symm⟩)
    rw [← hg, hl, if_pos ⟨h1, h2⟩]; rfl

/-- Dates in days: between 366 and 730 days after the origin a curve of values `b` is `a` except at its dates, elsewhere it is `b`. -/
theorem exSecondYear_days {a b : ℝ} {pts : List (ℤ × ℝ)} (h0 : ∀ p ∈ pts, p.2 = b) {o : ℤ} {w : ℤ → ℝ} {g : ℝ → ℝ} (hw : ∀ x, w x = g (DayCountArg.fn dayCal .default o x))
    (h : exSecondYear a b ((sortPairs (timePts (DayCountArg.fn dayCal .default) o pts)).map Prod.fst) ((sortPairs (timePts (DayCountArg.fn dayCal .default) o pts)).map Prod.snd) =
      .ok fun t => .ok (some (g t))) :
    (∀ x, x - o ≤ 365 ∨ 731 ≤ x - o → w x = b) ∧ ∀ x, x ∉ pts.map Prod.fst → 366 ≤ x - o → x - o ≤ 730 → w x = a := by
  have h0' : ∀ p ∈ sortPairs (timePts (DayCountArg.fn dayCal .default) o pts), p.2 = b := fun p hp => by
    obtain ⟨q, hq, rfl⟩ := List.mem_map.1 ((sortPairs_perm _).subset hp)
    exact h0 q hq
  obtain ⟨e1, e2⟩ := exSecondYear_value h0' h
  have hd : ∀ x, DayCountArg.fn dayCal .default o x = ((x - o : ℤ) : ℝ) / (36525 / 100) := fun _ => rfl
  refine ⟨fun x hx => ?_, fun x hm h1 h2 => ?_⟩
  · rw [hw]
    refine e1 _ fun ⟨u, v⟩ => ?_
    rw [hd, lt_div_iff₀ (by norm_num)] at u
    rw [hd, div_lt_iff₀ (by norm_num)] at v
    rcases hx with hx | hx
    · have : ((x - o : ℤ) : ℝ) ≤ 365 := by exact_mod_cast hx
      linarith
    · have : (731 : ℝ) ≤ ((x - o : ℤ) : ℝ) := by exact_mod_cast hx
      linarith
  · rw [hw]
    have h1' : (366 : ℝ) ≤ ((x - o : ℤ) : ℝ) := by exact_mod_cast h1
    have h2' : ((x - o : ℤ) : ℝ) ≤ 730 := by exact_mod_cast h2
    refine e2 _ (fun hm' => ?_) (by rw [hd, lt_div_iff₀ (by norm_num)]; linarith) (by rw [hd, div_lt_iff₀ (by norm_num)]; linarith)
    obtain ⟨p, hp, e⟩ := List.mem_map.1 hm'
    obtain ⟨q, hq, rfl⟩ := List.mem_map.1 ((sortPairs_perm _).subset hp)
    exact hm (List.mem_map.2 ⟨q, hq, goodDayCount_int.inj o e⟩)

theorem linVal_zeros {D : Type} [LinearOrder D] {τ : D → D → ℝ} (hτ : GoodDayCount τ) {pts : List (D × ℝ)} (hn : (pts.map Prod.fst).Nodup)
    (hne : pts ≠ []) (h0 : ∀ p ∈ pts, p.2 = 0) (o x : D) : linVal τ o pts x = 0 := by
  have := flin_bounds (sortPairs_strict (timePts_nodup hτ o hn)) (sortPairs_ne_nil (l := timePts τ o pts) (by simpa [timePts] using hne)) (a := 0) (b := 0)
    (fun p hp => by
      obtain ⟨q, hq, rfl⟩ := List.mem_map.1 ((sortPairs_perm _).subset hp)
      simp [h0 q hq]) (τ o x)
  exact le_antisymm this.2 this.1

/-- Intensity curves of the package through values of 0 are 0. -/
theorem intensity_zeros {D P : Type} [LinearOrder D] [AddCommGroup D] {cal : Cal D P} {cls : CRClass} (hcls : cls = .flat ∨ cls = .hazard)
    (hτ : GoodDayCount cal.dayCount) {xs : List D} (hx : xs.Nodup) (hne : xs ≠ []) {v : D → ℝ} (h0 : ∀ x ∈ xs, v x = 0) {t : Option P} {c : CRCurve D P}
    (hc : CRCurve.new cal cls xs (xs.map v) none none .default t = .ok c) (x : D) : c.call cal x = .ok 0 := by
  have hp : cls.isProb = false := by rcases hcls with rfl | rfl <;> rfl
  have hpl : cls.plain := .inr (.inr hcls)
  obtain ⟨m, hm⟩ : ∃ m, xs.head? = some m := by
    obtain ⟨a, l, h⟩ := List.exists_cons_of_ne_nil hne; exact ⟨a, by rw [h]; rfl⟩
  have hfst : (xs.map fun x => (x, v x)).map Prod.fst = xs := graph_fst _ _
  have hne' : (xs.map fun x => (x, v x)) ≠ [] := by simpa using hne
  have := CRCurve_make_eq cal (pts := xs.map fun x => (x, v x)) (cls := cls) (i := none) (o? := none) (dc := .default) (tenor := t) (o := m)
    (by rw [hfst]; exact hx) (fun h => absurd (plain_log hpl h) (by simp [hp])) (by rw [hfst]; exact hm) trivial hτ
  rw [hfst, graph_snd, ← CRCurve_new_rate hp, hc] at this
  rw [Except.ok.inj this]
  have h0' : ∀ p ∈ xs.map fun x => (x, v x), p.2 = 0 := fun p hp => by
    obtain ⟨q, hq, rfl⟩ := List.mem_map.1 hp; exact h0 q hq
  rcases hcls with rfl | rfl
  · rw [crOf_linear cal (dc := .default) rfl (by rw [hfst]; exact hm) trivial hτ (by rw [hfst]; exact hx) hne' x]
    exact congrArg _ (linVal_zeros hτ (by rw [hfst]; exact hx) hne' h0' _ _)
  · obtain ⟨y, h, p, hp, e, -⟩ := hazard_left hτ (A := xs.map fun x => (x, v x)) (by rw [hfst]; exact hx) hne' (oa := none) (by rw [hfst]; exact hm) t x
    rw [h, ← e, h0' p hp]

/-- C188 (violation): sums are not pointwise.  Two curves of intensities 0 at their dates and 1 after one and before two years: their sum is 0. -/
theorem C188_intensity_violated {cls : CRClass} (hcls : cls = .flat ∨ cls = .hazard) (limit : ℕ) (same₁ same₂ same₃ : ℤ → Bool) :
    Spec.Interpolates (exSecondYear 1 0) ∧ ∃ f S : CRCurve ℤ ℤ,
      CRCurve.own dayCal cls [0, 1000] [0, 0] (.func (exSecondYear 1 0) none) none .default none = .ok f ∧
      f.ownBinop dayCal (.func (exSecondYear 1 0) none) (· + ·) (limit + 1) same₁ same₂ same₃ f = .ok S ∧
      f.call dayCal 500 = .ok 1 ∧ S.call dayCal 500 = .ok 0 := by
  obtain ⟨f, g, ĝ, n, S, X, m, y, h1, h2, h3, h4, h5, h6, h7, h8, h9, h10, h11, h12, h13, h14, h15⟩ := C188_intensity (cal := dayCal) (γ := (exSecondYear 1 0)) (γ' := (exSecondYear 1 0)) (r := none)
    (r' := none) hcls goodDayCount_int movesOn_day (exSecondYear_interpolates 1 0) (exSecondYear_interpolates 1 0) (A := [(0, 0), (1000, 0)]) (B := [(0, 0), (1000, 0)]) (oa := none) (ob := none)
    (o := 0) (by simp) (by simp) (by simp) (by simp) rfl rfl (.inr (by simp)) (dc := .default) trivial goodDayCount_int none none (· + ·) limit same₁ same₁ same₂ same₃
  obtain rfl : f = g := Except.ok.inj (h1.symm.trans h2)
  obtain ⟨f', w, k1, -, k2, -, -, -, -, -, -, -, γ, k3, k4⟩ := ownCredit_eq (cal := dayCal) (γ := (exSecondYear 1 0)) (dc := .default) (o? := none) (o := 0) (pts := [((0 : ℤ), (0 : ℝ)), (1000, 0)])
    (exSecondYear_interpolates 1 0) (by simp) (by simp) rfl trivial goodDayCount_int hcls (none : Option ℤ)
  obtain rfl : f = f' := Except.ok.inj (h1.symm.trans (k1 none))
  obtain ⟨k5, k6⟩ := exSecondYear_days (pts := [((0 : ℤ), (0 : ℝ)), (1000, 0)]) (by simp) k3 k4
  have hp : cls.isProb = false := by rcases hcls with rfl | rfl <;> rfl
  have hyr : ∀ l : List ℤ, (∀ x ∈ l, x = 0 ∨ 1000 ≤ x) → 1000 ∈ l → ∀ o x, CastDate dayCal cls o l x → x = 0 ∨ 1000 ≤ x := by
    rintro l hl hm o x (h | ⟨h, -⟩ | ⟨m, h, h', e⟩)
    · exact hl x h
    · rw [hp] at h; cases h
    · have : m + 365 = x := Except.ok.inj e
      have := h' 1000 hm
      omega
  have hX : ∀ x ∈ X, x = 0 ∨ 1000 ≤ x := fun x hx => by
    rcases (h8 x).1 hx with ⟨z, hz⟩ | hz
    · simp at hz; omega
    · exact hyr _ (by simp) (by simp) 0 x hz
  have h0 : ∀ x, x = 0 ∨ 1000 ≤ x → f.call dayCal x = .ok 0 := fun x hx => by rw [k2, k5 x (by omega)]
  have hXc : ∀ x, x = 0 ∨ x = 1000 → x ∈ X := fun x hx => (h8 x).2 (.inl ⟨0, by rcases hx with rfl | rfl <;> simp⟩)
  have hm0 : m = 0 := by
    have := head_min h6 h7
    have h1' := hX m this.1
    have h2' := this.2 0 (hXc 0 (.inl rfl))
    omega
  subst hm0
  have hXd : ∀ x ∈ X, CastDate dayCal cls 0 ([((0 : ℤ), (0 : ℝ)), (1000, 0)].map Prod.fst) x := fun x hx => by
    rcases (h8 x).1 hx with ⟨z, hz⟩ | hz
    · exact .inl (by simp at hz ⊢; omega)
    · exact hz
  have hy : ∀ x ∈ X, y x = 0 := fun x hx => by
    obtain ⟨a, b, e1, e2, e3⟩ := h10 x (hXd x hx)
    obtain ⟨a', b', e1', e2', e4, e5⟩ := h9 x hx
    have hab : a' + b' = a + b := Except.ok.inj (e5.symm.trans e3)
    have ha : a = 0 := Except.ok.inj (e1.symm.trans (h0 x (hX x hx)))
    have hb : b = 0 := Except.ok.inj (e2.symm.trans (h0 x (hX x hx)))
    show y x = 0
    rw [e4, hab, ha, hb, add_zero]
  have e1 : (X.map fun x => (x, y x)).map Prod.fst = X := graph_fst _ _
  have e2 : (X.map fun x => (x, y x)).map Prod.snd = X.map y := graph_snd _ _
  have hxne : X ≠ [] := List.ne_nil_of_mem (hXc 0 (.inl rfl))
  obtain ⟨n', z, l1, -, l2, -, -, -, -, -, -, -, γ', l3, l4⟩ := ownCredit_eq (cal := dayCal) (γ := (exSecondYear 1 0)) (dc := .default) (o? := none) (o := 0) (pts := X.map fun x => (x, y x))
    (exSecondYear_interpolates 1 0) (by rw [e1]; exact h6.imp fun h => h.ne) (by simpa using hxne) (by rw [e1]; exact h7) trivial goodDayCount_int hcls (none : Option ℤ)
  rw [e1, e2] at l1
  obtain rfl : n = n' := Except.ok.inj (h4.symm.trans (l1 none))
  obtain ⟨l5, -⟩ := exSecondYear_days (pts := X.map fun x => (x, y x)) (fun p hp => by
    obtain ⟨q, hq, rfl⟩ := List.mem_map.1 hp; exact hy q hq) l3 l4
  refine ⟨(exSecondYear_interpolates 1 0), f, S, h1, h5, by rw [k2, k6 500 (by simp) (by norm_num) (by norm_num)], ?_⟩
  refine intensity_zeros hcls goodDayCount_int (h12.imp fun h => h.ne) (List.ne_nil_of_mem ((h13 0).2 (.inl (hXc 0 (.inl rfl))))) (fun x hx => ?_) h15 500
  rw [l2]
  have := hyr X hX (hXc 1000 (.inr rfl)) 0 x ((h13 x).1 hx)
  exact l5 x (by omega)

/-- C188 (violation): the same for volatilities. -/
theorem C188_volatility_violated (cls : VolClass) (scipy : Bool) (limit : ℕ) :
    Spec.Interpolates (exSecondYear 1 0) ∧ ∃ f S : VolCurve ℤ ℤ,
      VolCurve.own dayCal cls none [0, 1000] [0, 0] (.func (exSecondYear 1 0) none) none .default none = .ok f ∧
      f.ownBinop dayCal (.func (exSecondYear 1 0) none) (· + ·) scipy (limit + 1) f = .ok S ∧
      f.call dayCal 500 = .ok 1 ∧ S.call dayCal 500 = .ok 0 := by
  obtain ⟨f, g, ĝ, n, S, X, m, y, h1, h2, h3, h4, h5, h6, h7, h8, h9, h10, h11, h12, h13, h14, h15⟩ := C188_volatility (cal := dayCal) (γ := (exSecondYear 1 0)) (γ' := (exSecondYear 1 0)) (r := none)
    (r' := none) dayCal_volCalendar (exSecondYear_interpolates 1 0) (exSecondYear_interpolates 1 0) (A := [(0, 0), (1000, 0)]) (B := [(0, 0), (1000, 0)]) (oa := none) (ob := none)
    (o := 0) (by simp) (by simp) (by simp) (by simp) rfl rfl (dc := .default) trivial goodDayCount_int cls none none none (· + ·) scipy limit
  obtain rfl : f = g := Except.ok.inj (h1.symm.trans h2)
  obtain ⟨f', w, k1, -, k2, -, -, -, -, -, -, -, -, γ, k3, k4⟩ := ownVol_eq (cal := dayCal) (γ := (exSecondYear 1 0)) (dc := .default) (o? := none) (o := 0) (pts := [((0 : ℤ), (0 : ℝ)), (1000, 0)])
    (exSecondYear_interpolates 1 0) (by simp) (by simp) rfl trivial goodDayCount_int cls none (none : Option ℤ)
  obtain rfl : f = f' := Except.ok.inj (h1.symm.trans (k1 none))
  obtain ⟨k5, k6⟩ := exSecondYear_days (pts := [((0 : ℤ), (0 : ℝ)), (1000, 0)]) (by simp) k3 k4
  have hyr : ∀ l : List ℤ, ∀ k : ℤ, 0 ≤ k → k ≤ 5 → (∀ x ∈ l, (-k ≤ x ∧ x ≤ k) ∨ 1000 - k ≤ x) → 1000 ∈ l → ∀ o x, -k ≤ o → o ≤ k → VolDate (· - 1) (· + 1) (· + 3652) cls o l x →
      (-(k + 1) ≤ x ∧ x ≤ k + 1) ∨ 1000 - (k + 1) ≤ x := by
    intro l k hk0 hk hl hm o x ho1 ho2 h
    cases cls with
    | instantaneous =>
      obtain ⟨y, hy, h⟩ := h
      have : (-k ≤ y ∧ y ≤ k) ∨ 1000 - k ≤ y := hy.elim (hl y) fun e => by omega
      simp only at h; omega
    | terminal =>
      rcases h with h | h | ⟨m, h, h', e⟩
      · have := hl x h; omega
      · simp only at h; omega
      · have := h' 1000 hm; simp only at e; omega
  have hXd : ∀ x ∈ X, VolDate (· - 1) (· + 1) (· + 3652) cls 0 ([((0 : ℤ), (0 : ℝ)), (1000, 0)].map Prod.fst) x := fun x hx => by
    rcases (h8 x).1 hx with ⟨z, hz⟩ | hz
    · exact .of_mem (by simp at hz ⊢; omega)
    · exact hz
  have hX : ∀ x ∈ X, (-1 ≤ x ∧ x ≤ 1) ∨ 999 ≤ x := fun x hx => by
    have := hyr _ 0 le_rfl (by norm_num) (by simp) (by simp) 0 x (by norm_num) (by norm_num) (hXd x hx)
    omega
  have hXc : ∀ x, x = 0 ∨ x = 1000 → x ∈ X := fun x hx => (h8 x).2 (.inl ⟨0, by rcases hx with rfl | rfl <;> simp⟩)
  have hm0 : -1 ≤ m ∧ m ≤ 0 := by
    have := head_min h6 h7
    have h1' := hX m this.1
    have h2' := this.2 0 (hXc 0 (.inl rfl))
    omega
  have hy : ∀ x ∈ X, y x = 0 := fun x hx => by
    obtain ⟨a, b, e1, e2, e3⟩ := h10 x (hXd x hx)
    obtain ⟨a', b', e1', e2', e4, e5⟩ := h9 x hx
    have hab : a' + b' = a + b := Except.ok.inj (e5.symm.trans e3)
    have h0 : f.call dayCal x = .ok 0 := by rw [k2, k5 x (by have := hX x hx; omega)]
    have ha : a = 0 := Except.ok.inj (e1.symm.trans h0)
    have hb : b = 0 := Except.ok.inj (e2.symm.trans h0)
    show y x = 0
    rw [e4, hab, ha, hb, add_zero]
  have e1 : (X.map fun x => (x, y x)).map Prod.fst = X := graph_fst _ _
  have e2 : (X.map fun x => (x, y x)).map Prod.snd = X.map y := graph_snd _ _
  have hxne : X ≠ [] := List.ne_nil_of_mem (hXc 0 (.inl rfl))
  obtain ⟨n', z, l1, -, l2, -, -, -, -, -, -, -, -, γ', l3, l4⟩ := ownVol_eq (cal := dayCal) (γ := (exSecondYear 1 0)) (dc := .default) (o? := none) (o := m) (pts := X.map fun x => (x, y x))
    (exSecondYear_interpolates 1 0) (by rw [e1]; exact h6.imp fun h => h.ne) (by simpa using hxne) (by rw [e1]; exact h7) trivial goodDayCount_int cls none (none : Option ℤ)
  rw [e1, e2] at l1
  obtain rfl : n = n' := Except.ok.inj (h4.symm.trans (l1 none))
  obtain ⟨l5, -⟩ := exSecondYear_days (pts := X.map fun x => (x, y x)) (fun p hp => by
    obtain ⟨q, hq, rfl⟩ := List.mem_map.1 hp; exact hy q hq) l3 l4
  refine ⟨(exSecondYear_interpolates 1 0), f, S, h1, h5, by rw [k2, k6 500 (by simp) (by norm_num) (by norm_num)], ?_⟩
  have hdn : S.base.domain.Nodup := h12.imp fun h => h.ne
  have hdne : S.base.domain ≠ [] := List.ne_nil_of_mem ((h13 0).2 (.of_mem (hXc 0 (.inl rfl))))
  have hz : (fun x => (n.call dayCal x).toOption.getD 0) = z := funext fun x => by rw [l2]; rfl
  rw [hz, vol_new goodDayCount_int hdn rfl] at h15
  have hfst : (S.base.domain.map fun x => (x, z x)).map Prod.fst = S.base.domain := graph_fst _ _
  have hans := (volOf_answers (cal := dayCal) (dc := .default) (cls := cls) (floor := none) (tenor := (none : Option ℤ)) (o? := some m) (o := m)
    (pts := S.base.domain.map fun x => (x, z x)) (by rw [hfst]; exact hdn) (by simpa using hdne) rfl trivial goodDayCount_int).1
  have hS := hans.call 500
  rw [Except.ok.inj h15] at hS
  rw [hS]
  refine congrArg _ (linVal_zeros goodDayCount_int (by rw [hfst]; exact hdn) (by simpa using hdne) (fun p hp => ?_) _ _)
  obtain ⟨x, hx, rfl⟩ := List.mem_map.1 hp
  have := hyr X 1 (by norm_num) (by norm_num) (fun x hx => by have := hX x hx; omega) (hXc 1000 (.inr rfl)) m x (by omega) (by omega) ((h13 x).1 hx)
  exact l5 x (by omega)

/-! ### The hypotheses can be met: each theorem applied -/

example := C188_kwargs (cal := dayCal) (γ := exSpikesAt 0.03) (exSpikesAt_interpolates _) (pts := [((0 : ℤ), (0.01 : ℝ)), (365, 0.02)]) (o? := none) (o := 0) (by simp) (by simp) rfl
  goodDayCount_int none
example := C188_volatility (cal := dayCal) (γ := exSpikesAt 0.03) (γ' := (exSecondYear 1 0)) (r := none) (r' := none) dayCal_volCalendar (exSpikesAt_interpolates _) (exSecondYear_interpolates 1 0)
  (A := [(0, 0.2), (365, 0.3)]) (B := [(0, 0.1), (365, 0.2), (730, 0.1)]) (oa := none) (ob := none) (o := 0) (by simp) (by simp) (by simp) (by simp) rfl rfl (dc := .default)
  trivial goodDayCount_int .terminal none none none (· * ·) true 3
example := C188_intensity (cal := dayCal) (γ := exSpikesAt 0.03) (γ' := (exSecondYear 1 0)) (r := none) (r' := none) (cls := .hazard) (.inr rfl) goodDayCount_int movesOn_day
  (exSpikesAt_interpolates _) (exSecondYear_interpolates 1 0) (A := [(0, 0.2), (365, 0.3)]) (B := [(0, 0.1), (365, 0.2), (730, 0.1)]) (oa := none) (ob := some 0) (o := 0)
  (by simp) (by simp) (by simp) (by simp) rfl rfl (.inl rfl) (dc := .default) trivial goodDayCount_int none none (· * ·) 3

end Dcf
