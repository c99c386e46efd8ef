import Verif.Model.CreditArith
import Verif.Props.CreditData

/-! # Rebuilt and shifted credit curves, constructor arguments: C136 -/

set_option linter.unusedSectionVars false
set_option linter.unusedSimpArgs false
set_option linter.unusedVariables false

namespace Dcf

open Spec

section
variable {D P : Type} [LinearOrder D] {cal : Cal D P}

theorem storedProb_idem {cls : CRClass} (h : cls ≠ .default ∧ cls ≠ .marginalDefault) (y : ℝ) :
    storedProb cls (storedProb cls y) = storedProb cls y := by
  have e : ∀ y, storedProb cls y = clampProb y := fun y => by simp [storedProb, h.1, h.2, clampProb]
  rw [e, e, clampProb_eq (clampProb_mem y).1 (clampProb_mem y).2]

/-- C136: survival, marginal survival, intensity and hazard rate curves built from any numbers are rebuilt by their `kwargs` as
they were. -/
theorem C136_rebuild {cls : CRClass} (hcls : cls ≠ .default ∧ cls ≠ .marginalDefault) {pts : List (D × ℝ)} {i : Option FuncSpec}
    {o? : Option D} {o : D} {dc : DayCountArg D} {tenor : Option P} (hn : (pts.map Prod.fst).Nodup)
    (ho : o?.or (pts.map Prod.fst).head? = some o) (hd : dc.Usable) (hdk : dc.kwarg = dc) (hτ : GoodDayCount (dc.fn cal))
    (hk : KeptInterp i) (hpos : cls.isProb = false → (i.getD cls.dflt).isLog → ∀ p ∈ pts, 0 < p.2)
    (h0 : (i.getD cls.dflt).needsNonzero → ∃ p ∈ pts, p.1 ≠ o) :
    ∃ c : CRCurve D P, CRCurve.new cal cls (pts.map Prod.fst) (pts.map Prod.snd) i o? dc tenor = .ok c ∧ c.rebuild cal = .ok c := by
  have key : ∀ q : List (D × ℝ), q.map Prod.fst = pts.map Prod.fst → (∀ p ∈ q, cls.isProb = true → storedProb cls p.2 = p.2) →
      ((i.getD cls.dflt).isLog → ∀ p ∈ q, 0 < p.2) → CRCurve.new cal cls (q.map Prod.fst) (q.map Prod.snd) i o? dc tenor =
        .ok (crOf cal o o? dc i cls tenor q) →
      (crOf cal o o? dc i cls tenor q).rebuild cal = .ok (crOf cal o o? dc i cls tenor q) := by
    intro q e1 hst hqpos hnew
    have hvals : pyMap ((crOf cal o o? dc i cls tenor q).call cal) (q.map Prod.fst) = .ok (q.map Prod.snd) := by
      rw [pyMap_map]
      refine pyMap_ok fun p hp => crOf_node cal (by rw [e1]; exact ho) hd hτ (by rw [e1]; exact hn) hqpos (fun h => ?_) hp
      obtain ⟨r, hr, hro⟩ := h0 h
      have : r.1 ∈ q.map Prod.fst := by rw [e1]; exact List.mem_map.2 ⟨r, hr, rfl⟩
      obtain ⟨s, hs, hsr⟩ := List.mem_map.1 this
      exact ⟨s, hs, hsr ▸ hro⟩
    have hdom : (crOf cal o o? dc i cls tenor q).base.domain = q.map Prod.fst := rfl
    have hint : (crOf cal o o? dc i cls tenor q).base.interp = i := rfl
    have hdc : (crOf cal o o? dc i cls tenor q).base.dc = dc := rfl
    simp only [CRCurve.rebuild, hdom, hint, hvals, Py.ok_bind, keepInterp_kept hk, hdc, hdk]
    exact hnew
  cases hp : cls.isProb with
  | false =>
    have hnew : CRCurve.new cal cls (pts.map Prod.fst) (pts.map Prod.snd) i o? dc tenor = .ok (crOf cal o o? dc i cls tenor pts) := by
      rw [CRCurve_new_rate hp]; exact CRCurve_make_eq cal hn (hpos hp) ho hd hτ
    exact ⟨_, hnew, key pts rfl (fun _ _ h => absurd h (by simp [hp])) (hpos hp) hnew⟩
  | true =>
    set q := pts.map fun p => (p.1, storedProb cls p.2) with hq
    have e1 : q.map Prod.fst = pts.map Prod.fst := by rw [hq, List.map_map]; rfl
    have e2 : q.map (fun p => (p.1, storedProb cls p.2)) = q := by
      rw [hq, List.map_map]
      refine List.map_congr_left fun p _ => ?_
      simp [storedProb_idem hcls]
    refine ⟨_, CRCurve_new_eq hp hn ho hd hτ, key q e1 (fun p hpq _ => ?_) (fun _ p hpq => ?_) ?_⟩
    · obtain ⟨r, -, rfl⟩ := List.mem_map.1 hpq
      exact storedProb_idem hcls _
    · obtain ⟨r, -, rfl⟩ := List.mem_map.1 hpq
      exact storedProb_pos _ _
    · rw [CRCurve_new_eq hp (by rw [e1]; exact hn) (by rw [e1]; exact ho) hd hτ, e2]

/-- C136 (refuted for default probabilities): the stored survival probabilities are taken for default probabilities, so the
rebuilt curve has the complement: a default probability `q` has become `1 - q`. -/
theorem C136_default_violated {cls : CRClass} (hcls : cls = .default ∨ cls = .marginalDefault) {pts : List (D × ℝ)}
    {i : Option FuncSpec} {o? : Option D} {o : D} {dc : DayCountArg D} {tenor : Option P} (hn : (pts.map Prod.fst).Nodup)
    (ho : o?.or (pts.map Prod.fst).head? = some o) (hd : dc.Usable) (hdk : dc.kwarg = dc) (hτ : GoodDayCount (dc.fn cal))
    (hk : KeptInterp i) (h0 : (i.getD cls.dflt).needsNonzero → ∃ p ∈ pts, p.1 ≠ o)
    (hin : ∀ p ∈ pts, floatMin ≤ p.2 ∧ floatMin ≤ 1 - p.2) :
    ∃ c c' : CRCurve D P, CRCurve.new cal cls (pts.map Prod.fst) (pts.map Prod.snd) i o? dc tenor = .ok c ∧
      c.rebuild cal = .ok c' ∧ ∀ x q, (x, q) ∈ pts → c.call cal x = .ok (1 - q) ∧ c'.call cal x = .ok q := by
  have hp : cls.isProb = true := by rcases hcls with rfl | rfl <;> rfl
  have hfm := floatMin_pos
  have hst : ∀ y, floatMin ≤ y → floatMin ≤ 1 - y → storedProb cls y = 1 - y := fun y h1 h2 => by
    rw [storedProb, if_pos hcls, min_eq_left (by linarith), max_eq_right h2]
  have hq : (pts.map fun p => (p.1, storedProb cls p.2)) = pts.map fun p => (p.1, 1 - p.2) :=
    List.map_congr_left fun p hp => by rw [hst _ (hin p hp).1 (hin p hp).2]
  set q := pts.map fun p => (p.1, 1 - p.2) with hqd
  have e1 : q.map Prod.fst = pts.map Prod.fst := by rw [hqd, List.map_map]; rfl
  have e2 : q.map (fun p => (p.1, storedProb cls p.2)) = pts := by
    rw [hqd, List.map_map]
    conv_rhs => rw [← List.map_id pts]
    refine List.map_congr_left fun p hp => ?_
    have := hin p hp
    simp only [Function.comp, id]
    rw [hst _ this.2 (by linarith [this.1]), sub_sub_cancel]
  have hn' : (q.map Prod.fst).Nodup := by rw [e1]; exact hn
  have ho' : o?.or (q.map Prod.fst).head? = some o := by rw [e1]; exact ho
  have hqpos : ∀ p ∈ q, 0 < p.2 := fun p hpq => by
    obtain ⟨r, hr, rfl⟩ := List.mem_map.1 hpq
    have := (hin r hr).2; show 0 < 1 - r.2; linarith
  have hnode := fun {x : D} {y : ℝ} (hm : (x, y) ∈ q) => crOf_node cal (tenor := tenor) (cls := cls) (i := i) ho' hd hτ hn' (fun _ => hqpos) (fun h => by
    obtain ⟨r, hr, hro⟩ := h0 h
    exact ⟨_, List.mem_map.2 ⟨r, hr, rfl⟩, hro⟩) hm
  have hvals : pyMap ((crOf cal o o? dc i cls tenor q).call cal) (q.map Prod.fst) = .ok (q.map Prod.snd) := by
    rw [pyMap_map]
    exact pyMap_ok fun p hp => hnode hp
  have hdom : (crOf cal o o? dc i cls tenor q).base.domain = q.map Prod.fst := rfl
  have hint : (crOf cal o o? dc i cls tenor q).base.interp = i := rfl
  have hdc : (crOf cal o o? dc i cls tenor q).base.dc = dc := rfl
  refine ⟨crOf cal o o? dc i cls tenor q, crOf cal o o? dc i cls tenor pts, by rw [CRCurve_new_eq hp hn ho hd hτ, hq], ?_, fun x y hm => ⟨hnode (List.mem_map.2 ⟨_, hm, rfl⟩), ?_⟩⟩
  · simp only [CRCurve.rebuild, hdom, hint, hvals, Py.ok_bind, keepInterp_kept hk, hdc, hdk]
    show CRCurve.new cal cls (q.map Prod.fst) (q.map Prod.snd) i o? dc tenor = _
    rw [CRCurve_new_eq hp hn' ho' hd hτ, e2]
  · exact crOf_node cal ho hd hτ hn (fun _ p hp => hfm.trans_le (hin p hp).1) h0 hm

theorem credit_castOn_fields {cls : CRClass} {limit : ℕ} {same : D → Bool} {domain : List D} {c c' : CRCurve D P}
    {i : Option FuncSpec} {o? : Option D} {dc : DayCountArg D} {tenor : Option P}
    (h : c.castOn cal cls limit same domain i o? dc tenor = .ok c') :
    c'.cls = cls ∧ c'.tenor = tenor ∧ c'.spread = none ∧ c'.base.domain = domain ∧ c'.base.interp = i ∧
      c'.base.origin? = cal.or o? c.base.origin? ∧ c'.base.dc = dc.or c.base.dc.kwarg := by
  simp only [CRCurve.castOn, Py.bind_eq_ok, CRCurve.make] at h
  obtain ⟨ys, -, b, hb, h⟩ := h
  have hf := DateCurve_new_fields cal hb
  rw [← Except.ok.inj h]
  exact ⟨rfl, rfl, rfl, hf.1, hf.2.2.2.1, hf.2.1, hf.2.2.1⟩

/-- The value from the origin on is the value of the curve, for survival, default and intensity curves. -/
theorem storage_eq_call {c : CRCurve D P} (hc : c.cls = .survival ∨ c.cls = .default ∨ c.cls = .flat) (ho : c.base.origin.isSome)
    (limit : ℕ) (same : D → Bool) (x : D) : c.cls.storage cal limit same c x = c.call cal x := by
  obtain ⟨o, ho⟩ := Option.isSome_iff_exists.1 ho
  rcases hc with hc | hc | hc
  · simp [hc, CRClass.storage, CRCurve.survivalProb, ho, pyDate, CRCurve.factor, CRCurve.survivalFactorOf]
  · simp [hc, CRClass.storage, CRCurve.survivalProb, ho, pyDate, CRCurve.factor, CRCurve.survivalFactorOf]
  · simp only [hc, CRClass.storage, CRCurve.flatIntensity, ho, pyDate, Py.ok_bind, CRCurve.rate, CRCurve.flatRateOf]
    by_cases h : o = x
    · subst h; simp
    · simp [h]

end

section
variable {D P : Type} [LinearOrder D] [AddCommGroup D] {cal : Cal D P}

theorem shift_grid (l : List D) (δ : D) : (if δ ≠ 0 then l.map (· + δ) else l) = l.map (· + δ) := by
  by_cases hδ : δ = 0
  · subst hδ; simp
  · simp [hδ]

/-- C136: what a shifted credit curve keeps, and its dates; tenor, interpolation and spread are dropped. -/
theorem C136_fields {c c' : CRCurve D P} {limit : ℕ} {same : D → Bool} {δ : D}
    (h : c.shifted cal limit same δ = .ok c') :
    c'.cls = c.cls ∧ c'.base.domain = c.base.domain.map (· + δ) ∧ c'.base.origin? = c.base.origin? ∧
      c'.base.dc = c.base.dc.kwarg ∧ c'.tenor = none ∧ c'.base.interp = none ∧ c'.spread = none := by
  obtain ⟨h1, h2, h3, h4, h5, h6, h7⟩ := credit_castOn_fields h
  exact ⟨h1, by rw [h4, shift_grid], h6, h7, h2, h5, h3⟩

/-- C136: a shifted survival, default or intensity curve has at the moved dates the values that the curve has there. -/
theorem C136_shift {c : CRCurve D P} (hc : c.cls = .survival ∨ c.cls = .default ∨ c.cls = .flat) (hn : c.base.domain.Nodup)
    (hne : c.base.domain ≠ []) (hd : c.base.dc.kwarg.Usable) (hτ : GoodDayCount (c.base.dc.kwarg.fn cal)) (limit : ℕ)
    (same : D → Bool) {δ : D} {u : D → ℝ} (hu : ∀ x ∈ c.base.domain, c.call cal (x + δ) = .ok (u (x + δ)))
    (hpos : c.cls ≠ .flat → ∀ x ∈ c.base.domain, 0 < u (x + δ))
    (h0 : c.cls ≠ .flat → ∃ x ∈ c.base.domain, some (x + δ) ≠ c.base.origin?.or (c.base.domain.head?.map (· + δ))) :
    ∃ c', c.shifted cal limit same δ = .ok c' ∧ ∀ x ∈ c.base.domain, c'.call cal (x + δ) = c.call cal (x + δ) := by
  have ho : c.base.origin.isSome := by
    obtain ⟨a, l, hal⟩ := List.exists_cons_of_ne_nil hne
    simp only [DateCurve.origin, hal]
    cases c.base.origin? <;> simp
  set g := c.base.domain.map (· + δ) with hg
  have hgn : g.Nodup := hn.map (add_left_injective δ)
  obtain ⟨o, hog⟩ : ∃ o, c.base.origin?.or g.head? = some o := by
    obtain ⟨a, l, hal⟩ := List.exists_cons_of_ne_nil hne
    rw [hg, hal]
    cases c.base.origin? <;> simp
  have hfst : (g.map fun x => (x, u x)).map Prod.fst = g := graph_fst _ _
  have hsnd : (g.map fun x => (x, u x)).map Prod.snd = g.map u := graph_snd _ _
  have hlog : (Option.getD none c.cls.dflt).isLog → ∀ p ∈ g.map fun x => (x, u x), 0 < p.2 := by
    intro h p hp
    obtain ⟨y, hy, rfl⟩ := List.mem_map.1 hp
    obtain ⟨x, hx, rfl⟩ := List.mem_map.1 hy
    refine hpos (fun e => ?_) x hx
    rw [e] at h
    simp [CRClass.dflt, linearScheme, FuncSpec.isLog, Kind.isLog] at h
  have hzero : (Option.getD none c.cls.dflt).needsNonzero → ∃ p ∈ g.map fun x => (x, u x), p.1 ≠ o := by
    intro h
    obtain ⟨x, hx, hxo⟩ := h0 (fun e => by rw [e] at h; simp [CRClass.dflt, linearScheme, FuncSpec.needsNonzero, Kind.isRate] at h)
    refine ⟨_, List.mem_map.2 ⟨x + δ, List.mem_map.2 ⟨x, hx, rfl⟩, rfl⟩, fun e => hxo ?_⟩
    rw [hg, List.head?_map] at hog
    rw [hog, ← e]
  have hnew := CRCurve_make_eq cal (pts := g.map fun x => (x, u x)) (cls := c.cls) (i := none) (o? := c.base.origin?)
    (dc := c.base.dc.kwarg) (tenor := none) (o := o) (by rw [hfst]; exact hgn) hlog (by rw [hfst]; exact hog) hd hτ
  rw [hfst, hsnd] at hnew
  refine ⟨crOf cal o c.base.origin? c.base.dc.kwarg none c.cls none (g.map fun x => (x, u x)), ?_, fun x hx => ?_⟩
  · rw [CRCurve.shifted, shift_grid]
    simp only [CRCurve.castOn]
    rw [pyMap_ok (g := u) fun x hx => ?_, Py.ok_bind]
    · exact hnew
    · obtain ⟨y, hy, rfl⟩ := List.mem_map.1 hx
      rw [storage_eq_call hc ho]
      exact hu y hy
  · rw [hu x hx]
    exact crOf_node cal (by rw [hfst]; exact hog) hd hτ (by rw [hfst]; exact hgn) hlog hzero
      (List.mem_map.2 ⟨x + δ, List.mem_map.2 ⟨x, hx, rfl⟩, rfl⟩)

/-- C136 (refuted): shifting does not move the values: the intensity curve through `(o, r₁)` and `(o + δ, r₂)` shifted by `δ` has the
intensity `r₂` at `o + δ`, not `r₁`. -/
theorem C136_moved_violated (hτ : GoodDayCount cal.dayCount) {o δ : D} (hδ : δ ≠ 0) {r₁ r₂ : ℝ} (hr : r₁ ≠ r₂) (limit : ℕ)
    (same : D → Bool) (tenor : Option P) :
    ∃ c c', CRCurve.new cal .flat [o, o + δ] [r₁, r₂] none (some o) .default tenor = .ok c ∧
      c.shifted cal limit same δ = .ok c' ∧ c.call cal o = .ok r₁ ∧ c'.call cal (o + δ) = .ok r₂ ∧
      c'.call cal (o + δ) ≠ c.call cal o := by
  have hn : (([(o, r₁), (o + δ, r₂)] : List (D × ℝ)).map Prod.fst).Nodup := by simpa using hδ
  have hnl : (Option.getD none (CRClass.dflt .flat)).isLog = false := by
    simp [CRClass.dflt, linearScheme, FuncSpec.isLog, Kind.isLog]
  have hnz : (Option.getD none (CRClass.dflt .flat)).needsNonzero = false := by
    simp [CRClass.dflt, linearScheme, FuncSpec.needsNonzero, Kind.isRate]
  have hnew : CRCurve.new cal .flat [o, o + δ] [r₁, r₂] none (some o) .default tenor =
      .ok (crOf cal o (some o) .default none .flat tenor [(o, r₁), (o + δ, r₂)]) := by
    rw [CRCurve_new_rate rfl]
    exact CRCurve_make_eq cal (pts := [(o, r₁), (o + δ, r₂)]) (dc := .default) hn (fun h => absurd (hnl.symm.trans h) (by simp)) rfl trivial hτ
  have node : ∀ x y, (x, y) ∈ [(o, r₁), (o + δ, r₂)] → (crOf cal o (some o) .default none .flat tenor
      [(o, r₁), (o + δ, r₂)]).call cal x = .ok y := fun x y hm => crOf_node cal (dc := .default) rfl trivial hτ hn
      (fun h => absurd (hnl.symm.trans h) (by simp)) (fun h => absurd (hnz.symm.trans h) (by simp)) hm
  obtain ⟨v, hv⟩ : ∃ v, (crOf cal o (some o) .default none .flat tenor [(o, r₁), (o + δ, r₂)]).call cal (o + δ + δ) = .ok v :=
    ⟨_, crOf_linear cal (dc := .default) rfl rfl trivial hτ hn (by simp) _⟩
  obtain ⟨c', h1, h2⟩ := C136_shift (cal := cal) (c := crOf cal o (some o) .default none .flat tenor [(o, r₁), (o + δ, r₂)])
    (.inr (.inr rfl)) (by simpa [crOf, dateCurveOf] using hδ) (by simp [crOf, dateCurveOf]) trivial hτ limit same (δ := δ)
    (u := fun x => if x = o + δ then r₂ else v) (fun x hx => by
      have hx' : x = o ∨ x = o + δ := by simpa [crOf, dateCurveOf] using hx
      rcases hx' with rfl | rfl
      · simpa using node _ r₂ (by simp)
      · simpa [hδ] using hv) (fun h => absurd rfl h) (fun h => absurd rfl h)
  have e2 := h2 o (by simp [crOf, dateCurveOf])
  rw [node _ r₂ (by simp)] at e2
  have e1 := node o r₁ (by simp)
  exact ⟨_, c', hnew, h1, e1, e2, by rw [e1, e2]; simpa using Ne.symm hr⟩

end

section
variable {D P : Type} [LinearOrder D] {cal : Cal D P}

open Classical in
/-- C136 (constructor arguments): a curve given as `domain` is cast, giving values or a curve as well is a `TypeError`; a curve
given as `data` is cast onto the dates given as `domain` with class, tenor and interpolation as given. -/
theorem C136_construct (cls : CRClass) (limit : ℕ) (same : D → Bool) (c : CRCurve D P) (i : Option FuncSpec) (o? : Option D)
    (dc : DayCountArg D) (tenor : Option P) :
    (∀ data, CRCurve.construct cal cls limit same (.curve c) data i o? dc tenor =
      if data = .values [] then c.cast cal cls limit same i o? dc tenor else .error .type) ∧
    (∀ l c', CRCurve.construct cal cls limit same (.dates l) (.curve c) i o? dc tenor = .ok c' →
      c'.cls = cls ∧ c'.base.domain = l ∧ c'.tenor = tenor ∧ c'.base.interp = i) ∧
    CRCurve.construct cal cls limit same .none (.curve c) i o? dc tenor =
      CRCurve.construct cal cls limit same (.dates c.base.domain) (.curve c) i o? dc tenor := by
  refine ⟨fun data => ?_, fun l c' h => ?_, rfl⟩
  · cases data with
    | values l => cases l <;> simp [CRCurve.construct]
    | curve d => simp [CRCurve.construct]
  · obtain ⟨h1, h2, h3, h4, h5, h6, h7⟩ := credit_castOn_fields h
    exact ⟨h1, h4, h2, h5⟩

/-- C136: values without dates are a `TypeError`, even no values. -/
theorem C136_values (cls : CRClass) (limit : ℕ) (same : D → Bool) (values : List ℝ) (i : Option FuncSpec) (o? : Option D) (dc : DayCountArg D)
    (tenor : Option P) :
    CRCurve.construct cal cls limit same .none (.values values) i o? dc tenor = .error .type ∧
      ∀ l, CRCurve.construct cal cls limit same (.dates l) (.values values) i o? dc tenor = CRCurve.new cal cls l values i o? dc tenor :=
  ⟨rfl, fun _ => rfl⟩

end

/-- The hypotheses are met: default probabilities of 5% and 10% turn into 95% and 90%. -/
example : ∃ c c' : CRCurve ℤ ℤ, CRCurve.new dayCal .default [0, 365] [1 / 20, 1 / 10] none none .default none = .ok c ∧
    c.rebuild dayCal = .ok c' ∧ c.call dayCal 365 = .ok (1 - 1 / 10) ∧ c'.call dayCal 365 = .ok (1 / 10) := by
  have hf : floatMin ≤ 1 / 20 := by
    rw [floatMin]
    calc ((1 : ℝ) / 2) ^ 1022 ≤ (1 / 2) ^ 5 := pow_le_pow_of_le_one (by norm_num) (by norm_num) (by norm_num)
      _ ≤ _ := by norm_num
  obtain ⟨c, c', h1, h2, h3⟩ := C136_default_violated (cal := dayCal) (cls := .default) (.inl rfl) (pts := [(0, 1 / 20), (365, 1 / 10)])
    (i := none) (o? := none) (o := 0) (dc := .default) (tenor := none) (by decide) rfl trivial rfl goodDayCount_int
    (fun _ _ _ h => by simp at h) (fun _ => ⟨(365, 1 / 10), by simp, by decide⟩) (by
      intro p hp; fin_cases hp <;> constructor <;> norm_num <;> linarith)
  exact ⟨c, c', h1, h2, h3 365 (1 / 10) (by simp)⟩

/-! ### The hypotheses can be met: each theorem applied -/

example := C136_rebuild (cal := dayCal) (cls := .hazard) (by simp) (pts := [((0 : ℤ), (1 / 100 : ℝ)), (100, 3 / 100)]) (i := none) (o? := none)
  (o := 0) (dc := .default) (tenor := none) (by simp) rfl trivial rfl Spec.goodDayCount_int (fun _ _ _ h => by simp at h)
  (by simp [CRClass.dflt, FuncSpec.isLog, Kind.isLog]) (by simp [CRClass.dflt, FuncSpec.needsNonzero, Kind.isRate])
example (limit : ℕ) (same : ℤ → Bool) := C136_moved_violated (cal := dayCal) Spec.goodDayCount_int (o := 0) (δ := 100) (by norm_num) (r₁ := 1 / 100)
  (r₂ := 3 / 100) (by norm_num) limit same none

/-- Flat intensities can be shifted by 100 days. -/
example (limit : ℕ) (same : ℤ → Bool) : True := by
  obtain ⟨c, hnew, h1, v, h2, h3⟩ := credit_example .flat rfl none rfl
  have e : c = crOf dayCal 0 none .default none .flat none [(0, 1 / 100), (365, 2 / 100)] := by
    have := CRCurve_make_eq dayCal (cls := .flat) (pts := [(0, 1 / 100), (365, 2 / 100)]) (i := none) (o? := none) (o := 0) (dc := .default)
      (tenor := none) (by decide) (by simp [CRClass.dflt, linearScheme, FuncSpec.isLog, Kind.isLog]) rfl trivial Spec.goodDayCount_int
    rw [← CRCurve_new_rate rfl] at this
    exact Except.ok.inj (hnew.symm.trans this)
  have hd : c.base.domain = [0, 365] := by rw [e]; rfl
  have hdc : c.base.dc = .default := by rw [e]; rfl
  obtain ⟨c', hc, -⟩ := C136_shift (cal := dayCal) (c := c) (.inr (.inr h1)) (by rw [hd]; simp) (by rw [hd]; simp) (by rw [hdc]; trivial)
    (by rw [hdc]; exact Spec.goodDayCount_int) limit same (δ := 100) (u := v) (fun x _ => h2.call _) (fun h => absurd h1 h) (fun h => absurd h1 h)
  have := C136_fields hc
  trivial

end Dcf
