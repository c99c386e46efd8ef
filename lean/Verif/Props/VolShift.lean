import Verif.Model.VolArith
import Verif.Props.VolArith
import Verif.Props.CreditShift
import Verif.Props.InterpShape

/-! # Rebuilt and shifted volatility curves, constructor arguments: C144 -/

set_option linter.unusedSectionVars false
set_option linter.unusedSimpArgs false
set_option linter.unusedVariables false

namespace Dcf

open Spec

section
variable {D P : Type} [LinearOrder D] {cal : Cal D P}

/-- A volatility curve built from points has their values, with any interpolation. -/
theorem volOf_node {pts : List (D × ℝ)} {i : Option FuncSpec} {o? : Option D} {dc : DayCountArg D} {o : D} {cls : VolClass}
    {floor : Option ℝ} {tenor : Option P} (ho : o?.or (pts.map Prod.fst).head? = some o) (hd : dc.Usable)
    (hτ : GoodDayCount (dc.fn cal)) (hn : (pts.map Prod.fst).Nodup)
    (hpos : (i.getD cls.dflt).isLog → ∀ p ∈ pts, 0 < p.2) (h0 : (i.getD cls.dflt).needsNonzero → ∃ p ∈ pts, p.1 ≠ o)
    {x : D} {y : ℝ} (hm : (x, y) ∈ pts) : (volOf cal o o? dc i cls floor tenor pts).call cal x = .ok y :=
  crOf_node cal (cls := .flat) (tenor := tenor) ho hd hτ hn hpos h0 hm

/-- C144: a volatility curve built from any points, with any interpolation, is rebuilt by its `kwargs` as it was. -/
theorem C144_rebuild {cls : VolClass} {floor : Option ℝ} {pts : List (D × ℝ)} {i : Option FuncSpec}
    {o? : Option D} {o : D} {dc : DayCountArg D} {tenor : Option P} (hn : (pts.map Prod.fst).Nodup)
    (ho : o?.or (pts.map Prod.fst).head? = some o) (hd : dc.Usable) (hdk : dc.kwarg = dc) (hτ : GoodDayCount (dc.fn cal))
    (hk : KeptInterp i) (hpos : (i.getD cls.dflt).isLog → ∀ p ∈ pts, 0 < p.2)
    (h0 : (i.getD cls.dflt).needsNonzero → ∃ p ∈ pts, p.1 ≠ o) :
    ∃ c : VolCurve D P, VolCurve.new cal cls floor (pts.map Prod.fst) (pts.map Prod.snd) i o? dc tenor = .ok c ∧
      c.rebuild cal = .ok c := by
  have hnew := VolCurve_new_eq (cal := cal) (floor := floor) (tenor := tenor) hn hpos ho hd hτ
  refine ⟨_, hnew, ?_⟩
  have hvals : pyMap ((volOf cal o o? dc i cls floor tenor pts).call cal) (pts.map Prod.fst) = .ok (pts.map Prod.snd) := by
    rw [pyMap_map]
    exact pyMap_ok fun p hp => volOf_node ho hd hτ hn hpos h0 hp
  have hdom : (volOf cal o o? dc i cls floor tenor pts).base.domain = pts.map Prod.fst := rfl
  have hint : (volOf cal o o? dc i cls floor tenor pts).base.interp = i := rfl
  have hdc : (volOf cal o o? dc i cls floor tenor pts).base.dc = dc := rfl
  simp only [VolCurve.rebuild, hdom, hint, hvals, Py.ok_bind, keepInterp_kept hk, hdc, hdk]
  exact hnew

theorem vol_castOn_fields {cls : VolClass} {floor : Option ℝ} {scipy : Bool} {limit : ℕ} {domain : List D} {c c' : VolCurve D P}
    {i : Option FuncSpec} {o? : Option D} {dc : DayCountArg D} {tenor : Option P}
    (h : VolCurve.castOn cal cls floor scipy limit c domain i o? dc tenor = .ok c') :
    c'.cls = cls ∧ c'.floor = floor ∧ c'.tenor = tenor ∧ c'.spread = none ∧ c'.base.domain = domain ∧ c'.base.interp = i ∧
      c'.base.origin? = cal.or o? c.base.origin? ∧ c'.base.dc = dc.or c.base.dc.kwarg := by
  simp only [VolCurve.castOn, Py.bind_eq_ok, VolCurve.new] at h
  obtain ⟨ys, -, b, hb, h⟩ := h
  have hf := DateCurve_new_fields cal hb
  rw [← Except.ok.inj h]
  exact ⟨rfl, rfl, rfl, rfl, hf.1, hf.2.2.2.1, hf.2.1, hf.2.2.1⟩

open Classical in
/-- C144 (constructor arguments): a curve given as `domain` is cast, which adds dates; giving values or a curve as well is a
`TypeError`; a curve given as `data` is cast onto exactly the dates given as `domain`, with class, tenor and interpolation as
given. -/
theorem C144_construct (cls : VolClass) (floor : Option ℝ) (scipy : Bool) (limit : ℕ) (c : VolCurve D P) (i : Option FuncSpec)
    (o? : Option D) (dc : DayCountArg D) (tenor : Option P) :
    (∀ data, VolCurve.construct cal cls floor scipy limit (.curve c) data i o? dc tenor =
      if data = .values [] then VolCurve.cast cal cls floor scipy limit c i o? dc tenor else .error .type) ∧
    (∀ l c', VolCurve.construct cal cls floor scipy limit (.dates l) (.curve c) i o? dc tenor = .ok c' →
      c'.cls = cls ∧ c'.base.domain = l ∧ c'.tenor = tenor ∧ c'.base.interp = i) ∧
    VolCurve.construct cal cls floor scipy limit .none (.curve c) i o? dc tenor =
      VolCurve.construct cal cls floor scipy limit (.dates c.base.domain) (.curve c) i o? dc tenor := by
  refine ⟨fun data => ?_, fun l c' h => ?_, rfl⟩
  · cases data with
    | values l => cases l <;> simp [VolCurve.construct]
    | curve d => simp [VolCurve.construct]
  · obtain ⟨h1, -, h2, h3, h4, h5, h6, h7⟩ := vol_castOn_fields h
    exact ⟨h1, h4, h2, h5⟩

theorem vol_storage_eq_call {c : VolCurve D P} (scipy : Bool) (limit : ℕ) (x : D) :
    c.cls.storage cal scipy (limit + 1) c x = c.call cal x := by
  cases h : c.cls <;> simp [VolClass.storage, VolCurve.instantaneousVol, VolCurve.terminalVol, VolCurve.terminalVolT, h]

end

section
variable {D P : Type} [LinearOrder D] [AddCommGroup D] {cal : Cal D P}

/-- C144: what a shifted volatility curve keeps, and its dates; tenor, interpolation and spread are dropped. -/
theorem C144_fields {c c' : VolCurve D P} {scipy : Bool} {limit : ℕ} {δ : D} (h : c.shifted cal scipy limit δ = .ok c') :
    c'.cls = c.cls ∧ c'.floor = c.floor ∧ c'.base.domain = c.base.domain.map (· + δ) ∧ c'.base.origin? = c.base.origin? ∧
      c'.base.dc = c.base.dc.kwarg ∧ c'.tenor = none ∧ c'.base.interp = none ∧ c'.spread = none := by
  obtain ⟨h1, h8, h2, h3, h4, h5, h6, h7⟩ := vol_castOn_fields h
  exact ⟨h1, h8, by rw [h4, shift_grid], h6, h7, h2, h5, h3⟩

/-- C144: a shifted volatility curve quotes at the moved dates what the curve says there. -/
theorem C144_shift {c : VolCurve D P} (hn : c.base.domain.Nodup) (hne : c.base.domain ≠ []) (hd : c.base.dc.kwarg.Usable)
    (hτ : GoodDayCount (c.base.dc.kwarg.fn cal)) (scipy : Bool) (limit : ℕ) {δ : D} {u : D → ℝ}
    (hu : ∀ x ∈ c.base.domain, c.call cal (x + δ) = .ok (u (x + δ))) :
    ∃ c', c.shifted cal scipy (limit + 1) δ = .ok c' ∧ ∀ x ∈ c.base.domain, c'.call cal (x + δ) = c.call cal (x + δ) := by
  set g := c.base.domain.map (· + δ) with hg
  have hgn : g.Nodup := hn.map (add_left_injective δ)
  obtain ⟨o, hog⟩ : ∃ o, c.base.origin?.or g.head? = some o := by
    obtain ⟨a, l, hal⟩ := List.exists_cons_of_ne_nil hne
    rw [hg, hal]
    cases c.base.origin? <;> simp
  have hfst : (g.map fun x => (x, u x)).map Prod.fst = g := graph_fst _ _
  have hsnd : (g.map fun x => (x, u x)).map Prod.snd = g.map u := graph_snd _ _
  have hlog : (Option.getD none c.cls.dflt).isLog → ∀ p ∈ g.map fun x => (x, u x), 0 < p.2 := by
    simp [VolClass.dflt, linearScheme, FuncSpec.isLog, Kind.isLog]
  have hzero : (Option.getD none c.cls.dflt).needsNonzero → ∃ p ∈ g.map fun x => (x, u x), p.1 ≠ o := by
    simp [VolClass.dflt, linearScheme, FuncSpec.needsNonzero, Kind.isRate]
  have hnew := VolCurve_new_eq (cal := cal) (pts := g.map fun x => (x, u x)) (cls := c.cls) (i := none) (o? := c.base.origin?)
    (dc := c.base.dc.kwarg) (floor := c.floor) (tenor := none) (o := o) (by rw [hfst]; exact hgn) hlog (by rw [hfst]; exact hog) hd hτ
  rw [hfst, hsnd] at hnew
  refine ⟨volOf cal o c.base.origin? c.base.dc.kwarg none c.cls c.floor none (g.map fun x => (x, u x)), ?_, fun x hx => ?_⟩
  · rw [VolCurve.shifted, shift_grid]
    simp only [VolCurve.castOn]
    rw [pyMap_ok (g := u) fun x hx => ?_, Py.ok_bind]
    · exact hnew
    · obtain ⟨y, hy, rfl⟩ := List.mem_map.1 hx
      rw [vol_storage_eq_call]
      exact hu y hy
  · rw [hu x hx]
    exact volOf_node (by rw [hfst]; exact hog) hd hτ (by rw [hfst]; exact hgn) hlog hzero
      (List.mem_map.2 ⟨x + δ, List.mem_map.2 ⟨x, hx, rfl⟩, rfl⟩)

/-- C144 (refuted): shifting does not move the volatilities: the curve through `(o, v₁)` and `(o + δ, v₂)` shifted by `δ` quotes `v₂` at
`o + δ`, not `v₁`. -/
theorem C144_moved_violated (hτ : GoodDayCount cal.dayCount) (cls : VolClass) (floor : Option ℝ) {o δ : D} (hδ : δ ≠ 0) {v₁ v₂ : ℝ}
    (hv : v₁ ≠ v₂) (scipy : Bool) (limit : ℕ) (tenor : Option P) :
    ∃ c c', VolCurve.new cal cls floor [o, o + δ] [v₁, v₂] none (some o) .default tenor = .ok c ∧
      c.shifted cal scipy (limit + 1) δ = .ok c' ∧ c.call cal o = .ok v₁ ∧ c'.call cal (o + δ) = .ok v₂ ∧
      c'.call cal (o + δ) ≠ c.call cal o := by
  have hn : (([(o, v₁), (o + δ, v₂)] : List (D × ℝ)).map Prod.fst).Nodup := by simpa using hδ
  have hnl : (Option.getD none (VolClass.dflt cls)).isLog = false := by
    simp [VolClass.dflt, linearScheme, FuncSpec.isLog, Kind.isLog]
  have hnz : (Option.getD none (VolClass.dflt cls)).needsNonzero = false := by
    simp [VolClass.dflt, linearScheme, FuncSpec.needsNonzero, Kind.isRate]
  have hnew : VolCurve.new cal cls floor [o, o + δ] [v₁, v₂] none (some o) .default tenor =
      .ok (volOf cal o (some o) .default none cls floor tenor [(o, v₁), (o + δ, v₂)]) :=
    VolCurve_new_eq (pts := [(o, v₁), (o + δ, v₂)]) (dc := .default) hn (fun h => absurd (hnl.symm.trans h) (by simp)) rfl trivial hτ
  have node : ∀ x y, (x, y) ∈ [(o, v₁), (o + δ, v₂)] → (volOf cal o (some o) .default none cls floor tenor
      [(o, v₁), (o + δ, v₂)]).call cal x = .ok y := fun x y hm => volOf_node (dc := .default) rfl trivial hτ hn
      (fun h => absurd (hnl.symm.trans h) (by simp)) (fun h => absurd (hnz.symm.trans h) (by simp)) hm
  obtain ⟨v, hval⟩ : ∃ v, (volOf cal o (some o) .default none cls floor tenor [(o, v₁), (o + δ, v₂)]).call cal (o + δ + δ) = .ok v :=
    ⟨_, (volOf_answers (dc := .default) hn (by simp) rfl trivial hτ).1.call _⟩
  obtain ⟨c', h1, h2⟩ := C144_shift (cal := cal) (c := volOf cal o (some o) .default none cls floor tenor [(o, v₁), (o + δ, v₂)])
    (by simpa [volOf, dateCurveOf] using hδ) (by simp [volOf, dateCurveOf]) trivial hτ scipy limit (δ := δ)
    (u := fun x => if x = o + δ then v₂ else v) (fun x hx => by
      have hx' : x = o ∨ x = o + δ := by simpa [volOf, dateCurveOf] using hx
      rcases hx' with rfl | rfl
      · simpa using node _ v₂ (by simp)
      · simpa [hδ] using hval)
  have e2 := h2 o (by simp [volOf, dateCurveOf])
  rw [node _ v₂ (by simp)] at e2
  have e1 := node o v₁ (by simp)
  exact ⟨_, c', hnew, h1, e1, e2, by rw [e1, e2]; simpa using Ne.symm hv⟩

end

section
variable {D P : Type} [LinearOrder D] {cal : Cal D P}

/-- C144 (refuted): the class default `zero_linear_scheme` is not in effect: before its first quote a volatility curve is flat at
that quote.  Given explicitly, the scheme makes it zero there and changes nothing after. -/
theorem C144_default_violated {cls : VolClass} {floor : Option ℝ} {pts : List (D × ℝ)} {o? : Option D} {o : D} {dc : DayCountArg D}
    {tenor : Option P} (hn : (pts.map Prod.fst).Nodup) (ho : o?.or (pts.map Prod.fst).head? = some o) (hd : dc.Usable)
    (hτ : GoodDayCount (dc.fn cal)) {d : D} {v : ℝ} (hm : (d, v) ∈ pts) (hfirst : ∀ p ∈ pts, d ≤ p.1) :
    ∃ c z, VolCurve.new cal cls floor (pts.map Prod.fst) (pts.map Prod.snd) none o? dc tenor = .ok c ∧
      VolCurve.new cal cls floor (pts.map Prod.fst) (pts.map Prod.snd) (some zeroLinearScheme) o? dc tenor = .ok z ∧
      ∀ x, (x < d → c.call cal x = .ok v ∧ z.call cal x = .ok 0) ∧ (d ≤ x → z.call cal x = c.call cal x) := by
  have hne : pts ≠ [] := List.ne_nil_of_mem hm
  have hl : ∀ i, i = none ∨ i = some zeroLinearScheme → (Option.getD i cls.dflt).isLog → ∀ p ∈ pts, 0 < p.2 := by
    rintro i (rfl | rfl) <;> simp [VolClass.dflt, linearScheme, zeroLinearScheme, FuncSpec.isLog, Kind.isLog]
  refine ⟨_, _, VolCurve_new_eq hn (hl _ (.inl rfl)) ho hd hτ, VolCurve_new_eq hn (hl _ (.inr rfl)) ho hd hτ, fun x => ?_⟩
  have htn := timePts_nodup hτ o hn
  have htne : timePts (dc.fn cal) o pts ≠ [] := by simpa [timePts] using hne
  obtain ⟨f, g, hf, hg, h⟩ := C15_zero_linear (timePts (dc.fn cal) o pts) htn htne
  rw [Func_new_eq _ htn (by simp [zeroLinearScheme, FuncSpec.isLog, Kind.isLog])] at hf
  rw [Func_new_eq _ htn (by simp [linearScheme, FuncSpec.isLog, Kind.isLog])] at hg
  obtain rfl := Except.ok.inj hf
  obtain rfl := Except.ok.inj hg
  have hc : ∀ x, (volOf cal o o? dc none cls floor tenor pts).call cal x = .ok (linVal (dc.fn cal) o pts x) :=
    (volOf_answers (cal := cal) hn hne ho hd hτ).1.call
  have hz : ∀ {y : ℝ}, (funcOf zeroLinearScheme (timePts (dc.fn cal) o pts)).call (dc.fn cal o x) = .ok (some y) →
      (volOf cal o o? dc (some zeroLinearScheme) cls floor tenor pts).call cal x = .ok y := fun h =>
    crOf_call_some cal (cls := .flat) (tenor := tenor) (i := some zeroLinearScheme) ho hd h
  refine ⟨fun hx => ⟨?_, hz ((h _).1 ?_)⟩, fun hx => ?_⟩
  · have hlt : ∀ p ∈ sortPairs (timePts (dc.fn cal) o pts), dc.fn cal o x ≤ p.1 := by
      intro p hp
      obtain ⟨q, hq, rfl⟩ := List.mem_map.1 ((sortPairs_perm _).subset hp)
      exact (hτ.le_iff o _ _).2 (hx.le.trans (hfirst q hq))
    rw [hc, linVal, flin_left (sortPairs_ne_nil htne) hlt]
    have hst := sortPairs_strict htn
    have hmem : (dc.fn cal o d, v) ∈ sortPairs (timePts (dc.fn cal) o pts) :=
      (sortPairs_perm _).symm.subset (List.mem_map.2 ⟨(d, v), hm, rfl⟩)
    have hmin : ∀ p ∈ sortPairs (timePts (dc.fn cal) o pts), dc.fn cal o d ≤ p.1 := by
      intro p hp
      obtain ⟨q, hq, rfl⟩ := List.mem_map.1 ((sortPairs_perm _).subset hp)
      exact (hτ.le_iff o _ _).2 (hfirst q hq)
    rw [← flin_left (sortPairs_ne_nil htne) hmin, flin_node hst hmem]
  · intro p hp
    obtain ⟨q, hq, rfl⟩ := List.mem_map.1 hp
    exact (hτ.lt_iff o _ _).2 (hx.trans_le (hfirst q hq))
  · rw [hc]
    refine hz ?_
    rw [(h _).2 ⟨_, List.mem_map.2 ⟨(d, v), hm, rfl⟩, (hτ.le_iff o _ _).2 hx⟩]
    exact funcOf_linear_call htn htne _

end

/-! Examples. -/

/-- A curve of volatilities with 20% after one and 25% after two years is rebuilt. -/
example : ∃ c : VolCurve ℤ ℤ, VolCurve.new dayCal .terminal none [365, 730] [0.2, 0.25] none (some 0) .default (some 90) = .ok c ∧
    c.rebuild dayCal = .ok c :=
  C144_rebuild (cal := dayCal) (pts := [((365 : ℤ), (0.2 : ℝ)), (730, 0.25)]) (i := none) (o? := some 0) (o := 0) (dc := .default)
    (by decide) rfl trivial rfl goodDayCount_int (fun _ _ _ h => by simp at h)
    (by simp [VolClass.dflt, linearScheme, FuncSpec.isLog, Kind.isLog])
    (by simp [VolClass.dflt, linearScheme, FuncSpec.needsNonzero, Kind.isRate])

/-- Moved by a year, the volatility of 20% after one year is 25% after two years. -/
example : ∃ c c' : VolCurve ℤ ℤ, VolCurve.new dayCal .terminal none [365, 365 + 365] [0.2, 0.25] none (some 365) .default none = .ok c ∧
    c.shifted dayCal true 1 365 = .ok c' ∧ c.call dayCal 365 = .ok 0.2 ∧ c'.call dayCal (365 + 365) = .ok 0.25 := by
  obtain ⟨c, c', h1, h2, h3, h4, -⟩ := C144_moved_violated (cal := dayCal) goodDayCount_int .terminal none (o := 365) (δ := 365) (by norm_num)
    (v₁ := 0.2) (v₂ := 0.25) (by norm_num) true 0 none
  exact ⟨c, c', h1, h2, h3, h4⟩

/-- The volatility curve with 20% after a year has 20% at its origin. -/
example : ∃ c z : VolCurve ℤ ℤ, VolCurve.new dayCal .terminal none [365] [0.2] none (some 0) .default none = .ok c ∧
    VolCurve.new dayCal .terminal none [365] [0.2] (some zeroLinearScheme) (some 0) .default none = .ok z ∧
    c.call dayCal 0 = .ok 0.2 ∧ z.call dayCal 0 = .ok 0 := by
  obtain ⟨c, z, h1, h2, h⟩ := C144_default_violated (cal := dayCal) (cls := .terminal) (floor := none) (pts := [((365 : ℤ), (0.2 : ℝ))])
    (o? := some 0) (o := 0) (dc := .default) (tenor := none) (by decide) rfl trivial goodDayCount_int (d := 365) (v := 0.2) (by simp) (by simp)
  exact ⟨c, z, h1, h2, (h 0).1 (by norm_num)⟩

end Dcf
