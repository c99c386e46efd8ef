import Verif.Props.VolCurve

/-! # Volatility curves: special periods (C113) and casts to instantaneous volatilities (C81) -/

set_option linter.unusedSectionVars false
set_option linter.unusedSimpArgs false
set_option linter.unusedVariables false

namespace Dcf

open Spec

section
variable {D P : Type} [LinearOrder D] {cal : Cal D P} {c : VolCurve D P} {o : D}

/-- C113: without stop date the volatility runs from the origin. -/
theorem C113_from_origin (ho : c.base.origin = some o) (scipy : Bool) (limit : ℕ) (t : D) :
    c.terminalVol cal scipy (limit + 1) t none = c.terminalVol cal scipy (limit + 1) o (some t) := by
  cases hc : c.cls with
  | instantaneous => simp [VolCurve.terminalVol, hc, VolCurve.terminalVolI, ho, pyDate]
  | terminal => simp [VolCurve.terminalVol, hc, VolCurve.terminalVolT, ho]

/-- C113: over an empty period (for terminal volatility curves: not at the origin) the volatility is the instantaneous one. -/
theorem C113_empty (ho : c.base.origin = some o) (scipy : Bool) (limit : ℕ) {t : D} (ht : c.cls = .terminal → t ≠ o) :
    c.terminalVol cal scipy (limit + 1) t (some t) = c.instantaneousVol cal limit t := by
  cases hc : c.cls with
  | instantaneous => simp [VolCurve.terminalVol, VolCurve.instantaneousVol, hc, VolCurve.terminalVolI]
  | terminal => simp [VolCurve.terminalVol, VolCurve.instantaneousVol, hc, VolCurve.terminalVolT, ho, ht hc]

/-- C113: over a reversed period (for terminal volatility curves: not from the origin) the volatility is zero. -/
theorem C113_reversed_partial (ho : c.base.origin = some o) (scipy : Bool) (limit : ℕ) {s t : D} (hts : t < s)
    (hs : c.cls = .terminal → s ≠ o) : c.terminalVol cal scipy (limit + 1) s (some t) = .ok 0 := by
  cases hc : c.cls with
  | instantaneous => simp [VolCurve.terminalVol, hc, VolCurve.terminalVolI, hts.ne', hts]
  | terminal => simp [VolCurve.terminalVol, hc, VolCurve.terminalVolT, ho, hs hc, hts.ne', hts]

/-- C113 (what goes wrong): from the origin backwards the volatility of a terminal volatility curve is the curve's value. -/
theorem C113_reversed_violated (ho : c.base.origin = some o) (hc : c.cls = .terminal) (scipy : Bool) (limit : ℕ) (t : D) :
    c.terminalVol cal scipy (limit + 1) o (some t) = c.call cal t := by
  simp [VolCurve.terminalVol, hc, VolCurve.terminalVolT, ho]

/-- C81: a volatility curve cast to an instantaneous volatility curve keeps the instantaneous volatilities at all dates of its
grid: the given dates, the origin, and the days before and after. -/
theorem C81_instantaneous {before after : D → D} {dc : DayCountArg D} {tenor : Option P} {w : D → ℝ}
    (ho : c.base.origin = some o) (hf : cal.falsy o = true → c.base.origin? = some o)
    (hdc : c.base.dc = dc) (hd : dc.Usable) (hk : dc.kwarg = dc) (hτ : GoodDayCount (dc.fn cal))
    (ha : ∀ x, x ∈ c.base.domain ∨ x = o → cal.add x cal.oneDay = .ok (after x))
    (hb : ∀ x, x ∈ c.base.domain ∨ x = o → cal.sub x cal.oneDay = .ok (before x)) (scipy : Bool) (limit : ℕ) (floor : Option ℝ)
    (hw : ∀ x, (x ∈ c.base.domain ∨ x = o) →
      ∀ y ∈ [before x, x, after x], c.instantaneousVol cal limit y = .ok (w y)) :
    ∃ S : VolCurve D P, VolCurve.cast cal .instantaneous floor scipy limit c none none .default tenor = .ok S ∧
      S.base.origin = some o ∧ S.tenor = tenor ∧ (∀ s e, S.dayCount cal s e = c.dayCount cal s e) ∧
      (∀ y, y ∈ S.base.domain ↔ ∃ x, (x ∈ c.base.domain ∨ x = o) ∧ y ∈ [before x, x, after x]) ∧
      ∀ y ∈ S.base.domain, ∀ limit', S.instantaneousVol cal limit' y = c.instantaneousVol cal limit y := by
  subst hdc
  set all := (c.base.domain ++ [o]).map fun x => [before x, x, after x] with hall
  have hmap : pyMap (fun d => do
        let a ← cal.sub d cal.oneDay
        let b ← cal.add d cal.oneDay
        .ok [a, d, b]) (c.base.domain ++ [o]) = .ok all := by
    refine pyMap_ok (g := fun x => [before x, x, after x]) fun x hx => ?_
    have hx' : x ∈ c.base.domain ∨ x = o := by simpa using hx
    rw [hb x hx', Py.ok_bind, ha x hx', Py.ok_bind]
  set dom := sortedSet all.flatten with hdom
  have hdn : dom.Nodup := (sortedSet_strict _).imp (fun h => h.ne)
  have hmem : ∀ y, y ∈ dom ↔ ∃ x, (x ∈ c.base.domain ∨ x = o) ∧ y ∈ [before x, x, after x] := by
    intro y; rw [hdom, sortedSet_mem, List.mem_flatten]
    constructor
    · rintro ⟨l, hl, hy⟩
      obtain ⟨x, hx, rfl⟩ := List.mem_map.1 hl
      exact ⟨x, by simpa using hx, hy⟩
    · rintro ⟨x, hx, hy⟩
      exact ⟨_, List.mem_map.2 ⟨x, by simpa using hx, rfl⟩, hy⟩
  set pts' := dom.map fun x => (x, w x) with hpts'
  have hfst : pts'.map Prod.fst = dom := graph_fst _ _
  set S : VolCurve D P := volOf cal o (some o) c.base.dc none .instantaneous floor tenor pts' with hS
  have hws : ∀ y ∈ dom, c.instantaneousVol cal limit y = .ok (w y) := fun y hy => by
    obtain ⟨x, hx, hy'⟩ := (hmem y).1 hy
    exact hw x hx y hy'
  have hcast : VolCurve.cast cal .instantaneous floor scipy limit c none none .default tenor = .ok S := by
    have hoo : cal.or (some o) c.base.origin? = some o := or_origin hf
    have hor : (DayCountArg.default : DayCountArg D).or c.base.dc.kwarg = c.base.dc := hk
    simp only [VolCurve.cast, ho, Option.none_or, pyDate, Py.ok_bind]
    rw [hmap, Py.ok_bind, ← hdom, pyMap_ok (f := VolClass.storage cal .instantaneous scipy limit c) (g := w) (fun x hx => hws x hx),
      Py.ok_bind, hoo, hor]
    have := VolCurve_new_eq (cal := cal) (pts := pts') (i := none) (o? := some o) (dc := c.base.dc) (o := o) (cls := .instantaneous)
      (floor := floor) (tenor := tenor) (by rw [hfst]; exact hdn)
      (by simp [VolClass.dflt, linearScheme, FuncSpec.isLog, Kind.isLog]) rfl hd hτ
    rwa [hfst, show pts'.map Prod.snd = dom.map w from graph_snd _ _] at this
  have hSd : S.base.domain = dom := hfst
  refine ⟨S, hcast, rfl, rfl, fun _ _ => rfl, fun x => by rw [hSd]; exact hmem x, fun x hx limit' => ?_⟩
  rw [hSd] at hx
  rw [hws x hx]
  exact irOf_node cal (cls := .zero) (tenor := tenor) (i := none) (o? := some o) rfl hd hτ (by rw [hfst]; exact hdn)
    (by simp [IRClass.dflt, linearScheme, FuncSpec.isLog, Kind.isLog])
    (by simp [IRClass.dflt, linearScheme, FuncSpec.needsNonzero, Kind.isRate, Kind.isLog])
    (List.mem_map.2 ⟨x, hx, rfl⟩)

/-- Hypotheses of C81 and C113 are met: two quoted instantaneous volatilities. -/
example : ∃ c : VolCurve ℤ ℤ, VolCurve.new dayCal .instantaneous none [0, 1000] [2 / 5, 1 / 5] none none .default none = .ok c ∧
    c.terminalVol dayCal true 1 1000 (some 0) = .ok 0 ∧
    ∃ S : VolCurve ℤ ℤ, VolCurve.cast dayCal .instantaneous none true 5 c none none .default none = .ok S ∧
      999 ∈ S.base.domain ∧ S.instantaneousVol dayCal 5 1001 = c.instantaneousVol dayCal 5 1001 := by
  have hn : ([((0 : ℤ), (2 / 5 : ℝ)), (1000, 1 / 5)].map Prod.fst).Nodup := by simp
  obtain ⟨h1, h2⟩ := volOf_answers (cal := dayCal) (o := 0) (o? := none) (dc := .default) (cls := .instantaneous) (floor := none)
    (tenor := none) hn (by simp) rfl trivial goodDayCount_int
  refine ⟨_, VolCurve_new_eq (cal := dayCal) (o := 0) (dc := .default) hn
    (by simp [VolClass.dflt, linearScheme, FuncSpec.isLog, Kind.isLog]) rfl trivial goodDayCount_int,
    C113_reversed_partial h1.origin true 0 (by norm_num) (by intro h; cases h), ?_⟩
  obtain ⟨S, hS, -, -, -, hm, hv⟩ := C81_instantaneous (cal := dayCal) (tenor := none) (before := fun x => x - 1) (after := fun x => x + 1)
    h1.origin (dc := .default) (by simp [dayCal]) rfl trivial rfl goodDayCount_int (fun x _ => by simp [dayCal])
    (fun x _ => by simp [dayCal]) true 5 none (fun x _ y _ => h1.call y)
  have hd : (1000 : ℤ) ∈ (volOf dayCal 0 none .default none .instantaneous none none [((0 : ℤ), (2 / 5 : ℝ)), (1000, 1 / 5)]).base.domain := by
    simp [volOf, dateCurveOf]
  exact ⟨S, hS, (hm 999).2 ⟨1000, Or.inl hd, by norm_num⟩, hv 1001 ((hm 1001).2 ⟨1000, Or.inl hd, by norm_num⟩) 5⟩

end

end Dcf
