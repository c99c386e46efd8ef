import Verif.Props.Fx
import Verif.Lemmas.Dict

/-! # Fx containers as mappings: C129 -/

set_option linter.unusedSectionVars false
set_option linter.unusedSimpArgs false
set_option linter.unusedVariables false

namespace Dcf

open Spec

section
variable {D P : Type} [LinearOrder D] {cal : Cal D P} {C : Type} [DecidableEq C]

/-- C129: `container[a]` has the currency `b` exactly if there is a pair `container[a, b]`, which is its value. -/
theorem C129_all (c : FxContainer C D) (a b : C) : (c.getAll a).get b = c.rates.get (a, b) := by
  have key : ∀ l : List ((C × C) × FxCurve D), Dict.get (List.reverse (l.filterMap fun p =>
      if p.1.1 = a then (c.rates.get p.1).map fun x => (p.1.2, x) else none)) b =
        if (a, b) ∈ l.map Prod.fst then c.rates.get (a, b) else none := by
    intro l
    induction l with
    | nil => rfl
    | cons p l ih =>
      obtain ⟨⟨d, f⟩, v⟩ := p
      by_cases hd : d = a
      · subst hd
        cases hg : c.rates.get (d, f) with
        | none =>
          simp only [List.filterMap_cons, if_true, hg, Option.map_none, List.map_cons, List.mem_cons, Prod.mk.injEq, true_and]
          rw [ih]
          by_cases hb : b = f
          · subst hb; by_cases hm : (d, b) ∈ l.map Prod.fst <;> simp only [hm, hg, true_or, if_true, if_false]
          · simp only [hb, false_or]
        | some x =>
          simp only [List.filterMap_cons, if_true, hg, Option.map_some, List.map_cons, List.mem_cons, Prod.mk.injEq, true_and,
            List.reverse_cons, Dict.get_append, ih]
          by_cases hb : b = f
          · subst hb
            by_cases hm : (d, b) ∈ l.map Prod.fst <;> simp [hm, hg, Dict.get]
          · by_cases hm : (d, b) ∈ l.map Prod.fst
            · simp only [hm, or_true, if_true]
              cases c.rates.get (d, b) <;> simp [Dict.get, Ne.symm hb]
            · simp [hm, hb, Dict.get, Ne.symm hb]
      · simp only [List.filterMap_cons, hd, if_false, List.map_cons, List.mem_cons, Prod.mk.injEq, Ne.symm hd, false_and,
          false_or]
        exact ih
  rw [FxContainer.getAll, Dict.get_ofPairs, key]
  by_cases hm : (a, b) ∈ c.rates.map Prod.fst
  · rw [if_pos hm]
  · rw [if_neg hm, Dict.get_none.2 hm]

/-- C129: assigning a pair changes that pair and nothing else. -/
theorem C129_pair (c : FxContainer C D) (k k' : C × C) (x : FxCurve D) :
    (c.setPair k x).rates.get k' = if k = k' then some x else c.rates.get k' := Dict.get_set _ _ _ _

/-- C129: assigning a curve to a currency is adding the currency at the price of the curve at the origin. -/
theorem C129_assign {c : FxContainer C D} {f : C} {x : FxCurve D} {s : ℝ} (h : x.price cal c.origin = .ok (some s)) :
    c.setCurve cal true f x = c.add cal f x.foreign s := by
  simp [FxContainer.setCurve, h]

/-- C129: a curve with another domestic curve is rejected. -/
theorem C129_other (c : FxContainer C D) (f : C) (x : FxCurve D) : c.setCurve cal false f x = .error .assertion := rfl

/-- C129: rates at the origin after assigning a curve to a new currency. -/
theorem C129_spot (hτ : GoodDayCount cal.dayCount) (base : C) (bd : D → D → Py ℝ) (o : D)
    {l : List (C × (D → D → Py ℝ) × ℝ)} (hl : GoodHistory base l) {f : C} (hf : ¬ Currency base l f) {x : FxCurve D} {s : ℝ}
    (hs : 0 < s) (hx : x.price cal o = .ok (some s)) :
    ∃ c0 c c', FxContainer.new cal base bd o = .ok c0 ∧ c0.addAll cal l = .ok c ∧ c.setCurve cal true f x = .ok c' ∧
      c'.price cal base f o = .ok (some s) ∧ c'.price cal f base o = .ok (some (1 / s)) ∧
      (∀ a, a ∈ l.map Prod.fst → ∃ r, c.price cal base a o = .ok (some r) ∧ c'.price cal base a o = .ok (some r) ∧
        c'.price cal a f o = .ok (some (s / r))) ∧
      ∀ T d v, o < T → bd o T = .ok d → x.foreign o T = .ok v → v ≠ 0 → c'.price cal base f T = .ok (some (s * d / v)) := by
  obtain ⟨c0, c, y, crv, h1, h2, hc, hbd, ho, hst, hy⟩ := container_state hτ base bd o hl
  obtain ⟨c', k1, k2, k3, k4, hst'⟩ := hst.add hτ hf x.foreign hs
  have hfb : f ≠ base := fun e => hf (.inl e)
  have hg := hst'.get
  have hp := hst.pos
  have h1y := hst.one
  rw [hc] at h1y
  have hdom := hst.dom
  rw [hc, hbd] at hdom
  have gbf := (hg base f).trans (if_pos (.inr ⟨.inl (.inl rfl), .inr rfl, Ne.symm hfb⟩))
  rw [Function.update_self, Function.update_of_ne (Ne.symm hfb), h1y, div_one, k4, ho, k2, hc, if_neg hfb,
    Function.update_of_ne (Ne.symm hfb), hdom, Function.update_self] at gbf
  have gfb := (hg f base).trans (if_pos (.inr ⟨.inr rfl, .inl (.inl rfl), hfb⟩))
  rw [Function.update_self, Function.update_of_ne (Ne.symm hfb), h1y, k4, ho] at gfb
  refine ⟨c0, c, c', h1, h2, (C129_assign (by rw [ho]; exact hx)).trans k1, ?_, ?_, fun a ha => ?_, fun T d v hT hd hv hv0 => ?_⟩
  · rw [price_of_get gbf]; exact fxOf_spot cal hτ o hs _ _
  · rw [price_of_get gfb]; exact fxOf_spot cal hτ o (one_div_pos.2 hs) _ _
  · have hCa : Currency base l a := .inr ha
    have hab : a ≠ base := fun e => hl.base (e ▸ ha)
    have haf : a ≠ f := fun e => hf (e ▸ hCa)
    have e1 := (hst.get base a).trans (if_pos (.inr ⟨.inl rfl, hCa, Ne.symm hab⟩))
    have e2 := (hg base a).trans (if_pos (.inr ⟨.inl (.inl rfl), .inl hCa, Ne.symm hab⟩))
    have e3 := (hg a f).trans (if_pos (.inr ⟨.inl hCa, .inr rfl, haf⟩))
    rw [h1y, div_one, ho] at e1
    rw [Function.update_of_ne haf, Function.update_of_ne (Ne.symm hfb), h1y, div_one, k4, ho] at e2
    rw [Function.update_of_ne haf, Function.update_self, k4, ho] at e3
    refine ⟨y a, ?_, ?_, ?_⟩
    · rw [price_of_get e1]; exact fxOf_spot cal hτ o (hp a) _ _
    · rw [price_of_get e2]; exact fxOf_spot cal hτ o (hp a) _ _
    · rw [price_of_get e3]; exact fxOf_spot cal hτ o (div_pos hs (hp a)) _ _
  · rw [price_of_get gbf]
    exact fxOf_forward hτ hT hs hd hv hv0

/-- C129 (refuted): of an assigned curve only the rate at the origin is kept.  Whatever its rate at a later date `T` is,
the container answers with the spot and the discount factors. -/
theorem C129_forward_violated (hτ : GoodDayCount cal.dayCount) (base : C) (bd : D → D → Py ℝ) {o T : D} (hT : o < T)
    {l : List (C × (D → D → Py ℝ) × ℝ)} (hl : GoodHistory base l) {f : C} (hf : ¬ Currency base l f) {s F d v : ℝ}
    (hs : 0 < s) (hF : 0 < F) (fd : D → D → Py ℝ) (hd : bd o T = .ok d) (hv : fd o T = .ok v) (hv0 : v ≠ 0)
    (hne : F ≠ s * d / v) :
    ∃ x c0 c c', FxCurve.new cal [o, T] [s, F] none none .default bd fd = .ok x ∧ x.price cal T = .ok (some F) ∧
      FxContainer.new cal base bd o = .ok c0 ∧ c0.addAll cal l = .ok c ∧ c.setCurve cal true f x = .ok c' ∧
      c'.price cal base f T = .ok (some (s * d / v)) ∧ c'.price cal base f T ≠ x.price cal T := by
  have hne' : ([(o, s), (T, F)] : List (D × ℝ)) ≠ [] := by simp
  obtain ⟨x, b, hx, hb, hle, hlast, -⟩ := C43_forward (cal := cal) (pts := [(o, s), (T, F)]) (i := none) (o? := none) (o := o)
    (dc := .default) hne' (by simp [hT.ne]) (fun _ => by simp [hs, hF])
    (by simp [logLinearScheme, FuncSpec.needsNonzero, Kind.isRate]) rfl trivial hτ bd fd
  have hxo : x.price cal o = .ok (some s) := by
    rw [hle o (by simpa using hT.le)]
    have hnew := DateCurve_new_eq cal (pts := [(o, s), (T, F)]) none none .default logLinearScheme (o := o) rfl trivial
      (timePts_nodup hτ o (by simp [hT.ne])) (fun _ => by simp [hs, hF])
    obtain rfl := Except.ok.inj (hnew.symm.trans hb)
    exact DateCurve_values cal (c := dateCurveOf cal.dayCount o none .default none logLinearScheme [(o, s), (T, F)])
      (pts := [(o, s), (T, F)]) (o := o) rfl trivial hτ rfl (by simp [hT.ne]) rfl
      (fun _ => by simp [hs, hF]) (by simp [logLinearScheme, dateCurveOf, FuncSpec.needsNonzero, Kind.isRate]) (x := o) (y := s) (by simp)
  have hfor : x.foreign = fd := by
    simp only [FxCurve.new, Py.bind_eq_ok] at hx
    obtain ⟨w, -, hx⟩ := hx
    rw [← Except.ok.inj hx]
  have hxT : x.price cal T = .ok (some F) := by simpa using hlast
  obtain ⟨c0, c, c', h1, h2, h3, h4, h5, h6, h7⟩ := C129_spot (cal := cal) hτ base bd o hl hf hs hxo
  have hc' := h7 T d v hT hd (by rw [hfor]; exact hv) hv0
  exact ⟨x, c0, c, c', by simpa using hx, hxT, h1, h2, h3, hc', by rw [hc', hxT]; simpa using Ne.symm hne⟩

/-- C129 (refuted): an fx curve rebuilt from its `kwargs` has lost both discount curves, beyond its last date
`AttributeError`. -/
theorem C129_rebuild_violated {c c' : FxCurve D} (h : c.rebuild cal = .ok c') {d : D}
    (hd : c.base.base.domain.getLast? = some d) {y : ℝ} (hy : c'.price cal d = .ok (some y)) {T : D} (hT : d < T) :
    c'.price cal T = .error .attribute := by
  simp only [FxCurve.rebuild, Py.bind_eq_ok, FxCurve.new, ForwardCurve.new] at h
  obtain ⟨ys, -, i, -, w, ⟨b, hb, hw⟩, h⟩ := h
  have hdom := (DateCurve_new_fields cal hb).1
  have hwb : w.base = b := by
    split_ifs at hw
    · rw [← Except.ok.inj hw]
    · rw [← Except.ok.inj hw]
  have hlast : pyLast c'.base.base.domain = .ok d := by
    rw [← Except.ok.inj h, hwb, hdom]; simp [pyLast, hd]
  have hdom' : c'.domestic = fun _ _ => .error .attribute := by rw [← Except.ok.inj h]
  simp only [FxCurve.price, hlast, Py.ok_bind, le_refl, if_true] at hy
  simp [FxCurve.price, hlast, hT.not_ge, hy, hdom']

end

/-! ### Examples -/

example : ∃ x : FxCurve ℝ, ∃ c0 c c' : FxContainer String ℝ,
    FxCurve.new floatCal [0, 1] [6 / 5, 13 / 10] none none .default (fun _ _ => .ok (97 / 100)) (fun _ _ => .ok (99 / 100)) = .ok x ∧
    x.price floatCal 1 = .ok (some (13 / 10)) ∧ FxContainer.new floatCal "USD" (fun _ _ => .ok (97 / 100)) 0 = .ok c0 ∧
    c0.addAll floatCal [] = .ok c ∧ c.setCurve floatCal true "EUR" x = .ok c' ∧
    c'.price floatCal "USD" "EUR" 1 = .ok (some ((6 / 5) * (97 / 100) / (99 / 100))) ∧
    c'.price floatCal "USD" "EUR" 1 ≠ x.price floatCal 1 :=
  C129_forward_violated (cal := floatCal) goodDayCount_real "USD" (fun _ _ => .ok (97 / 100)) one_pos (l := [])
    ⟨by simp, by simp, by simp⟩ (by simp [Currency]) (by norm_num) (by norm_num) _ rfl rfl (by norm_num) (by norm_num)

/-! ### The hypotheses can be met: each theorem applied -/

/-- An exchange rate of 1.2 put into a container, and rebuilt. -/
example : ∃ x : FxCurve ℝ, ∃ c0 c c' : FxContainer String ℝ,
    FxCurve.new floatCal [0] [6 / 5] none none .default (fun _ _ => .ok (97 / 100)) (fun _ _ => .ok (99 / 100)) = .ok x ∧
    FxContainer.new floatCal "USD" (fun _ _ => .ok (97 / 100)) 0 = .ok c0 ∧ c0.addAll floatCal [] = .ok c ∧
    c.setCurve floatCal true "EUR" x = .ok c' ∧ c.setCurve floatCal true "EUR" x = c.add floatCal "EUR" x.foreign (6 / 5) ∧
    c'.price floatCal "USD" "EUR" 0 = .ok (some (6 / 5)) ∧ c'.price floatCal "EUR" "USD" 0 = .ok (some (1 / (6 / 5))) := by
  obtain ⟨x, b, h1, -, -, h2, -⟩ := C43_forward floatCal (pts := [(0, 6 / 5)]) (i := none) (o? := none) (o := 0)
    (dc := .default) (by simp) (by simp) (by simp) (by simp [logLinearScheme, FuncSpec.needsNonzero, Kind.isRate]) rfl trivial goodDayCount_real
    (fun _ _ => .ok (97 / 100)) (fun _ _ => .ok (99 / 100))
  obtain ⟨c0, c, c', g1, g2, g3, g4, g5, -⟩ := C129_spot (cal := floatCal) goodDayCount_real "USD" (fun _ _ => .ok (97 / 100)) 0 (l := [])
    ⟨by simp, by simp, by simp⟩ (f := "EUR") (by simp [Currency]) (x := x) (s := 6 / 5) (by norm_num) h2
  have ho : c.origin = 0 := by
    obtain ⟨d0, e1, -, -, e2, -⟩ := FxState.new (cal := floatCal) goodDayCount_real "USD" (fun _ _ => .ok (97 / 100)) 0
    obtain rfl := Except.ok.inj (e1.symm.trans g1)
    obtain rfl := Except.ok.inj g2
    exact e2
  exact ⟨x, c0, c, c', h1, g1, g2, g3, C129_assign (by rw [ho]; exact h2), g4, g5⟩

end Dcf
