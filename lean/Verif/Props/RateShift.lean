import Verif.Lemmas.RateCurve
import Verif.Model.RateArith

/-! # Shifted rate curves and constructor arguments: C130, C131 -/

set_option linter.unusedSectionVars false
set_option linter.unusedSimpArgs false
set_option linter.unusedVariables false

namespace Dcf

open Spec

section
variable {D P : Type} [LinearOrder D] {cal : Cal D P}

theorem castOn_fields {cls : IRClass} {limit : ℕ} {same : D → Bool} {domain : List D} {c c' : IRCurve D P}
    {i : Option FuncSpec} {o? : Option D} {dc : DayCountArg D} {tenor : Option P}
    (h : c.castOn cal cls limit same domain i o? dc tenor = .ok c') :
    c'.cls = cls ∧ c'.tenor = tenor ∧ c'.spread = none ∧ c'.base.domain = domain ∧ c'.base.interp = i ∧
      c'.base.origin? = cal.or o? c.base.origin? ∧ c'.base.dc = dc.or c.base.dc.kwarg := by
  simp only [IRCurve.castOn, Py.bind_eq_ok, IRCurve.new] at h
  obtain ⟨ys, -, b, hb, h⟩ := h
  have hf := DateCurve_new_fields cal hb
  rw [← Except.ok.inj h]
  exact ⟨rfl, rfl, rfl, hf.1, hf.2.2.2.1, hf.2.1, hf.2.2.1⟩

theorem zero_eq_call {c : IRCurve D P} (hc : c.cls = .zero) (ho : c.base.origin.isSome) (x : D) :
    c.zero cal x = c.call cal x := by
  obtain ⟨o, ho⟩ := Option.isSome_iff_exists.1 ho
  simp only [IRCurve.zero, ho, pyDate, Py.ok_bind, IRCurve.rate, hc, IRCurve.zeroRateOf]
  by_cases h : o = x
  · subst h; simp
  · simp [h]

end

section
variable {D P : Type} [LinearOrder D] [AddCommGroup D] {cal : Cal D P}

/-- C130: what a shifted rate curve keeps (class, origin, day count by name) and its dates. -/
theorem C130_fields {c c' : IRCurve D P} {limit : ℕ} {same : D → Bool} {δ : D}
    (h : c.shifted cal limit same δ = .ok c') :
    c'.cls = c.cls ∧ c'.base.domain = c.base.domain.map (· + δ) ∧ c'.base.origin? = c.base.origin? ∧
      c'.base.dc = c.base.dc.kwarg := by
  obtain ⟨h1, h2, h3, h4, h5, h6, h7⟩ := castOn_fields h
  refine ⟨h1, ?_, h6, h7⟩
  rw [h4]
  by_cases hδ : δ = 0
  · subst hδ; simp
  · simp [hδ]

/-- C130 (refuted): tenor and interpolation of a rate curve get lost by shifting (also by `0`), so does a spread. -/
theorem C130_lost_violated {c c' : IRCurve D P} {limit : ℕ} {same : D → Bool} {δ : D}
    (h : c.shifted cal limit same δ = .ok c') : c'.tenor = none ∧ c'.base.interp = none ∧ c'.spread = none := by
  obtain ⟨h1, h2, h3, h4, h5, h6, h7⟩ := castOn_fields h
  exact ⟨h2, h5, h3⟩

/-- C130: a zero rate curve with default interpolation is read off at the moved dates. -/
theorem C130_values {c : IRCurve D P} (hc : c.cls = .zero) (hn : c.base.domain.Nodup) (hne : c.base.domain ≠ [])
    (hd : c.base.dc.kwarg.Usable) (hτ : GoodDayCount (c.base.dc.kwarg.fn cal)) (limit : ℕ) (same : D → Bool) {δ : D} {u : D → ℝ}
    (hu : ∀ x ∈ c.base.domain, c.call cal (x + δ) = .ok (u (x + δ))) :
    ∃ c', c.shifted cal limit same δ = .ok c' ∧ ∀ x ∈ c.base.domain, c'.call cal (x + δ) = c.call cal (x + δ) := by
  have hgrid : (if δ ≠ 0 then c.base.domain.map (· + δ) else c.base.domain) = c.base.domain.map (· + δ) := by
    by_cases hδ : δ = 0
    · subst hδ; simp
    · simp [hδ]
  have ho : c.base.origin.isSome := by
    obtain ⟨a, l, hal⟩ := List.exists_cons_of_ne_nil hne
    simp only [DateCurve.origin, hal]
    cases c.base.origin? <;> simp
  set g := c.base.domain.map (· + δ) with hg
  have hgn : g.Nodup := hn.map (add_left_injective δ)
  obtain ⟨o, hog⟩ : ∃ o, c.base.origin?.or g.head? = some o := by
    obtain ⟨a, l, hal⟩ := List.exists_cons_of_ne_nil hne
    rw [hg, hal]
    cases c.base.origin? <;> simp
  have hfst : (g.map fun x => (x, u x)).map Prod.fst = g := graph_fst _ _
  have hsnd : (g.map fun x => (x, u x)).map Prod.snd = g.map u := graph_snd _ _
  have hnew := IRCurve_new_eq cal (pts := g.map fun x => (x, u x)) (cls := .zero) (i := none) (o? := c.base.origin?)
    (dc := c.base.dc.kwarg) (tenor := none) (o := o) (by rw [hfst]; exact hgn)
    (by simp [IRClass.dflt, linearScheme, FuncSpec.isLog, Kind.isLog]) (by rw [hfst]; exact hog) hd hτ
  rw [hfst, hsnd] at hnew
  refine ⟨irOf cal o c.base.origin? c.base.dc.kwarg none .zero none (g.map fun x => (x, u x)), ?_, fun x hx => ?_⟩
  · rw [IRCurve.shifted, hgrid]
    simp only [IRCurve.castOn, hc]
    rw [pyMap_ok (g := u) fun x hx => ?_, Py.ok_bind]
    · exact hnew
    · obtain ⟨y, hy, rfl⟩ := List.mem_map.1 hx
      simp only [IRClass.storage]
      rw [zero_eq_call hc ho]
      exact hu y hy
  · rw [hu x hx]
    exact irOf_node cal (by rw [hfst]; exact hog) hd hτ (by rw [hfst]; exact hgn)
      (by simp [IRClass.dflt, linearScheme, FuncSpec.isLog, Kind.isLog])
      (by simp [IRClass.dflt, linearScheme, FuncSpec.needsNonzero, Kind.isRate])
      (List.mem_map.2 ⟨x + δ, List.mem_map.2 ⟨x, hx, rfl⟩, rfl⟩)

/-- C130 (refuted): the curve through `(o, r₁)` and `(o + δ, r₂)` shifted by `δ` has the rate `r₂` at `o + δ`, not `r₁`. -/
theorem C130_moved_violated (hτ : GoodDayCount cal.dayCount) {o δ : D} (hδ : δ ≠ 0) {r₁ r₂ : ℝ} (hr : r₁ ≠ r₂) (limit : ℕ)
    (same : D → Bool) (tenor : Option P) :
    ∃ c c', IRCurve.new cal .zero [o, o + δ] [r₁, r₂] none (some o) .default tenor = .ok c ∧
      c.shifted cal limit same δ = .ok c' ∧ c.call cal o = .ok r₁ ∧ c'.call cal (o + δ) = .ok r₂ ∧
      c'.call cal (o + δ) ≠ c.call cal o := by
  have hn : (([(o, r₁), (o + δ, r₂)] : List (D × ℝ)).map Prod.fst).Nodup := by simpa using hδ
  have hnl : (Option.getD none (IRClass.dflt .zero)).isLog = false := by
    simp [IRClass.dflt, linearScheme, FuncSpec.isLog, Kind.isLog]
  have hnz : (Option.getD none (IRClass.dflt .zero)).needsNonzero = false := by
    simp [IRClass.dflt, linearScheme, FuncSpec.needsNonzero, Kind.isRate]
  have hnew := IRCurve_new_eq cal (pts := [(o, r₁), (o + δ, r₂)]) (cls := .zero) (i := none) (o? := some o) (dc := .default)
    (tenor := tenor) (o := o) hn (fun h => absurd (hnl.symm.trans h) (by simp)) rfl trivial hτ
  have node : ∀ x y, (x, y) ∈ [(o, r₁), (o + δ, r₂)] → (irOf cal o (some o) .default none .zero tenor
      [(o, r₁), (o + δ, r₂)]).call cal x = .ok y := fun x y hm => irOf_node cal (dc := .default) rfl trivial hτ hn
      (fun h => absurd (hnl.symm.trans h) (by simp)) (fun h => absurd (hnz.symm.trans h) (by simp)) hm
  obtain ⟨v, hv⟩ : ∃ v, (irOf cal o (some o) .default none .zero tenor [(o, r₁), (o + δ, r₂)]).call cal (o + δ + δ) = .ok v :=
    ⟨_, irOf_linear cal (dc := .default) rfl rfl trivial hτ hn (by simp) _⟩
  obtain ⟨c', h1, h2⟩ := C130_values (cal := cal) (c := irOf cal o (some o) .default none .zero tenor [(o, r₁), (o + δ, r₂)])
    rfl (by simpa [irOf, dateCurveOf] using hδ) (by simp [irOf, dateCurveOf]) trivial hτ limit same (δ := δ)
    (u := fun x => if x = o + δ then r₂ else v) (fun x hx => by
      have hx' : x = o ∨ x = o + δ := by simpa [irOf, dateCurveOf] using hx
      rcases hx' with rfl | rfl
      · simpa using node _ r₂ (by simp)
      · simpa [hδ] using hv)
  have e2 := h2 o (by simp [irOf, dateCurveOf])
  rw [node _ r₂ (by simp)] at e2
  have e1 := node o r₁ (by simp)
  exact ⟨_, c', hnew, h1, e1, e2, by rw [e1, e2]; simpa using Ne.symm hr⟩

end

section
variable {D P : Type} [LinearOrder D] {cal : Cal D P}

open Classical in
/-- C131: a curve given as `domain` is cast, and giving values or another curve as well is a `TypeError`. -/
theorem C131_domain (cls : IRClass) (limit : ℕ) (same : D → Bool) (c : IRCurve D P) (data : RateData D P)
    (i : Option FuncSpec) (o? : Option D) (dc : DayCountArg D) (tenor : Option P) :
    IRCurve.construct cal cls limit same (.curve c) data i o? dc tenor =
      if data = .values [] then c.cast cal cls limit same i o? dc tenor else .error .type := by
  cases data with
  | values l => cases l <;> simp [IRCurve.construct]
  | curve d => simp [IRCurve.construct]

/-- C131: a curve given as `data` is cast onto the dates given as `domain`: class, dates, tenor and interpolation are the
given ones. -/
theorem C131_data {cls : IRClass} {limit : ℕ} {same : D → Bool} {l : List D} {c c' : IRCurve D P}
    {i : Option FuncSpec} {o? : Option D} {dc : DayCountArg D} {tenor : Option P}
    (h : IRCurve.construct cal cls limit same (.dates l) (.curve c) i o? dc tenor = .ok c') :
    c'.cls = cls ∧ c'.base.domain = l ∧ c'.tenor = tenor ∧ c'.base.interp = i := by
  obtain ⟨h1, h2, h3, h4, h5, h6, h7⟩ := castOn_fields h
  exact ⟨h1, h4, h2, h5⟩

/-- C131: with `domain=None` the dates are those of the curve; for zero and short rate curves this is the cast of the curve
as a whole. -/
theorem C131_none {cls : IRClass} (hcls : cls = .zero ∨ cls = .short) (limit : ℕ) (same : D → Bool) (c : IRCurve D P)
    (i : Option FuncSpec) (o? : Option D) (dc : DayCountArg D) (tenor : Option P) :
    IRCurve.construct cal cls limit same .none (.curve c) i o? dc tenor =
      IRCurve.construct cal cls limit same (.curve c) (.values []) i o? dc tenor := by
  rcases hcls with rfl | rfl <;> rfl

/-- C131: values without dates are a `TypeError`, even no values. -/
theorem C131_values (cls : IRClass) (limit : ℕ) (same : D → Bool) (values : List ℝ) (i : Option FuncSpec) (o? : Option D) (dc : DayCountArg D)
    (tenor : Option P) :
    IRCurve.construct cal cls limit same .none (.values values) i o? dc tenor = .error .type ∧
      ∀ l, IRCurve.construct cal cls limit same (.dates l) (.values values) i o? dc tenor = IRCurve.new cal cls l values i o? dc tenor :=
  ⟨rfl, fun _ => rfl⟩

theorem empty_call {cls : IRClass} {i : Option FuncSpec} {o? : Option D} {dc : DayCountArg D} {tenor : Option P} {c : IRCurve D P}
    (h : IRCurve.new cal cls [] [] i o? dc tenor = .ok c) (hi : i.getD cls.dflt = linearScheme) (x : D) :
    ∃ e, c.call cal x = .error e := by
  simp only [IRCurve.new, DateCurve.new, DateCurve.update, pyMap, Py.bind_eq_ok] at h
  simp only [List.length_nil, not_true_eq_false, if_false, Py.pure_eq, Py.ok_bind, Py.bind_eq_ok] at h
  obtain ⟨b, ⟨⟨d, f⟩, hf, hb⟩, h⟩ := h
  rw [hi] at hf
  have hfn : f.call = fun _ => .error .index := by
    simp only [fitFunc, linearScheme, Func.new, Interp.new, sortPairs, List.zip_nil_left, List.insertionSort_nil, List.map_nil,
      List.length_nil, not_true_eq_false, if_false, List.nodup_nil, Py.pure_eq, Py.ok_bind] at hf
    have := (Prod.mk.inj (Except.ok.inj hf)).2
    funext z
    rw [← this]
    simp [Func.call, Pts.new, Pts.update, pyIndex]
  rw [← Except.ok.inj h, ← Except.ok.inj hb]
  simp only [IRCurve.call, RateCurve.call, DateCurve.call, Dict.get, hfn, Py.ok_bind]
  cases DateCurve.time cal _ x with
  | error e => exact ⟨e, rfl⟩
  | ok t => exact ⟨.index, rfl⟩

/-- C131 (refuted): with a curve as `data` and no dates (`domain` has the default `()`) a zero or cash rate curve has no
points, every call fails. -/
theorem C131_data_only_violated {cls : IRClass} (hcls : cls = .zero ∨ cls = .cash) {limit : ℕ} {same : D → Bool}
    {c c' : IRCurve D P} {o? : Option D} {dc : DayCountArg D} {tenor : Option P}
    (h : IRCurve.construct cal cls limit same (.dates []) (.curve c) none o? dc tenor = .ok c') :
    c'.base.domain = [] ∧ ∀ x, ∃ e, c'.call cal x = .error e := by
  refine ⟨(C131_data h).2.1, fun x => ?_⟩
  simp only [IRCurve.construct, IRCurve.castOn, pyMap, Py.ok_bind] at h
  exact empty_call h (by rcases hcls with rfl | rfl <;> rfl) x

/-- C131: it can be built. -/
theorem C131_data_only_exists (c : IRCurve D P) (limit : ℕ) (same : D → Bool) (o? : Option D) (dc : DayCountArg D)
    (tenor : Option P) : ∃ c', IRCurve.construct cal .zero limit same (.dates []) (.curve c) none o? dc tenor = .ok c' := by
  simp [IRCurve.construct, IRCurve.castOn, pyMap, IRCurve.new, DateCurve.new, DateCurve.update, fitFunc, IRClass.dflt,
    linearScheme, Func.new, Interp.new, sortPairs]

end

/-! ### Examples -/

example : ∃ c c', IRCurve.new dayCal .zero [0, 0 + 365] [1 / 100, 2 / 100] none (some 0) .default (some 180) = .ok c ∧
    c.shifted dayCal 1000 (fun _ => false) 365 = .ok c' ∧ c.call dayCal 0 = .ok (1 / 100) ∧
    c'.call dayCal (0 + 365) = .ok (2 / 100) ∧ c'.call dayCal (0 + 365) ≠ c.call dayCal 0 :=
  C130_moved_violated goodDayCount_int (by norm_num) (by norm_num) _ _ _

end Dcf
