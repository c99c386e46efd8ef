import Verif.Props.CurveArith
import Verif.Props.Forward
import Verif.Lemmas.FlatCurve
import Verif.Lemmas.CreditCurve

/-! # Curves derived from curves: C127, C128 -/

set_option linter.unusedSectionVars false
set_option linter.unusedSimpArgs false
set_option linter.unusedVariables false

namespace Dcf

open Spec

/-! ## C127: interpolation and yield of derived curves -/

theorem pyMap_num {c : Curve} {u : ℝ → ℝ} {l : List ℝ} (hu : ∀ x ∈ l, c.call x = .ok (some (u x))) :
    pyMap c.num l = .ok (l.map u) := pyMap_ok fun x hx => by simp [Curve.num, hu x hx, pyNum]

/-- C127: a resampled curve has the interpolation of the original. -/
theorem C127_kept {c c' : Curve} {domain : List ℝ} (h : Curve.resample domain c none = .ok c') : c'.interp = c.interp := by
  simp only [Curve.resample, Py.bind_eq_ok] at h
  obtain ⟨ys, -, i, hi, h⟩ := h
  simp only [Curve.new] at h
  split at h
  · simp at h
  · simp only [Py.pure_eq, Py.ok_bind, Py.bind_eq_ok] at h
    obtain ⟨⟨d, f⟩, -, h⟩ := h
    rw [← Except.ok.inj h]
    simpa using keepInterp_ok hi

/-- C127: a given interpolation is used instead, with the values of the original on the new points. -/
theorem C127_given {c : Curve} {domain : List ℝ} {u : ℝ → ℝ} (hu : ∀ x ∈ domain, c.call x = .ok (some (u x))) (i : FuncSpec) :
    Curve.resample domain c (some i) = Curve.new domain (domain.map u) (some i) := by
  simp only [Curve.resample]
  rw [pyMap_num hu, Py.ok_bind]
  rfl

/-- C127: the same for copies. -/
theorem C127_copy_given {c : Curve} {u : ℝ → ℝ} (hu : ∀ x ∈ c.domain, c.call x = .ok (some (u x))) (i : FuncSpec) :
    c.copy (some i) = Curve.new c.domain (c.domain.map u) (some i) := C127_given hu i

/-- The line through two points, evaluated half way by a step function: the left value. -/
example : ∃ c c', Curve.new [0, 2] [0, 1] none = .ok c ∧ Curve.resample [0, 2] c (some (.base .left)) = .ok c' ∧
    c.call 1 = .ok (some (1 / 2)) ∧ c'.call 1 = .ok (some 0) := by
  have hn : (([(0, 0), (2, 1)] : List (ℝ × ℝ)).map Prod.fst).Nodup := by norm_num
  have hl : ((none : Option FuncSpec).getD linearScheme).isLog = false := rfl
  have hst : sortPairs [((0 : ℝ), (0 : ℝ)), (2, 1)] = [(0, 0), (2, 1)] := sortPairs_eq_self (by simp [StrictX])
  have hc := Curve_new_eq none hn (by rw [hl]; simp)
  have hv : ∀ x, (curveOf none [((0 : ℝ), (0 : ℝ)), (2, 1)]).call x = .ok (some (flin [(0, 0), (2, 1)] x)) := fun x => by
    show (funcOf linearScheme _).call x = _
    rw [funcOf_linear_call hn (by simp), hst]
  have hr := C127_given (c := curveOf none [((0 : ℝ), (0 : ℝ)), (2, 1)]) (domain := [0, 2]) (fun x _ => hv x) (.base .left)
  have h2 := Curve_new_eq (some (.base .left)) hn (by simp [FuncSpec.isLog, Kind.isLog])
  rw [show ([0, 2] : List ℝ).map (flin [((0 : ℝ), (0 : ℝ)), (2, 1)]) = [0, 1] by norm_num [flin, chord]] at hr
  refine ⟨_, _, hc, hr.trans h2, ?_, ?_⟩
  · rw [hv]; norm_num [flin, chord]
  · show some <$> leftCall (ptsOf (sortPairs [((0 : ℝ), (0 : ℝ)), (2, 1)])) 1 = _
    obtain ⟨y, h1, p, hp, rfl, h3⟩ := leftCall_spec (l := [((0 : ℝ), (0 : ℝ)), (2, 1)]) (by simp [StrictX]) (by simp) 1
    rw [hst, h1]
    simp only [List.mem_cons, List.not_mem_nil, or_false] at hp
    rcases hp with rfl | rfl
    · rfl
    · exfalso; norm_num at h3

/-- C127 (refuted): a curve with the class `log_linear_scheme`, or an own scheme class, as interpolation can not be
resampled, shifted or copied: the name of the class is not found, `TypeError`. -/
theorem C127_lost_violated {c : Curve} (hk : ¬ KeptInterp c.interp) {domain : List ℝ} {u : ℝ → ℝ}
    (hu : ∀ x ∈ domain, c.call x = .ok (some (u x))) : Curve.resample domain c none = .error .type := by
  simp only [Curve.resample]
  rw [pyMap_num hu, Py.ok_bind, keepInterp_lost hk]
  rfl

theorem logLinearScheme_lost : ¬ KeptInterp (some logLinearScheme) := by
  intro h
  rcases h _ _ _ rfl with h | h | h <;> simp at h

/-- C127 (refuted): the curve through two positive points with the predefined `log_linear_scheme`. -/
theorem C127_log_linear_violated {x₁ x₂ y₁ y₂ : ℝ} (hx : x₁ ≠ x₂) (h1 : 0 < y₁) (h2 : 0 < y₂) :
    ∃ c, Curve.new [x₁, x₂] [y₁, y₂] (some logLinearScheme) = .ok c ∧ c.copy none = .error .type ∧
      c.shifted 0 = .error .type := by
  have hn : (([(x₁, y₁), (x₂, y₂)] : List (ℝ × ℝ)).map Prod.fst).Nodup := by simp [hx]
  have hpos : ∀ p ∈ [(x₁, y₁), (x₂, y₂)], 0 < p.2 := by simp [h1, h2]
  have hc := Curve_new_eq (pts := [(x₁, y₁), (x₂, y₂)]) (some logLinearScheme) hn fun _ => hpos
  refine ⟨_, hc, ?_, ?_⟩
  · refine C127_lost_violated (u := fun x => if x = x₁ then y₁ else y₂) logLinearScheme_lost fun x hx' => ?_
    have hm : x ∈ [x₁, x₂] := by
      have : (curveOf (some logLinearScheme) [(x₁, y₁), (x₂, y₂)]).domain.Perm [x₁, x₂] :=
        (sortPairs_perm [(x₁, y₁), (x₂, y₂)]).map Prod.fst
      exact this.mem_iff.1 hx'
    refine curveOf_node _ hn (fun _ => hpos) (by simp [logLinearScheme, FuncSpec.needsNonzero, Kind.isRate]) ?_
    simp only [List.mem_cons, List.not_mem_nil, or_false] at hm
    rcases hm with rfl | rfl
    · simp
    · simp [Ne.symm hx]
  · refine C127_lost_violated (u := fun x => if x = x₁ then y₁ else y₂) logLinearScheme_lost fun x hx' => ?_
    have hm : x ∈ [x₁, x₂] := by
      have : (curveOf (some logLinearScheme) [(x₁, y₁), (x₂, y₂)]).domain.Perm [x₁, x₂] :=
        (sortPairs_perm [(x₁, y₁), (x₂, y₂)]).map Prod.fst
      exact this.mem_iff.1 (by simpa using hx')
    refine curveOf_node _ hn (fun _ => hpos) (by simp [logLinearScheme, FuncSpec.needsNonzero, Kind.isRate]) ?_
    simp only [List.mem_cons, List.not_mem_nil, or_false] at hm
    rcases hm with rfl | rfl
    · simp
    · simp [Ne.symm hx]

section
variable {D P : Type} [LinearOrder D] {cal : Cal D P}

/-- C127: the same for date curves, whatever origin and day count are given. -/
theorem C127_date_kept {c c' : DateCurve D} {domain : List D} {o? : Option D} {dc : DayCountArg D}
    (h : DateCurve.resample cal domain c none o? dc = .ok c') : c'.interp = c.interp ∧ c'.dflt = c.dflt := by
  simp only [DateCurve.resample, Py.bind_eq_ok] at h
  obtain ⟨ys, -, i, hi, h⟩ := h
  have := DateCurve_new_fields cal h
  exact ⟨this.2.2.2.1.trans (by simpa using keepInterp_ok hi), this.2.2.2.2.1⟩

/-- C127: and a given interpolation is used instead. -/
theorem C127_date_given {c : DateCurve D} {domain : List D} {u : D → ℝ} (hu : ∀ x ∈ domain, c.call cal x = .ok (some (u x)))
    (i : FuncSpec) {o? : Option D} {dc : DayCountArg D} {c' : DateCurve D}
    (h : DateCurve.resample cal domain c (some i) o? dc = .ok c') :
    c'.interp = some i ∧ c'.domain = domain ∧ ∃ o? dc, DateCurve.new cal domain (domain.map u) (some i) o? dc c.dflt = .ok c' := by
  simp only [DateCurve.resample] at h
  rw [pyMap_ok (g := u) fun x hx => by simp [DateCurve.num, hu x hx, pyNum], Py.ok_bind] at h
  have hf := DateCurve_new_fields cal h
  exact ⟨hf.2.2.2.1, hf.1, _, _, h⟩

/-- C127 (refuted): neither can date curves with such an interpolation. -/
theorem C127_date_violated {c : DateCurve D} (hk : ¬ KeptInterp c.interp) {domain : List D} {u : D → ℝ}
    (hu : ∀ x ∈ domain, c.call cal x = .ok (some (u x))) (o? : Option D) (dc : DayCountArg D) :
    DateCurve.resample cal domain c none o? dc = .error .type := by
  simp only [DateCurve.resample]
  rw [pyMap_ok (g := u) fun x hx => by simp [DateCurve.num, hu x hx, pyNum], Py.ok_bind, keepInterp_lost hk]
  rfl

/-- What is left of the yield of a forward curve. -/
theorem forward_resample_flat {c c' : ForwardCurve D} {domain : List D} (h : ForwardCurve.resample cal domain c = .ok c')
    {d : D} (hd : domain.getLast? = some d) {y : ℝ} (hy : c'.price cal d = .ok (some y)) {x : D} (hx : d < x) :
    c'.price cal x = .ok (some y) := by
  simp only [ForwardCurve.resample, Py.bind_eq_ok] at h
  obtain ⟨ys, -, i, -, h⟩ := h
  simp only [ForwardCurve.new, Py.bind_eq_ok] at h
  obtain ⟨b, hb, h⟩ := h
  have hdom := (DateCurve_new_fields cal hb).1
  have hbd : pyLast b.domain = .ok d := by rw [hdom]; simp [pyLast, hd]
  have hdm : d ∈ b.domain := by rw [hdom]; exact List.mem_of_getLast? hd
  have ho : b.origin.isSome = true := by
    simp only [DateCurve.origin]
    cases hb' : b.domain with
    | nil => rw [hb'] at hdm; simp at hdm
    | cons a l => cases b.origin? <;> simp
  simp only [ho, if_true] at h
  rw [← Except.ok.inj h] at hy ⊢
  simp only [ForwardCurve.price, hbd, Py.ok_bind, le_refl, if_true] at hy
  simp only [ForwardCurve.price, hbd, Py.ok_bind, hx.not_ge, if_false, hy]
  obtain ⟨o, ho'⟩ := Option.isSome_iff_exists.1 ho
  have htime : ∀ z, ∃ t, b.time cal z = .ok t := by
    intro z
    -- the day count works, since the curve could be built
    have hu : ∃ t, b.dc.eval cal o z = .ok t := by
      have hdc := (DateCurve_new_fields cal hb).2.2.1
      simp only [DateCurve.new, Py.bind_eq_ok] at hb
      split at hb
      · simp at hb
      · simp only [Py.pure_eq, Py.ok_bind, DateCurve.update, Py.bind_eq_ok] at hb
        obtain ⟨flt, hflt, -⟩ := hb
        have hne : domain ≠ [] := by rintro rfl; simp at hd
        obtain ⟨a, l, rfl⟩ := List.exists_cons_of_ne_nil hne
        simp only [pyMap, Py.bind_eq_ok, DateCurve.time] at hflt
        obtain ⟨t, ⟨o', -, ht⟩, -⟩ := hflt
        rw [hdc]
        simp only [DateCurve.dayCount] at ht
        cases hk : c.base.dc.kwarg with
        | default => exact ⟨_, rfl⟩
        | func f r => exact ⟨_, rfl⟩
        | named r =>
          cases r with
          | none => rw [hk] at ht; simp [DayCountArg.eval] at ht
          | some f => exact ⟨_, rfl⟩
    obtain ⟨t, ht⟩ := hu
    exact ⟨t, by simp only [DateCurve.time, ho', pyDate, Py.ok_bind, DateCurve.dayCount, ht]⟩
  obtain ⟨t1, h1⟩ := htime x
  obtain ⟨t2, h2⟩ := htime d
  simp [h1, h2, pyDiv, pyNum]

/-- C127 (refuted): beyond its last date a forward curve built from another one (by dates, by `shifted` or by `kwargs`) is
flat, whatever the yield of the original. -/
theorem C127_yield_violated {c c' : ForwardCurve D} {domain : List D} (h : ForwardCurve.resample cal domain c = .ok c')
    {d : D} (hd : domain.getLast? = some d) {y : ℝ} (hy : c'.price cal d = .ok (some y)) :
    ∀ x, d < x → c'.price cal x = .ok (some y) := fun x hx => forward_resample_flat h hd hy hx

/-- C127 (refuted): the spot `s` grows at the yield `r`; the same curve rebuilt by its `kwargs` does not grow. -/
theorem C127_spot_violated (hτ : GoodDayCount cal.dayCount) {s r : ℝ} (hs : 0 < s) (hr : r ≠ 0) (o : D) {x : D} (hx : o < x) :
    ∃ c c', ForwardCurve.spot cal s none o .default (.flat r) = .ok c ∧ c.rebuild cal = .ok c' ∧
      c.price cal x = .ok (some (s * Real.exp (r * cal.dayCount o x))) ∧ c'.price cal x = .ok (some s) ∧
      c.price cal x ≠ c'.price cal x := by
  have hp : GoodPoints [(o, s)] ((none : Option FuncSpec).getD logLinearScheme) o :=
    ⟨by simp, by simp, fun _ => by simpa using hs, by simp [logLinearScheme, FuncSpec.needsNonzero, Kind.isRate]⟩
  obtain ⟨c, b, hc, hb, h1, h2⟩ := C27_flat cal [(o, s)] none (some o) o .default hp rfl trivial hτ r
  obtain ⟨c', b', hc', -, -, h2'⟩ := C27_flat cal [(o, s)] none (some o) o .default hp rfl trivial hτ 0
  have hcx := h2 x hx.le
  have hcx' := h2' x hx.le
  have hbase : c.base = b := by
    simp only [ForwardCurve.new] at hc
    rw [hb, Py.ok_bind] at hc
    split_ifs at hc
    · rw [← Except.ok.inj hc]
    · rw [← Except.ok.inj hc]
  have hf := DateCurve_new_fields cal hb
  have hre : c.rebuild cal = .ok c' := by
    have ho := h2 o (by simp)
    simp only [List.getLast_singleton] at ho
    have e0 : DayCountArg.fn cal (.default : DayCountArg D) o o = 0 := hτ.self o
    rw [e0] at ho
    simp only [ForwardCurve.rebuild, ForwardCurve.resample, hbase, hf.1, hf.2.1, hf.2.2.1, hf.2.2.2.1]
    simp only [List.map_cons, List.map_nil, pyMap, ho, Py.ok_bind, pyNum, keepInterp, DayCountArg.kwarg]
    simpa using hc'
  refine ⟨c, c', hc, hre, ?_, ?_, ?_⟩
  · simpa [DayCountArg.fn] using hcx
  · simpa using hcx'
  · rw [hcx, hcx']
    simp only [List.getLast_singleton, zero_mul, Real.exp_zero, mul_one, ne_eq, Except.ok.injEq, Option.some.injEq]
    have e0 : DayCountArg.fn cal (.default : DayCountArg D) o x ≠ 0 := hτ.ne_zero hx.ne
    intro h
    have : Real.exp (r * DayCountArg.fn cal (.default : DayCountArg D) o x) = 1 :=
      mul_left_cancel₀ hs.ne' (h.trans (mul_one s).symm)
    rw [Real.exp_eq_one_iff] at this
    exact (mul_ne_zero hr e0) this

/-! ## C128: rebuilding a curve from its arguments -/

/-- C128: a plain curve built from any points is rebuilt by its `kwargs` as it was. -/
theorem C128_curve {pts : List (ℝ × ℝ)} {i : Option FuncSpec} (hn : (pts.map Prod.fst).Nodup) (hk : KeptInterp i)
    (hpos : (i.getD linearScheme).isLog → ∀ p ∈ pts, 0 < p.2)
    (h0 : (i.getD linearScheme).needsNonzero → ∃ p ∈ pts, p.1 ≠ 0) :
    ∃ c, Curve.new (pts.map Prod.fst) (pts.map Prod.snd) i = .ok c ∧ c.rebuild = .ok c := by
  refine ⟨_, Curve_new_eq i hn hpos, ?_⟩
  have hp := sortPairs_perm pts
  have hn' : ((sortPairs pts).map Prod.fst).Nodup := (hp.map _).nodup_iff.2 hn
  have hvals : pyMap (curveOf i pts).num ((sortPairs pts).map Prod.fst) = .ok ((sortPairs pts).map Prod.snd) := by
    rw [pyMap_map]
    refine pyMap_ok fun p hpp => ?_
    have := curveOf_node i hn hpos h0 (x := p.1) (y := p.2) (hp.mem_iff.1 hpp)
    simp [Curve.num, this, pyNum]
  have hdom : (curveOf i pts).domain = (sortPairs pts).map Prod.fst := rfl
  have hint : (curveOf i pts).interp = i := rfl
  simp only [Curve.rebuild, hdom, hint, hvals, Py.ok_bind, keepInterp_kept hk]
  rw [Curve_new_eq i hn' fun h p hpp => hpos h p (hp.mem_iff.1 hpp)]
  simp only [curveOf, Except.ok.injEq, Curve.mk.injEq, true_and]
  exact ⟨by rw [sortPairs_eq_self (sortPairs_strict hn)], funcOf_perm _ hp hn'⟩

/-- C128: a copy of a plain curve without new interpolation is the same curve. -/
theorem C128_copy {pts : List (ℝ × ℝ)} {i : Option FuncSpec} (hn : (pts.map Prod.fst).Nodup) (hk : KeptInterp i)
    (hpos : (i.getD linearScheme).isLog → ∀ p ∈ pts, 0 < p.2)
    (h0 : (i.getD linearScheme).needsNonzero → ∃ p ∈ pts, p.1 ≠ 0) :
    ∃ c, Curve.new (pts.map Prod.fst) (pts.map Prod.snd) i = .ok c ∧ c.copy none = .ok c :=
  C128_curve hn hk hpos h0

/-- C128: the same for date curves with the default day count or one given by name. -/
theorem C128_date {pts : List (D × ℝ)} {i : Option FuncSpec} {o? : Option D} {o : D} {dc : DayCountArg D} {dflt : FuncSpec}
    (hn : (pts.map Prod.fst).Nodup) (ho : o?.or (pts.map Prod.fst).head? = some o) (hd : dc.Usable) (hdk : dc.kwarg = dc)
    (hτ : GoodDayCount (dc.fn cal)) (hk : KeptInterp i) (hpos : (i.getD dflt).isLog → ∀ p ∈ pts, 0 < p.2)
    (h0 : (i.getD dflt).needsNonzero → ∃ p ∈ pts, p.1 ≠ o) :
    ∃ c, DateCurve.new cal (pts.map Prod.fst) (pts.map Prod.snd) i o? dc dflt = .ok c ∧ c.rebuild cal = .ok c := by
  have hnew := DateCurve_new_eq cal i o? dc dflt ho hd (timePts_nodup hτ o hn) hpos
  refine ⟨_, hnew, ?_⟩
  have hvals : pyMap ((dateCurveOf (dc.fn cal) o o? dc i dflt pts).num cal) (pts.map Prod.fst) = .ok (pts.map Prod.snd) := by
    rw [pyMap_map]
    refine pyMap_ok fun p hp => ?_
    have := DateCurve_values cal (c := dateCurveOf (dc.fn cal) o o? dc i dflt pts) (dateCurveOf_origin ho) hd hτ rfl hn rfl
      hpos h0 (x := p.1) (y := p.2) hp
    simp [DateCurve.num, this, pyNum]
  have hdom : (dateCurveOf (dc.fn cal) o o? dc i dflt pts).domain = pts.map Prod.fst := rfl
  have hint : (dateCurveOf (dc.fn cal) o o? dc i dflt pts).interp = i := rfl
  have hdc : (dateCurveOf (dc.fn cal) o o? dc i dflt pts).dc = dc := rfl
  simp only [DateCurve.rebuild, hdom, hint, hvals, Py.ok_bind, keepInterp_kept hk, hdc, hdk]
  exact hnew

/-- C128: and for interest rate curves of any class, tenor included. -/
theorem C128_rate {cls : IRClass} {pts : List (D × ℝ)} {i : Option FuncSpec} {o? : Option D} {o : D} {dc : DayCountArg D}
    {tenor : Option P} (hn : (pts.map Prod.fst).Nodup) (ho : o?.or (pts.map Prod.fst).head? = some o) (hd : dc.Usable)
    (hdk : dc.kwarg = dc) (hτ : GoodDayCount (dc.fn cal)) (hk : KeptInterp i)
    (hpos : (i.getD cls.dflt).isLog → ∀ p ∈ pts, 0 < p.2) (h0 : (i.getD cls.dflt).needsNonzero → ∃ p ∈ pts, p.1 ≠ o) :
    ∃ c, IRCurve.new cal cls (pts.map Prod.fst) (pts.map Prod.snd) i o? dc tenor = .ok c ∧ c.rebuild cal = .ok c := by
  have hnew := IRCurve_new_eq cal (tenor := tenor) hn hpos ho hd hτ
  refine ⟨_, hnew, ?_⟩
  have hvals : pyMap ((irOf cal o o? dc i cls tenor pts).call cal) (pts.map Prod.fst) = .ok (pts.map Prod.snd) := by
    rw [pyMap_map]
    exact pyMap_ok fun p hp => irOf_node cal ho hd hτ hn hpos h0 hp
  have hdom : (irOf cal o o? dc i cls tenor pts).base.domain = pts.map Prod.fst := rfl
  have hint : (irOf cal o o? dc i cls tenor pts).base.interp = i := rfl
  have hdc : (irOf cal o o? dc i cls tenor pts).base.dc = dc := rfl
  simp only [IRCurve.rebuild, hdom, hint, hvals, Py.ok_bind, keepInterp_kept hk, hdc, hdk]
  exact hnew

/-- C128: with a spread or fixings the rebuilt curve quotes the same on the grid, but has neither. -/
theorem C128_baked {c c' : IRCurve D P} (h : c.rebuild cal = .ok c') : c'.spread = none ∧ c'.base.fixings = [] ∧
    c'.base.domain = c.base.domain ∧ c'.tenor = c.tenor ∧ c'.cls = c.cls := by
  simp only [IRCurve.rebuild, Py.bind_eq_ok, IRCurve.new] at h
  obtain ⟨ys, -, i, -, b, hb, h⟩ := h
  have hf := DateCurve_new_fields cal hb
  rw [← Except.ok.inj h]
  exact ⟨rfl, hf.2.2.2.2.2.1, hf.1, rfl, rfl⟩

/-- C128: on the grid the values of a curve with spread and fixings are kept (for an interpolation without logarithms). -/
theorem C128_grid {c : IRCurve D P} (hn : c.base.domain.Nodup) (hne : c.base.domain ≠ []) (hd : c.base.dc.Usable)
    (hdk : c.base.dc.kwarg = c.base.dc) (hτ : GoodDayCount (c.base.dc.fn cal)) (hk : KeptInterp c.base.interp)
    (hlog : (c.base.interp.getD c.cls.dflt).isLog = false) (h0 : (c.base.interp.getD c.cls.dflt).needsNonzero = false)
    {u : D → ℝ} (hu : ∀ x ∈ c.base.domain, c.call cal x = .ok (u x)) :
    ∃ c', c.rebuild cal = .ok c' ∧ ∀ x ∈ c.base.domain, c'.call cal x = .ok (u x) := by
  obtain ⟨a, l, hal⟩ := List.exists_cons_of_ne_nil hne
  obtain ⟨o, ho⟩ : ∃ o, c.base.origin?.or c.base.domain.head? = some o := by
    rw [hal]
    cases c.base.origin? <;> simp
  set pts := c.base.domain.map fun x => (x, u x) with hpts
  have hfst : pts.map Prod.fst = c.base.domain := graph_fst _ _
  have hsnd : pts.map Prod.snd = c.base.domain.map u := graph_snd _ _
  have hnew := IRCurve_new_eq cal (pts := pts) (cls := c.cls) (i := c.base.interp) (o? := c.base.origin?) (dc := c.base.dc)
    (tenor := c.tenor) (by rw [hfst]; exact hn) (by simp [hlog]) (by rw [hfst]; exact ho) hd hτ
  refine ⟨irOf cal o c.base.origin? c.base.dc c.base.interp c.cls c.tenor pts, ?_, fun x hx => ?_⟩
  · simp only [IRCurve.rebuild]
    rw [pyMap_ok hu, Py.ok_bind, keepInterp_kept hk, Py.ok_bind, hdk, ← hfst, hfst, ← hsnd]
    rw [hfst] at hnew
    exact hnew
  · exact irOf_node cal (by rw [hfst]; exact ho) hd hτ (by rw [hfst]; exact hn) (by simp [hlog]) (by simp [h0])
      (List.mem_map.2 ⟨x, hx, rfl⟩)

/-- C128 (refuted): a date curve with an own day count function, or an interpolation like `log_linear_scheme`, can not be
rebuilt. -/
theorem C128_violated {c : DateCurve D} (hne : c.domain ≠ []) {u : D → ℝ}
    (hu : ∀ x ∈ c.domain, c.call cal x = .ok (some (u x)))
    (h : ¬ KeptInterp c.interp ∨ ∃ τ, c.dc = .func τ none) : c.rebuild cal = .error .type := by
  simp only [DateCurve.rebuild]
  rw [pyMap_ok (g := u) fun x hx => by simp [DateCurve.num, hu x hx, pyNum], Py.ok_bind]
  by_cases hk : KeptInterp c.interp
  · rw [keepInterp_kept hk, Py.ok_bind]
    obtain ⟨τ, hdc⟩ := h.resolve_left (by simpa using hk)
    obtain ⟨d, l, hl⟩ := List.exists_cons_of_ne_nil hne
    simp only [DateCurve.new, hdc, DayCountArg.kwarg]
    rw [if_neg (by simp)]
    simp only [Py.pure_eq, Py.ok_bind, DateCurve.update, hl, pyMap, DateCurve.time, DateCurve.dayCount, DayCountArg.eval]
    cases (DateCurve.origin (D := D) _) with
    | none => rfl
    | some o => rfl
  · rw [keepInterp_lost hk]
    rfl

/-- C128 (refuted): plain curves and interest rate curves with such an interpolation can not be rebuilt either. -/
theorem C128_plain_violated {c : Curve} {u : ℝ → ℝ} (hu : ∀ x ∈ c.domain, c.call x = .ok (some (u x)))
    (h : ¬ KeptInterp c.interp) : c.rebuild = .error .type := by
  simp only [Curve.rebuild]
  rw [pyMap_ok (g := u) fun x hx => by simp [Curve.num, hu x hx, pyNum], Py.ok_bind, keepInterp_lost h]
  rfl

theorem C128_rate_violated {c : IRCurve D P} {u : D → ℝ} (hu : ∀ x ∈ c.base.domain, c.call cal x = .ok (u x))
    (h : ¬ KeptInterp c.base.interp) : c.rebuild cal = .error .type := by
  simp only [IRCurve.rebuild]
  rw [pyMap_ok hu, Py.ok_bind, keepInterp_lost h]
  rfl

end

section
variable {D P : Type} [LinearOrder D] [AddCommGroup D] {cal : Cal D P}

/-- C127: a shifted forward curve has the moved dates, and keeps origin and interpolation. -/
theorem C127_forward_shift {c c' : ForwardCurve D} {δ : D} (h : c.shifted cal δ = .ok c') :
    c'.base.domain = c.base.domain.map (· + δ) ∧ c'.base.origin? = c.base.origin? ∧ c'.base.dc = c.base.dc.kwarg ∧
      c'.base.interp = c.base.interp := by
  simp only [ForwardCurve.shifted, ForwardCurve.resample, Py.bind_eq_ok] at h
  obtain ⟨ys, -, i, hi, h⟩ := h
  simp only [ForwardCurve.new, Py.bind_eq_ok] at h
  obtain ⟨b, hb, h⟩ := h
  have hf := DateCurve_new_fields cal hb
  have hb' : c'.base = b := by
    split at h
    · rw [← Except.ok.inj h]
    · rw [← Except.ok.inj h]
  rw [hb', hf.1, hf.2.1, hf.2.2.1, hf.2.2.2.1]
  refine ⟨?_, rfl, rfl, by simpa using keepInterp_ok hi⟩
  by_cases hδ : δ = 0
  · subst hδ; simp
  · simp [hδ]

/-- C127: and at the moved dates the prices that the curve has there, if they are positive. -/
theorem C127_forward_values {c : ForwardCurve D} (hn : c.base.domain.Nodup) (hd : c.base.dc.kwarg.Usable)
    (hτ : GoodDayCount (c.base.dc.kwarg.fn cal)) (hk : c.base.interp = none) {δ : D} {u : D → ℝ}
    (hu : ∀ x ∈ c.base.domain, c.price cal (x + δ) = .ok (some (u (x + δ)))) (hpos : ∀ x ∈ c.base.domain, 0 < u (x + δ))
    {d : D} (hlast : c.base.domain.getLast? = some d) (hmax : ∀ x ∈ c.base.domain, x + δ ≤ d + δ) :
    ∃ c', c.shifted cal δ = .ok c' ∧ ∀ x ∈ c.base.domain, c'.price cal (x + δ) = .ok (some (u (x + δ))) := by
  set g := c.base.domain.map (· + δ) with hg
  have hgd : (if δ ≠ 0 then c.base.domain.map (· + δ) else c.base.domain) = g := by
    by_cases hδ : δ = 0
    · subst hδ; simp [hg]
    · simp [hδ, hg]
  have hgn : g.Nodup := hn.map (add_left_injective δ)
  have hne : c.base.domain ≠ [] := by rintro e; rw [e] at hlast; cases hlast
  have hgne : g ≠ [] := by simpa [hg] using hne
  obtain ⟨o, ho⟩ : ∃ o, c.base.origin?.or g.head? = some o := by
    obtain ⟨a, l, hal⟩ := List.exists_cons_of_ne_nil hgne
    rw [hal]
    cases c.base.origin? <;> simp
  set pts := g.map fun x => (x, u x) with hpts
  have hfst : pts.map Prod.fst = g := graph_fst _ _
  have hsnd : pts.map Prod.snd = g.map u := graph_snd _ _
  have hgp : GoodPoints pts ((none : Option FuncSpec).getD logLinearScheme) o := by
    refine ⟨by simpa [hpts] using hgne, by rw [hfst]; exact hgn, fun _ p hp => ?_, by simp [logLinearScheme, FuncSpec.needsNonzero, Kind.isRate]⟩
    obtain ⟨y, hy, rfl⟩ := List.mem_map.1 hp
    obtain ⟨x, hx, rfl⟩ := List.mem_map.1 hy
    exact hpos x hx
  obtain ⟨c', b, hc', hb, h1, h2⟩ := C27_flat cal pts none c.base.origin? o c.base.dc.kwarg hgp (by rw [hfst]; exact ho) hd hτ 0
  rw [hfst, hsnd] at hc'
  refine ⟨c', ?_, fun x hx => ?_⟩
  · simp only [ForwardCurve.shifted, ForwardCurve.resample]
    rw [hgd, pyMap_ok (g := u) fun x hx => ?_, Py.ok_bind, hk]
    · exact hc'
    · obtain ⟨y, hy, rfl⟩ := List.mem_map.1 hx
      simp [hu y hy, pyNum]
  · have hl : (pts.getLast hgp.ne).1 = d + δ := by
      have e : (pts.map Prod.fst).getLast? = some (d + δ) := by rw [hfst, hg, List.getLast?_map, hlast]; rfl
      rw [List.getLast?_map, List.getLast?_eq_some_getLast hgp.ne] at e
      simpa using e
    rw [h1 _ (by rw [hl]; exact hmax x hx)]
    have hnew := DateCurve_new_eq cal none c.base.origin? c.base.dc.kwarg logLinearScheme (pts := pts) (by rw [hfst]; exact ho) hd
      (timePts_nodup hτ o hgp.nodup) hgp.pos
    rw [hnew] at hb
    rw [← Except.ok.inj hb]
    exact DateCurve_values cal (dateCurveOf_origin (by rw [hfst]; exact ho)) hd hτ rfl hgp.nodup rfl hgp.pos hgp.nonzero
      (List.mem_map.2 ⟨x + δ, List.mem_map.2 ⟨x, hx, rfl⟩, rfl⟩)

/-- C127: `Curve(curve)` and `curve.to_curve()` of a date curve with an interpolation of its own, or with the default of
plain curves: the times of the dates since the origin are the new domain, the interpolation is kept, and the plain curve
answers at the time of any date what the date curve answers at the date. -/
theorem C127_to_curve {pts : List (D × ℝ)} {i : Option FuncSpec} {o? : Option D} {o : D} {dc : DayCountArg D} {dflt : FuncSpec}
    (hn : (pts.map Prod.fst).Nodup) (ho : o?.or (pts.map Prod.fst).head? = some o) (hd : dc.Usable)
    (hτ : GoodDayCount (dc.fn cal)) (hk : KeptInterp i) (hdf : i.getD dflt = i.getD linearScheme)
    (hpos : (i.getD dflt).isLog → ∀ p ∈ pts, 0 < p.2) (h0 : (i.getD dflt).needsNonzero → ∃ p ∈ pts, p.1 ≠ o) :
    ∃ c d, DateCurve.new cal (pts.map Prod.fst) (pts.map Prod.snd) i o? dc dflt = .ok c ∧ c.toCurve cal none = .ok d ∧
      d.interp = i ∧ d.domain.Perm (pts.map fun p => dc.fn cal o p.1) ∧ d.domain.Pairwise (· < ·) ∧
      ∀ x, d.call (dc.fn cal o x) = c.call cal x := by
  have hnew := DateCurve_new_eq cal i o? dc dflt ho hd (timePts_nodup hτ o hn) hpos
  refine ⟨_, curveOf i (timePts (dc.fn cal) o pts), hnew, ?_, rfl, ?_, ?_, fun x => ?_⟩
  · have hvals : pyMap ((dateCurveOf (dc.fn cal) o o? dc i dflt pts).num cal) (pts.map Prod.fst) = .ok (pts.map Prod.snd) := by
      rw [pyMap_map]
      refine pyMap_ok fun p hp => ?_
      have := DateCurve_values cal (c := dateCurveOf (dc.fn cal) o o? dc i dflt pts) (dateCurveOf_origin ho) hd hτ rfl hn rfl
        hpos h0 (x := p.1) (y := p.2) hp
      simp [DateCurve.num, this, pyNum]
    have htimes : pyMap ((dateCurveOf (dc.fn cal) o o? dc i dflt pts).time cal) (pts.map Prod.fst) =
        .ok ((timePts (dc.fn cal) o pts).map Prod.fst) := by
      rw [pyMap_ok (g := dc.fn cal o) fun x _ => time_eq cal (dateCurveOf_origin ho) hd x]
      simp [timePts]
    have hdom : (dateCurveOf (dc.fn cal) o o? dc i dflt pts).domain = pts.map Prod.fst := rfl
    have hint : (dateCurveOf (dc.fn cal) o o? dc i dflt pts).interp = i := rfl
    have hsnd : pts.map Prod.snd = (timePts (dc.fn cal) o pts).map Prod.snd := by simp [timePts]
    simp only [DateCurve.toCurve, hdom, hint, hvals, htimes, Py.ok_bind, keepInterp_kept hk]
    rw [hsnd]
    refine Curve_new_eq i (timePts_nodup hτ o hn) fun h p hp => ?_
    obtain ⟨q, hq, rfl⟩ := List.mem_map.1 hp
    exact hpos (by rw [hdf]; exact h) q hq
  · have := (sortPairs_perm (timePts (dc.fn cal) o pts)).map Prod.fst
    rw [show (timePts (dc.fn cal) o pts).map Prod.fst = pts.map fun p => dc.fn cal o p.1 by simp [timePts, Function.comp_def]] at this
    exact this
  · exact List.pairwise_map.2 (sortPairs_strict (timePts_nodup hτ o hn))
  · rw [dateCurveOf_call cal ho hd x, hdf]; rfl

/-- C127 (refuted): with the class `log_linear_scheme` or an own scheme class as interpolation there is no plain curve of a
date curve. -/
theorem C127_to_curve_violated {c : DateCurve D} (hk : ¬ KeptInterp c.interp) {u : D → ℝ}
    (hu : ∀ x ∈ c.domain, c.call cal x = .ok (some (u x))) {o : D} (ho : c.origin = some o) (hd : c.dc.Usable) :
    c.toCurve cal none = .error .type := by
  simp only [DateCurve.toCurve]
  rw [pyMap_ok (g := u) fun x hx => by simp [DateCurve.num, hu x hx, pyNum], Py.ok_bind,
    pyMap_ok (g := c.dc.fn cal o) fun x _ => time_eq cal ho hd x, Py.ok_bind, keepInterp_lost hk]
  rfl

/-- C127 (refuted): a date curve of a class that interpolates log-linearly by default (forward, discount factor and survival
probability curves) turns into a plain curve that interpolates linearly. -/
theorem C127_to_curve_default_violated {dc : DayCountArg D} (hd : dc.Usable) (hτ : GoodDayCount (dc.fn cal)) {o m e : D}
    (h1 : dc.fn cal o m = dc.fn cal m e) (h2 : o < m) (h3 : m < e) :
    ∃ c d, DateCurve.new cal [o, e] [1, 4] none none dc logLinearScheme = .ok c ∧ c.toCurve cal none = .ok d ∧
      c.call cal m = .ok (some 2) ∧ d.call (dc.fn cal o m) = .ok (some (5 / 2)) := by
  have hn : (([(o, 1), (e, 4)] : List (D × ℝ)).map Prod.fst).Nodup := by simp [(h2.trans h3).ne]
  have hpos : ∀ p ∈ ([(o, 1), (e, 4)] : List (D × ℝ)), 0 < p.2 := by simp
  have ho : (none : Option D).or (([(o, 1), (e, 4)] : List (D × ℝ)).map Prod.fst).head? = some o := rfl
  have hnew := DateCurve_new_eq cal none none dc logLinearScheme ho hd (timePts_nodup hτ o hn) fun _ => hpos
  have h00 : dc.fn cal o o = 0 := hτ.self o
  have hm : 0 < dc.fn cal o m := (hτ.pos o m).2 h2
  have he : dc.fn cal o e = 2 * dc.fn cal o m := by rw [← hτ.add o m e, ← h1]; ring
  have ht : timePts (dc.fn cal) o ([(o, 1), (e, 4)] : List (D × ℝ)) = [(0, 1), (2 * dc.fn cal o m, 4)] := by
    simp [timePts, h00, he]
  have hst : sortPairs [((0 : ℝ), (1 : ℝ)), (2 * dc.fn cal o m, 4)] = [(0, 1), (2 * dc.fn cal o m, 4)] :=
    sortPairs_eq_self (by simp [StrictX, hm])
  have hvals : pyMap ((dateCurveOf (dc.fn cal) o none dc none logLinearScheme [(o, 1), (e, 4)]).num cal) [o, e] = .ok [1, 4] := by
    have hv : ∀ p ∈ ([(o, 1), (e, 4)] : List (D × ℝ)),
        (dateCurveOf (dc.fn cal) o none dc none logLinearScheme [(o, 1), (e, 4)]).num cal p.1 = .ok p.2 := fun p hp => by
      have := DateCurve_values cal (c := dateCurveOf (dc.fn cal) o none dc none logLinearScheme [(o, 1), (e, 4)])
        (dateCurveOf_origin ho) hd hτ rfl hn rfl (fun _ => hpos)
        (fun h => by cases h) (x := p.1) (y := p.2) hp
      simp [DateCurve.num, this, pyNum]
    exact pyMap_map (f := _) (g := Prod.fst) (l := ([(o, 1), (e, 4)] : List (D × ℝ))) ▸ pyMap_ok (g := Prod.snd) hv
  refine ⟨_, curveOf none (timePts (dc.fn cal) o [(o, 1), (e, 4)]), hnew, ?_, ?_, ?_⟩
  · have htimes : pyMap ((dateCurveOf (dc.fn cal) o none dc none logLinearScheme [(o, 1), (e, 4)]).time cal) [o, e] =
        .ok ((timePts (dc.fn cal) o [(o, 1), (e, 4)]).map Prod.fst) := by
      rw [pyMap_ok (g := dc.fn cal o) fun x _ => time_eq cal (dateCurveOf_origin ho) hd x]
      simp [timePts]
    have hdom : (dateCurveOf (dc.fn cal) o none dc none logLinearScheme [(o, (1 : ℝ)), (e, 4)]).domain = [o, e] := rfl
    have hint : (dateCurveOf (dc.fn cal) o none dc none logLinearScheme [(o, (1 : ℝ)), (e, 4)]).interp = none := rfl
    simp only [DateCurve.toCurve, hdom, hint, hvals, htimes, Py.ok_bind, keepInterp_kept .none]
    exact Curve_new_eq none (timePts_nodup hτ o hn) (by simp [linearScheme, FuncSpec.isLog, Kind.isLog])
  · rw [dateCurveOf_call cal ho hd m]
    have := funcOf_loglinear_call (pts := timePts (dc.fn cal) o [(o, 1), (e, 4)]) (timePts_nodup hτ o hn) (by simp [timePts])
      (by simp [timePts]) (dc.fn cal o m)
    refine this.trans ?_
    rw [ht, hst]
    simp only [logPts, List.map_cons, List.map_nil, flin, not_le.2 hm, if_false, show dc.fn cal o m ≤ 2 * dc.fn cal o m by linarith,
      if_true, chord, Real.log_one]
    have : 0 + (Real.log 4 - 0) / (2 * dc.fn cal o m - 0) * (dc.fn cal o m - 0) = Real.log 2 := by
      rw [show (4 : ℝ) = 2 ^ 2 by norm_num, Real.log_pow]
      field_simp
      push_cast
      ring
    rw [this, Real.exp_log (by norm_num)]
  · rw [curveOf_linear rfl (timePts_nodup hτ o hn) (by simp [timePts]), ht, hst]
    simp only [flin, not_le.2 hm, if_false, show dc.fn cal o m ≤ 2 * dc.fn cal o m by linarith, if_true, chord]
    congr 2
    field_simp
    ring

end

/-! ### Examples -/

example : ∃ c, Curve.new [3, 1, 2] [1, 5, 2] none = .ok c ∧ c.rebuild = .ok c := by
  simpa using C128_curve (pts := [((3 : ℝ), (1 : ℝ)), (1, 5), (2, 2)]) (i := none) (by norm_num) .none
    (by simp [linearScheme, FuncSpec.isLog, Kind.isLog]) (by simp [linearScheme, FuncSpec.needsNonzero, Kind.isRate])

example : ∃ c, Curve.new [1, 2] [1, 5] (some (.scheme .constant .loglinear .constant true)) = .ok c ∧ c.rebuild = .ok c := by
  simpa using C128_curve (pts := [((1 : ℝ), (1 : ℝ)), (2, 5)]) (i := some (.scheme .constant .loglinear .constant true))
    (by norm_num) (fun l m r h => by simp at h) (by norm_num) (by simp [FuncSpec.needsNonzero, Kind.isRate])

example : ∃ c, IRCurve.new dayCal .zero [0, 365] [1 / 100, 2 / 100] none none .default (some 90) = .ok c ∧
    c.rebuild dayCal = .ok c := by
  simpa using C128_rate (cal := dayCal) (cls := .zero) (pts := [((0 : ℤ), (1 / 100 : ℝ)), (365, 2 / 100)]) (i := none)
    (o? := none) (o := 0) (dc := .default) (tenor := some 90) (by simp) rfl trivial rfl goodDayCount_int .none
    (by simp [IRClass.dflt, linearScheme, FuncSpec.isLog, Kind.isLog])
    (by simp [IRClass.dflt, linearScheme, FuncSpec.needsNonzero, Kind.isRate])

example : ∃ c, Curve.new [1, 2] [3, 4] (some logLinearScheme) = .ok c ∧ c.copy none = .error .type ∧
    c.shifted 0 = .error .type := C127_log_linear_violated (by norm_num) (by norm_num) (by norm_num)

example : ∃ c c', ForwardCurve.spot dayCal 100 none 0 .default (.flat 0.05) = .ok c ∧ c.rebuild dayCal = .ok c' ∧
    c.price dayCal 365 = .ok (some (100 * Real.exp (0.05 * dayCal.dayCount 0 365))) ∧ c'.price dayCal 365 = .ok (some 100) ∧
    c.price dayCal 365 ≠ c'.price dayCal 365 :=
  C127_spot_violated goodDayCount_int (by norm_num) (by norm_num) 0 (by norm_num)

/-- The hypotheses of `C127_to_curve` are met. -/
example : ∃ c d, DateCurve.new dayCal [365, 0] [3, 1] none (some 0) .default linearScheme = .ok c ∧ c.toCurve dayCal none = .ok d ∧
    d.interp = none ∧ d.domain.Perm [dayCal.dayCount 0 365, dayCal.dayCount 0 0] ∧ d.domain.Pairwise (· < ·) ∧
    ∀ x, d.call (dayCal.dayCount 0 x) = c.call dayCal x := by
  exact C127_to_curve (cal := dayCal) (pts := [((365 : ℤ), (3 : ℝ)), (0, 1)]) (i := none) (o? := some 0) (o := 0)
    (dc := .default) (dflt := linearScheme) (by simp) rfl trivial goodDayCount_int .none rfl
    (by simp [linearScheme, FuncSpec.isLog, Kind.isLog]) (by simp [linearScheme, FuncSpec.needsNonzero, Kind.isRate])

/-- The hypotheses of `C127_to_curve_default_violated` are met. -/
example : ∃ c d, DateCurve.new dayCal [0, 20] [1, 4] none none .default logLinearScheme = .ok c ∧
    c.toCurve dayCal none = .ok d ∧ c.call dayCal 10 = .ok (some 2) ∧ d.call (dayCal.dayCount 0 10) = .ok (some (5 / 2)) :=
  C127_to_curve_default_violated (cal := dayCal) (dc := .default) trivial goodDayCount_int
    (by norm_num [DayCountArg.fn, dayCal]) (by norm_num) (by norm_num)

/-- The hypotheses of `C127_forward_values` are met: a spot of 100 growing at 5% and shifted by ten days. -/
example : ∃ c c' : ForwardCurve ℤ, ForwardCurve.spot dayCal 100 none 0 .default (.flat (5 / 100)) = .ok c ∧
    c.shifted dayCal 10 = .ok c' ∧ c'.price dayCal 10 = .ok (some (100 * Real.exp (5 / 100 * dayCal.dayCount 0 10))) := by
  have hτ : GoodDayCount dayCal.dayCount := goodDayCount_int
  have hp : GoodPoints [((0 : ℤ), (100 : ℝ))] ((none : Option FuncSpec).getD logLinearScheme) 0 :=
    ⟨by simp, by simp, fun _ => by simp, by simp [logLinearScheme, FuncSpec.needsNonzero, Kind.isRate]⟩
  obtain ⟨c, b, hc, hb, h1, h2⟩ := C27_flat dayCal [(0, 100)] none (some 0) 0 .default hp rfl trivial hτ (5 / 100)
  have hbase : c.base = b := by
    simp only [ForwardCurve.new] at hc
    rw [hb, Py.ok_bind] at hc
    split_ifs at hc
    · rw [← Except.ok.inj hc]
    · rw [← Except.ok.inj hc]
  have hf := DateCurve_new_fields dayCal hb
  have hdom : c.base.domain = [0] := by rw [hbase, hf.1]; rfl
  have hdc : c.base.dc.kwarg = .default := by rw [hbase, hf.2.2.1]; rfl
  obtain ⟨c', h3, h4⟩ := C127_forward_values (cal := dayCal) (c := c) (by rw [hdom]; simp) (by rw [hdc]; trivial) (by rw [hdc]; exact hτ)
    (by rw [hbase, hf.2.2.2.1]) (δ := 10) (u := fun x => 100 * Real.exp (5 / 100 * dayCal.dayCount 0 x)) (fun x hx => by
      rw [hdom] at hx
      obtain rfl : x = 0 := by simpa using hx
      simpa [DayCountArg.fn] using h2 (0 + 10) (by simp)) (fun x _ => by positivity) (d := 0) (by rw [hdom]; rfl) (fun x hx => by
      rw [hdom] at hx
      obtain rfl : x = 0 := by simpa using hx
      exact le_rfl)
  exact ⟨c, c', hc, h3, by simpa using h4 0 (by rw [hdom]; simp)⟩

/-! ### The hypotheses can be met: each theorem applied -/

theorem exPlainPoints : Curve.new [1, 3] [2, 4] none = .ok (curveOf none [(1, 2), (3, 4)]) :=
  Curve_new_eq none (pts := [(1, 2), (3, 4)]) (by norm_num) (by simp)

theorem exLogPoints : Curve.new [1, 3] [2, 4] (some logLinearScheme) = .ok (curveOf (some logLinearScheme) [(1, 2), (3, 4)]) :=
  Curve_new_eq (some logLinearScheme) (pts := [(1, 2), (3, 4)]) (by norm_num) (by simp)

theorem exPlainPoints_call (i : Option FuncSpec) (h : (i.getD linearScheme).needsNonzero = false) :
    ∀ x ∈ [(1 : ℝ), 3], (curveOf i [(1, 2), (3, 4)]).call x = .ok (some (x + 1)) := by
  intro x hx
  simp only [List.mem_cons, List.not_mem_nil, or_false] at hx
  rcases hx with rfl | rfl
  · exact curveOf_node i (by norm_num) (by simp) (by simp [h]) (by norm_num)
  · exact curveOf_node i (by norm_num) (by simp) (by simp [h]) (by norm_num)

theorem exPlainPoints_domain (i : Option FuncSpec) : (curveOf i [(1, 2), (3, 4)]).domain = [1, 3] := by
  have hs : StrictX [((1 : ℝ), (2 : ℝ)), (3, 4)] := by norm_num [StrictX]
  simp only [curveOf]
  rw [sortPairs_eq_self hs]
  rfl

theorem logLinear_notKept : ¬ KeptInterp (some logLinearScheme) := by
  intro h
  rcases h _ _ _ rfl with h | h | h <;> simp at h

example : True := by
  obtain ⟨c', h⟩ : ∃ c', Curve.resample [1, 3] (curveOf none [(1, 2), (3, 4)]) none = .ok c' := by
    obtain ⟨c, h1, h2⟩ := C128_copy (pts := [((1 : ℝ), (2 : ℝ)), (3, 4)]) (i := none) (by norm_num) .none (by simp) (by simp [linearScheme, FuncSpec.needsNonzero, Kind.isRate])
    obtain rfl := Except.ok.inj (exPlainPoints.symm.trans h1)
    rw [Curve.copy, exPlainPoints_domain] at h2
    exact ⟨_, h2⟩
  have := C127_kept h
  trivial
example := C127_copy_given (c := curveOf none [(1, 2), (3, 4)]) (by rw [exPlainPoints_domain]; exact exPlainPoints_call none rfl) logLinearScheme
example := C127_lost_violated (c := curveOf (some logLinearScheme) [(1, 2), (3, 4)]) logLinear_notKept (exPlainPoints_call (some logLinearScheme) rfl)
example := C128_plain_violated (c := curveOf (some logLinearScheme) [(1, 2), (3, 4)])
  (by rw [exPlainPoints_domain]; exact exPlainPoints_call (some logLinearScheme) rfl) logLinear_notKept
example := C128_copy (pts := [((1 : ℝ), (2 : ℝ)), (3, 4)]) (i := none) (by norm_num) .none (by simp) (by simp [linearScheme, FuncSpec.needsNonzero, Kind.isRate])

/-- Date curves through two points. -/
noncomputable def exDatePoints (i : Option FuncSpec) : DateCurve ℤ := dateCurveOf dayCal.dayCount 0 none .default i linearScheme [(0, 2), (100, 102)]

theorem exDatePoints_new (i : Option FuncSpec) : DateCurve.new dayCal [0, 100] [2, 102] i none .default linearScheme = .ok (exDatePoints i) :=
  DateCurve_new_eq dayCal (pts := [(0, 2), (100, 102)]) i none .default linearScheme (o := 0) rfl trivial
    (timePts_nodup (τ := DayCountArg.fn dayCal .default) goodDayCount_int (0 : ℤ) (by decide)) (by simp)

theorem exDatePoints_call (i : Option FuncSpec) (h : (i.getD linearScheme).needsNonzero = false) :
    ∀ x ∈ [(0 : ℤ), 100], (exDatePoints i).call dayCal x = .ok (some ((fun x : ℤ => (x : ℝ) + 2) x)) := by
  have key := fun x y (hm : (x, y) ∈ [((0 : ℤ), (2 : ℝ)), (100, 102)]) => DateCurve_values dayCal (c := exDatePoints i) (pts := [(0, 2), (100, 102)]) (o := 0)
    rfl trivial goodDayCount_int rfl (by decide) rfl (by simp) (by intro h'; simp [exDatePoints, dateCurveOf, h] at h') (x := x) (y := y) hm
  intro x hx
  simp only [List.mem_cons, List.not_mem_nil, or_false] at hx
  rcases hx with rfl | rfl
  · rw [key 0 2 (by simp)]; norm_num
  · rw [key 100 102 (by simp)]; norm_num

example := C127_date_violated (cal := dayCal) (c := exDatePoints (some logLinearScheme)) logLinear_notKept (exDatePoints_call (some logLinearScheme) rfl) none .default
example := C127_to_curve_violated (cal := dayCal) (c := exDatePoints (some logLinearScheme)) logLinear_notKept (exDatePoints_call (some logLinearScheme) rfl) (o := 0) rfl trivial
example := C128_violated (cal := dayCal) (c := exDatePoints (some logLinearScheme)) (by simp [exDatePoints, dateCurveOf]) (exDatePoints_call (some logLinearScheme) rfl) (.inl logLinear_notKept)
example := C128_date (cal := dayCal) (pts := [((0 : ℤ), (2 : ℝ)), (100, 102)]) (i := none) (o? := none) (o := 0) (dc := .default) (dflt := linearScheme)
  (by decide) rfl trivial rfl goodDayCount_int .none (by simp) (by simp [linearScheme, FuncSpec.needsNonzero, Kind.isRate])
example : True := by
  obtain ⟨c', h, -⟩ := C75_registered_partial dayCal (exDatePoints none) (.inl rfl) goodDayCount_int [0, 100] (by decide) (by simp)
    (fun x : ℤ => (x : ℝ) + 2) (exDatePoints_call none rfl) .none rfl rfl
  have := C127_date_kept h
  trivial
/-- Interest rate curves through two points. -/
theorem exRatePoints (i : Option FuncSpec) (h : (i.getD linearScheme).needsNonzero = false) : ∃ c : IRCurve ℤ ℤ,
    IRCurve.new dayCal .zero [0, 100] [2, 102] i none .default none = .ok c ∧ c.base = exDatePoints i ∧ c.cls = .zero ∧
    ∀ x ∈ c.base.domain, c.call dayCal x = .ok ((fun x : ℤ => (x : ℝ) + 2) x) := by
  have e := IRCurve_new_eq dayCal (cls := .zero) (pts := [((0 : ℤ), (2 : ℝ)), (100, 102)]) (i := i) (o? := none) (o := 0) (dc := .default) (tenor := none)
    (by decide) (by simp) rfl trivial goodDayCount_int
  refine ⟨_, e, rfl, rfl, fun x hx => ?_⟩
  exact irOf_call_some dayCal (dc := .default) rfl trivial
    ((dateCurveOf_call dayCal (dc := .default) rfl trivial x).symm.trans (exDatePoints_call i h x hx))

example : True := by
  obtain ⟨c, h1, hb, hc, hu⟩ := exRatePoints none rfl
  obtain ⟨c', h, -⟩ := C128_grid (cal := dayCal) (c := c) (by rw [hb]; decide) (by rw [hb]; simp [exDatePoints, dateCurveOf]) (by rw [hb]; trivial) (by rw [hb]; rfl)
    (by rw [hb]; exact goodDayCount_int) (by rw [hb]; exact .none) (by rw [hb, hc]; rfl) (by rw [hb, hc]; rfl) hu
  have := C128_baked h
  obtain ⟨c, h1, hb, hc, hu⟩ := exRatePoints (some logLinearScheme) rfl
  have := C128_rate_violated (cal := dayCal) (c := c) hu (by rw [hb]; exact logLinear_notKept)
  trivial

end Dcf
