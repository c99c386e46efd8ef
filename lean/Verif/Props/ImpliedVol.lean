import Verif.Props.FitSolved
import Verif.Props.VolRisk

/-! # C153: volatilities implied by option prices -/

set_option linter.unusedSectionVars false
set_option linter.unusedSimpArgs false
set_option linter.unusedVariables false

namespace Dcf

open Spec

/-! ### Prices as functions of the volatility -/

/-- `h` is the price of a call as function of the volatility, also without volatility. -/
structure VolPrice (formula : OptFormula) (t K F : ℝ) (h : ℝ → ℝ) : Prop where
  flat : h 0 = max (F - K) 0
  price : ∀ σ, σ ≠ 0 → formula.price (.ok t) K F σ = .ok (h σ)

/-- It rises, with bounded slope. -/
structure Rising (h : ℝ → ℝ) : Prop where
  mono : StrictMonoOn h (Set.Ici 0)
  lip : ∃ B, 0 ≤ B ∧ ∀ x, 0 ≤ x → ∀ x', 0 ≤ x' → |h x' - h x| ≤ B * |x' - x|

theorem gaussPdf_le_one (x : ℝ) : gaussPdf x ≤ 1 := by
  unfold gaussPdf
  have e1 : Real.exp (-x ^ 2 / 2) ≤ 1 := Real.exp_le_one_iff.2 (by nlinarith [sq_nonneg x])
  have e2 : (Real.sqrt (2 * Real.pi))⁻¹ ≤ 1 := inv_le_one_of_one_le₀ (by linarith [sqrt_two_pi_bounds.1])
  have e3 : 0 ≤ (Real.sqrt (2 * Real.pi))⁻¹ := by positivity
  nlinarith [Real.exp_pos (-x ^ 2 / 2)]

/-- A price with positive bounded vega, above the intrinsic value and near it for small volatilities. -/
theorem rising_of {h h' : ℝ → ℝ} {B : ℝ} (hB : 0 ≤ B) (hd : ∀ x, 0 < x → HasDerivAt h (h' x) x)
    (hpos : ∀ x, 0 < x → 0 < h' x) (hle : ∀ x, 0 < x → h' x ≤ B) {i : ℝ} (hlow : ∀ x, 0 < x → i < h x)
    (hup : ∀ x, 0 < x → h x ≤ i + B * x) : Rising fun x => if x = 0 then i else h x := by
  have hmv : ∀ x x', 0 < x → x < x' → 0 < h x' - h x ∧ h x' - h x ≤ B * (x' - x) := by
    intro x x' hx hxx
    obtain ⟨c, h1, h2, h3⟩ := mean_value hxx fun y hy _ => hd y (hx.trans_le hy)
    have hc : 0 < c := hx.trans h1
    rw [h3]
    exact ⟨mul_pos (hpos c hc) (sub_pos.2 hxx), mul_le_mul_of_nonneg_right (hle c hc) (sub_pos.2 hxx).le⟩
  have key : ∀ x x' : ℝ, 0 ≤ x → x < x' → 0 < (if x' = 0 then i else h x') - (if x = 0 then i else h x) ∧
      (if x' = 0 then i else h x') - (if x = 0 then i else h x) ≤ B * (x' - x) := by
    intro x x' hx hxx
    have hx' : 0 < x' := hx.trans_lt hxx
    rw [if_neg hx'.ne']
    rcases hx.eq_or_lt with rfl | hx
    · simp only [if_true, sub_zero]
      exact ⟨by linarith [hlow x' hx'], by linarith [hup x' hx']⟩
    · rw [if_neg hx.ne']
      exact hmv x x' hx hxx
  refine ⟨fun x hx x' _ hxx => by linarith [(key x x' hx hxx).1], B, hB, fun x hx x' hx' => ?_⟩
  rcases lt_trichotomy x x' with hlt | rfl | hlt
  · obtain ⟨h1, h2⟩ := key x x' hx hlt
    rw [abs_of_pos h1, abs_of_pos (sub_pos.2 hlt)]
    exact h2
  · simp
  · obtain ⟨h1, h2⟩ := key x' x hx' hlt
    rw [abs_sub_comm, abs_of_pos h1, abs_sub_comm, abs_of_pos (sub_pos.2 hlt)]
    exact h2

section
variable {t σ K F : ℝ}

theorem normal_price_vega (ht : 0 < t) (hσ : σ ≠ 0) (K F : ℝ) :
    HasDerivAt (fun σ => (F - K) * gaussCdf (docD t K F σ) + σ * Real.sqrt t * gaussPdf (docD t K F σ))
      (Real.sqrt t * gaussPdf (docD t K F σ)) σ := by
  have h1 := (gaussCdf_deriv (docD t K F σ)).comp σ (docD_deriv_vol ht hσ K F)
  have h2 := (gaussPdf_deriv (docD t K F σ)).comp σ (docD_deriv_vol ht hσ K F)
  have h := (h1.const_mul (F - K)).add (((hasDerivAt_id σ).mul_const (Real.sqrt t)).mul h2)
  refine h.congr_deriv ?_
  have hv := vol_ne ht hσ
  have hd : F - K = docD t K F σ * (σ * Real.sqrt t) := by unfold docD; field_simp
  simp only [Function.comp_apply, id]
  rw [hd]
  field_simp
  ring

theorem mul_cdf_le (a x : ℝ) : a * gaussCdf x ≤ max a 0 := by
  rcases le_total 0 a with h | h
  · rw [max_eq_left h]; nlinarith [gaussCdf_lt_one x]
  · rw [max_eq_right h]; nlinarith [gaussCdf_pos x]

/-- C153: the prices of the exact normal model rise with the volatility, with bounded slope. -/
theorem C153_normal (ht : 0 < t) (K F : ℝ) :
    ∃ h, VolPrice (normalFormula exactDist) t K F h ∧ Rising h := by
  have hs := Real.sqrt_pos.2 ht
  refine ⟨fun σ => if σ = 0 then max (F - K) 0 else
    (F - K) * gaussCdf (docD t K F σ) + σ * Real.sqrt t * gaussPdf (docD t K F σ), ⟨by simp, fun σ hσ => ?_⟩, ?_⟩
  · rw [normal_price exactDist ht hσ, if_neg hσ]
    rfl
  · refine rising_of (h := fun σ => (F - K) * gaussCdf (docD t K F σ) + σ * Real.sqrt t * gaussPdf (docD t K F σ)) hs.le
      (fun x hx => normal_price_vega ht hx.ne' K F) (fun x _ => mul_pos hs (gaussPdf_pos _))
      (fun x _ => mul_le_of_le_one_right hs.le (gaussPdf_le_one _)) (fun x hx => ?_) fun x hx => ?_
    · obtain ⟨p, hp, hlt⟩ := C102_normal ht hx K F
      rw [normal_price exactDist ht hx.ne'] at hp
      cases hp
      exact hlt
    · have h1 := mul_cdf_le (F - K) (docD t K F x)
      have h2 := mul_le_of_le_one_right (mul_pos hx hs).le (gaussPdf_le_one (docD t K F x))
      linarith

theorem gaussCdf_lip {x y : ℝ} (h : x ≤ y) : gaussCdf y - gaussCdf x ≤ y - x := by
  rcases h.eq_or_lt with rfl | h
  · simp
  obtain ⟨c, -, -, h3⟩ := mean_value h fun z _ _ => gaussCdf_deriv z
  rw [h3]
  exact mul_le_of_le_one_left (sub_pos.2 h).le (gaussPdf_le_one c)

/-- C153: the prices of the exact log-normal model rise with the volatility, with bounded slope. -/
theorem C153_log_normal (ht : 0 < t) (hK : 0 < K) (hF : 0 < F) :
    ∃ h, VolPrice (logNormalFormula exactDist) t K F h ∧ Rising h := by
  have hs := Real.sqrt_pos.2 ht
  refine ⟨fun σ => if σ = 0 then max (F - K) 0 else
    F * gaussCdf (docLogD t K F σ) - K * gaussCdf (docLogD t K F σ - σ * Real.sqrt t), ⟨by simp, fun σ hσ => ?_⟩, ?_⟩
  · rw [logNormal_price exactDist ht hσ (div_pos hF hK), if_neg hσ]
    rfl
  · refine rising_of (B := (F + K) * Real.sqrt t)
      (h := fun σ => F * gaussCdf (docLogD t K F σ) - K * gaussCdf (docLogD t K F σ - σ * Real.sqrt t)) (by positivity)
      (fun x hx => logNormal_price_vega ht hx.ne' hF hK) (fun x _ => mul_pos (mul_pos hF hs) (gaussPdf_pos _))
      (fun x _ => ?_) (fun x hx => ?_) fun x hx => ?_
    · have h1 := mul_le_of_le_one_right (mul_pos hF hs).le (gaussPdf_le_one (docLogD t K F x))
      have h2 := mul_pos hK hs
      linarith
    · obtain ⟨p, hp, hlt, -⟩ := C102_log_normal ht hx hF hK
      rw [logNormal_price exactDist ht hx.ne' (div_pos hF hK)] at hp
      cases hp
      exact hlt
    · have h1 := mul_cdf_le (F - K) (docLogD t K F x)
      have hv := mul_pos hx hs
      have h2 := gaussCdf_lip (x := docLogD t K F x - x * Real.sqrt t) (y := docLogD t K F x) (by linarith)
      have h3 := mul_le_mul_of_nonneg_left h2 hK.le
      have h4 := mul_pos hF hv
      nlinarith

end

/-! ### Option lists at any volatility -/

section
variable {D P : Type} [LinearOrder D] {cal : Cal D P}

/-- The present value of options, also at dates without volatility. -/
theorem options_value {dates : List D} {A K : D → ℝ} {put : D → Bool} {ex : D → D} {f : Fwd D} {formula : OptFormula} {scipy : Bool}
    {limit va mo a : ℕ} {w : World D P} (h : OptionsIn cal dates A K put ex f formula scipy limit va mo a w) {c : VolCurve D P}
    (hc : w.curves va = c.obj) {τ : D → D → ℝ} (hd : ∀ s e, c.dayCount cal s e = .ok (τ s e)) {σ F : D → ℝ} {vd : D}
    (hσ : ∀ d ∈ dates, c.terminalVol cal scipy limit (ex d) none = .ok (σ d))
    (hF : ∀ d ∈ dates, ForwardOf (ex d) f (F d)) (hv : ∀ d ∈ dates, vd ≤ d) (ht : ∀ d ∈ dates, τ vd (ex d) ≠ 0) {pr : D → ℝ → ℝ}
    (hpr : ∀ d ∈ dates, VolPrice formula (τ vd (ex d)) (K d) (F d) (pr d)) {disc : ℕ} {same : Bool} {df : D → ℝ}
    (hdf : ∀ d ∈ dates, (w.curves disc).discountFactor cal same vd d = .ok (df d)) :
    pvOn cal disc same (some vd) (.list a) w =
      (.ok (dates.map fun d => df d * (A d * ((if put d then K d - F d else 0) + pr d (σ d)))).sum, w) := by
  have hall : dates.filter (vd ≤ ·) = dates := List.filter_eq_self.2 fun d hd => by simpa using hv d hd
  have hp : Pays cal w vd (.list a) (dates.map fun d => (d, A d * ((if put d then K d - F d else 0) + pr d (σ d)))) := by
    obtain ⟨as, ks, ps, fo, po, oo, h1, h2, h3, h4, h5⟩ := h.args
    obtain ⟨l, hl, hdom, ho, harg, hflow⟩ := C114_options h4 oo (.model (w.model mo))
    obtain rfl : l = w.list a := Except.ok.inj (hl.symm.trans h5)
    have hm := (newOption_arg h4 h5 (.model (w.model mo))).2
    have hm' : (w.lists a).hasModel = true := hm
    have hdom' : (w.lists a).domain = dates := hdom
    refine ⟨[_], ?_, (List.flatten_singleton).symm⟩
    simp only [Product.leaves]
    refine .cons ⟨?_, fun d => A d * ((if put d then K d - F d else 0) + pr d (σ d)), fun d hd' _ => ?_, by rw [hdom', hall]⟩ .nil
    · intro _
      exact ⟨mo, h.arg⟩
    · rw [hdom'] at hd'
      let m : OptModel D := { w.model mo with valuation := some vd }
      have hlist : (w.dated (some vd) a).list a = { w.list a with arg := .model m } := by
        simp [World.dated, hm', h.arg, World.list, World.arg, World.setValuation, World.model, m]
      obtain ⟨i, hi, rfl⟩ := List.getElem_of_mem hd'
      set d := dates[i]
      have hvol : m.vol = c.asVol cal scipy limit := by
        simp only [m, World.model, h.vol, volRef, hc, VolCurve.obj]
      have hmv : m.valuation = some vd := rfl
      have hmF : ForwardOf (ex d) m.forward (F d) := by
        have : m.forward = f := by simp [m, World.model, h.forward]
        rw [this]
        exact hF d hd'
      have hmσ : VolOf (ex d) m.vol (σ d) := by rw [hvol]; exact .terminal (hσ d hd')
      have hmt : TimeOf cal m vd (ex d) (τ vd (ex d)) := by
        refine .vol h.dayCount (dc := c.dayCount cal) ?_ (hd _ _)
        rw [hvol]
        exact .terminal
      have hform : m.formula = formula := h.formula
      rw [hlist, (hflow m).2 i hi (A d) (K d) (put d) (by simp [h1, hi, d]) (by simp [h2, hi, d]) (by simp [h3, hi, d])
        ((if put d then K d - F d else 0) + pr d (σ d)) (fun hp => ?_) (fun hp => ?_)]
      · by_cases hz : σ d = 0
        · rw [(C123_flat hmv hmF hmσ hmt (.inl hz) (K d)).1, hz, (hpr d hd').flat]
          simp [hp]
        · rw [(C123_call hmv hmF hmσ hmt hz (ht d hd') (K d)).1, hform, (hpr d hd').price _ hz]
          simp [hp]
      · by_cases hz : σ d = 0
        · rw [(C123_flat hmv hmF hmσ hmt (.inl hz) (K d)).2.1, hz, (hpr d hd').flat]
          simp only [hp, if_true, Except.ok.injEq]
          rcases le_total (F d) (K d) with hle | hle
          · rw [max_eq_left (by linarith), max_eq_right (by linarith)]; ring
          · rw [max_eq_right (by linarith), max_eq_left (by linarith)]; ring
        · rw [(C123_put hmv hmF hmσ hmt hz (ht d hd') (K d)).1, hform, (hpr d hd').price _ hz]
          simp [hp]
  rw [pvOn, C54_flows hp (df := df) fun q hq => ?_]
  · rw [List.map_map]
    rfl
  · obtain ⟨d, hd', rfl⟩ := List.mem_map.1 hq
    exact hdf d hd'

/-! ### The fit -/

/-- Lists of options that expire when they pay, at dates of a grid, with the volatilities of a terminal volatility curve. -/
structure OptionFit (cal : Cal D P) (G : List D) (as : List ℕ) (dates : ℕ → List D) (A K : ℕ → D → ℝ) (put : ℕ → D → Bool)
    (f : ℕ → Fwd D) (F : ℕ → D → ℝ) (formula : OptFormula) (scipy : Bool) (vlimit va : ℕ) (mo : ℕ → ℕ) (disc : ℕ) (same : Bool) (vd : D)
    (df : D → ℝ) (c : VolCurve D P) (v : D → ℝ) (dc : DayCountArg D) (o? : Option D) (o : D) (last : ℕ → D) (w : World D P) : Prop where
  list : ∀ i ∈ as, OptionsIn cal (dates i) (A i) (K i) (put i) (fun d => d) (f i) formula scipy (vlimit + 1) va (mo i) i w
  curve : w.curves va = c.obj
  call : ∀ d ∈ G, c.call cal d = .ok (v d)
  cls : c.cls = .terminal
  free : c.spread = none
  days : c.base.dc = dc
  kwarg : dc.kwarg = dc
  usable : dc.Usable
  good : GoodDayCount (dc.fn cal)
  given : c.base.origin? = o?
  origin : o?.or G.head? = some o
  other : disc ≠ va
  inc : G.Pairwise (· < ·)
  future : ∀ d ∈ G, vd < d
  grid : ∀ i ∈ as, ∀ d ∈ dates i, d ∈ G
  last : ∀ i ∈ as, last i ∈ dates i ∧ ∀ d ∈ dates i, d ≤ last i
  forward : ∀ i ∈ as, ∀ d ∈ dates i, ForwardOf d (f i) (F i d)
  factor : ∀ d ∈ G, (w.curves disc).discountFactor cal same vd d = .ok (df d) ∧ 0 < df d

variable {G : List D} {as : List ℕ} {dates : ℕ → List D} {A K : ℕ → D → ℝ} {put : ℕ → D → Bool}
    {f : ℕ → Fwd D} {F : ℕ → D → ℝ} {formula : OptFormula} {scipy : Bool} {vlimit va : ℕ} {mo : ℕ → ℕ} {disc : ℕ} {same : Bool} {vd : D}
    {df : D → ℝ} {c : VolCurve D P} {v : D → ℝ} {dc : DayCountArg D} {o? : Option D} {o : D} {last : ℕ → D} {w : World D P}

/-- The value of an option list at the volatilities `σ`. -/
noncomputable def optionsAt (dates : ℕ → List D) (A K : ℕ → D → ℝ) (put : ℕ → D → Bool) (F : ℕ → D → ℝ) (df : D → ℝ)
    (h : ℕ → D → ℝ → ℝ) (i : ℕ) (σ : D → ℝ) : ℝ :=
  ((dates i).map fun d => df d * (A i d * ((if put i d then K i d - F i d else 0) + h i d (σ d)))).sum

def Product.listId : Product D → ℕ
  | .list i => i
  | _ => 0

variable {h : ℕ → D → ℝ → ℝ}

/-- The value on any terminal volatility curve with the same day count. -/
theorem OptionFit.value (H : OptionFit cal G as dates A K put f F formula scipy vlimit va mo disc same vd df c v dc o? o last w)
    (hh : ∀ i ∈ as, ∀ d ∈ dates i, VolPrice formula (dc.fn cal vd d) (K i d) (F i d) (h i d)) {c' : VolCurve D P} {σ : D → ℝ}
    (hc : ∀ d ∈ G, c'.call cal d = .ok (σ d)) (hcls : c'.cls = .terminal) (hdays : c'.base.dc = dc) {i : ℕ} (hi : i ∈ as) :
    pvOn cal disc same (some vd) (.list i) (w.setCurve va c'.obj) =
      (.ok (optionsAt dates A K put F df h i σ), w.setCurve va c'.obj) := by
  refine options_value ((H.list i hi).moved (w' := w.setCurve va c'.obj) rfl rfl) (c := c') (τ := dc.fn cal) (ex := fun d => d)
    (by simp [World.setCurve]) (fun s e => ?_) (fun d hd => ?_) (H.forward i hi) (fun d hd => (H.future d (H.grid i hi d hd)).le)
    (fun d hd => H.good.ne_zero (H.future d (H.grid i hi d hd)).ne) (hh i hi) (fun d hd => ?_)
  · rw [VolCurve.dayCount, DateCurve.dayCount, hdays]
    exact DayCountArg.eval_eq cal H.usable s e
  · simp [VolCurve.terminalVol, hcls, VolCurve.terminalVolT, hc d (H.grid i hi d hd)]
  · have : (w.setCurve va c'.obj).curves disc = w.curves disc := by simp [World.setCurve, H.other]
    rw [this]
    exact (H.factor d (H.grid i hi d hd)).1

theorem OptionFit.grid_ok (H : OptionFit cal G as dates A K put f F formula scipy vlimit va mo disc same vd df c v dc o? o last w) :
    FitGrid cal o o? dc linearScheme G :=
  zero_grid H.usable H.good H.origin H.inc

theorem OptionFit.priced (H : OptionFit cal G as dates A K put f F formula scipy vlimit va mo disc same vd df c v dc o? o last w)
    (hh : ∀ i ∈ as, ∀ d ∈ dates i, VolPrice formula (dc.fn cal vd d) (K i d) (F i d) (h i d)) :
    Priced cal o o? dc linearScheme G w va disc same (some vd) (as.map Product.list)
      (fun p y => optionsAt dates A K put F df h p.listId fun d => v d + y d) (fun p => last p.listId) := by
  constructor
  · intro p hp y
    obtain ⟨i, hi, rfl⟩ := List.mem_map.1 hp
    have := H.value hh (c' := { c with spread := some ((fitSpread cal o o? dc linearScheme G y).asSpread cal) })
      (σ := fun d => v d + y d) (fun d hd => linked_call H.free (H.call d hd) (fitSpread_call H.grid_ok y hd)) H.cls H.days hi
    simp only [fitState, World.linkSpread, H.curve]
    exact this
  · intro p hp
    obtain ⟨i, hi, rfl⟩ := List.mem_map.1 hp
    have hdom : (w.product (.list i)).domain = dates i := by
      obtain ⟨as, ks, ps, fo, po, oo, h1, h2, h3, h4, h5⟩ := (H.list i hi).args
      obtain ⟨l, hl, hdom, -⟩ := C114_options h4 oo (.model (w.model (mo i)))
      obtain rfl : l = w.list i := Except.ok.inj (hl.symm.trans h5)
      exact hdom
    rw [hdom]
    exact maxDate_eq (H.last i hi).1 (H.last i hi).2

theorem OptionFit.loc (H : OptionFit cal G as dates A K put f F formula scipy vlimit va mo disc same vd df c v dc o? o last w) :
    Local G (as.map Product.list) (fun p y => optionsAt dates A K put F df h p.listId fun d => v d + y d)
      (fun p => last p.listId) := by
  intro p hp d hd hle y y' hy
  obtain ⟨i, hi, rfl⟩ := List.mem_map.1 hp
  simp only [optionsAt, Product.listId] at hle ⊢
  congr 1
  apply List.map_congr_left
  intro t ht
  rw [hy t (H.grid i hi t ht) (((H.last i hi).2 t ht).trans hle)]

theorem OptionFit.cast (H : OptionFit cal G as dates A K put f F formula scipy vlimit va mo disc same vd df c v dc o? o last w)
    (scipy : Bool) (limit : ℕ) (sameD : D → Bool) :
    (w.curves va).castOn cal scipy (limit + 1) sameD ((some G).getD (w.curves va).base.domain) =
      .ok (fitSpread cal o o? dc linearScheme G v) := by
  rw [Option.getD_some, H.curve, VolCurve.obj, CurveObj.castOn]
  simp only [H.cls]
  have hdata : pyMap (VolClass.terminal.storage cal scipy (limit + 1) ⟨c.toRateCurve, .terminal, c.floor⟩) G = .ok (G.map v) :=
    pyMap_ok fun d hd => by
      simp only [VolClass.storage, VolCurve.terminalVol, VolCurve.terminalVolT]
      exact H.call d hd
  rw [hdata, Py.ok_bind]
  have e1 : c.base.dc.kwarg = dc := by rw [H.days, H.kwarg]
  have e2 : cal.or none c.base.origin? = o? := H.given
  have := DateCurve_new_eq cal (pts := G.map fun d => (d, v d)) none o? dc linearScheme (o := o) (by rw [graph_fst]; exact H.origin)
    H.usable (timePts_nodup H.good o (by rw [graph_fst]; exact H.inc.imp fun h => h.ne))
    (by simp [linearScheme, FuncSpec.isLog, Kind.isLog])
  rw [graph_fst, graph_snd] at this
  simp only [e1, e2, VolClass.dflt, this, Py.ok_bind]
  rfl

theorem OptionFit.base (H : OptionFit cal G as dates A K put f F formula scipy vlimit va mo disc same vd df c v dc o? o last w) :
    ∀ d ∈ G, (w.curves va).toRateCurve.call cal d = .ok (v d) := by
  rw [H.curve]
  exact H.call

/-- The gaps to prices of option lists. -/
theorem residual_lists (V : Product D → (D → ℝ) → ℝ) (e : Product D → D) (price : ℕ → ℝ) (d : D) (y : D → ℝ) (as : List ℕ) :
    residual V e ((as.map Product.list).zip (targetList (.list (as.map price)) (as.map (Product.list (D := D))).length)) d y =
      ((as.filter fun i => decide (e (.list i) ≤ d)).map fun i => V (.list i) y - price i).sum := by
  rw [residual, targetList, NumArg.expand]
  induction as with
  | nil => simp
  | cons i as ih =>
    simp only [List.map_cons, List.zip_cons_cons, List.filter_cons]
    split_ifs <;> simp [ih]

/-- C153: if the fit of volatilities returns, then the volatility curve is as before, and on any terminal volatility curve with
the same day count and the returned values at the dates of the grid the option lists maturing by each date meet their prices in sum
within the precision. -/
theorem C153_reprices (H : OptionFit cal G as dates A K put f F formula scipy vlimit va mo disc same vd df c v dc o? o last w)
    (hh : ∀ i ∈ as, ∀ d ∈ dates i, VolPrice formula (dc.fn cal vd d) (K i d) (F i d) (h i d)) {limit : ℕ} {sameD : D → Bool}
    {sci : Bool} {price : ℕ → ℝ} {precision lo hi : ℝ} {data : List ℝ} {w' : World D P}
    (hr : curveFit cal (limit + 1) sci sameD (as.map .list) disc same (some vd) (some va) (some G) (.list (as.map price)) precision lo hi w =
      (.ok data, w')) :
    w' = w ∧ ∃ y : D → ℝ, data = G.map y ∧ ∀ c' : VolCurve D P, (∀ d ∈ G, c'.call cal d = .ok (y d)) → c'.cls = .terminal →
      c'.base.dc = dc → ∃ pv : ℕ → ℝ,
      (∀ i ∈ as, pvOn cal disc same (some vd) (.list i) (w.setCurve va c'.obj) = (.ok (pv i), w.setCurve va c'.obj)) ∧
      ∀ d ∈ G, |((as.filter fun i => decide (last i ≤ d)).map fun i => pv i - price i).sum| < precision := by
  have hcast := H.cast sci limit sameD
  have hS := C64_success H.grid_ok (H.priced hh) H.inc (fitting := some va) rfl hcast H.base hr
  obtain ⟨z, rfl, hz⟩ := C64_reprices H.grid_ok (H.priced hh) H.loc H.inc (fitting := some va) rfl hcast H.base hr
  refine ⟨hS.1, fun d => v d + z d, rfl, fun c' hc hcls hdays => ⟨_, fun i hi => H.value hh hc hcls hdays hi, fun d hd => ?_⟩⟩
  have := (hz d hd).2
  rw [residual_lists] at this
  exact this

/-- The options of the lists maturing by a date. -/
def optionsBy (as : List ℕ) (dates : ℕ → List D) (last : ℕ → D) (d : D) : List (ℕ × D) :=
  ((as.filter fun i => decide (last i ≤ d)).map fun i => (dates i).map fun t => (i, t)).flatten

theorem mem_optionsBy {d : D} {q : ℕ × D} : q ∈ optionsBy as dates last d ↔ (q.1 ∈ as ∧ last q.1 ≤ d) ∧ q.2 ∈ dates q.1 := by
  obtain ⟨i, t⟩ := q
  simp only [optionsBy, List.mem_flatten, List.mem_map, List.mem_filter, decide_eq_true_eq]
  constructor
  · rintro ⟨l, ⟨j, hj, rfl⟩, hl⟩
    obtain ⟨t', ht', he⟩ := List.mem_map.1 hl
    cases he
    exact ⟨hj, ht'⟩
  · rintro ⟨hi, ht⟩
    exact ⟨_, ⟨i, hi, rfl⟩, List.mem_map.2 ⟨t, ht, rfl⟩⟩

/-- The gap of an option. -/
noncomputable def optionGap (A : ℕ → D → ℝ) (df : D → ℝ) (h : ℕ → D → ℝ → ℝ) (r : D → ℝ) (q : ℕ × D) (x : ℝ) : ℝ :=
  df q.2 * (A q.1 q.2 * (h q.1 q.2 x - h q.1 q.2 (r q.2)))

theorem optionsAt_sub (i : ℕ) (x r : D → ℝ) : optionsAt dates A K put F df h i x - optionsAt dates A K put F df h i r =
    ((dates i).map fun t => optionGap A df h r (i, t) (x t)).sum := by
  rw [optionsAt, optionsAt]
  induction dates i with
  | nil => simp
  | cons t l ih =>
    simp only [List.map_cons, List.sum_cons]
    rw [← ih, optionGap]
    ring

theorem gaps_terms (d : D) (x r : D → ℝ) :
    ((as.filter fun i => decide (last i ≤ d)).map fun i => optionsAt dates A K put F df h i x - optionsAt dates A K put F df h i r).sum =
      terms Prod.snd (optionGap A df h r) (optionsBy as dates last d) x := by
  rw [terms, optionsBy]
  induction as.filter fun i => decide (last i ≤ d) with
  | nil => simp
  | cons i l ih =>
    simp only [List.map_cons, List.sum_cons, List.flatten_cons, List.map_append, List.sum_append, List.map_map]
    rw [ih, optionsAt_sub]
    rfl

theorem sum_strictMono {ι : Type} {g : ι → ℝ → ℝ} {S : Set ℝ} : ∀ {l : List ι}, l ≠ [] → (∀ q ∈ l, StrictMonoOn (g q) S) →
    StrictMonoOn (fun x => (l.map fun q => g q x).sum) S
  | [], h, _ => absurd rfl h
  | [q], _, hg => by simpa using hg q (by simp)
  | q :: q' :: l, _, hg => by
    have ih := sum_strictMono (l := q' :: l) (by simp) fun q hq => hg q (by simp [hq])
    intro x hx y hy hxy
    have h1 := hg q (by simp) hx hy hxy
    have h2 := ih hx hy hxy
    simp only [List.map_cons, List.sum_cons] at h1 h2 ⊢
    linarith

theorem OptionFit.solvable (H : OptionFit cal G as dates A K put f F formula scipy vlimit va mo disc same vd df c v dc o? o last w)
    (hr : ∀ i ∈ as, ∀ d ∈ dates i, Rising (h i d)) (hA : ∀ i ∈ as, ∀ d ∈ dates i, 0 < A i d)
    (hends : ∀ d ∈ G, ∃ i ∈ as, last i = d) {r : D → ℝ} (h0 : ∀ d ∈ G, 0 ≤ r d) :
    Solvable G (optionsBy as dates last) Prod.snd (optionGap A df h r) r := by
  refine ⟨fun d hd q hq => ?_, h0, fun d hd q hq => by simp [optionGap], fun d hd q hq => ?_, fun d hd => ?_⟩
  · obtain ⟨⟨h1, h2⟩, h3⟩ := mem_optionsBy.1 hq
    exact ⟨H.grid _ h1 _ h3, ((H.last _ h1).2 _ h3).trans h2⟩
  · obtain ⟨⟨h1, h2⟩, h3⟩ := mem_optionsBy.1 hq
    obtain ⟨B, hB, hlip⟩ := (hr _ h1 _ h3).lip
    have hk : 0 ≤ df q.2 * A q.1 q.2 := (mul_pos (H.factor _ (H.grid _ h1 _ h3)).2 (hA _ h1 _ h3)).le
    refine ⟨df q.2 * A q.1 q.2 * B, mul_nonneg hk hB, fun x hx x' hx' => ?_⟩
    have e : optionGap A df h r q x' - optionGap A df h r q x = df q.2 * A q.1 q.2 * (h q.1 q.2 x' - h q.1 q.2 x) := by
      rw [optionGap, optionGap]; ring
    rw [e, abs_mul, abs_of_nonneg hk, mul_assoc (df q.2 * A q.1 q.2)]
    exact mul_le_mul_of_nonneg_left (hlip x hx x' hx') hk
  · refine sum_strictMono ?_ fun q hq => ?_
    · obtain ⟨i, hi, rfl⟩ := hends d hd
      have : (i, last i) ∈ (optionsBy as dates last (last i)).filter fun q => decide (q.2 = last i) :=
        List.mem_filter.2 ⟨mem_optionsBy.2 ⟨⟨hi, le_rfl⟩, (H.last i hi).1⟩, by simp⟩
      exact List.ne_nil_of_mem this
    · obtain ⟨⟨h1, h2⟩, h3⟩ := mem_optionsBy.1 (List.mem_filter.1 hq).1
      have hk : 0 < df q.2 * A q.1 q.2 := mul_pos (H.factor _ (H.grid _ h1 _ h3)).2 (hA _ h1 _ h3)
      intro x hx y hy hxy
      have := mul_lt_mul_of_pos_left ((hr _ h1 _ h3).mono hx hy hxy) hk
      simp only [optionGap]
      nlinarith

/-- Gaps to the prices on a curve with the volatilities `r`. -/
theorem OptionFit.gaps (H : OptionFit cal G as dates A K put f F formula scipy vlimit va mo disc same vd df c v dc o? o last w)
    (hh : ∀ i ∈ as, ∀ d ∈ dates i, VolPrice formula (dc.fn cal vd d) (K i d) (F i d) (h i d)) {c' : VolCurve D P} {r : D → ℝ}
    (hc : ∀ d ∈ G, c'.call cal d = .ok (r d)) (hcls : c'.cls = .terminal) (hdays : c'.base.dc = dc) {price : ℕ → ℝ}
    (hp : ∀ i ∈ as, (pvOn cal disc same (some vd) (.list i) (w.setCurve va c'.obj)).1 = .ok (price i)) (d : D) (z : D → ℝ) :
    residual (fun p y => optionsAt dates A K put F df h p.listId fun d => v d + y d) (fun p => last p.listId)
      ((as.map Product.list).zip (targetList (.list (as.map price)) (as.map (Product.list (D := D))).length)) d z =
      terms Prod.snd (optionGap A df h r) (optionsBy as dates last d) fun t => v t + z t := by
  rw [residual_lists, ← gaps_terms (K := K) (put := put) (F := F)]
  congr 1
  refine List.map_congr_left fun i hi => ?_
  have hi' := (List.mem_filter.1 hi).1
  have := hp i hi'
  rw [H.value hh hc hcls hdays hi'] at this
  rw [← Except.ok.inj this]
  rfl

/-- C153: let the prices of option lists, rising in the volatilities, be their present values on a terminal volatility curve with the
volatilities `r` at the dates of the grid, and let the option lists end at each of these dates.  If the fit to these prices returns
having looked at non-negative volatilities only, then it gives the volatilities `r` as precisely as wanted. -/
theorem C153_recovered (H : OptionFit cal G as dates A K put f F formula scipy vlimit va mo disc same vd df c v dc o? o last w)
    (hh : ∀ i ∈ as, ∀ d ∈ dates i, VolPrice formula (dc.fn cal vd d) (K i d) (F i d) (h i d))
    (hR : ∀ i ∈ as, ∀ d ∈ dates i, Rising (h i d)) (hA : ∀ i ∈ as, ∀ d ∈ dates i, 0 < A i d)
    (hends : ∀ d ∈ G, ∃ i ∈ as, last i = d) {c' : VolCurve D P} {r : D → ℝ}
    (hc : ∀ d ∈ G, c'.call cal d = .ok (r d) ∧ 0 ≤ r d) (hcls : c'.cls = .terminal) (hdays : c'.base.dc = dc) {price : ℕ → ℝ}
    (hp : ∀ i ∈ as, (pvOn cal disc same (some vd) (.list i) (w.setCurve va c'.obj)).1 = .ok (price i)) {lo hi : ℝ}
    (hlo : ∀ d ∈ G, 0 ≤ v d + lo ∧ 0 ≤ v d + hi) {η : ℝ} (hη : 0 < η) :
    ∃ ε > 0, ∀ (limit : ℕ) (sci : Bool) (sameD : D → Bool) (precision : ℝ) (data : List ℝ) (w' : World D P), precision ≤ ε →
      curveFit cal (limit + 1) sci sameD (as.map .list) disc same (some vd) (some va) (some G) (.list (as.map price)) precision lo hi w =
        (.ok data, w') → w' = w ∧ ∃ y : D → ℝ, data = G.map y ∧ ∀ d ∈ G, |y d - r d| < η := by
  have hpos : ∀ d ∈ G, ∀ x ∈ Set.uIcc lo hi, 0 ≤ v d + x := fun d hd x hx => by
    obtain ⟨h1, h2⟩ := hlo d hd
    rcases Set.mem_uIcc.1 hx with h | h <;> linarith [h.1, h.2]
  obtain ⟨ε, hε, hall⟩ := fit_solved H.grid_ok (H.priced hh) H.loc H.inc (H.solvable hR hA hends fun d hd => (hc d hd).2)
    (fun d _ z => H.gaps hh (fun d hd => (hc d hd).1) hcls hdays hp d z) hpos H.base hη
  refine ⟨ε, hε, fun limit sci sameD precision data w' hprec hr => ?_⟩
  exact hall (limit + 1) sci sameD (some va) (some G) v precision data w' rfl (H.cast sci limit sameD) hprec hr

/-- C153: and if the volatilities `r` are inside the range in which the fit looks for them, then it does return for every small enough
precision, provided the recursion limit is large enough. -/
theorem C153_returns (H : OptionFit cal G as dates A K put f F formula scipy vlimit va mo disc same vd df c v dc o? o last w)
    (hh : ∀ i ∈ as, ∀ d ∈ dates i, VolPrice formula (dc.fn cal vd d) (K i d) (F i d) (h i d))
    (hR : ∀ i ∈ as, ∀ d ∈ dates i, Rising (h i d)) (hA : ∀ i ∈ as, ∀ d ∈ dates i, 0 < A i d) (hne : G ≠ [])
    (hends : ∀ d ∈ G, ∃ i ∈ as, last i = d) {c' : VolCurve D P} {r : D → ℝ}
    (hc : ∀ d ∈ G, c'.call cal d = .ok (r d)) (hcls : c'.cls = .terminal) (hdays : c'.base.dc = dc) {price : ℕ → ℝ}
    (hp : ∀ i ∈ as, (pvOn cal disc same (some vd) (.list i) (w.setCurve va c'.obj)).1 = .ok (price i)) {lo hi : ℝ}
    (hlo : ∀ d ∈ G, 0 ≤ v d + lo ∧ v d + lo < r d ∧ r d < v d + hi) (sci : Bool) (sameD : D → Bool) :
    ∃ ε > 0, ∀ precision, 0 < precision → precision ≤ ε → ∃ N, ∀ limit, N < limit → ∃ data,
      curveFit cal limit sci sameD (as.map .list) disc same (some vd) (some va) (some G) (.list (as.map price)) precision lo hi w =
        (.ok data, w) := by
  refine fit_returns H.grid_ok (H.priced hh) H.loc H.inc hne
    (H.solvable hR hA hends fun d hd => by linarith [(hlo d hd).1, (hlo d hd).2.1])
    (fun d _ z => H.gaps hh hc hcls hdays hp d z) (fun d hd => (hlo d hd).1) (fun d hd => (hlo d hd).2.1) (fun d hd => (hlo d hd).2.2)
    ?_ H.base (fitting := some va) rfl (m := 1) (y0 := v) fun limit hl => ?_
  · rw [H.curve]
    exact H.free
  · obtain ⟨limit, rfl⟩ := Nat.exists_eq_succ_of_ne_zero (by omega : limit ≠ 0)
    exact H.cast sci limit sameD

end

/-! ### The approximation of the normal distribution -/

/-- C153 fails with the approximation of the normal distribution: every call out of the money has the same price without volatility and
at a positive volatility, and lower ones in between, so its price does not tell the volatility. -/
theorem C153_unique_violated {t K F : ℝ} (ht : 0 < t) (hFK : F < K) : ∃ (h : ℝ → ℝ) (σ : ℝ), 0 < σ ∧
    VolPrice (normalFormula codeDist) t K F h ∧ h σ = h 0 ∧ ∀ x, 0 < x → x < σ → h x < h 0 := by
  obtain ⟨c, hc, -, hall⟩ := C70_threshold
  have hs := Real.sqrt_pos.2 ht
  have hex : ∀ σ : ℝ, ∃ p, σ ≠ 0 → (normalFormula codeDist).price (.ok t) K F σ = .ok p := fun σ => by
    by_cases h : σ = 0
    · exact ⟨0, fun h' => absurd h h'⟩
    · exact ⟨_, fun _ => normal_price codeDist ht h K F⟩
  choose p hp using hex
  have hpos : ∀ σ, 0 < σ → (0 < p σ ↔ -c * (σ * Real.sqrt t) < F - K) ∧ (p σ < 0 ↔ F - K < -c * (σ * Real.sqrt t)) := by
    intro σ hσ
    obtain ⟨q, hq, h1, h2⟩ := hall t σ K F ht hσ
    rw [hp σ hσ.ne'] at hq
    cases hq
    exact ⟨h1, h2⟩
  have hv : 0 < (K - F) / (c * Real.sqrt t) := div_pos (by linarith) (by positivity)
  have hm : max (F - K) 0 = 0 := max_eq_right (by linarith)
  refine ⟨fun σ => if σ = 0 then max (F - K) 0 else p σ, (K - F) / (c * Real.sqrt t), hv,
    ⟨by simp, fun σ hσ => by rw [if_neg hσ]; exact hp σ hσ⟩, ?_, fun x hx hlt => ?_⟩
  · simp only [if_true, hm, if_neg hv.ne']
    obtain ⟨h1, h2⟩ := hpos _ hv
    have e : -c * ((K - F) / (c * Real.sqrt t) * Real.sqrt t) = F - K := by field_simp; ring
    rw [e] at h1 h2
    have n1 : ¬ 0 < p ((K - F) / (c * Real.sqrt t)) := fun h => lt_irrefl _ (h1.1 h)
    have n2 : ¬ p ((K - F) / (c * Real.sqrt t)) < 0 := fun h => lt_irrefl _ (h2.1 h)
    linarith
  · simp only [if_true, hm, if_neg hx.ne']
    refine (hpos x hx).2.2 ?_
    rw [lt_div_iff₀ (by positivity)] at hlt
    nlinarith

/-! ### Example -/

/-- A world with options at the dates 1 and 2. -/
theorem exFit (formula : OptFormula) : ∃ w : World ℝ FloatPeriod,
    OptionFit floatCal [1, 2] [0, 1] (fun i => if i = 0 then [1] else [1, 2]) (fun _ _ => 10) (fun _ _ => 100) (fun i _ => decide (i = 0))
      (fun _ => .num 112) (fun _ _ => 112) formula true 0 1 (fun _ => 0) 0 false 0 (fun t => Real.exp (-(5 / 100 * (t - 0))))
      (exVol .terminal) (fun _ => 1 / 5) .default none 1 (fun i => if i = 0 then 1 else 2) w := by
  have hargs : ∀ i : ℕ, OptionArgs floatCal (if i = 0 then [1] else [1, 2]) (.scalar 10) (.scalar 100) (.scalar (decide (i = 0))) none none
      fun d => d := fun i => ⟨by split_ifs <;> norm_num, by simp [NumArg.expand], by simp [NumArg.expand], by simp [BoolArg.expand],
    fun d _ => ⟨d, rfl, rfl⟩⟩
  let cs : Curves ℝ FloatPeriod := fun a => if a = 1 then (exVol .terminal).obj else exWorld.curves 0
  let mo : ModelObj ℝ FloatPeriod := ⟨none, fun _ => .num 112, volRef floatCal true 1 1, none, false, formula⟩
  let m : OptModel ℝ := ⟨none, .num 112, volRef floatCal true 1 1 cs, none, false, formula⟩
  choose l hl hdom hor ha hrest using fun i => C114_options (hargs i) none (.model m)
  let w : World ℝ FloatPeriod := ⟨cs, fun _ => mo, fun i => ⟨(l i).origin?, (l i).domain, (l i).flows, .model 0, (l i).hasModel, false, false⟩⟩
  have hw : ∀ i, w.list i = l i := fun i => by
    have ha := ha i
    revert ha
    simp only [World.list, w, World.arg, World.model, mo, m]
    cases l i
    intro ha
    simp only at ha ⊢
    rw [ha]
  refine ⟨w, ⟨fun i _ => ⟨(hargs i).nodup, ⟨.scalar 10, .scalar 100, .scalar (decide (i = 0)), none, none, none, by simp [NumArg.expand],
    by simp [NumArg.expand], by simp [BoolArg.expand], (hargs i).expiry, by rw [hw]; exact hl i⟩, rfl, rfl, rfl, rfl, rfl⟩, by simp [w, cs],
    fun d _ => (exVol_answers .terminal).1.call d, rfl, rfl, rfl, rfl, trivial, goodDayCount_real, rfl, rfl, by norm_num, by norm_num,
    by norm_num, by simp, ?_, fun _ _ _ _ => .num (by norm_num), fun d _ => ⟨?_, Real.exp_pos _⟩⟩⟩
  · simp
  · have : w.curves 0 = exWorld.curves 0 := by simp [w, cs]
    rw [this]
    exact exDf 0 d

example : ∃ (w : World ℝ FloatPeriod) (c' : VolCurve ℝ FloatPeriod) (price : ℕ → ℝ), (∀ d, c'.call floatCal d = .ok (3 / 10)) ∧
    (∀ i ∈ [0, 1], (pvOn floatCal 0 false (some 0) (.list i) (w.setCurve 1 c'.obj)).1 = .ok (price i)) ∧
    ∀ η > 0, ∃ (limit : ℕ) (precision : ℝ) (y : ℝ → ℝ), curveFit floatCal limit true (fun _ => false) ([0, 1].map .list) 0 false
      (some 0) (some 1) (some [1, 2]) (.list ([0, 1].map price)) precision (-1 / 5) (4 / 5) w = (.ok ([1, 2].map y), w) ∧
      ∀ d ∈ [(1 : ℝ), 2], |y d - 3 / 10| < η := by
  obtain ⟨w, H⟩ := exFit (normalFormula exactDist)
  have hpos : ∀ i ∈ [0, 1], ∀ d ∈ (fun i : ℕ => if i = 0 then [(1 : ℝ)] else [1, 2]) i, 0 < d := by norm_num
  have hh : ∀ i ∈ [0, 1], ∀ d ∈ (fun i : ℕ => if i = 0 then [(1 : ℝ)] else [1, 2]) i,
      ∃ h, VolPrice (normalFormula exactDist) (DayCountArg.fn floatCal .default 0 d) 100 112 h ∧ Rising h := fun i hi d hd =>
    C153_normal (by simpa [DayCountArg.fn, floatCal] using hpos i hi d hd) 100 112
  choose! h hh using hh
  let c' := volOf floatCal 0 none .default none .terminal none none [((0 : ℝ), (3 / 10 : ℝ))]
  have hc : ∀ d, c'.call floatCal d = .ok (3 / 10) := by
    intro d
    obtain ⟨h1, -⟩ := volOf_answers (cal := floatCal) (pts := [((0 : ℝ), (3 / 10 : ℝ))]) (o? := none) (dc := .default) (o := 0)
      (cls := .terminal) (floor := none) (tenor := none) (by simp) (by simp) rfl trivial goodDayCount_real
    rw [h1.call d]
    simp [linVal, timePts, sortPairs, flin]
  have hp := fun i hi => H.value (h := h) (fun i hi d hd => (hh i hi d hd).1) (c' := c') (σ := fun _ => 3 / 10) (fun d _ => hc d) rfl rfl
    (i := i) hi
  refine ⟨w, c', _, hc, fun i hi => congrArg Prod.fst (hp i hi), fun η hη => ?_⟩
  have hA : ∀ i ∈ [0, 1], ∀ d ∈ (fun i : ℕ => if i = 0 then [(1 : ℝ)] else [1, 2]) i, (0 : ℝ) < (fun (_ : ℕ) (_ : ℝ) => (10 : ℝ)) i d := by
    norm_num
  obtain ⟨ε, hε, h1⟩ := C153_recovered H (fun i hi d hd => (hh i hi d hd).1) (fun i hi d hd => (hh i hi d hd).2) hA (by simp)
    (c' := c') (r := fun _ => 3 / 10) (fun d _ => ⟨hc d, by norm_num⟩) rfl rfl (fun i hi => congrArg Prod.fst (hp i hi))
    (lo := -1 / 5) (hi := 4 / 5) (by norm_num) hη
  obtain ⟨ε', hε', h2⟩ := C153_returns H (fun i hi d hd => (hh i hi d hd).1) (fun i hi d hd => (hh i hi d hd).2) hA (by simp) (by simp)
    (c' := c') (r := fun _ => 3 / 10) (fun d _ => hc d) rfl rfl (fun i hi => congrArg Prod.fst (hp i hi))
    (lo := -1 / 5) (hi := 4 / 5) (by norm_num) true fun _ => false
  obtain ⟨N, hN⟩ := h2 (min ε ε') (lt_min hε hε') (min_le_right _ _)
  obtain ⟨data, hdata⟩ := hN (N + 1) (Nat.lt_succ_self N)
  obtain ⟨-, y, rfl, hy⟩ := h1 _ _ _ _ _ _ (min_le_left _ _) hdata
  exact ⟨_, _, y, hdata, hy⟩

/-! ### The hypotheses can be met: each theorem applied -/

example := C153_log_normal (K := 90) (F := 100) (one_pos : (0 : ℝ) < 1) (by norm_num) (by norm_num)
example := C153_unique_violated (K := 112) (F := 100) (one_pos : (0 : ℝ) < 1) (by norm_num)
/-- Prices of two call lists are met by each curve the volatility fit returns. -/
example : ∃ w : World ℝ FloatPeriod, ∀ (limit : ℕ) (price : ℕ → ℝ) (precision : ℝ) (data : List ℝ) (w' : World ℝ FloatPeriod),
    curveFit floatCal (limit + 1) true (fun _ => false) ([0, 1].map .list) 0 false (some 0) (some 1) (some [1, 2]) (.list ([0, 1].map price))
      precision (-1 / 5) (4 / 5) w = (.ok data, w') → w' = w ∧ ∃ y : ℝ → ℝ, data = [1, 2].map y := by
  obtain ⟨w, H⟩ := exFit (normalFormula exactDist)
  have hpos : ∀ i ∈ [0, 1], ∀ d ∈ (fun i : ℕ => if i = 0 then [(1 : ℝ)] else [1, 2]) i, 0 < d := by norm_num
  have hh : ∀ i ∈ [0, 1], ∀ d ∈ (fun i : ℕ => if i = 0 then [(1 : ℝ)] else [1, 2]) i,
      ∃ h, VolPrice (normalFormula exactDist) (DayCountArg.fn floatCal .default 0 d) 100 112 h ∧ Rising h := fun i hi d hd =>
    C153_normal (by simpa [DayCountArg.fn, floatCal] using hpos i hi d hd) 100 112
  choose! h hh using hh
  refine ⟨w, fun limit price precision data w' hr => ?_⟩
  obtain ⟨h1, y, hy, -⟩ := C153_reprices H (fun i hi d hd => (hh i hi d hd).1) hr
  exact ⟨h1, y, hy⟩

end Dcf
