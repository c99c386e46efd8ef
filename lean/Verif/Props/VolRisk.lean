import Verif.Props.FloatRisk
import Verif.Props.OptionLists
import Verif.Props.OptionModel
import Verif.Props.OptionShape
import Verif.Props.VolCurve

/-! # Volatility risk of option lists: C146 -/

set_option linter.unusedSectionVars false
set_option linter.unusedSimpArgs false
set_option linter.unusedVariables false

namespace Dcf

open Spec

section
variable {D P : Type} [LinearOrder D] {cal : Cal D P}

/-- Seen as object of the world. -/
def VolCurve.obj (c : VolCurve D P) : CurveObj D P := ⟨c.toRateCurve, .vol c.cls c.floor⟩

/-- The list `a` of the world is a list of options on the given dates, with amounts `A`, strikes `K`, puts where `put` says so,
expiring `ex`; its model `mo` takes forwards from `f`, whatever the state of the rate curves, and volatilities from the curve
`va` in its current state. -/
structure OptionsIn (cal : Cal D P) (dates : List D) (A K : D → ℝ) (put : D → Bool) (ex : D → D) (f : Fwd D) (formula : OptFormula)
    (scipy : Bool) (limit va mo a : ℕ) (w : World D P) : Prop where
  nodup : dates.Nodup
  built : ∃ (amounts strikes : NumArg) (isPut : BoolArg) (fo po : Option P) (oo : Option D),
    amounts.expand dates.length = dates.map A ∧ strikes.expand dates.length = dates.map K ∧
    isPut.expand dates.length = dates.map put ∧ (∀ d ∈ dates, ∃ e, MovedBack cal po d e ∧ MovedBack cal fo e (ex d)) ∧
    CFList.newOption cal dates amounts strikes isPut fo po oo (.model (w.model mo)) = .ok (w.list a)
  arg : (w.lists a).arg = .model mo
  forward : (w.models mo).forward = fun _ => f
  vol : (w.models mo).vol = volRef cal scipy limit va
  dayCount : (w.models mo).dayCount = none
  formula : (w.models mo).formula = formula

variable {dates : List D} {A K : D → ℝ} {put : D → Bool} {ex : D → D} {f : Fwd D} {formula : OptFormula} {scipy : Bool}
  {limit va mo a : ℕ} {w : World D P}

theorem newOption_arg {amounts strikes : NumArg} {isPut : BoolArg} {fo po : Option P} {oo : Option D} {arg : ModelArg D}
    {l : CFList D P} (h : OptionArgs cal dates amounts strikes isPut fo po ex)
    (hl : CFList.newOption cal dates amounts strikes isPut fo po oo arg = .ok l) (arg' : ModelArg D) :
    CFList.newOption cal dates amounts strikes isPut fo po oo arg' = .ok { l with arg := arg' } ∧ l.hasModel = true := by
  rw [newOption_eq h] at hl ⊢
  simp only [CFList.ofPayoffs] at hl ⊢
  split_ifs at hl ⊢
  cases hl
  exact ⟨rfl, rfl⟩

theorem OptionsIn.args (h : OptionsIn cal dates A K put ex f formula scipy limit va mo a w) :
    ∃ (amounts strikes : NumArg) (isPut : BoolArg) (fo po : Option P) (oo : Option D),
      amounts.expand dates.length = dates.map A ∧ strikes.expand dates.length = dates.map K ∧
      isPut.expand dates.length = dates.map put ∧ OptionArgs cal dates amounts strikes isPut fo po ex ∧
      CFList.newOption cal dates amounts strikes isPut fo po oo (.model (w.model mo)) = .ok (w.list a) := by
  obtain ⟨as, ks, ps, fo, po, oo, h1, h2, h3, h4, h5⟩ := h.built
  exact ⟨as, ks, ps, fo, po, oo, h1, h2, h3, ⟨h.nodup, by rw [h1, List.length_map], by rw [h2, List.length_map],
    by rw [h3, List.length_map], h4⟩, h5⟩

/-- It stays one when curves change. -/
theorem OptionsIn.moved (h : OptionsIn cal dates A K put ex f formula scipy limit va mo a w) {w' : World D P} (hl : w'.lists = w.lists)
    (hm : w'.models = w.models) : OptionsIn cal dates A K put ex f formula scipy limit va mo a w' := by
  refine ⟨h.nodup, ?_, by rw [hl]; exact h.arg, by rw [hm]; exact h.forward, by rw [hm]; exact h.vol, by rw [hm]; exact h.dayCount,
    by rw [hm]; exact h.formula⟩
  obtain ⟨as, ks, ps, fo, po, oo, h1, h2, h3, h4, h5⟩ := h.args
  refine ⟨as, ks, ps, fo, po, oo, h1, h2, h3, h4.expiry, ?_⟩
  rw [(newOption_arg h4 h5 (.model (w'.model mo))).1]
  congr 1
  simp [World.list, hl, h.arg, World.arg]

/-- What the options pay at valuation: amount times the formula of the model's class, at the time to expiry by the day count of
the volatility curve, with the forward and the volatility for the expiry; puts by parity. -/
theorem OptionsIn.pays (h : OptionsIn cal dates A K put ex f formula scipy limit va mo a w) {c : VolCurve D P}
    (hc : w.curves va = c.obj) {τ : D → D → ℝ} (hd : ∀ s e, c.dayCount cal s e = .ok (τ s e)) {σ F : D → ℝ} {vd : D}
    (hσ : ∀ d ∈ dates, vd ≤ d → c.terminalVol cal scipy limit (ex d) none = .ok (σ d) ∧ σ d ≠ 0)
    (hF : ∀ d ∈ dates, vd ≤ d → ForwardOf (ex d) f (F d)) (ht : ∀ d ∈ dates, vd ≤ d → τ vd (ex d) ≠ 0) {pr : D → ℝ}
    (hpr : ∀ d ∈ dates, vd ≤ d → formula.price (.ok (τ vd (ex d))) (K d) (F d) (σ d) = .ok (pr d)) :
    Pays cal w vd (.list a) ((dates.filter (vd ≤ ·)).map fun d => (d, A d * ((if put d then K d - F d else 0) + pr d))) := by
  obtain ⟨as, ks, ps, fo, po, oo, h1, h2, h3, h4, h5⟩ := h.args
  obtain ⟨l, hl, hdom, ho, harg, hflow⟩ := C114_options h4 oo (.model (w.model mo))
  obtain rfl : l = w.list a := Except.ok.inj (hl.symm.trans h5)
  have hm := (newOption_arg h4 h5 (.model (w.model mo))).2
  have hm' : (w.lists a).hasModel = true := hm
  have hdom' : (w.lists a).domain = dates := hdom
  refine ⟨[_], ?_, (List.flatten_singleton).symm⟩
  simp only [Product.leaves]
  refine .cons ⟨?_, fun d => A d * ((if put d then K d - F d else 0) + pr d), fun d hd' hv => ?_, by rw [hdom']⟩ .nil
  · intro _
    exact ⟨mo, h.arg⟩
  · rw [hdom'] at hd'
    let m : OptModel D := { w.model mo with valuation := some vd }
    have hlist : (w.dated (some vd) a).list a = { w.list a with arg := .model m } := by
      simp [World.dated, hm', h.arg, World.list, World.arg, World.setValuation, World.model, m]
    obtain ⟨i, hi, rfl⟩ := List.getElem_of_mem hd'
    set d := dates[i]
    have hvol : m.vol = c.asVol cal scipy limit := by
      simp only [m, World.model, h.vol, volRef, hc, VolCurve.obj]
    have hmv : m.valuation = some vd := rfl
    have hmF : ForwardOf (ex d) m.forward (F d) := by
      have : m.forward = f := by simp [m, World.model, h.forward]
      rw [this]
      exact hF d hd' hv
    have hmσ : VolOf (ex d) m.vol (σ d) := by rw [hvol]; exact .terminal (hσ d hd' hv).1
    have hmt : TimeOf cal m vd (ex d) (τ vd (ex d)) := by
      refine .vol h.dayCount (dc := c.dayCount cal) ?_ (hd _ _)
      rw [hvol]
      exact .terminal
    have hform : m.formula = formula := h.formula
    rw [hlist, (hflow m).2 i hi (A d) (K d) (put d) (by simp [h1, hi, d]) (by simp [h2, hi, d]) (by simp [h3, hi, d])
      ((if put d then K d - F d else 0) + pr d) (fun hp => ?_) (fun hp => ?_)]
    · rw [(C123_call hmv hmF hmσ hmt (hσ d hd' hv).2 (ht d hd' hv) (K d)).1, hform, hpr d hd' hv]
      simp [hp]
    · rw [(C123_put hmv hmF hmσ hmt (hσ d hd' hv).2 (ht d hd' hv) (K d)).1, hform, hpr d hd' hv]
      simp [hp]

variable {disc : ℕ} {same : Bool} {vd : D} {df : D → ℝ}

/-- C146: the present value of options: discounted amounts times prices at the volatilities of the curve. -/
theorem C146_value (h : OptionsIn cal dates A K put ex f formula scipy limit va mo a w) {c : VolCurve D P}
    (hc : w.curves va = c.obj) {τ : D → D → ℝ} (hd : ∀ s e, c.dayCount cal s e = .ok (τ s e)) {σ F : D → ℝ}
    (hσ : ∀ d ∈ dates, vd ≤ d → c.terminalVol cal scipy limit (ex d) none = .ok (σ d) ∧ σ d ≠ 0)
    (hF : ∀ d ∈ dates, vd ≤ d → ForwardOf (ex d) f (F d)) (ht : ∀ d ∈ dates, vd ≤ d → τ vd (ex d) ≠ 0) {pr : D → ℝ}
    (hpr : ∀ d ∈ dates, vd ≤ d → formula.price (.ok (τ vd (ex d))) (K d) (F d) (σ d) = .ok (pr d))
    (hdf : ∀ d ∈ dates, vd ≤ d → (w.curves disc).discountFactor cal same vd d = .ok (df d)) :
    pvOn cal disc same (some vd) (.list a) w =
      (.ok ((dates.filter (vd ≤ ·)).map fun d => df d * (A d * ((if put d then K d - F d else 0) + pr d))).sum, w) := by
  rw [pvOn, C54_flows (h.pays hc hd hσ hF ht hpr) (df := df) fun q hq => ?_]
  · rw [List.map_map]
    rfl
  · obtain ⟨d, hd', rfl⟩ := List.mem_map.1 hq
    simp only [List.mem_filter, decide_eq_true_eq] at hd'
    exact hdf d hd'.1 hd'.2

theorem sum_diff {L : List D} {g g' : D → ℝ} : (L.map g').sum - (L.map g).sum = (L.map fun d => g' d - g d).sum := by
  induction L with
  | nil => simp
  | cons d L ih =>
    simp only [List.map_cons, List.sum_cons, ← ih]
    ring

/-- The volatility curve with its parallel shift. -/
def VolCurve.bumped (c : VolCurve D P) (shift : ℝ) : VolCurve D P :=
  { c with spread := some fun _ => .ok (some shift) }

theorem VolCurve.bumped_call {c : VolCurve D P} {x : D} {y : ℝ} (hf : c.spread = none) (h : c.call cal x = .ok y) (shift : ℝ) :
    (c.bumped shift).call cal x = .ok (y + shift) := by
  simp only [VolCurve.bumped, VolCurve.call, RateCurve.call, hf, Py.ok_bind] at h ⊢
  obtain ⟨b, hb, h1⟩ := Py.bind_eq_ok.1 h
  obtain ⟨b', hb', h1⟩ := Py.bind_eq_ok.1 h1
  simp only [pyNum, Py.ok_bind, Except.ok.injEq, add_zero] at h1
  rw [hb, Py.ok_bind, hb', Py.ok_bind]
  simp [pyNum, h1]

theorem bumped_vol {c : VolCurve D P} (hc : w.curves va = c.obj) (shift : ℝ) :
    (w.bumped [va] shift).curves va = (c.bumped shift).obj := by
  simp [World.spreadOn, hc, VolCurve.obj, VolCurve.bumped]

theorem bumped_other (hne : disc ≠ va) (shift : ℝ) : (w.bumped [va] shift).curves disc = w.curves disc := by
  simp [World.spreadOn, hne]

/-- C146: the basis point value for a curve of terminal volatilities: every price is taken at volatilities higher by the
shift; nothing else moves, and puts move as calls do. -/
theorem C146_vega (h : OptionsIn cal dates A K put ex f formula scipy (limit + 1) va mo a w) {c : VolCurve D P}
    (hc : w.curves va = c.obj) {v : D → ℝ} {τ : D → D → ℝ} {o : D} (hv : VolAnswers cal c v τ o) (hcls : c.cls = .terminal)
    (hfree : c.spread = none) {F : D → ℝ} {shift : ℝ} (h0 : shift ≠ 0)
    (hσ : ∀ d ∈ dates, vd ≤ d → v (ex d) ≠ 0 ∧ v (ex d) + shift ≠ 0)
    (hF : ∀ d ∈ dates, vd ≤ d → ForwardOf (ex d) f (F d)) (ht : ∀ d ∈ dates, vd ≤ d → ex d ≠ vd) {pr pr' : D → ℝ}
    (hpr : ∀ d ∈ dates, vd ≤ d → formula.price (.ok (τ vd (ex d))) (K d) (F d) (v (ex d)) = .ok (pr d))
    (hpr' : ∀ d ∈ dates, vd ≤ d → formula.price (.ok (τ vd (ex d))) (K d) (F d) (v (ex d) + shift) = .ok (pr' d))
    (hne : disc ≠ va) (hdf : ∀ d ∈ dates, vd ≤ d → (w.curves disc).discountFactor cal same vd d = .ok (df d)) :
    basisPointValue cal disc same (.list a) (some vd) (some [va]) shift w =
      (.ok (((dates.filter (vd ≤ ·)).map fun d => df d * (A d * (pr' d - pr d))).sum / shift * (1 / 10000)), w) := by
  have ht' : ∀ d ∈ dates, vd ≤ d → τ vd (ex d) ≠ 0 := fun d hd hvd => hv.good.ne_zero (ht d hd hvd).symm
  have hx := C146_value h hc hv.dayCount (σ := fun d => v (ex d))
    (fun d hd hvd => ⟨by simp [VolCurve.terminalVol, hcls, VolCurve.terminalVolT, hv.call], (hσ d hd hvd).1⟩) hF ht' hpr hdf
  have hy := C146_value (h.moved (w' := w.bumped [va] shift) rfl rfl) (bumped_vol hc shift) (τ := τ) hv.dayCount
    (σ := fun d => v (ex d) + shift)
    (fun d hd hvd => ⟨by
      have e : (c.bumped shift).cls = .terminal := hcls
      simp [VolCurve.terminalVol, e, VolCurve.terminalVolT, VolCurve.bumped_call hfree (hv.call _)], (hσ d hd hvd).2⟩) hF ht' hpr'
    (by rw [bumped_other hne]; exact hdf)
  refine C61_value.2 ⟨rfl, h0, ⟨by simp, by simp [hc, VolCurve.obj, hfree], by simp [hc, VolCurve.obj, hv.origin]⟩, _, _, hx, hy, ?_⟩
  rw [sum_diff]
  congr 4
  funext d
  ring

/-- Prices that rise with the volatility make the holder of options gain. -/
theorem vega_pos (h : OptionsIn cal dates A K put ex f formula scipy (limit + 1) va mo a w) {c : VolCurve D P}
    (hc : w.curves va = c.obj) {v : D → ℝ} {τ : D → D → ℝ} {o : D} (hv : VolAnswers cal c v τ o) (hcls : c.cls = .terminal)
    (hfree : c.spread = none) {F : D → ℝ} {shift : ℝ} (h0 : 0 < shift) (hσ : ∀ d ∈ dates, vd ≤ d → 0 < v (ex d))
    (hF : ∀ d ∈ dates, vd ≤ d → ForwardOf (ex d) f (F d)) (ht : ∀ d ∈ dates, vd ≤ d → vd < ex d)
    (hmono : ∀ d ∈ dates, vd ≤ d → ∃ p p', formula.price (.ok (τ vd (ex d))) (K d) (F d) (v (ex d)) = .ok p ∧
      formula.price (.ok (τ vd (ex d))) (K d) (F d) (v (ex d) + shift) = .ok p' ∧ p < p')
    (hne : disc ≠ va) (hdf : ∀ d ∈ dates, vd ≤ d → (w.curves disc).discountFactor cal same vd d = .ok (df d) ∧ 0 < df d)
    (hA : ∀ d ∈ dates, vd ≤ d → 0 < A d) (hone : ∃ d ∈ dates, vd ≤ d) :
    ∃ z > 0, basisPointValue cal disc same (.list a) (some vd) (some [va]) shift w = (.ok z, w) := by
  choose! p p' hp hp' hlt using hmono
  refine ⟨_, ?_, C146_vega h hc hv hcls hfree h0.ne' (fun d hd hvd => ⟨(hσ d hd hvd).ne', (add_pos (hσ d hd hvd) h0).ne'⟩) hF
    (fun d hd hvd => (ht d hd hvd).ne') hp hp' hne fun d hd hvd => (hdf d hd hvd).1⟩
  refine mul_pos (div_pos (List.sum_pos _ (fun x hx => ?_) ?_) h0) (by norm_num)
  · obtain ⟨d, hd, rfl⟩ := List.mem_map.1 hx
    simp only [List.mem_filter, decide_eq_true_eq] at hd
    exact mul_pos (hdf d hd.1 hd.2).2 (mul_pos (hA d hd.1 hd.2) (sub_pos.2 (hlt d hd.1 hd.2)))
  · obtain ⟨d, hd, hvd⟩ := hone
    simp only [ne_eq, List.map_eq_nil_iff, List.filter_eq_nil_iff, not_forall]
    exact ⟨d, hd, by simpa using hvd⟩

/-- C146: with the exact distribution the holder of calls and puts gains if log-normal volatilities rise. -/
theorem C146_log_normal (h : OptionsIn cal dates A K put ex f (logNormalFormula exactDist) scipy (limit + 1) va mo a w)
    {c : VolCurve D P} (hc : w.curves va = c.obj) {v : D → ℝ} {τ : D → D → ℝ} {o : D} (hv : VolAnswers cal c v τ o)
    (hcls : c.cls = .terminal) (hfree : c.spread = none) {F : D → ℝ} {shift : ℝ} (h0 : 0 < shift)
    (hσ : ∀ d ∈ dates, vd ≤ d → 0 < v (ex d)) (hF : ∀ d ∈ dates, vd ≤ d → ForwardOf (ex d) f (F d) ∧ 0 < F d ∧ 0 < K d)
    (ht : ∀ d ∈ dates, vd ≤ d → vd < ex d) (hne : disc ≠ va)
    (hdf : ∀ d ∈ dates, vd ≤ d → (w.curves disc).discountFactor cal same vd d = .ok (df d) ∧ 0 < df d)
    (hA : ∀ d ∈ dates, vd ≤ d → 0 < A d) (hone : ∃ d ∈ dates, vd ≤ d) :
    ∃ z > 0, basisPointValue cal disc same (.list a) (some vd) (some [va]) shift w = (.ok z, w) :=
  vega_pos h hc hv hcls hfree h0 hσ (fun d hd hvd => (hF d hd hvd).1) ht
    (fun d hd hvd => C102_vol ((hv.good.pos _ _).2 (ht d hd hvd)) (hσ d hd hvd) (by linarith) (hF d hd hvd).2.1 (hF d hd hvd).2.2)
    hne hdf hA hone

/-- C146: and if normal volatilities rise, for any forwards and strikes. -/
theorem C146_normal (h : OptionsIn cal dates A K put ex f (normalFormula exactDist) scipy (limit + 1) va mo a w)
    {c : VolCurve D P} (hc : w.curves va = c.obj) {v : D → ℝ} {τ : D → D → ℝ} {o : D} (hv : VolAnswers cal c v τ o)
    (hcls : c.cls = .terminal) (hfree : c.spread = none) {F : D → ℝ} {shift : ℝ} (h0 : 0 < shift)
    (hσ : ∀ d ∈ dates, vd ≤ d → 0 < v (ex d)) (hF : ∀ d ∈ dates, vd ≤ d → ForwardOf (ex d) f (F d))
    (ht : ∀ d ∈ dates, vd ≤ d → vd < ex d) (hne : disc ≠ va)
    (hdf : ∀ d ∈ dates, vd ≤ d → (w.curves disc).discountFactor cal same vd d = .ok (df d) ∧ 0 < df d)
    (hA : ∀ d ∈ dates, vd ≤ d → 0 < A d) (hone : ∃ d ∈ dates, vd ≤ d) :
    ∃ z > 0, basisPointValue cal disc same (.list a) (some vd) (some [va]) shift w = (.ok z, w) :=
  vega_pos h hc hv hcls hfree h0 hσ hF ht
    (fun d hd hvd => C125_normal_vol ((hv.good.pos _ _).2 (ht d hd hvd)) (hσ d hd hvd) (by linarith) _ _) hne hdf hA hone

/-- C146 (refuted): with scipy the options show no risk at all against a curve of instantaneous volatilities, although the
shift raises every instantaneous volatility. -/
theorem C146_instantaneous_violated (h : OptionsIn cal dates A K put ex f formula true limit va mo a w) {c : VolCurve D P}
    (hc : w.curves va = c.obj) {v : D → ℝ} {τ : D → D → ℝ} {o : D} (hv : VolAnswers cal c v τ o) (hcls : c.cls = .instantaneous)
    (hfree : c.spread = none) {g : ℝ → ℝ} (hg : TimeFunction c.toRateCurve g) {F : D → ℝ} {shift : ℝ} (h0 : shift ≠ 0)
    (hex : ∀ d ∈ dates, vd ≤ d → o < ex d ∧ ex d ≠ vd ∧ (∫ x in (0 : ℝ)..(τ o (ex d)), g x) ≠ 0)
    (hF : ∀ d ∈ dates, vd ≤ d → ForwardOf (ex d) f (F d)) {pr : D → ℝ}
    (hpr : ∀ d ∈ dates, vd ≤ d → formula.price (.ok (τ vd (ex d))) (K d) (F d)
      ((∫ x in (0 : ℝ)..(τ o (ex d)), g x) / τ o (ex d)) = .ok (pr d))
    (hne : disc ≠ va) (hdf : ∀ d ∈ dates, vd ≤ d → (w.curves disc).discountFactor cal same vd d = .ok (df d)) :
    basisPointValue cal disc same (.list a) (some vd) (some [va]) shift w = (.ok 0, w) ∧
      ∀ x, (c.bumped shift).instantaneousVol cal limit x = .ok (v x + shift) := by
  have hσ : ∀ c' : VolCurve D P, c'.cls = .instantaneous → c'.base = c.base → ∀ d ∈ dates, vd ≤ d →
      c'.terminalVol cal true limit (ex d) none = .ok ((∫ x in (0 : ℝ)..(τ o (ex d)), g x) / τ o (ex d)) ∧
        (∫ x in (0 : ℝ)..(τ o (ex d)), g x) / τ o (ex d) ≠ 0 := by
    intro c' h1 h2 d hd hvd
    obtain ⟨he1, he2, he3⟩ := hex d hd hvd
    have hpos := (hv.good.pos _ _).2 he1
    refine ⟨?_, div_ne_zero he3 hpos.ne'⟩
    have hi := integrate_scipy (cal := cal) (c := c'.toRateCurve) (τ := τ) (o := o) (g := g) ⟨by rw [h2]; exact hg.call⟩
      (by rw [h2]; exact hv.origin) (by rw [h2]; exact hv.dayCount) hv.good he1.ne
    rw [hv.good.self] at hi
    simp only [VolCurve.terminalVol, h1, VolCurve.terminalVolI, h2, hv.origin, pyDate, Py.ok_bind, he1.ne, if_false, gt_iff_lt,
      he1.not_gt]
    exact hi
  have ht' : ∀ d ∈ dates, vd ≤ d → τ vd (ex d) ≠ 0 := fun d hd hvd => hv.good.ne_zero (hex d hd hvd).2.1.symm
  have hx := C146_value h hc hv.dayCount (hσ c hcls rfl) hF ht' hpr hdf
  have hy := C146_value (h.moved (w' := w.bumped [va] shift) rfl rfl) (bumped_vol hc shift) (τ := τ) hv.dayCount
    (hσ (c.bumped shift) hcls rfl) hF ht' hpr (by rw [bumped_other hne]; exact hdf)
  refine ⟨C61_value.2 ⟨rfl, h0, ⟨by simp, by simp [hc, VolCurve.obj, hfree], by simp [hc, VolCurve.obj, hv.origin]⟩, _, _, hx, hy, ?_⟩,
    fun x => ?_⟩
  · rw [sub_self]
    simp
  · have e : (c.bumped shift).cls = .instantaneous := hcls
    simp only [VolCurve.instantaneousVol, e]
    exact VolCurve.bumped_call hfree (hv.call x) shift

/-- C146: against the discount curve only the discount factors move, the options keep their values. -/
theorem C146_discount (h : OptionsIn cal dates A K put ex f formula scipy limit va mo a w) {c : VolCurve D P}
    (hc : w.curves va = c.obj) {θ : D → D → ℝ} (hd : ∀ s e, c.dayCount cal s e = .ok (θ s e)) {σ F : D → ℝ}
    (hσ : ∀ d ∈ dates, vd ≤ d → c.terminalVol cal scipy limit (ex d) none = .ok (σ d) ∧ σ d ≠ 0)
    (hF : ∀ d ∈ dates, vd ≤ d → ForwardOf (ex d) f (F d)) (ht : ∀ d ∈ dates, vd ≤ d → θ vd (ex d) ≠ 0) {pr : D → ℝ}
    (hpr : ∀ d ∈ dates, vd ≤ d → formula.price (.ok (θ vd (ex d))) (K d) (F d) (σ d) = .ok (pr d)) (hne : disc ≠ va)
    {rc : RateCurve D P} {τ : D → D → ℝ} (hτ : GoodDayCount τ) (hdisc : w.curves disc = ⟨rc, .ir .zero⟩)
    (hdc : ∀ s t, rc.base.dayCount cal s t = .ok (τ s t)) (hf : rc.spread = none) (ho : rc.base.origin ≠ none)
    (hdf : ∀ d ∈ dates, vd ≤ d → (w.curves disc).discountFactor cal same vd d = .ok (df d)) {shift : ℝ} (h0 : shift ≠ 0) :
    basisPointValue cal disc same (.list a) (some vd) none shift w =
      (.ok (((dates.filter (vd ≤ ·)).map fun d => df d * (A d * ((if put d then K d - F d else 0) + pr d)) *
        ((Real.exp (-(shift * τ vd d)) - 1) / shift)).sum * (1 / 10000)), w) := by
  have hp := h.pays hc hd hσ hF ht hpr
  have hp' := (h.moved (w' := w.bumped [disc] shift) rfl rfl).pays (by rw [bumped_other hne.symm]; exact hc) hd hσ hF ht hpr
  rw [C61_zero hτ hdisc hdc hf ho hp hp' (df := df) (fun q hq => ?_) h0, List.map_map]
  · rfl
  · obtain ⟨d, hd', rfl⟩ := List.mem_map.1 hq
    simp only [List.mem_filter, decide_eq_true_eq] at hd'
    exact hdf d hd'.1 hd'.2

end

/-! ### Examples -/

/-- A flat volatility of 20%. -/
noncomputable def exVol (cls : VolClass) : VolCurve ℝ FloatPeriod := volOf floatCal 0 none .default none cls none none [(0, 1 / 5)]

theorem exVol_answers (cls : VolClass) : VolAnswers floatCal (exVol cls) (fun _ => 1 / 5) floatCal.dayCount 0 ∧
    TimeFunction (exVol cls).toRateCurve fun _ => 1 / 5 := by
  obtain ⟨h1, h2⟩ := volOf_answers (cal := floatCal) (pts := [((0 : ℝ), (1 / 5 : ℝ))]) (o? := none) (dc := .default) (o := 0) (cls := cls)
    (floor := none) (tenor := none) (by simp) (by simp) rfl trivial goodDayCount_real
  have e : ∀ x, flin (sortPairs (timePts (DayCountArg.fn floatCal .default) 0 [((0 : ℝ), (1 / 5 : ℝ))])) x = 1 / 5 := by
    intro x
    simp [timePts, sortPairs, flin]
  exact ⟨⟨fun x => by rw [← e]; exact h1.call x, h1.dayCount, h1.good, h1.origin⟩, ⟨fun x => by rw [← e x]; exact h2.call x⟩⟩

/-- A world with a call and a put on a forward of 112, struck at 100, discounted at 5%. -/
theorem exOptions (cls : VolClass) (formula : OptFormula) (limit : ℕ) : ∃ w : World ℝ FloatPeriod,
    OptionsIn floatCal [1, 2] (fun _ => 10) (fun _ => 100) (fun d => decide (d = 2)) id (.num 112) formula true limit 1 0 0 w ∧
      w.curves 1 = (exVol cls).obj ∧ w.curves 0 = exWorld.curves 0 := by
  have hargs : OptionArgs floatCal [1, 2] (.scalar 10) (.scalar 100) (.list [false, true]) none none id :=
    ⟨by norm_num, by simp [NumArg.expand], by simp [NumArg.expand], by simp [BoolArg.expand], fun d _ => ⟨d, rfl, rfl⟩⟩
  let cs : Curves ℝ FloatPeriod := fun a => if a = 1 then (exVol cls).obj else exWorld.curves 0
  let mo : ModelObj ℝ FloatPeriod := ⟨none, fun _ => .num 112, volRef floatCal true limit 1, none, false, formula⟩
  let m : OptModel ℝ := ⟨none, .num 112, volRef floatCal true limit 1 cs, none, false, formula⟩
  obtain ⟨l, hl, -, -, ha, -⟩ := C114_options hargs none (.model m)
  obtain ⟨-, hm⟩ := newOption_arg hargs hl (.model m)
  let w : World ℝ FloatPeriod := ⟨cs, fun _ => mo, fun _ => ⟨l.origin?, l.domain, l.flows, .model 0, l.hasModel, false, false⟩⟩
  have hw : w.list 0 = l := by
    cases l
    simp only [World.list, w, World.arg, World.model, mo, m] at ha ⊢
    rw [ha]
  refine ⟨w, ⟨by norm_num, ⟨.scalar 10, .scalar 100, .list [false, true], none, none, none, ?_, ?_, ?_, hargs.expiry, ?_⟩, rfl, rfl, rfl, rfl, rfl⟩,
    by simp [w, cs], by simp [w, cs]⟩
  · simp [NumArg.expand]
  · simp [NumArg.expand]
  · norm_num [BoolArg.expand]
  · rw [hw]
    exact hl

example : ∃ w : World ℝ FloatPeriod, ∀ shift > 0, ∃ z > 0,
    basisPointValue floatCal 0 false (.list 0) (some 0) (some [1]) shift w = (.ok z, w) := by
  obtain ⟨w, h, h1, h0⟩ := exOptions .terminal (logNormalFormula exactDist) 1
  refine ⟨w, fun shift hs => C146_log_normal h h1 (exVol_answers .terminal).1 rfl rfl hs (F := fun _ => 112) (by norm_num)
    (fun d _ _ => ⟨.num (by norm_num), by norm_num, by norm_num⟩) (by simp) (by simp)
    (df := fun t => Real.exp (-(5 / 100 * (t - 0)))) (fun d _ _ => ⟨by rw [h0]; exact exDf 0 d, Real.exp_pos _⟩) (by norm_num) ⟨1, by simp⟩⟩

example : ∃ w : World ℝ FloatPeriod, ∀ shift ≠ 0,
    basisPointValue floatCal 0 false (.list 0) (some 0) (some [1]) shift w = (.ok 0, w) := by
  obtain ⟨w, h, h1, h0⟩ := exOptions .instantaneous (logNormalFormula exactDist) 1
  have hpos : ∀ d ∈ [(1 : ℝ), 2], 0 < d := by norm_num
  have hprice : ∀ d ∈ [(1 : ℝ), 2], ∃ p, (logNormalFormula exactDist).price (.ok (floatCal.dayCount 0 (id d))) 100 112 (1 / 5) = .ok p :=
    fun d hd => ⟨_, logNormal_price exactDist (by simpa [floatCal] using hpos d hd) (by norm_num) (by norm_num)⟩
  choose! pr hpr using hprice
  have hσ : ∀ d ∈ [(1 : ℝ), 2], (∫ x in (0 : ℝ)..(floatCal.dayCount 0 (id d)), (1 / 5 : ℝ)) = 1 / 5 * floatCal.dayCount 0 (id d) := by
    intro d hd
    rw [intervalIntegral.integral_const]
    simp [floatCal, mul_comm]
  have hne : ∀ d ∈ [(1 : ℝ), 2], floatCal.dayCount 0 (id d) ≠ 0 := fun d hd => by simpa [floatCal] using (hpos d hd).ne'
  refine ⟨w, fun shift hs => (C146_instantaneous_violated h h1 (exVol_answers .instantaneous).1 rfl rfl (exVol_answers .instantaneous).2 hs
    (F := fun _ => 112) (fun d hd _ => ⟨hpos d hd, (hpos d hd).ne', ?_⟩) (fun d _ _ => .num (by norm_num)) (pr := pr) (fun d hd _ => ?_)
    (by simp) (df := fun t => Real.exp (-(5 / 100 * (t - 0)))) (fun d _ _ => by rw [h0]; exact exDf 0 d)).1⟩
  · rw [hσ d hd]
    exact mul_ne_zero (by norm_num) (hne d hd)
  · rw [hσ d hd, mul_div_assoc, div_self (hne d hd), mul_one]
    exact hpr d hd

end Dcf
