import Verif.Model.OwnFormula
import Verif.Props.OptionModel

/-! # Option pricing formulas written by the user: C160 -/

set_option linter.unusedSectionVars false
set_option linter.unusedSimpArgs false
set_option linter.unusedVariables false

namespace Dcf

open Spec

section
variable {k : FormulaClass} {f g : PriceFn}

/-- C160 (methods): a class that defines `__call__` only is priced by it and the other way round; with both, each is what the class says; with
neither, both end in a RecursionError. -/
theorem C160_methods (n : ℕ) :
    (k.call = some f → k.price = none → k.callAt (n + 2) = f ∧ k.priceAt (n + 2) = f) ∧
    (k.call = none → k.price = some f → k.callAt (n + 2) = f ∧ k.priceAt (n + 2) = f) ∧
    (k.call = some f → k.price = some g → k.callAt (n + 2) = f ∧ k.priceAt (n + 2) = g) ∧
    (k.call = none → k.price = none → ∀ t K F v, k.callAt n t K F v = .error .recursion ∧ k.priceAt n t K F v = .error .recursion) := by
  refine ⟨fun h1 h2 => ?_, fun h1 h2 => ?_, fun h1 h2 => ?_, fun h1 h2 => ?_⟩
  · constructor
    · rw [FormulaClass.callAt, h1]
    · rw [FormulaClass.priceAt, h2, FormulaClass.callAt, h1]
  · constructor
    · rw [FormulaClass.callAt, h1, FormulaClass.priceAt, h2]
    · rw [FormulaClass.priceAt, h2]
  · constructor
    · rw [FormulaClass.callAt, h1]
    · rw [FormulaClass.priceAt, h2]
  · induction n with
    | zero => intro t K F v; exact ⟨by rw [FormulaClass.callAt], by rw [FormulaClass.priceAt]⟩
    | succ n ih =>
      intro t K F v
      exact ⟨by rw [FormulaClass.callAt, h1]; exact (ih t K F v).2, by rw [FormulaClass.priceAt, h2]; exact (ih t K F v).1⟩

end

section
variable {D P : Type} {cal : Cal D P} {num : AsNumber D} {v date : D} {F σ t : ℝ} {k : FormulaClass} {f : PriceFn}

/-- The model of a class whose call price is given by `f`, as `__call__` or as `_call_price`. -/
def Spec.Priced (k : FormulaClass) (f : PriceFn) : Prop := k.price = some f ∨ k.price = none ∧ k.call = some f

theorem Spec.Priced.eq (h : Spec.Priced k f) (n : ℕ) : k.priceAt (n + 2) = f := by
  rcases h with h | ⟨h1, h2⟩
  · rw [FormulaClass.priceAt, h]
  · exact ((C160_methods (g := f) n).1 h2 h1).2

/-- C160 (values): calls are worth the user's price at time to expiry, strike, forward and volatility, puts by parity. -/
theorem C160_values (hk : Spec.Priced k f) (n : ℕ) {m : OptModel D} (hm : m.formula = k.formula (n + 2)) (hv : m.valuation = some v)
    (hF : ForwardOf date m.forward F) (hσ : VolOf date m.vol σ) (ht : TimeOf cal m v date t) (h0 : σ ≠ 0) (ht0 : t ≠ 0) (K : ℝ) :
    m.callValue cal date (some K) = f (.ok t) K F σ ∧ m.callValue cal date none = f (.ok t) F F σ ∧
    m.putValue cal date (some K) = (fun p => K - F + p) <$> f (.ok t) K F σ := by
  have e : m.formula.price = f := by rw [hm]; exact hk.eq n
  refine ⟨?_, ?_, ?_⟩
  · rw [(C123_call hv hF hσ ht h0 ht0 K).1, e]
  · rw [(C123_call hv hF hσ ht h0 ht0 K).2, e]
  · rw [(C123_put hv hF hσ ht h0 ht0 K).1, e]

/-- C160 (greeks that are not given): without own greeks the delta, gamma and theta are difference quotients of the user's price, whether or not
the model is told to bump. -/
theorem C160_bumped (hk : Spec.Priced k f) (hδ : k.delta = none) (hγ : k.gamma = none) (hθ : k.theta = none) (n : ℕ) {m : OptModel D}
    (hm : m.formula = k.formula (n + 2)) (hv : m.valuation = some v) (hF : ForwardOf date m.forward F) (hσ : VolOf date m.vol σ)
    (ht : TimeOf cal m v date t) (h0 : σ ≠ 0) (ht0 : t ≠ 0) (K : ℝ) {up x down later : ℝ} (hup : f (.ok t) K (F + 0.0001) σ = .ok up)
    (hx : f (.ok t) K F σ = .ok x) (hdown : f (.ok t) K (F - 0.0001) σ = .ok down) (hlater : f (.ok (t + 1 / 365.25)) K F σ = .ok later) :
    m.callDelta cal date (some K) = .ok (up - x) ∧ m.callGamma cal num date (some K) = .ok (up - 2 * x + down) ∧
    m.callTheta cal num date (some K) = .ok ((later - x) / 365.25) := by
  obtain ⟨d, h1, h2, h3, h4, h5⟩ := details_read hv hF hσ ht (some K)
  have hfl : d.flat = false := by simp [OptDetails.flat, h4, h5, h0, ht0]
  have e : m.formula.price = f := by rw [hm]; exact hk.eq n
  have e1 : m.formula.delta = noGreek := by rw [hm]; simp [FormulaClass.formula, hδ]
  have e2 : m.formula.gamma = noGreek := by rw [hm]; simp [FormulaClass.formula, hγ]
  have e3 : m.formula.theta = noGreek := by rw [hm]; simp [FormulaClass.formula, hθ]
  simp only [Option.getD_some] at h3
  refine ⟨?_, ?_, ?_⟩
  · simp only [OptModel.callDelta, h1, Py.ok_bind, OptDetails.fwd, h2, h3, h4, h5, hfl, Bool.false_eq_true, if_false, e, e1, noGreek, hup, hx,
      pyDiv_ok (show (0.0001 : ℝ) ≠ 0 by norm_num)]
    split_ifs <;> (congr 1; ring)
  · simp only [OptModel.callGamma, h1, Py.ok_bind, OptDetails.fwd, h2, h3, h4, h5, hfl, Bool.false_eq_true, if_false, e, e2, noGreek, hup, hx,
      hdown, pyDiv_ok (show (0.0001 : ℝ) ≠ 0 by norm_num)]
    split_ifs <;> (congr 1; ring)
  · simp only [OptModel.callTheta, h1, Py.ok_bind, OptDetails.fwd, h2, h3, h4, h5, hfl, Bool.false_eq_true, if_false, e, e3, noGreek, hx, hlater]
    split_ifs <;> (congr 1; ring)

/-- C160 (greeks that are given): own delta and vega are used, unless the model is told to bump the delta. -/
theorem C160_greeks (hk : Spec.Priced k f) {δ ν : GreekFn} (hδ : k.delta = some δ) (hν : k.vega = some ν) (n : ℕ) {m : OptModel D}
    (hm : m.formula = k.formula (n + 2)) (hv : m.valuation = some v) (hF : ForwardOf date m.forward F) (hσ : VolOf date m.vol σ)
    (ht : TimeOf cal m v date t) (h0 : σ ≠ 0) (ht0 : t ≠ 0) (K : ℝ) {a b : ℝ} (ha : δ (.ok t) K F σ = .ok (some a))
    (hb : ν (.ok t) K F σ = .ok (some b)) {up x : ℝ} (hup : f (.ok t) K (F + 0.0001) σ = .ok up) (hx : f (.ok t) K F σ = .ok x) :
    m.callDelta cal date (some K) = .ok (if m.bump then up - x else a * 0.0001) ∧
    (m.bump = false → m.callVega cal num date (some K) = .ok (b * 0.01)) := by
  obtain ⟨d, h1, h2, h3, h4, h5⟩ := details_read hv hF hσ ht (some K)
  have hfl : d.flat = false := by simp [OptDetails.flat, h4, h5, h0, ht0]
  have e : m.formula.price = f := by rw [hm]; exact hk.eq n
  have e1 : m.formula.delta = δ := by rw [hm]; simp [FormulaClass.formula, hδ]
  have e2 : m.formula.vega = ν := by rw [hm]; simp [FormulaClass.formula, hν]
  simp only [Option.getD_some] at h3
  refine ⟨?_, fun hbump => ?_⟩
  · simp only [OptModel.callDelta, h1, Py.ok_bind, OptDetails.fwd, h2, h3, h4, h5, hfl, Bool.false_eq_true, if_false, e, e1, hup, hx, ha,
      pyDiv_ok (show (0.0001 : ℝ) ≠ 0 by norm_num)]
    split_ifs
    · congr 1; ring
    · rfl
  · simp only [OptModel.callVega, h1, Py.ok_bind, OptDetails.fwd, h2, h3, h4, h5, hfl, hbump, Bool.false_eq_true, if_false, e2, hb]

end

/-- C160 (greeks that are given): own gamma and theta are used unless the model is told to bump; gamma and theta are asked with the
date itself as the time. -/
theorem C160_second_greeks {k : FormulaClass} {γ θ : GreekFn} (hγ : k.gamma = some γ) (hθ : k.theta = some θ) (n : ℕ) {m : OptModel D}
    (hm : m.formula = k.formula (n + 2)) (hv : m.valuation = some v) (hF : ForwardOf date m.forward F) (hσ : VolOf date m.vol σ)
    (ht : TimeOf cal m v date t) (h0 : σ ≠ 0) (ht0 : t ≠ 0) (hbump : m.bump = false) (K : ℝ) {a b : ℝ} (ha : γ (num date) K F σ = .ok (some a))
    (hb : θ (num date) K F σ = .ok (some b)) :
    m.callGamma cal num date (some K) = .ok (a * 0.0001 ^ 2) ∧ m.callTheta cal num date (some K) = .ok (b * (1 / 365.25)) := by
  obtain ⟨d, h1, h2, h3, h4, h5⟩ := details_read hv hF hσ ht (some K)
  have hfl : d.flat = false := by simp [OptDetails.flat, h4, h5, h0, ht0]
  have e1 : m.formula.gamma = γ := by rw [hm]; simp [FormulaClass.formula, hγ]
  have e2 : m.formula.theta = θ := by rw [hm]; simp [FormulaClass.formula, hθ]
  simp only [Option.getD_some] at h3
  constructor
  · simp only [OptModel.callGamma, h1, Py.ok_bind, OptDetails.fwd, h2, h3, h4, h5, hfl, hbump, Bool.false_eq_true, if_false, e1, ha]
  · simp only [OptModel.callTheta, h1, Py.ok_bind, OptDetails.fwd, h2, h3, h4, h5, hfl, hbump, Bool.false_eq_true, if_false, e2, hb]

/-- C160 (refuted): no function makes a pricing formula; it would if the class were passed in a tuple. -/
theorem C160_from_function_violated (func : PriceFn) (named : Bool) (name : Option String) :
    FormulaClass.fromFunction func named name = .error (if name = none ∧ named = false then .attribute else .type) ∧
    pyType ⟨some func, none, none, none, none, none⟩ .tuple = .ok ⟨some func, none, none, none, none, none⟩ := by
  refine ⟨?_, rfl⟩
  cases name <;> cases named <;> rfl

/-- Non-vacuity of C160: the price is the forward times the time, given as `__call__`; calls on a forward of 100 in one year. -/
example : ∃ (k : FormulaClass) (f : PriceFn), Spec.Priced k f ∧ k.delta = none ∧ k.gamma = none ∧ k.theta = none ∧
    ∀ K, (OptModel.mk (some 0) (.num 100) (.num 20) none false (k.formula 2)).callValue floatCal 1 (some K) = .ok 100 := by
  refine ⟨⟨some fun t _ F _ => do .ok (F * (← t)), none, none, none, none, none⟩, fun t _ F _ => do .ok (F * (← t)), .inr ⟨rfl, rfl⟩, rfl, rfl, rfl,
    fun K => ?_⟩
  have ht := TimeOf.default (cal := floatCal) (v := (0 : ℝ)) (date := 1) (m := OptModel.mk (some 0) (.num 100) (.num 20) none false
    (FormulaClass.formula ⟨some fun t _ F _ => do .ok (F * (← t)), none, none, none, none, none⟩ 2)) rfl
      (fun dc h => by cases h) fun dc h => by cases h
  rw [(C160_values (f := fun t _ F _ => do .ok (F * (← t))) (.inr ⟨rfl, rfl⟩) 0 rfl rfl (.num (by norm_num)) (.num 20) ht (by norm_num)
    (by simp [floatCal]) K).1]
  simp [floatCal]

/-- Non-vacuity of C160 (second greeks): own gamma and theta return numbers whatever they are asked. -/
example : ∃ k : FormulaClass, ∀ K, (OptModel.mk (some 0) (.num 100) (.num 20) none false (k.formula 2)).callGamma floatCal (fun d : ℝ => .ok d) 1 (some K) =
    .ok (7 * 0.0001 ^ 2) := by
  refine ⟨⟨none, none, none, some fun _ _ _ _ => .ok (some 7), none, some fun _ _ _ _ => .ok (some 5)⟩, fun K => ?_⟩
  have ht := TimeOf.default (cal := floatCal) (v := (0 : ℝ)) (date := 1) (m := OptModel.mk (some 0) (.num 100) (.num 20) none false
    (FormulaClass.formula ⟨none, none, none, some fun _ _ _ _ => .ok (some 7), none, some fun _ _ _ _ => .ok (some 5)⟩ 2)) rfl
      (fun dc h => by cases h) fun dc h => by cases h
  exact (C160_second_greeks (num := fun d : ℝ => .ok d) rfl rfl 0 rfl rfl (.num (by norm_num)) (.num 20) ht (by norm_num) (by simp [floatCal]) rfl K rfl rfl).1

/-! ### The hypotheses can be met: each theorem applied -/

/-- A class with a price and closed-form delta and vega of its own. -/
noncomputable def exFormula (own : Bool) : FormulaClass :=
  ⟨some fun t K F _ => do .ok ((F - K) * (← t)), none, if own then some fun _ _ _ _ => .ok (some 3) else none, none,
    if own then some fun _ _ _ _ => .ok (some 4) else none, none⟩

theorem exFormula_priced (own : Bool) : Spec.Priced (exFormula own) (fun t K F _ => do .ok ((F - K) * (← t))) := .inr ⟨rfl, rfl⟩

example := C160_bumped (cal := floatCal) (num := fun d : ℝ => .ok d) (v := 0) (date := 1) (exFormula_priced false) rfl rfl rfl 0
  (m := OptModel.mk (some 0) (.num 100) (.num 20) (some fun a b => b - a) false ((exFormula false).formula 2)) rfl rfl
  (.num (by norm_num)) (.num 20) (.own (dc := fun a b => b - a) rfl) (by norm_num) (by norm_num) 90 rfl rfl rfl rfl
example := C160_greeks (cal := floatCal) (num := fun d : ℝ => .ok d) (v := 0) (date := 1) (exFormula_priced true) rfl rfl 0
  (m := OptModel.mk (some 0) (.num 100) (.num 20) (some fun a b => b - a) false ((exFormula true).formula 2)) rfl rfl
  (.num (by norm_num)) (.num 20) (.own (dc := fun a b => b - a) rfl) (by norm_num) (by norm_num) 90 rfl rfl rfl rfl

end Dcf
