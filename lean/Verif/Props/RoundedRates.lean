import Verif.Props.RoundedVol
import Verif.Props.RoundedBracket
import Verif.Props.RoundedLegs
import Verif.Props.RateLoops
import Verif.Model.RoundedRates

/-! # C179: rates over many periods in floating point arithmetic -/

set_option linter.unusedSectionVars false
set_option linter.unusedSimpArgs false
set_option linter.unusedVariables false

namespace Dcf

open Spec Finset

variable {p : ℕ} {rnd : ℝ → ℝ}

/-! ### The exact model -/

theorem short_fold (rnd : ℝ → ℝ) (l : List (ℝ × ℝ)) :
    l.foldl (fun rate q => rnd (rate + rnd (q.1 * q.2))) 0 = Rounded.presentValue rnd l := by
  unfold Rounded.presentValue Rounded.sum
  rw [List.foldl_map]

theorem presentValue_id (l : List (ℝ × ℝ)) : Rounded.presentValue id l = (l.map fun a => a.1 * a.2).sum := by
  unfold Rounded.presentValue Rounded.sum
  rw [List.sum_eq_foldl]; rfl

theorem cashFactor_id : ∀ (l : List (ℝ × ℝ)) (d : ℝ), (∀ q ∈ l, 0 < 1 + q.1 * q.2) →
    Rounded.cashFactor id d l = .ok (d * (l.map fun q => 1 / (1 + q.1 * q.2)).prod)
  | [], d, _ => by simp [Rounded.cashFactor]
  | q :: l, d, h => by
    have h1 := h q (by simp)
    have e : Rounded.simpleCompounding id q.1 q.2 = .ok (1 / (1 + q.1 * q.2)) := by
      unfold Rounded.simpleCompounding Rounded.div
      simp only [id]
      rw [pyDiv_ok h1.ne']; rfl
    rw [Rounded.cashFactor, e, Py.ok_bind, cashFactor_id l _ fun r hr => h r (by simp [hr])]
    simp [mul_assoc]

section
variable {D P : Type} [LinearOrder D] {cal : Cal D P} {c : IRCurve D P} {v : D → ℝ} {τ : D → D → ℝ} {o : D}

/-- Rates and year fractions of the steps of a period. -/
def Spec.steps (v : D → ℝ) (τ : D → D → ℝ) (d : ℕ → D) (n : ℕ) (t : D) : List (ℝ × ℝ) :=
  (List.range n).map (fun k => (v (d k), τ (d k) (d (k + 1)))) ++ [(v (d n), τ (d n) t)]

/-- C179: without rounding these are the zero rates of short rate curves and of cash rate curves. -/
theorem C179_unrounded (h : Answers cal c v τ o) (same : Bool) {s t : D} (hst : s ≠ t) {d : ℕ → D} {n : ℕ} :
    (c.cls = .short → Steps cal cal.oneDay s d → StepsTo d n t →
      c.rate cal same s t = Rounded.shortAverage id (Spec.steps v τ d n t) (τ s t)) ∧
    (c.cls = .cash → Steps cal (c.tenor.getD cal.threeMonths) s d → StepsTo d n t → (∀ q ∈ Spec.steps v τ d n t, 0 < 1 + q.1 * q.2) →
      c.rate cal same s t = Rounded.cashRate id Real.log (Spec.steps v τ d n t) (τ s t)) := by
  constructor
  · intro hc hd hn
    rw [C32_integral h hc same hst hd hn, Rounded.shortAverage, short_fold, presentValue_id, Rounded.div, pyDiv_ok (h.good.ne_zero hst), Py.map_ok]
    have e : (∑ k ∈ range n, v (d k) * τ (d k) (d (k + 1))) = ((List.range n).map fun k => v (d k) * τ (d k) (d (k + 1))).sum := rfl
    simp [Spec.steps, Function.comp_def, e]
  · intro hc hd hn hpos
    have hpos1 : ∀ k < n, 0 < 1 + v (d k) * τ (d k) (d (k + 1)) := fun k hk =>
      hpos (v (d k), τ (d k) (d (k + 1))) (by simp only [Spec.steps, List.mem_append, List.mem_map, List.mem_range]; exact .inl ⟨k, hk, rfl⟩)
    have hpos2 : 0 < 1 + v (d n) * τ (d n) t := hpos (v (d n), τ (d n) t) (by simp [Spec.steps])
    have := stepLoop_eq (update := fun df current next => do
        let dc ← c.dayCount cal current next
        let r ← c.call cal current
        let x ← simpleCompounding r dc
        .ok (df * x)) (F := fun n => ∏ k ∈ range n, 1 / (1 + v (d k) * τ (d k) (d (k + 1)))) hd hn
      (fun k hk => by
        simp [h.call, h.dayCount, prod_range_succ, simpleCompounding, pyDiv_ok (hpos1 k hk).ne', mul_comm])
    simp only [range_zero, prod_empty] at this
    have e : (∏ k ∈ range n, 1 / (1 + v (d k) * τ (d k) (d (k + 1)))) = ((List.range n).map fun k => 1 / (1 + v (d k) * τ (d k) (d (k + 1)))).prod := rfl
    have e2 : ((Spec.steps v τ d n t).map fun q => 1 / (1 + q.1 * q.2)).prod = (∏ k ∈ range n, 1 / (1 + v (d k) * τ (d k) (d (k + 1)))) * (1 / (1 + v (d n) * τ (d n) t)) := by
      rw [e]; simp [Spec.steps, Function.comp_def]
    have hq : 0 < (∏ k ∈ range n, 1 / (1 + v (d k) * τ (d k) (d (k + 1)))) * (1 / (1 + v (d n) * τ (d n) t)) :=
      mul_pos (prod_pos fun k hk => div_pos one_pos (hpos1 k (mem_range.1 hk))) (div_pos one_pos hpos2)
    rw [Rounded.cashRate, cashFactor_id _ _ hpos, Py.ok_bind, one_mul, e2, if_pos hq, Rounded.div, id_map]
    simp only [IRCurve.rate, hc, IRCurve.cashRateOf, hst, if_false, IRCurve.forwardTenor]
    rw [this]
    simp only [Py.ok_bind, h.call, h.dayCount, simpleCompounding, pyDiv_ok hpos2.ne', continuousRate, pyLog_ok hq]

end

/-! ### Short rates -/

theorem abs_map_sum {α : Type} (f : α → ℝ) (l : List α) : |(l.map f).sum| ≤ (l.map fun q => |f q|).sum := by
  induction l with
  | nil => simp
  | cons a l ih =>
    simp only [List.map_cons, List.sum_cons]
    exact (abs_add_le _ _).trans (add_le_add_right ih _)

/-- C179 (short rates): the error of the average, relative to the average of the absolute rates; it grows with the number of steps. -/
theorem C179_short (R : Rounding p rnd) (hp : 4 ≤ p) (steps : List (ℝ × ℝ)) {total : ℝ} (ht : total ≠ 0) :
    ∃ z, Rounded.shortAverage rnd steps total = .ok z ∧
      |z - (steps.map fun q => q.1 * q.2).sum / total| ≤ ((1 + (2 : ℝ) ^ (-(p : ℤ))) ^ (steps.length + 2) - 1) * ((steps.map fun q => |q.1 * q.2|).sum / |total|) := by
  rw [Rounded.shortAverage, short_fold, Rounded.div, pyDiv_ok ht, Py.map_ok]
  refine ⟨_, rfl, ?_⟩
  have h1 := C168_error R hp steps
  obtain ⟨δ, hδ, e⟩ := R.factor (by omega) (Rounded.presentValue rnd steps / total)
  rw [e]
  have hA : |(steps.map fun q => q.1 * q.2).sum| ≤ (steps.map fun q => |q.1 * q.2|).sum := by
    exact abs_map_sum _ _
  have hu0 : 0 ≤ (2 : ℝ) ^ (-(p : ℤ)) := ulp_nonneg
  generalize Rounded.presentValue rnd steps = x at *
  generalize (steps.map fun q => q.1 * q.2).sum = X at *
  generalize (steps.map fun q => |q.1 * q.2|).sum = A at *
  generalize (2 : ℝ) ^ (-(p : ℤ)) = u at *
  have ht0 : 0 < |total| := abs_pos.2 ht
  rw [← mul_div_assoc, le_div_iff₀ ht0, ← abs_mul, show (x / total * (1 + δ) - X / total) * total = (x - X) * (1 + δ) + δ * X by field_simp; ring]
  refine (abs_add_le _ _).trans ?_
  rw [abs_mul, abs_mul]
  have a1 : |1 + δ| ≤ 1 + u := by
    have := abs_add_le 1 δ; rw [abs_one] at this; linarith
  have a2 := mul_le_mul h1 a1 (abs_nonneg _) ((abs_nonneg _).trans h1)
  have a3 := mul_le_mul hδ hA (abs_nonneg _) hu0
  have e3 : ((1 + u) ^ (steps.length + 1) - 1) * A * (1 + u) + u * A = ((1 + u) ^ (steps.length + 2) - 1) * A := by
    rw [pow_succ (1 + u) (steps.length + 1)]; ring
  linarith

/-- C179 (order of short rates): higher short rates do not give lower zero rates, and rates that are not negative no negative ones, without any tolerance. -/
theorem C179_short_order (R : Rounding p rnd) {f g : List (ℝ × ℝ)} (h : List.Forall₂ (fun a b => a.2 = b.2 ∧ 0 ≤ a.2 ∧ a.1 ≤ b.1) f g) {total : ℝ} (ht : 0 < total) :
    (∃ z z', Rounded.shortAverage rnd f total = .ok z ∧ Rounded.shortAverage rnd g total = .ok z' ∧ z ≤ z') ∧
    ((∀ q ∈ f, 0 ≤ q.1) → ∃ z, Rounded.shortAverage rnd f total = .ok z ∧ 0 ≤ z) := by
  have key : ∀ (f g : List (ℝ × ℝ)) (a b : ℝ), List.Forall₂ (fun a b => a.2 = b.2 ∧ 0 ≤ a.2 ∧ a.1 ≤ b.1) f g → a ≤ b →
      f.foldl (fun rate q => rnd (rate + rnd (q.1 * q.2))) a ≤ g.foldl (fun rate q => rnd (rate + rnd (q.1 * q.2))) b := by
    intro f g a b h
    induction h generalizing a b with
    | nil => intro h; exact h
    | @cons x y l m h1 _ ih =>
      intro h
      refine ih _ _ (R.mono (add_le_add h (R.mono ?_)))
      rw [← h1.1]
      exact mul_le_mul_of_nonneg_right h1.2.2 h1.2.1
  have pos : ∀ (f g : List (ℝ × ℝ)) (a : ℝ), List.Forall₂ (fun a b => a.2 = b.2 ∧ 0 ≤ a.2 ∧ a.1 ≤ b.1) f g → 0 ≤ a → (∀ q ∈ f, 0 ≤ q.1) →
      0 ≤ f.foldl (fun rate q => rnd (rate + rnd (q.1 * q.2))) a := by
    intro f g a h
    induction h generalizing a with
    | nil => intro h _; exact h
    | @cons x y l m h1 _ ih =>
      intro h hq
      exact ih _ (R.nonneg (add_nonneg h (R.nonneg (mul_nonneg (hq x (by simp)) h1.2.1)))) fun q hm => hq q (by simp [hm])
  constructor
  · refine ⟨_, _, by rw [Rounded.shortAverage, Rounded.div, pyDiv_ok ht.ne', Py.map_ok], by rw [Rounded.shortAverage, Rounded.div, pyDiv_ok ht.ne', Py.map_ok], ?_⟩
    exact R.mono (div_le_div_of_nonneg_right (key f g 0 0 h le_rfl) ht.le)
  · intro h0
    exact ⟨_, by rw [Rounded.shortAverage, Rounded.div, pyDiv_ok ht.ne', Py.map_ok], R.nonneg (div_nonneg (pos f g 0 h le_rfl h0) ht.le)⟩

/-- C179 violated (flat curves): the zero rate over one step of a short rate of 3/64 + 2^-56 is another float, also with a year fraction of about a day. -/
theorem C179_flat_violated (R : Rounding 53 rnd) :
    IsFloat 53 (3 / 64 + (2 : ℝ) ^ (-56 : ℤ)) ∧
    Rounded.shortAverage rnd [(3 / 64 + 2 ^ (-56 : ℤ), 11 / 4096)] (11 / 4096) = .ok (3 / 64 + 2 ^ (-57 : ℤ)) ∧
    Rounded.shortAverage id [(3 / 64 + 2 ^ (-56 : ℤ), 11 / 4096)] (11 / 4096) = .ok (3 / 64 + 2 ^ (-56 : ℤ)) := by
  have e1 : rnd ((3 / 64 + 2 ^ (-56 : ℤ)) * (11 / 4096)) = 33 / 262144 + 2 ^ (-65 : ℤ) :=
    rnd_near R (e := -13) ⟨33 * 2 ^ 47 + 1, -65, by norm_num, by norm_num⟩ (by norm_num) (by norm_num) (by norm_num) (by norm_num [abs_lt])
  have e2 : rnd ((33 / 262144 + 2 ^ (-65 : ℤ)) / (11 / 4096)) = 3 / 64 + 2 ^ (-57 : ℤ) :=
    rnd_near R (e := -5) ⟨3 * 2 ^ 51 + 1, -57, by norm_num, by norm_num⟩ (by norm_num) (by norm_num) (by norm_num) (by norm_num [abs_lt])
  refine ⟨⟨3 * 2 ^ 50 + 1, -56, by norm_num, by norm_num⟩, ?_, ?_⟩
  · rw [Rounded.shortAverage, Rounded.div, pyDiv_ok (by norm_num), Py.map_ok]
    simp only [List.foldl, zero_add]
    rw [R.idem, e1, e2]
  · rw [Rounded.shortAverage, Rounded.div, pyDiv_ok (by norm_num), Py.map_ok]
    simp only [List.foldl, zero_add, id]
    rw [mul_div_cancel_right₀ _ (by norm_num)]

/-! ### Cash rates -/

theorem rel_mul {a b A B : ℝ} (ha : |a - 1| ≤ A - 1) (hb : |b - 1| ≤ B - 1) : |a * b - 1| ≤ A * B - 1 := by
  have e : a * b - 1 = (a - 1) * (b - 1) + (a - 1) + (b - 1) := by ring
  have h1 : |(a - 1) * (b - 1)| ≤ (A - 1) * (B - 1) := by
    rw [abs_mul]; exact mul_le_mul ha hb (abs_nonneg _) ((abs_nonneg _).trans ha)
  rw [e]
  have := abs_add_three ((a - 1) * (b - 1)) (a - 1) (b - 1)
  linarith

theorem cash_fold (R : Rounding p rnd) (hp : 4 ≤ p) : ∀ (l : List (ℝ × ℝ)) (d D : ℝ) (k : ℕ), (∀ q ∈ l, 0 ≤ q.1 * q.2) → 0 < d → d ≤ 1 → 0 < D →
    |d / D - 1| ≤ ((1 + 4 * (2 : ℝ) ^ (-(p : ℤ))) * (1 + (2 : ℝ) ^ (-(p : ℤ)))) ^ k - 1 →
    ∃ x, Rounded.cashFactor rnd d l = .ok x ∧ 0 < x ∧ x ≤ 1 ∧ 0 < D * (l.map fun q => 1 / (1 + q.1 * q.2)).prod ∧
      |x / (D * (l.map fun q => 1 / (1 + q.1 * q.2)).prod) - 1| ≤ ((1 + 4 * (2 : ℝ) ^ (-(p : ℤ))) * (1 + (2 : ℝ) ^ (-(p : ℤ)))) ^ (k + l.length) - 1
  | [], d, D, k, _, h0, h1, hD, h => ⟨d, rfl, h0, h1, by simpa using hD, by simpa using h⟩
  | q :: l, d, D, k, hq, h0, h1, hD, h => by
    obtain ⟨x, hx, hx1, hx2, hx3⟩ := C166_simple R hp (hq q (by simp))
    obtain ⟨δ, hδ, e⟩ := R.factor (by omega) (d * x)
    have hQ : 0 < 1 + q.1 * q.2 := by linarith [hq q (by simp)]
    have hX : 0 < 1 / (1 + q.1 * q.2) := one_div_pos.2 hQ
    have p1 := one_add_pos (ulp_le hp) hδ
    have hpos : 0 < rnd (d * x) := by rw [e]; positivity
    have hle : rnd (d * x) ≤ 1 := R.le_of_le (mul_le_one₀ h1 hx2.le hx3) (IsFloat.one (by omega))
    have hη : |x / (1 / (1 + q.1 * q.2)) - 1| ≤ (1 + 4 * (2 : ℝ) ^ (-(p : ℤ))) - 1 := by
      rw [add_sub_cancel_left, div_sub_one hX.ne', abs_div, abs_of_pos hX, div_le_iff₀ hX]
      exact hx1
    have hδ' : |(1 + δ) - 1| ≤ (1 + (2 : ℝ) ^ (-(p : ℤ))) - 1 := by simpa using hδ
    obtain ⟨y, hy, hy1, hy2, hy3, hy4⟩ := cash_fold R hp l (rnd (d * x)) (D * (1 / (1 + q.1 * q.2))) (k + 1) (fun r hr => hq r (by simp [hr])) hpos hle (mul_pos hD hX) (by
      have := rel_mul (rel_mul h hη) hδ'
      rw [show rnd (d * x) / (D * (1 / (1 + q.1 * q.2))) = d / D * (x / (1 / (1 + q.1 * q.2))) * (1 + δ) by rw [e]; field_simp, pow_succ, ← mul_assoc]
      exact this)
    refine ⟨y, by rw [Rounded.cashFactor, hx, Py.ok_bind, hy], hy1, hy2, ?_, ?_⟩
    · simpa [mul_assoc] using hy3
    · simpa [mul_assoc, add_assoc, add_comm 1] using hy4

/-- C179 (cash rates): discount factors of rates that are not negative are positive, at most one, and miss the exact product by five roundings per step. -/
theorem C179_cash (R : Rounding p rnd) (hp : 4 ≤ p) {steps : List (ℝ × ℝ)} (h : ∀ q ∈ steps, 0 ≤ q.1 * q.2) :
    ∃ x, Rounded.cashFactor rnd 1 steps = .ok x ∧ 0 < x ∧ x ≤ 1 ∧
      |x - (steps.map fun q => 1 / (1 + q.1 * q.2)).prod| ≤
        (((1 + 4 * (2 : ℝ) ^ (-(p : ℤ))) * (1 + (2 : ℝ) ^ (-(p : ℤ)))) ^ steps.length - 1) * (steps.map fun q => 1 / (1 + q.1 * q.2)).prod := by
  obtain ⟨x, h1, h2, h3, h4, h5⟩ := cash_fold R hp steps 1 1 0 h one_pos le_rfl one_pos (by simp)
  rw [one_mul] at h4 h5
  refine ⟨x, h1, h2, h3, ?_⟩
  rwa [zero_add, div_sub_one h4.ne', abs_div, abs_of_pos h4, div_le_iff₀ h4] at h5

theorem log_near {d D E : ℝ} (hd : 0 < d) (hD : 0 < D) (hE : E ≤ 1 / 2) (h : |d - D| ≤ E * D) : |Real.log d - Real.log D| ≤ 2 * E := by
  rw [← Real.log_div hd.ne' hD.ne']
  have hq : 0 < d / D := div_pos hd hD
  have h' : |d / D - 1| ≤ E := by
    rw [div_sub_one hD.ne', abs_div, abs_of_pos hD, div_le_iff₀ hD]; exact h
  have h1 := Real.log_le_sub_one_of_pos hq
  have h2 := Real.one_sub_inv_le_log_of_pos hq
  generalize d / D = q at *
  obtain ⟨h3, h4⟩ := abs_le.1 h'
  have hE0 : 0 ≤ E := (abs_nonneg _).trans h'
  rw [abs_le]
  refine ⟨le_trans ?_ h2, by linarith⟩
  have : q⁻¹ ≤ 1 + 2 * E := by
    rw [inv_le_iff_one_le_mul₀ hq]
    nlinarith
  linarith

/-- C179 (zero rates of cash rates): with a logarithm of relative error `v` the zero rate is not negative and has a bounded error. -/
theorem C179_cash_rate (R : Rounding p rnd) (hp : 4 ≤ p) {log : ℝ → ℝ} {v : ℝ} (hv : ∀ x, 0 < x → |log x - Real.log x| ≤ v * |Real.log x|) (hv1 : v ≤ 1)
    {steps : List (ℝ × ℝ)} (h : ∀ q ∈ steps, 0 ≤ q.1 * q.2) {total : ℝ} (ht : 0 < total) {E : ℝ}
    (hE : ((1 + 4 * (2 : ℝ) ^ (-(p : ℤ))) * (1 + (2 : ℝ) ^ (-(p : ℤ)))) ^ steps.length - 1 ≤ E) (hE2 : E ≤ 1 / 2) :
    ∃ z, Rounded.cashRate rnd log steps total = .ok z ∧ 0 ≤ z ∧
      |z - (steps.map fun q => Real.log (1 + q.1 * q.2)).sum / total| ≤
        (((1 + (2 : ℝ) ^ (-(p : ℤ))) * (1 + v) - 1) * (steps.map fun q => Real.log (1 + q.1 * q.2)).sum + (1 + (2 : ℝ) ^ (-(p : ℤ))) * (1 + v) * (2 * E)) / total := by
  obtain ⟨x, h1, h2, h3, h4⟩ := C179_cash R hp h
  have hprod : ∀ l : List (ℝ × ℝ), (∀ q ∈ l, 0 ≤ q.1 * q.2) → 0 < (l.map fun q => 1 / (1 + q.1 * q.2)).prod ∧
      Real.log (l.map fun q => 1 / (1 + q.1 * q.2)).prod = -(l.map fun q => Real.log (1 + q.1 * q.2)).sum ∧ 0 ≤ (l.map fun q => Real.log (1 + q.1 * q.2)).sum := by
    intro l hl
    induction l with
    | nil => simp
    | cons q l ih =>
      obtain ⟨i1, i2, i3⟩ := ih fun r hr => hl r (by simp [hr])
      have hq := hl q (by simp)
      have hQ : 0 < 1 / (1 + q.1 * q.2) := by positivity
      simp only [List.map_cons, List.prod_cons, List.sum_cons]
      refine ⟨mul_pos hQ i1, ?_, add_nonneg (Real.log_nonneg (by linarith)) i3⟩
      rw [Real.log_mul hQ.ne' i1.ne', i2, one_div, Real.log_inv]; ring
  obtain ⟨k1, k2, k3⟩ := hprod steps h
  have hlog : |Real.log x - -(steps.map fun q => Real.log (1 + q.1 * q.2)).sum| ≤ 2 * E := by
    rw [← k2]
    exact log_near h2 k1 hE2 (h4.trans (mul_le_mul_of_nonneg_right hE k1.le))
  have hx := hv x h2
  have hx0 : Real.log x ≤ 0 := Real.log_nonpos h2.le h3
  have hv0 : 0 ≤ v := by
    have := (abs_nonneg _).trans (hv (Real.exp 1) (Real.exp_pos 1))
    simpa using this
  have hu0 : 0 ≤ (2 : ℝ) ^ (-(p : ℤ)) := ulp_nonneg
  have hL : log x ≤ 0 := by
    have := (abs_le.1 hx).2
    rw [abs_of_nonpos hx0] at this
    nlinarith
  rw [Rounded.cashRate, h1, Py.ok_bind, if_pos h2, Rounded.div, pyDiv_ok ht.ne', Py.map_ok]
  refine ⟨_, rfl, R.nonneg (div_nonneg (by linarith) ht.le), ?_⟩
  obtain ⟨δ, hδ, e⟩ := R.factor (by omega) (-log x / total)
  rw [e]
  generalize (steps.map fun q => Real.log (1 + q.1 * q.2)).sum = S at *
  generalize (2 : ℝ) ^ (-(p : ℤ)) = u at *
  rw [le_div_iff₀ ht, ← abs_of_pos ht, ← abs_mul, abs_of_pos ht, show (-log x / total * (1 + δ) - S / total) * total = -(log x + S) + -(δ * log x) by field_simp; ring]
  refine (abs_add_le _ _).trans ?_
  rw [abs_neg, abs_neg, abs_mul]
  have b1 : |Real.log x| ≤ S + 2 * E := by
    have := abs_le.1 hlog
    rw [abs_le]; constructor <;> linarith
  have b2 : |log x - Real.log x| ≤ v * (S + 2 * E) := hx.trans (mul_le_mul_of_nonneg_left b1 hv0)
  have b3 : |log x + S| ≤ v * (S + 2 * E) + 2 * E := by
    rw [show log x + S = (log x - Real.log x) + (Real.log x - -S) by ring]
    exact (abs_add_le _ _).trans (add_le_add b2 hlog)
  have b4 : |log x| ≤ (1 + v) * (S + 2 * E) := by
    rw [show log x = (log x - Real.log x) + Real.log x by ring]
    exact (abs_add_le _ _).trans (by linarith)
  have b5 := mul_le_mul hδ b4 (abs_nonneg _) hu0
  have e3 : v * (S + 2 * E) + 2 * E + u * ((1 + v) * (S + 2 * E)) = ((1 + u) * (1 + v) - 1) * S + (1 + u) * (1 + v) * (2 * E) := by ring
  linarith

/-- C179 violated (small cash rates): if no step earns more than half a unit of rounding, any number of them earns nothing. -/
theorem C179_small_violated (R : Rounding p rnd) (hp : 4 ≤ p) {log : ℝ → ℝ} (hlog : log 1 = 0) {steps : List (ℝ × ℝ)} (hs : steps ≠ [])
    (h : ∀ q ∈ steps, 0 < q.1 ∧ 0 < q.2 ∧ q.1 * q.2 ≤ (2 : ℝ) ^ (-(p : ℤ) - 1)) {total : ℝ} (ht : 0 < total) :
    Rounded.cashRate rnd log steps total = .ok 0 ∧ ∃ z, 0 < z ∧ Rounded.cashRate id Real.log steps total = .ok z := by
  constructor
  · have key : ∀ l : List (ℝ × ℝ), (∀ q ∈ l, 0 < q.1 ∧ 0 < q.2 ∧ q.1 * q.2 ≤ (2 : ℝ) ^ (-(p : ℤ) - 1)) → Rounded.cashFactor rnd 1 l = .ok 1 := by
      intro l hl
      induction l with
      | nil => rfl
      | cons q l ih =>
        obtain ⟨h1, h2, h3⟩ := hl q (by simp)
        have h0 : 0 ≤ q.1 * q.2 := by positivity
        obtain ⟨_, _, _, -, -, -, e, -⟩ := rsimple R hp h0
        have h4 : rnd (q.1 * q.2) ≤ (2 : ℝ) ^ (-(p : ℤ) - 1) := R.le_of_le h3 (IsFloat.two_zpow (by omega) _)
        rw [rnd_one_add R (by omega) (R.nonneg h0) h4, div_one, R.one (by omega)] at e
        rw [Rounded.cashFactor, e, Py.ok_bind, mul_one, R.one (by omega)]
        exact ih fun r hr => hl r (by simp [hr])
    rw [Rounded.cashRate, key steps h, Py.ok_bind, if_pos one_pos, hlog, neg_zero, Rounded.div, pyDiv_ok ht.ne', Py.map_ok, zero_div, R.zero]
  · have hpos : ∀ q ∈ steps, 0 < 1 + q.1 * q.2 := fun q hq => by
      obtain ⟨h1, h2, -⟩ := h q hq
      positivity
    have key : ∀ l : List (ℝ × ℝ), l ≠ [] → (∀ q ∈ l, 0 < q.1 * q.2) → 0 < (l.map fun q => 1 / (1 + q.1 * q.2)).prod ∧ (l.map fun q => 1 / (1 + q.1 * q.2)).prod < 1 := by
      intro l hl h
      induction l with
      | nil => exact absurd rfl hl
      | cons q l ih =>
        have hq := h q (by simp)
        have hlt : 1 / (1 + q.1 * q.2) < 1 := by rw [div_lt_one (by linarith)]; linarith
        have hq0 : 0 < 1 / (1 + q.1 * q.2) := by positivity
        rcases eq_or_ne l [] with rfl | hne
        · simpa using ⟨by simpa using hq0, by simpa using hlt⟩
        · obtain ⟨i1, i2⟩ := ih hne fun r hr => h r (by simp [hr])
          simp only [List.map_cons, List.prod_cons]
          exact ⟨mul_pos hq0 i1, mul_lt_one_of_nonneg_of_lt_one_left hq0.le hlt i2.le⟩
    obtain ⟨k1, k2⟩ := key steps hs fun q hq => mul_pos (h q hq).1 (h q hq).2.1
    refine ⟨-Real.log (steps.map fun q => 1 / (1 + q.1 * q.2)).prod / total, div_pos (neg_pos.2 (Real.log_neg k1 k2)) ht, ?_⟩
    rw [Rounded.cashRate, cashFactor_id _ _ hpos, Py.ok_bind, one_mul, if_pos k1, Rounded.div, pyDiv_ok ht.ne', Py.map_ok]; rfl

/-- C179: a rate that loses more than everything over its period has no cash rate, `ValueError`, with and without rounding. -/
theorem C179_refused (R : Rounding p rnd) (hp : 2 ≤ p) (log : ℝ → ℝ) {r t : ℝ} (h : r * t ≤ -2) (total : ℝ) :
    Rounded.cashRate rnd log [(r, t)] total = .error .value ∧ Rounded.cashRate id Real.log [(r, t)] total = .error .value := by
  have f1 : IsFloat p (-1) := (IsFloat.one (by omega)).neg
  have f2 : IsFloat p (-2) := by
    have := (IsFloat.two_zpow (p := p) (by omega) 1).neg
    simpa using this
  have h1 : rnd (r * t) ≤ -2 := R.le_of_le h f2
  have h2 : rnd (1 + rnd (r * t)) ≤ -1 := R.le_of_le (by linarith) f1
  constructor
  · have h3 : rnd (1 * rnd (1 / rnd (1 + rnd (r * t)))) ≤ 0 := by
      rw [one_mul]
      exact R.nonpos (R.nonpos (div_nonpos_of_nonneg_of_nonpos (by norm_num) (by linarith)))
    simp only [Rounded.cashRate, Rounded.cashFactor, Rounded.simpleCompounding, Rounded.div, pyDiv_ok (by linarith : rnd (1 + rnd (r * t)) ≠ 0), Py.map_ok, Py.ok_bind,
      if_neg h3.not_gt]
  · have h3 : 1 * (1 / (1 + r * t)) ≤ 0 := by
      rw [one_mul]
      exact div_nonpos_of_nonneg_of_nonpos (by norm_num) (by linarith)
    simp only [Rounded.cashRate, Rounded.cashFactor, Rounded.simpleCompounding, Rounded.div, id, pyDiv_ok (by linarith : 1 + r * t ≠ 0), Py.map_ok, Py.ok_bind,
      if_neg h3.not_gt]

/-! ### Examples -/

example (R : Rounding 53 rnd) := C179_refused R (by norm_num) Real.log (r := -8) (t := 1 / 4) (by norm_num) (1 / 4)

example (R : Rounding 53 rnd) := C179_short R (by norm_num) [(1 / 20, 1 / 365), (1 / 25, 1 / 365)] (total := 2 / 365) (by norm_num)

example (R : Rounding 53 rnd) : ∃ z, Rounded.shortAverage rnd [(1 / 20, 1 / 365), (1 / 25, 1 / 365)] (2 / 365) = .ok z ∧ 0 ≤ z :=
  (C179_short_order R (f := [(1 / 20, 1 / 365), (1 / 25, 1 / 365)]) (g := [(1 / 20, 1 / 365), (1 / 20, 1 / 365)]) (by norm_num) (by norm_num)).2 (by norm_num)

example (R : Rounding 53 rnd) := C179_flat_violated R

example (R : Rounding 53 rnd) := C179_cash R (by norm_num) (steps := [(1 / 20, 1 / 4), (1 / 25, 1 / 4)]) (by norm_num)

example (R : Rounding 53 rnd) := C179_cash_rate R (by norm_num) (log := Real.log) (v := 0) (by simp) (by norm_num) (steps := [(1 / 20, 1 / 4), (1 / 25, 1 / 4)])
  (by norm_num) (total := 1 / 2) (by norm_num) (E := 1 / 1000) (by norm_num) (by norm_num)

example (R : Rounding 53 rnd) := C179_small_violated R (by norm_num) (log := Real.log) Real.log_one (steps := [(2 ^ (-55 : ℤ), 1 / 4), (2 ^ (-55 : ℤ), 1 / 4)]) (by simp)
  (by norm_num) (total := 1 / 2) (by norm_num)

end Dcf
