import Verif.Props.RoundedValue
import Verif.Model.RoundedLegs
import Verif.Model.Pricer

/-! # C174: coupons, legs, accrued interest and basis point values in floating point arithmetic -/

set_option linter.unusedSectionVars false
set_option linter.unusedSimpArgs false
set_option linter.unusedVariables false

namespace Dcf

open Spec

/-- Rules for ties that treat positive and negative numbers alike, as that of IEEE 754 does. -/
def Spec.Symmetric (rnd : ℝ → ℝ) : Prop := ∀ x, rnd (-x) = -rnd x

/-- Rules for ties that do not depend on the exponent, as that of IEEE 754. -/
def Spec.Scales (rnd : ℝ → ℝ) : Prop := ∀ x, rnd (2 * x) = 2 * rnd x

variable {p : ℕ} {rnd : ℝ → ℝ}

theorem IsFloat.double_iff {x : ℝ} : IsFloat p (2 * x) ↔ IsFloat p x := by
  constructor
  · rintro ⟨m, e, h1, h2⟩
    exact ⟨m, e - 1, h1, by rw [zpow_sub_one₀ (by norm_num)]; linarith⟩
  · rintro ⟨m, e, h1, rfl⟩
    exact ⟨m, e + 1, h1, by rw [zpow_add_one₀ (by norm_num)]; ring⟩

/-- There are such roundings: ties away from zero. -/
theorem exists_symmetric (hp : 1 ≤ p) : ∃ rnd, Rounding p rnd ∧ Symmetric rnd ∧ Scales rnd := by
  classical
  obtain ⟨r, R⟩ := exists_rounding hp
  set d : ℝ → ℝ := fun x => |r x - x| with hd
  have dmin : ∀ x f, IsFloat p f → d x ≤ |f - x| := R.nearest
  have dval : ∀ x, r x = x + d x ∨ r x = x - d x := fun x => by
    rcases abs_choice (r x - x) with h | h
    · left; show r x = x + |r x - x|; rw [h]; ring
    · right; show r x = x - |r x - x|; rw [h]; ring
  have dneg : ∀ x, d (-x) = d x := by
    have : ∀ x, d (-x) ≤ d x := fun x => by
      refine (dmin (-x) (-r x) (R.float x).neg).trans (le_of_eq ?_)
      rw [show -r x - -x = -(r x - x) by ring, abs_neg]
    exact fun x => le_antisymm (this x) (by simpa using this (-x))
  have dtwo : ∀ x, d (2 * x) = 2 * d x := fun x => by
    apply le_antisymm
    · refine (dmin (2 * x) (2 * r x) (IsFloat.double_iff.2 (R.float x))).trans (le_of_eq ?_)
      rw [← mul_sub, abs_mul, abs_two]
    · have := dmin x (1 / 2 * r (2 * x)) (IsFloat.double_iff.1 (by rw [← mul_assoc]; norm_num; exact R.float _))
      have e : |1 / 2 * r (2 * x) - x| = 1 / 2 * d (2 * x) := by
        rw [show 1 / 2 * r (2 * x) - x = 1 / 2 * (r (2 * x) - 2 * x) by ring, abs_mul]; norm_num [hd]
      rw [e] at this; linarith
  have d0 : ∀ x, 0 ≤ d x := fun x => abs_nonneg _
  set up : ℝ → ℝ := fun x => if IsFloat p (x + d x) then x + d x else x - d x with hup
  have upfloat : ∀ x, IsFloat p (up x) := fun x => by
    simp only [hup]
    split_ifs with h
    · exact h
    · rcases dval x with e | e
      · exact absurd (e ▸ R.float x) h
      · exact e ▸ R.float x
  have updist : ∀ x, |up x - x| = d x := fun x => by
    simp only [hup]
    split_ifs
    · rw [add_sub_cancel_left, abs_of_nonneg (d0 x)]
    · rw [sub_sub_cancel_left, abs_neg, abs_of_nonneg (d0 x)]
  have uptwo : ∀ x, up (2 * x) = 2 * up x := fun x => by
    have : IsFloat p (2 * x + d (2 * x)) ↔ IsFloat p (x + d x) := by rw [dtwo, ← mul_add, IsFloat.double_iff]
    simp only [hup, this]
    split_ifs <;> rw [dtwo] <;> ring
  have up0 : up 0 = 0 := by
    have : d 0 = 0 := by simp [hd, R.zero]
    simp [hup, this]
  refine ⟨fun x => if 0 ≤ x then up x else -up (-x), ⟨fun x => ?_, fun x f hf => ?_⟩, fun x => ?_, fun x => ?_⟩
  · show IsFloat p (if 0 ≤ x then up x else -up (-x))
    split_ifs
    · exact upfloat x
    · exact (upfloat _).neg
  · show |(if 0 ≤ x then up x else -up (-x)) - x| ≤ _
    split_ifs
    · rw [updist]; exact dmin x f hf
    · rw [show -up (-x) - x = -(up (-x) - -x) by ring, abs_neg, updist, dneg]; exact dmin x f hf
  · show (if 0 ≤ -x then up (-x) else -up (- -x)) = -(if 0 ≤ x then up x else -up (-x))
    rcases lt_trichotomy x 0 with h | h | h
    · rw [if_pos (by linarith), if_neg (by linarith), neg_neg]
    · subst h; simp [up0]
    · rw [if_neg (by linarith), if_pos h.le, neg_neg]
  · show (if 0 ≤ 2 * x then up (2 * x) else -up (-(2 * x))) = 2 * (if 0 ≤ x then up x else -up (-x))
    by_cases h : 0 ≤ x
    · rw [if_pos h, if_pos (by linarith), uptwo]
    · rw [if_neg h, if_neg (by linarith), show -(2 * x) = 2 * -x by ring, uptwo]; ring

/-- Adding less than half of the spacing to a power of two. -/
theorem rnd_absorb (R : Rounding p rnd) (hp : 1 ≤ p) {e : ℤ} {y : ℝ} (h0 : 0 ≤ y) (hy : 2 * y < (2 : ℝ) ^ (e - p + 1)) :
    rnd ((2 : ℝ) ^ e + y) = (2 : ℝ) ^ e := by
  have hpos : 0 < (2 : ℝ) ^ e := by positivity
  have fe : IsFloat p ((2 : ℝ) ^ e) := IsFloat.two_zpow hp e
  have h1 : (2 : ℝ) ^ e ≤ rnd ((2 : ℝ) ^ e + y) := R.ge_of_ge (by linarith) fe
  have h2 := R.nearest ((2 : ℝ) ^ e + y) _ fe
  rw [sub_add_cancel_left, abs_neg, abs_of_nonneg h0] at h2
  obtain ⟨k, hk⟩ := (R.float ((2 : ℝ) ^ e + y)).multiple (e := e) (by rw [abs_of_nonneg (by linarith)]; exact h1)
  obtain ⟨j, hj⟩ := fe.multiple (e := e) (by rw [abs_of_pos hpos])
  have h3 := (abs_le.1 h2).2
  by_contra hne
  have hlt : (2 : ℝ) ^ e < rnd ((2 : ℝ) ^ e + y) := lt_of_le_of_ne h1 (Ne.symm hne)
  have hs0 : 0 < (2 : ℝ) ^ (e - p + 1) := by positivity
  have hkj : j + 1 ≤ k := by
    rw [hk] at hlt
    rw [hj] at hlt
    have : (j : ℝ) < k := lt_of_mul_lt_mul_right hlt hs0.le
    exact_mod_cast this
  have hkj' : (j : ℝ) + 1 ≤ k := by exact_mod_cast hkj
  have h4 := mul_le_mul_of_nonneg_right hkj' hs0.le
  rw [← hk, add_mul, one_mul, ← hj] at h4
  linarith

/-! ### The exact model -/

/-- C174: without rounding these are the functions of the model: coupons, accrued interest of a flow and the last step of basis point values; legs are
summed. -/
theorem C174_unrounded (c f yf N rem tot pv sh shift : ℝ) (legs : List (List (ℝ × ℝ))) :
    Rounded.coupon id c f yf N = (c + f) * yf * N ∧
    Rounded.accruedFlow id N rem tot = (do let q ← pyDiv rem tot; .ok (N * (1 - q))) ∧
    Rounded.basisPoint id pv sh shift = (do let q ← pyDiv (sh - pv) shift; .ok (q * (1 / 10000))) ∧
    Rounded.legsValue id legs = (legs.map fun l => (l.map fun a => a.1 * a.2).sum).sum := by
  refine ⟨rfl, ?_, ?_, ?_⟩
  · unfold Rounded.accruedFlow Rounded.div
    rw [id_map]; rfl
  · unfold Rounded.basisPoint Rounded.div
    rw [id_map]; rfl
  · have : Rounded.presentValue id = fun l => (l.map fun a => a.1 * a.2).sum := by
      funext l
      unfold Rounded.presentValue Rounded.sum
      rw [List.sum_eq_foldl]; rfl
    unfold Rounded.legsValue Rounded.sum
    rw [this, List.sum_eq_foldl]; rfl

/-- C174: the coupon of a rate payoff of the model is the unrounded coupon, its accrued interest the unrounded one. -/
theorem C174_unrounded_payoff {D P : Type} [LinearOrder D] (cal : Cal D P) (q : RatePay D P) {c : ℝ} (hc : q.fixedRate = some c) :
    (∀ arg fwd, q.forwardAt cal arg = .ok fwd →
      RateDetails.cashflow <$> q.details cal arg = .ok (Rounded.coupon id c (fwd.1.getD 0) (q.tau cal q.start q.stop) q.amount)) ∧
    ∀ (w : World D P) (l : ListObj D P) (v : D) (cf : PayOff D P) (arg : ModelArg D) (flow : ℝ), cf.ratePay? = some q → q.start < v → w.forwardCurve l = .ok arg →
      cf.eval cal arg = .ok flow → accruedFlow cal w l v cf = Rounded.accruedFlow id flow (q.tau cal v q.stop) (q.tau cal q.start q.stop) := by
  constructor
  · intro arg fwd h
    unfold RatePay.details
    simp only [h, hc, Py.ok_bind]
    rfl
  · intro w l v cf arg flow h1 h2 h3 h4
    unfold accruedFlow
    rw [h1]
    simp only [if_pos h2, h3, h4, Py.ok_bind]
    rw [(C174_unrounded 0 0 0 flow _ _ 0 0 0 []).2.1]

/-! ### Coupons -/

theorem three_factors {x a b c u : ℝ} (hu : 0 ≤ u) (ha : |a| ≤ u) (hb : |b| ≤ u) (hc : |c| ≤ u) :
    |x * (1 + a) * (1 + b) * (1 + c) - x| ≤ ((1 + u) ^ 3 - 1) * |x| := by
  have e : x * (1 + a) * (1 + b) * (1 + c) - x = (a + b + c + a * b + a * c + b * c + a * b * c) * x := by ring
  rw [e, abs_mul]
  refine mul_le_mul_of_nonneg_right ?_ (abs_nonneg _)
  have m : ∀ {s t k l : ℝ}, |s| ≤ k → |t| ≤ l → 0 ≤ k → |s * t| ≤ k * l := fun h1 h2 hk => by
    rw [abs_mul]; exact mul_le_mul h1 h2 (abs_nonneg _) hk
  have h1 := m ha hb hu
  have h2 := m ha hc hu
  have h3 := m hb hc hu
  have h4 := m h1 hc (by positivity)
  rw [abs_le] at *
  constructor <;> nlinarith

/-- C174 (coupons): the relative error is at most three roundings. -/
theorem C174_coupon (R : Rounding p rnd) (hp : 4 ≤ p) (c f yf N : ℝ) :
    |Rounded.coupon rnd c f yf N - (c + f) * yf * N| ≤ ((1 + (2 : ℝ) ^ (-(p : ℤ))) ^ 3 - 1) * |(c + f) * yf * N| := by
  obtain ⟨a, ha, e1⟩ := R.factor (by omega) (c + f)
  obtain ⟨b, hb, e2⟩ := R.factor (by omega) (rnd (c + f) * yf)
  obtain ⟨d, hd, e3⟩ := R.factor (by omega) (rnd (rnd (c + f) * yf) * N)
  have e : Rounded.coupon rnd c f yf N = (c + f) * yf * N * (1 + a) * (1 + b) * (1 + d) := by
    unfold Rounded.coupon
    rw [e3, e2, e1]; ring
  rw [e]
  exact three_factors ulp_nonneg ha hb hd

/-- C174 (order of coupons): with higher fixed rates, forwards, and, for rates that are not negative, longer periods and larger amounts, coupons do not fall;
they have the sign of the exact coupon. -/
theorem C174_order (R : Rounding p rnd) {c c' f f' yf yf' N N' : ℝ} (hy : 0 ≤ yf) (hN : 0 ≤ N) :
    (c + f ≤ c' + f' → Rounded.coupon rnd c f yf N ≤ Rounded.coupon rnd c' f' yf N) ∧
    (0 ≤ c + f → yf ≤ yf' → N ≤ N' → Rounded.coupon rnd c f yf N ≤ Rounded.coupon rnd c f yf' N') ∧
    (0 ≤ c + f → 0 ≤ Rounded.coupon rnd c f yf N) ∧ (c + f ≤ 0 → Rounded.coupon rnd c f yf N ≤ 0) := by
  unfold Rounded.coupon
  refine ⟨fun h => ?_, fun h h1 h2 => ?_, fun h => ?_, fun h => ?_⟩
  · exact R.mono (mul_le_mul_of_nonneg_right (R.mono (mul_le_mul_of_nonneg_right (R.mono h) hy)) hN)
  · have h0 := R.nonneg h
    exact R.mono (mul_le_mul (R.mono (mul_le_mul_of_nonneg_left h1 h0)) h2 hN (R.nonneg (mul_nonneg h0 (hy.trans h1))))
  · exact R.nonneg (mul_nonneg (R.nonneg (mul_nonneg (R.nonneg h) hy)) hN)
  · exact R.nonpos (mul_nonpos_of_nonpos_of_nonneg (R.nonpos (mul_nonpos_of_nonpos_of_nonneg (R.nonpos h) hy)) hN)

/-! ### Legs -/

theorem fold_err_abs (R : Rounding p rnd) (hp : 4 ≤ p) {v : ℝ} (hv : 0 ≤ v) : ∀ (l : List (ℝ × ℝ × ℝ)) (s S A : ℝ) (k : ℕ),
    (∀ w ∈ l, |w.1 - w.2.1| ≤ v * w.2.2 ∧ |w.2.1| ≤ w.2.2) → |S| ≤ A → |s - S| ≤ ((1 + v) * (1 + (2 : ℝ) ^ (-(p : ℤ))) ^ k - 1) * A →
    |(l.map Prod.fst).foldl (fun s v => rnd (s + v)) s - (S + (l.map fun w => w.2.1).sum)| ≤
      ((1 + v) * (1 + (2 : ℝ) ^ (-(p : ℤ))) ^ (k + l.length) - 1) * (A + (l.map fun w => w.2.2).sum)
  | [], s, S, A, k, _, _, h => by simpa using h
  | w :: l, s, S, A, k, hw, hA, h => by
    have hu0 : 0 ≤ (2 : ℝ) ^ (-(p : ℤ)) := ulp_nonneg
    obtain ⟨δ, hδ, e⟩ := R.factor (by omega) (s + w.1)
    obtain ⟨hw1, hw2⟩ := hw w (by simp)
    have hA0 : 0 ≤ A := (abs_nonneg _).trans hA
    have hB0 : 0 ≤ w.2.2 := (abs_nonneg _).trans hw2
    have hAB : |S + w.2.1| ≤ A + w.2.2 := (abs_add_le _ _).trans (add_le_add hA hw2)
    have step : |rnd (s + w.1) - (S + w.2.1)| ≤ ((1 + v) * (1 + (2 : ℝ) ^ (-(p : ℤ))) ^ (k + 1) - 1) * (A + w.2.2) := by
      generalize (2 : ℝ) ^ (-(p : ℤ)) = u at *
      have e2 : rnd (s + w.1) - (S + w.2.1) = ((s - S) + (w.1 - w.2.1)) * (1 + δ) + δ * (S + w.2.1) := by rw [e]; ring
      have a1 : |1 + δ| ≤ 1 + u := by
        have := abs_add_le 1 δ; rw [abs_one] at this; linarith
      have a2 : |(s - S) + (w.1 - w.2.1)| ≤ ((1 + v) * (1 + u) ^ k - 1) * A + v * w.2.2 := (abs_add_le _ _).trans (add_le_add h hw1)
      have a4 : |((s - S) + (w.1 - w.2.1)) * (1 + δ)| ≤ (((1 + v) * (1 + u) ^ k - 1) * A + v * w.2.2) * (1 + u) := by
        rw [abs_mul]; exact mul_le_mul a2 a1 (abs_nonneg _) ((abs_nonneg _).trans a2)
      have a5 : |δ * (S + w.2.1)| ≤ u * (A + w.2.2) := by
        rw [abs_mul]; exact mul_le_mul hδ hAB (abs_nonneg _) hu0
      rw [e2]
      refine (abs_add_le _ _).trans ((add_le_add a4 a5).trans ?_)
      have g2 : (1 + v) * (1 + u) ≤ (1 + v) * (1 + u) ^ (k + 1) := by
        refine mul_le_mul_of_nonneg_left ?_ (by linarith)
        calc (1 + u) = (1 + u) ^ 1 := (pow_one _).symm
          _ ≤ (1 + u) ^ (k + 1) := pow_le_pow_right₀ (by linarith) (by omega)
      have g3 := mul_le_mul_of_nonneg_right g2 hB0
      have e3 : (((1 + v) * (1 + u) ^ k - 1) * A + v * w.2.2) * (1 + u) + u * (A + w.2.2) =
          ((1 + v) * (1 + u) ^ (k + 1) - 1) * A + ((1 + v) * (1 + u) * w.2.2 - w.2.2) := by rw [pow_succ]; ring
      rw [e3, mul_add]
      linarith
    have := fold_err_abs R hp hv l (rnd (s + w.1)) (S + w.2.1) (A + w.2.2) (k + 1) (fun v hv => hw v (by simp [hv])) hAB step
    simp only [List.map_cons, List.foldl_cons, List.sum_cons, List.length_cons]
    rw [← add_assoc S, ← add_assoc A, show k + (l.length + 1) = k + 1 + l.length by omega]
    exact this

/-- C174 (legs): the error of the value of some legs with at most `n` flows each, relative to the sum of the absolute discounted flows. -/
theorem C174_legs (R : Rounding p rnd) (hp : 4 ≤ p) {legs : List (List (ℝ × ℝ))} {n : ℕ} (hn : ∀ l ∈ legs, l.length ≤ n) :
    |Rounded.legsValue rnd legs - (legs.map fun l => (l.map fun a => a.1 * a.2).sum).sum| ≤
      ((1 + (2 : ℝ) ^ (-(p : ℤ))) ^ (n + 1 + legs.length) - 1) * (legs.map fun l => (l.map fun a => |a.1 * a.2|).sum).sum := by
  have hu0 : 0 ≤ (2 : ℝ) ^ (-(p : ℤ)) := ulp_nonneg
  have h1 : 1 ≤ (1 + (2 : ℝ) ^ (-(p : ℤ))) ^ (n + 1) := one_le_pow₀ (by linarith)
  have := fold_err_abs R hp (v := (1 + (2 : ℝ) ^ (-(p : ℤ))) ^ (n + 1) - 1) (by linarith)
    (legs.map fun l => (Rounded.presentValue rnd l, (l.map fun a => a.1 * a.2).sum, (l.map fun a => |a.1 * a.2|).sum)) 0 0 0 0 (by
      intro w hw
      obtain ⟨l, hl, rfl⟩ := List.mem_map.1 hw
      have habs : |(l.map fun a => a.1 * a.2).sum| ≤ (l.map fun a => |a.1 * a.2|).sum := by
        clear hl hw
        induction l with
        | nil => simp
        | cons a l ih =>
          simp only [List.map_cons, List.sum_cons]
          exact (abs_add_le _ _).trans (add_le_add_right ih _)
      refine ⟨(C168_error R hp l).trans ?_, habs⟩
      refine mul_le_mul_of_nonneg_right (sub_le_sub_right (pow_le_pow_right₀ (by linarith) (by have := hn l hl; omega)) _) ((abs_nonneg _).trans habs))
    (by simp) (by simp)
  simp only [List.map_map, Function.comp_def, zero_add, List.length_map, add_sub_cancel, ← pow_add] at this
  exact this

/-- C174 (paying and receiving): with opposite amounts coupons and values of legs are opposite, and the two legs together are worth nothing, exactly. -/
theorem C174_opposite (R : Rounding p rnd) (hs : Symmetric rnd) :
    (∀ c f yf N, Rounded.coupon rnd c f yf (-N) = -Rounded.coupon rnd c f yf N) ∧
    ∀ l : List (ℝ × ℝ), Rounded.presentValue rnd (l.map fun a => (a.1, -a.2)) = -Rounded.presentValue rnd l ∧
      Rounded.legsValue rnd [l, l.map fun a => (a.1, -a.2)] = 0 := by
  have hpv : ∀ l : List (ℝ × ℝ), Rounded.presentValue rnd (l.map fun a => (a.1, -a.2)) = -Rounded.presentValue rnd l := by
    intro l
    have key : ∀ (l : List (ℝ × ℝ)) (s : ℝ), ((l.map fun a => (a.1, -a.2)).map fun f => rnd (f.1 * f.2)).foldl (fun s v => rnd (s + v)) (-s) =
        -(l.map fun f => rnd (f.1 * f.2)).foldl (fun s v => rnd (s + v)) s := by
      intro l
      induction l with
      | nil => intro s; rfl
      | cons a l ih =>
        intro s
        simp only [List.map_cons, List.foldl_cons]
        rw [mul_neg, hs, ← neg_add, hs, ih]
    have := key l 0
    rwa [neg_zero] at this
  refine ⟨fun c f yf N => ?_, fun l => ⟨hpv l, ?_⟩⟩
  · unfold Rounded.coupon
    rw [mul_neg, hs]
  · unfold Rounded.legsValue Rounded.sum
    simp only [List.map_cons, List.map_nil, List.foldl_cons, List.foldl_nil]
    have hid : rnd (0 + Rounded.presentValue rnd l) = Rounded.presentValue rnd l := by
      rw [zero_add]
      unfold Rounded.presentValue Rounded.sum
      induction l using List.reverseRecOn with
      | nil => exact R.zero
      | append_singleton l a _ =>
        rw [List.map_append, List.foldl_append]
        exact R.idem _
    rw [hid, hpv, add_neg_cancel, R.zero]

/-- C174 (doubling): twice the amounts are worth twice as much, exactly. -/
theorem C174_double (hs : Scales rnd) :
    (∀ c f yf N, Rounded.coupon rnd c f yf (2 * N) = 2 * Rounded.coupon rnd c f yf N) ∧
    (∀ l : List (ℝ × ℝ), Rounded.presentValue rnd (l.map fun a => (a.1, 2 * a.2)) = 2 * Rounded.presentValue rnd l) ∧
    ∀ legs : List (List (ℝ × ℝ)), Rounded.legsValue rnd (legs.map fun l => l.map fun a => (a.1, 2 * a.2)) = 2 * Rounded.legsValue rnd legs := by
  have hsum : ∀ (l : List ℝ), Rounded.sum rnd (l.map fun x => 2 * x) = 2 * Rounded.sum rnd l := by
    have key : ∀ (l : List ℝ) (s : ℝ), (l.map fun x => 2 * x).foldl (fun s v => rnd (s + v)) (2 * s) = 2 * l.foldl (fun s v => rnd (s + v)) s := by
      intro l
      induction l with
      | nil => intro s; rfl
      | cons a l ih =>
        intro s
        simp only [List.map_cons, List.foldl_cons]
        rw [← mul_add, hs, ih]
    intro l
    have := key l 0
    rwa [mul_zero] at this
  have hpv : ∀ l : List (ℝ × ℝ), Rounded.presentValue rnd (l.map fun a => (a.1, 2 * a.2)) = 2 * Rounded.presentValue rnd l := fun l => by
    unfold Rounded.presentValue
    rw [← hsum]
    simp only [List.map_map, Function.comp_def]
    congr 2
    funext a
    rw [mul_left_comm, hs]
  refine ⟨fun c f yf N => ?_, hpv, fun legs => ?_⟩
  · unfold Rounded.coupon
    rw [mul_left_comm, hs]
  · unfold Rounded.legsValue
    rw [← hsum]
    simp only [List.map_map, Function.comp_def, hpv]

/-- C174 (violation): a leg and its opposite do not cancel if there is another leg in between: legs worth `2 ^ (p + 2)`, 1 and `-2 ^ (p + 2)` are together worth 0. -/
theorem C174_netting_violated (R : Rounding p rnd) (hp : 4 ≤ p) :
    Rounded.legsValue rnd [[(1, (2 : ℝ) ^ ((p : ℤ) + 2))], [(1, 1)], [(1, -(2 : ℝ) ^ ((p : ℤ) + 2))]] = 0 ∧
      Rounded.presentValue rnd [(1, 1)] = 1 := by
  have f1 := R.eq_self (IsFloat.one (p := p) (by omega))
  have f2 := R.eq_self (IsFloat.two_zpow (p := p) (by omega) ((p : ℤ) + 2))
  have f3 := R.eq_self (IsFloat.two_zpow (p := p) (by omega) ((p : ℤ) + 2)).neg
  have h := rnd_absorb R (by omega) (e := (p : ℤ) + 2) (y := 1) (by norm_num)
    (by rw [show (p : ℤ) + 2 - p + 1 = 3 by ring]; norm_num)
  simp only [Rounded.legsValue, Rounded.presentValue, Rounded.sum, List.map_cons, List.map_nil, List.foldl_cons, List.foldl_nil, one_mul, zero_add, f1, f2, f3, h,
    add_neg_cancel, R.zero, and_self]

/-! ### Accrued interest -/

/-- C174 (accrued interest): it lies between zero and the coupon, without any tolerance, is the whole coupon at the end of the period, zero at its start, and differs from
the exact number by at most three units of rounding of the coupon. -/
theorem C174_accrued (R : Rounding p rnd) (hp : 4 ≤ p) {flow rem tot : ℝ} (hf : IsFloat p flow) (h0 : 0 ≤ rem) (h1 : rem ≤ tot) (ht : 0 < tot) :
    (∃ a, Rounded.accruedFlow rnd flow rem tot = .ok a ∧ (0 ≤ flow → 0 ≤ a ∧ a ≤ flow) ∧ (flow ≤ 0 → flow ≤ a ∧ a ≤ 0) ∧
      |a - flow * (1 - rem / tot)| ≤ 4 * (2 : ℝ) ^ (-(p : ℤ)) * |flow|) ∧
    Rounded.accruedFlow rnd flow 0 tot = .ok flow ∧ Rounded.accruedFlow rnd flow tot tot = .ok 0 := by
  have f1 : IsFloat p 1 := IsFloat.one (by omega)
  have run : ∀ r, Rounded.accruedFlow rnd flow r tot = .ok (rnd (flow * rnd (1 - rnd (r / tot)))) := fun r => by
    unfold Rounded.accruedFlow Rounded.div
    rw [pyDiv_ok ht.ne', Py.map_ok, Py.ok_bind]
  have q0 : 0 ≤ rem / tot := div_nonneg h0 ht.le
  have q1 : rem / tot ≤ 1 := (div_le_one ht).2 h1
  have r0 := R.nonneg q0
  have r1 := R.le_of_le q1 f1
  have s0 : 0 ≤ rnd (1 - rnd (rem / tot)) := R.nonneg (by linarith)
  have s1 : rnd (1 - rnd (rem / tot)) ≤ 1 := R.le_of_le (by linarith) f1
  refine ⟨⟨_, run rem, fun h => ⟨R.nonneg (mul_nonneg h s0), R.le_of_le (by nlinarith) hf⟩,
    fun h => ⟨R.ge_of_ge (by nlinarith) hf, R.nonpos (mul_nonpos_of_nonpos_of_nonneg h s0)⟩, ?_⟩, ?_, ?_⟩
  · have hu := ulp_le hp
    have hu0 : 0 ≤ (2 : ℝ) ^ (-(p : ℤ)) := ulp_nonneg
    have e1 := R.err (by omega) (rem / tot)
    have e2 := R.err (by omega) (1 - rnd (rem / tot))
    have e3 := R.err (by omega) (flow * rnd (1 - rnd (rem / tot)))
    generalize (2 : ℝ) ^ (-(p : ℤ)) = u at *
    have b1 : |rem / tot| ≤ 1 := by rw [abs_of_nonneg q0]; exact q1
    have b2 : |1 - rnd (rem / tot)| ≤ 1 := abs_le.2 ⟨by linarith, by linarith⟩
    have b3 : |flow * rnd (1 - rnd (rem / tot))| ≤ |flow| := by
      rw [abs_mul, abs_of_nonneg s0]; exact mul_le_of_le_one_right (abs_nonneg _) s1
    have c1 : |rnd (rem / tot) - rem / tot| ≤ u := e1.trans (mul_le_of_le_one_right hu0 b1)
    have c2 : |rnd (1 - rnd (rem / tot)) - (1 - rnd (rem / tot))| ≤ u := e2.trans (mul_le_of_le_one_right hu0 b2)
    have c3 := e3.trans (mul_le_mul_of_nonneg_left b3 hu0)
    have c4 : |rnd (1 - rnd (rem / tot)) - (1 - rem / tot)| ≤ 2 * u := by
      rw [abs_le] at c1 c2 ⊢; constructor <;> linarith
    have c5 : |flow * rnd (1 - rnd (rem / tot)) - flow * (1 - rem / tot)| ≤ 2 * u * |flow| := by
      rw [← mul_sub, abs_mul, mul_comm]; exact mul_le_mul_of_nonneg_right c4 (abs_nonneg _)
    have := abs_sub_le (rnd (flow * rnd (1 - rnd (rem / tot)))) (flow * rnd (1 - rnd (rem / tot))) (flow * (1 - rem / tot))
    nlinarith [mul_nonneg hu0 (abs_nonneg flow)]
  · rw [run, zero_div, R.zero, sub_zero, R.one (by omega), mul_one, R.eq_self hf]
  · rw [run, div_self ht.ne', R.one (by omega), sub_self, R.zero, mul_zero, R.zero]

/-- C174 (accrued interest of a list): never negative and at most the sum of the coupons, rounded, if these are not negative. -/
theorem C174_accrued_list (R : Rounding p rnd) (hp : 4 ≤ p) {l : List (ℝ × ℝ × ℝ)}
    (h : ∀ c ∈ l, IsFloat p c.1 ∧ 0 ≤ c.1 ∧ 0 ≤ c.2.1 ∧ c.2.1 ≤ c.2.2 ∧ 0 < c.2.2) :
    ∃ a, Rounded.accrued rnd l = .ok a ∧ 0 ≤ a ∧ a ≤ Rounded.sum rnd (l.map Prod.fst) := by
  have hx : ∀ c ∈ l, ∃ a, Rounded.accruedFlow rnd c.1 c.2.1 c.2.2 = .ok a ∧ 0 ≤ a ∧ a ≤ c.1 := fun c hc => by
    obtain ⟨h1, h2, h3, h4, h5⟩ := h c hc
    obtain ⟨⟨a, e, k, -, -⟩, -⟩ := C174_accrued R hp h1 h3 h4 h5
    exact ⟨a, e, k h2⟩
  classical
  let g : ℝ × ℝ × ℝ → ℝ := fun c => if hc : c ∈ l then (hx c hc).choose else 0
  have hg : ∀ c ∈ l, Rounded.accruedFlow rnd c.1 c.2.1 c.2.2 = .ok (g c) ∧ 0 ≤ g c ∧ g c ≤ c.1 := fun c hc => by
    simp only [g, dif_pos hc]; exact (hx c hc).choose_spec
  refine ⟨Rounded.sum rnd (l.map g), ?_, ?_⟩
  · unfold Rounded.accrued
    rw [pyMap_ok fun c hc => (hg c hc).1, Py.ok_bind]
  · have key : ∀ (m : List (ℝ × ℝ × ℝ)) (s t : ℝ), (∀ c ∈ m, 0 ≤ g c ∧ g c ≤ c.1) → 0 ≤ s → s ≤ t →
        0 ≤ (m.map g).foldl (fun s v => rnd (s + v)) s ∧ (m.map g).foldl (fun s v => rnd (s + v)) s ≤ (m.map Prod.fst).foldl (fun s v => rnd (s + v)) t := by
      intro m
      induction m with
      | nil => intro s t _ h0 h1; exact ⟨h0, h1⟩
      | cons c m ih =>
        intro s t hm h0 h1
        obtain ⟨k1, k2⟩ := hm c (by simp)
        exact ih _ _ (fun d hd => hm d (by simp [hd])) (R.nonneg (by linarith)) (R.mono (by linarith))
    exact key l 0 0 (fun c hc => (hg c hc).2) le_rfl le_rfl

/-! ### Basis point values -/

/-- C174 (basis point values): the errors of the two values are divided by the shift: the smaller the shift, the larger the error. -/
theorem C174_basis_point (R : Rounding p rnd) (hp : 4 ≤ p) {pv sh PV SH shift ε : ℝ} (hs : shift ≠ 0) (h1 : |pv - PV| ≤ ε) (h2 : |sh - SH| ≤ ε) :
    ∃ b, Rounded.basisPoint rnd pv sh shift = .ok b ∧
      |b - (SH - PV) / shift * (1 / 10000)| ≤ (5 * (2 : ℝ) ^ (-(p : ℤ)) * |SH - PV| + 3 * ε) / |shift| * (1 / 10000) := by
  have hu := ulp_le hp
  have hu0 : 0 ≤ (2 : ℝ) ^ (-(p : ℤ)) := ulp_nonneg
  obtain ⟨a, ha, e1⟩ := R.factor (by omega) (sh - pv)
  obtain ⟨b, hb, e2⟩ := R.factor (by omega) (rnd (sh - pv) / shift)
  obtain ⟨c, hc, e3⟩ := R.factor (by omega) (1 / 10000)
  obtain ⟨d, hd, e4⟩ := R.factor (by omega) (rnd (rnd (sh - pv) / shift) * rnd (1 / 10000))
  refine ⟨rnd (rnd (rnd (sh - pv) / shift) * rnd (1 / 10000)), ?_, ?_⟩
  · unfold Rounded.basisPoint Rounded.div
    rw [pyDiv_ok hs, Py.map_ok, Py.ok_bind]
  · generalize (2 : ℝ) ^ (-(p : ℤ)) = u at *
    set T := (1 + a) * (1 + b) * (1 + c) * (1 + d) with hT
    have hT1 : |T - 1| ≤ 5 * u := by
      have k1 := factor_mul (a := 1 + a) (k := 1) hu (by norm_num) (by rw [add_sub_cancel_left]; linarith) hb
      have k2 := factor_mul (a := (1 + a) * (1 + b)) hu (by norm_num) k1 hc
      have k3 := factor_mul (a := (1 + a) * (1 + b) * (1 + c)) hu (by norm_num) k2 hd
      refine k3.trans ?_
      nlinarith
    have e : rnd (rnd (rnd (sh - pv) / shift) * rnd (1 / 10000)) - (SH - PV) / shift * (1 / 10000) =
        ((SH - PV) * (T - 1) + ((sh - SH) - (pv - PV)) * T) / shift * (1 / 10000) := by
      rw [e4, e3, e2, e1, hT]; field_simp; ring
    have hTb : |T| ≤ 3 / 2 := by
      have := abs_add_le (T - 1) 1
      rw [sub_add_cancel, abs_one] at this
      linarith
    have m1 : |(SH - PV) * (T - 1)| ≤ 5 * u * |SH - PV| := by
      rw [abs_mul, mul_comm]; exact mul_le_mul_of_nonneg_right hT1 (abs_nonneg _)
    have m2 : |((sh - SH) - (pv - PV)) * T| ≤ 3 * ε := by
      have : |(sh - SH) - (pv - PV)| ≤ 2 * ε := (abs_sub _ _).trans (by linarith)
      rw [abs_mul]
      calc _ ≤ 2 * ε * (3 / 2) := mul_le_mul this hTb (abs_nonneg _) ((abs_nonneg _).trans this)
        _ = 3 * ε := by ring
    rw [e, abs_mul, abs_div, abs_of_pos (by norm_num : (0 : ℝ) < 1 / 10000)]
    refine mul_le_mul_of_nonneg_right ?_ (by norm_num)
    exact div_le_div_of_nonneg_right ((abs_add_le _ _).trans (add_le_add m1 m2)) (abs_nonneg _)

/-- One rate is taken at all times. -/
theorem scheme_one (x t : ℝ) : Rounded.linearSchemeCall rnd (Pts.new [0] [x]) t = .ok x := by
  have e : Pts.new [0] [x] = Pts.new (([((0 : ℝ), x)] : List (ℝ × ℝ)).map Prod.fst) (([((0 : ℝ), x)] : List (ℝ × ℝ)).map Prod.snd) := rfl
  have hl : StrictX [((0 : ℝ), x)] := by simp [StrictX]
  rw [e, Pts_new_eq, sortPairs_eq_self hl]
  unfold Rounded.linearSchemeCall
  simp only [first_xs (List.cons_ne_nil _ _), last_xs (List.cons_ne_nil _ _), Py.ok_bind]
  split_ifs with h1 h2
  · exact leftCall_first hl (List.cons_ne_nil _ _) h1
  · exact leftCall_last hl (List.cons_ne_nil _ _) h2.le
  · rfl

theorem flat_value (exp : ℝ → ℝ) (r : ℝ) (flows : List (ℝ × ℝ)) :
    Rounded.zeroValue rnd exp (Pts.new [0] [r]) flows =
      .ok (Rounded.presentValue rnd (flows.map fun f => (if f.1 = 0 then 1 else exp (rnd (rnd (-1 * r) * f.1)), f.2))) := by
  have h : ∀ t, Rounded.zeroDiscount rnd exp (Pts.new [0] [r]) t = .ok (if t = 0 then 1 else exp (rnd (rnd (-1 * r) * t))) := fun t => by
    unfold Rounded.zeroDiscount
    split_ifs with h0
    · rfl
    · rw [scheme_one]; rfl
  unfold Rounded.zeroValue
  rw [pyMap_ok (g := fun f : ℝ × ℝ => rnd ((if f.1 = 0 then 1 else exp (rnd (rnd (-1 * r) * f.1))) * f.2)) (fun f _ => by rw [h]; rfl), Py.ok_bind]
  unfold Rounded.presentValue
  rw [List.map_map]; rfl

/-- C174 (violation): shifts below a quarter of the spacing of floats at the rate are lost: the basis point value of all flows is zero, while the exact value, here
of one payment after a year, is not. -/
theorem C174_basis_point_violated (R : Rounding p rnd) (hp : 4 ≤ p) (exp : ℝ → ℝ) {e : ℤ} {shift : ℝ} (h0 : 0 < shift) (h1 : 2 * shift < (2 : ℝ) ^ (e - p + 1)) :
    (∀ flows, Rounded.flatBasisPoint rnd exp ((2 : ℝ) ^ e) flows shift = .ok 0) ∧
    ∃ b, b < 0 ∧ Rounded.flatBasisPoint id Real.exp ((2 : ℝ) ^ e) [(1, 1)] shift = .ok b := by
  constructor
  · intro flows
    unfold Rounded.flatBasisPoint
    rw [rnd_absorb R (by omega) h0.le h1, add_zero, R.eq_self (IsFloat.two_zpow (by omega) e), flat_value, Py.ok_bind, Py.ok_bind]
    unfold Rounded.basisPoint Rounded.div
    rw [sub_self, R.zero, pyDiv_ok h0.ne', Py.map_ok, Py.ok_bind, zero_div, R.zero, zero_mul, R.zero]
  · refine ⟨(Real.exp (-((2 : ℝ) ^ e + shift)) - Real.exp (-(2 : ℝ) ^ e)) / shift * (1 / 10000), ?_, ?_⟩
    · have : Real.exp (-((2 : ℝ) ^ e + shift)) < Real.exp (-(2 : ℝ) ^ e) := Real.exp_lt_exp.2 (by linarith)
      exact mul_neg_of_neg_of_pos (div_neg_of_neg_of_pos (by linarith) h0) (by norm_num)
    · unfold Rounded.flatBasisPoint
      rw [flat_value, flat_value, Py.ok_bind, Py.ok_bind]
      unfold Rounded.basisPoint Rounded.div
      rw [pyDiv_ok h0.ne', Py.map_ok, Py.ok_bind]
      simp [Rounded.presentValue, Rounded.sum]

/-! ### The hypotheses can be met -/

example : ∃ rnd, Rounding 53 rnd ∧ Symmetric rnd ∧ Scales rnd := exists_symmetric (by norm_num)

example {rnd : ℝ → ℝ} (R : Rounding 53 rnd) : ∃ a, Rounded.accrued rnd [(1, 1 / 4, 1), (2, 0, 1 / 2)] = .ok a ∧ 0 ≤ a ∧ a ≤ Rounded.sum rnd [1, 2] :=
  C174_accrued_list R (by norm_num) (l := [(1, 1 / 4, 1), (2, 0, 1 / 2)]) (by
    have f1 : IsFloat 53 1 := IsFloat.one (by norm_num)
    have f2 : IsFloat 53 2 := by simpa using IsFloat.two_zpow (p := 53) (by norm_num) 1
    simp only [List.mem_cons, List.not_mem_nil, or_false, forall_eq_or_imp, forall_eq]
    exact ⟨⟨f1, by norm_num, by norm_num, by norm_num, by norm_num⟩, f2, by norm_num, by norm_num, by norm_num, by norm_num⟩)

/-- At a rate of 1/32 shifts of `2 ^ -60` are lost. -/
example {rnd : ℝ → ℝ} (R : Rounding 53 rnd) (exp : ℝ → ℝ) :=
  (C174_basis_point_violated R (by norm_num) exp (e := -5) (shift := (2 : ℝ) ^ (-60 : ℤ)) (by positivity) (by norm_num)).1

example {rnd : ℝ → ℝ} (R : Rounding 53 rnd) :=
  C174_basis_point R (by norm_num) (pv := 1) (PV := 1) (sh := 1) (SH := 1) (shift := 1 / 10000) (ε := 0) (by norm_num) (by norm_num) (by norm_num)

example {rnd : ℝ → ℝ} (R : Rounding 53 rnd) := C174_order R (c := 1 / 100) (c' := 2 / 100) (f := 0) (f' := 0) (yf := 1) (yf' := 2) (N := 100) (N' := 200) (by norm_num) (by norm_num)

example {rnd : ℝ → ℝ} (R : Rounding 53 rnd) := C174_legs R (by norm_num) (legs := [[(1, 2), (1 / 2, 3)], [(1, -2)]]) (n := 2) (by simp)

end Dcf
