import Verif.Props.RoundedPrices
import Verif.Model.RoundedInterp
import Verif.Lemmas.Interp
import Mathlib.Analysis.Complex.ExponentialBounds
import Mathlib.Combinatorics.Pigeonhole

/-! # C184: log interpolation in floating point arithmetic -/

set_option linter.unusedSectionVars false
set_option linter.unusedSimpArgs false
set_option linter.unusedVariables false

namespace Dcf

open Spec Finset

variable {p : ℕ} {rnd exp log : ℝ → ℝ}

/-! ### The exact model -/

/-- C184: without rounding these are the interpolations of the exact model. -/
theorem C184_unrounded (xs ys : List ℝ) (x : ℝ) :
    some <$> Rounded.logLinear id Real.exp Real.log xs ys x = (do let f ← Interp.new .loglinear xs ys; f.call x) ∧
    Rounded.logLinearRate id Real.exp Real.log xs ys x = (do let f ← Interp.new .loglinearrate xs ys; f.call x) ∧
    Rounded.logConstantRate id Real.exp Real.log xs ys x = (do let f ← Interp.new .logconstantrate xs ys; f.call x) := by
  have hd : ∀ a b : ℝ, Rounded.div id a b = pyDiv a b := fun a b => by
    simp only [Rounded.div]
    cases pyDiv a b <;> rfl
  by_cases hpos : ∀ y ∈ ys, 0 < y
  · have h1 : pyMap pyLog ys = .ok (ys.map Real.log) := pyMap_ok fun y hy => pyLog_ok (hpos y hy)
    have h2 : ∀ s : ℝ, rateList xs ys (fun x y => do pyDiv (s * (← pyLog y)) x) = rateList xs ys fun x y => pyDiv (s * Real.log y) x := by
      intro s
      unfold rateList
      have : ∀ l : List (ℝ × ℝ), (∀ q ∈ l, 0 < q.2) → pyMap (fun q : ℝ × ℝ => do pyDiv (s * (← pyLog q.2)) q.1) l = pyMap (fun q => pyDiv (s * Real.log q.2) q.1) l := by
        intro l hl
        induction l with
        | nil => rfl
        | cons a l ih =>
          have h3 : pyLog a.2 = .ok (Real.log a.2) := pyLog_ok (hl a (by simp))
          simp only [pyMap, h3, Py.ok_bind, ih fun q hq => hl q (by simp [hq])]
      refine this _ fun q hq => hpos _ (List.of_mem_zip (List.mem_filter.1 hq).1).2
    have h3 := h2 1
    have h4 := h2 (-1)
    simp only [one_mul, neg_mul] at h3 h4
    refine ⟨?_, ?_, ?_⟩
    · simp only [Rounded.logLinear, Interp.new, h1, C167_unrounded, Py.ok_bind, if_neg (not_not.2 hpos), Py.pure_eq, Interp.call]
      cases linearCall (Pts.new xs (ys.map Real.log)) x <;> rfl
    · simp only [Rounded.logLinearRate, Interp.new, h3, hd, C167_unrounded, Py.ok_bind, if_neg (not_not.2 hpos), Py.pure_eq, id]
      cases yAtZeroOf xs ys with
      | error e => rfl
      | ok z =>
        simp only [Py.ok_bind]
        cases rateList xs ys fun x y => pyDiv (Real.log y) x with
        | error e => rfl
        | ok l =>
          simp only [Py.ok_bind, Interp.call]
          split_ifs
          · rfl
          · cases linearCall (Pts.new (xs.filter (· ≠ 0)) l) x <;> rfl
    · simp only [Rounded.logConstantRate, Interp.new, h4, hd, Py.ok_bind, if_neg (not_not.2 hpos), Py.pure_eq, id]
      cases yAtZeroOf xs ys with
      | error e => rfl
      | ok z =>
        simp only [Py.ok_bind]
        cases rateList xs ys fun x y => pyDiv (-Real.log y) x with
        | error e => rfl
        | ok l =>
          simp only [Py.ok_bind, Interp.call]
          split_ifs
          · rfl
          · cases leftCall (Pts.new (xs.filter (· ≠ 0)) l) x <;> rfl
  · refine ⟨?_, ?_, ?_⟩
    · simp only [Rounded.logLinear, Interp.new, if_pos hpos]; rfl
    · simp only [Rounded.logLinearRate, Interp.new, if_pos hpos]; rfl
    · simp only [Rounded.logConstantRate, Interp.new, if_pos hpos]; rfl

/-! ### Values -/

theorem all_pos {pts : List (ℝ × ℝ)} (hpos : ∀ q ∈ pts, 0 < q.2) : ¬ ¬ ∀ y ∈ pts.map Prod.snd, 0 < y := by
  rw [not_not]; intro y hy
  obtain ⟨q, hq, rfl⟩ := List.mem_map.1 hy
  exact hpos q hq

theorem neighbours_map {pts : List (ℝ × ℝ)} {a b : ℝ × ℝ} (f : ℝ × ℝ → ℝ) (h : Spec.Neighbours pts a b) :
    Spec.Neighbours (pts.map fun q => (q.1, f q)) (a.1, f a) (b.1, f b) := by
  obtain ⟨h1, h2, h3, h4⟩ := h
  refine ⟨List.mem_map_of_mem h1, List.mem_map_of_mem h2, h3, ?_⟩
  intro r hr
  obtain ⟨q, hq, rfl⟩ := List.mem_map.1 hr
  exact h4 q hq

/-- The value of a log-linear interpolation. -/
theorem logLinear_eq {pts : List (ℝ × ℝ)} (hpos : ∀ q ∈ pts, 0 < q.2) (x : ℝ) :
    Rounded.logLinear rnd exp log (pts.map Prod.fst) (pts.map Prod.snd) x =
      exp <$> Rounded.linearCall rnd (Pts.new ((pts.map fun q => (q.1, log q.2)).map Prod.fst) ((pts.map fun q => (q.1, log q.2)).map Prod.snd)) x := by
  have e1 : (pts.map fun q => (q.1, log q.2)).map Prod.fst = pts.map Prod.fst := by simp [Function.comp_def]
  have e2 : (pts.map fun q => (q.1, log q.2)).map Prod.snd = (pts.map Prod.snd).map log := by simp [Function.comp_def]
  rw [e1, e2]
  simp only [Rounded.logLinear, if_neg (all_pos hpos), Py.pure_eq, Py.ok_bind]
  cases Rounded.linearCall rnd (Pts.new (pts.map Prod.fst) ((pts.map Prod.snd).map log)) x <;> rfl

theorem rateList_float {pts : List (ℝ × ℝ)} (g : ℝ → ℝ) :
    rateList (pts.map Prod.fst) (pts.map Prod.snd) (fun x y => Rounded.div rnd (g y) x) =
      .ok ((pts.filter fun q => q.1 ≠ 0).map fun q => rnd (g q.2 / q.1)) := by
  unfold rateList
  rw [zip_unzip']
  apply pyMap_ok
  intro q hq
  rw [List.mem_filter] at hq
  simp only [Rounded.div]
  rw [pyDiv_ok (by simpa using hq.2)]; rfl

theorem logLinearRate_eq {pts : List (ℝ × ℝ)} (hpos : ∀ q ∈ pts, 0 < q.2) {x : ℝ} (hx : x ≠ 0) :
    Rounded.logLinearRate rnd exp log (pts.map Prod.fst) (pts.map Prod.snd) x =
      (fun l => some (exp (rnd (l * x)))) <$> Rounded.linearCall rnd (Pts.new (((pts.filter fun q => q.1 ≠ 0).map fun q => (q.1, rnd (log q.2 / q.1))).map Prod.fst)
        (((pts.filter fun q => q.1 ≠ 0).map fun q => (q.1, rnd (log q.2 / q.1))).map Prod.snd)) x := by
  simp only [Rounded.logLinearRate, if_neg (all_pos hpos), Py.pure_eq, Py.ok_bind, yAtZeroOf_eq, rateList_float, if_neg hx, map_filter_fst]
  simp only [List.map_map, Function.comp_def]
  generalize Rounded.linearCall rnd _ x = o
  cases o <;> rfl

theorem logConstantRate_eq {pts : List (ℝ × ℝ)} (hpos : ∀ q ∈ pts, 0 < q.2) {x : ℝ} (hx : x ≠ 0) :
    Rounded.logConstantRate rnd exp log (pts.map Prod.fst) (pts.map Prod.snd) x =
      (fun l => some (exp (rnd (-l * x)))) <$> leftCall (Pts.new (((pts.filter fun q => q.1 ≠ 0).map fun q => (q.1, rnd (-log q.2 / q.1))).map Prod.fst)
        (((pts.filter fun q => q.1 ≠ 0).map fun q => (q.1, rnd (-log q.2 / q.1))).map Prod.snd)) x := by
  simp only [Rounded.logConstantRate, if_neg (all_pos hpos), Py.pure_eq, Py.ok_bind, yAtZeroOf_eq, rateList_float (fun y => -log y), if_neg hx, map_filter_fst]
  simp only [List.map_map, Function.comp_def]
  generalize leftCall _ x = o
  cases o <;> rfl

theorem chord_near {a b A B lam e M : ℝ} (h0 : 0 ≤ lam) (h1 : lam ≤ 1) (ha : |a - A| ≤ e) (hb : |b - B| ≤ e) :
    |(a + (b - a) * lam) - (A + (B - A) * lam)| ≤ e := by
  have e1 : (a + (b - a) * lam) - (A + (B - A) * lam) = (1 - lam) * (a - A) + lam * (b - B) := by ring
  rw [e1]
  refine (abs_add_le _ _).trans ?_
  rw [abs_mul, abs_mul, abs_of_nonneg h0, abs_of_nonneg (by linarith : 0 ≤ 1 - lam)]
  nlinarith [mul_le_mul_of_nonneg_left ha (by linarith : 0 ≤ 1 - lam), mul_le_mul_of_nonneg_left hb h0]

theorem chord_le {A B lam : ℝ} (h0 : 0 ≤ lam) (h1 : lam ≤ 1) : |A + (B - A) * lam| ≤ max |A| |B| := by
  have e1 : A + (B - A) * lam = (1 - lam) * A + lam * B := by ring
  rw [e1]
  refine (abs_add_le _ _).trans ?_
  rw [abs_mul, abs_mul, abs_of_nonneg h0, abs_of_nonneg (by linarith : 0 ≤ 1 - lam)]
  nlinarith [mul_le_mul_of_nonneg_left (le_max_left |A| |B|) (by linarith : 0 ≤ 1 - lam), mul_le_mul_of_nonneg_left (le_max_right |A| |B|) h0]

theorem ratio_unit {a b x : ℝ} (hab : a < b) (hx : a < x) (hx' : x ≤ b) : 0 ≤ (x - a) / (b - a) ∧ (x - a) / (b - a) ≤ 1 :=
  ⟨div_nonneg (by linarith) (by linarith), (div_le_one (by linarith)).2 (by linarith)⟩

theorem abs_le_scaled {a A w : ℝ} (h : |a - A| ≤ w * |A|) : |a| ≤ (1 + w) * |A| := by
  have := abs_sub_abs_le_abs_sub a A
  linarith

/-- C184: between two points the log-linear interpolation misses the exact one by a relative error, that of the exponential function and that of
`(w + 14 u (1 + w))` times the larger logarithm in the exponent. -/
theorem C184_log_linear (R : Rounding p rnd) (hp : 4 ≤ p) {v w : ℝ} (hexp : ∀ x, |exp x - Real.exp x| ≤ v * Real.exp x)
    (hlog : ∀ y, 0 < y → |log y - Real.log y| ≤ w * |Real.log y|) {pts : List (ℝ × ℝ)} (hn : (pts.map Prod.fst).Nodup)
    (hpos : ∀ q ∈ pts, 0 < q.2) {a b : ℝ × ℝ} (hab : Spec.Neighbours pts a b) {x : ℝ} (hx : a.1 < x) (hx' : x ≤ b.1) :
    ∃ r, Rounded.logLinear rnd exp log (pts.map Prod.fst) (pts.map Prod.snd) x = .ok r ∧
      |r - Real.exp (Real.log a.2 + (Real.log b.2 - Real.log a.2) * ((x - a.1) / (b.1 - a.1)))| ≤
        ((1 + v) * Real.exp ((w + 14 * (2 : ℝ) ^ (-(p : ℤ)) * (1 + w)) * max |Real.log a.2| |Real.log b.2|) - 1) *
          Real.exp (Real.log a.2 + (Real.log b.2 - Real.log a.2) * ((x - a.1) / (b.1 - a.1))) := by
  have hn' : ((pts.map fun q => (q.1, log q.2)).map Prod.fst).Nodup := by
    simpa [Function.comp_def] using hn
  obtain ⟨l, h1, h2⟩ := C167_error R hp hn' (neighbours_map (fun q => log q.2) hab) hx hx'
  refine ⟨exp l, by rw [logLinear_eq hpos, h1]; rfl, exp_err hexp ?_⟩
  simp only at h2
  have ha := hlog _ (hpos a hab.1)
  have hb := hlog _ (hpos b hab.2.1)
  have hu0 : 0 ≤ (2 : ℝ) ^ (-(p : ℤ)) := by positivity
  obtain ⟨l0, l1⟩ := ratio_unit hab.2.2.1 hx hx'
  generalize (2 : ℝ) ^ (-(p : ℤ)) = u at *
  generalize (x - a.1) / (b.1 - a.1) = lam at *
  have hM1 := le_max_left |Real.log a.2| |Real.log b.2|
  have hM2 := le_max_right |Real.log a.2| |Real.log b.2|
  have hM0 := (abs_nonneg _).trans hM1
  have hw : 0 ≤ w := by
    have h3 := hlog (Real.exp 1) (Real.exp_pos 1)
    rw [Real.log_exp, abs_one, mul_one] at h3
    exact (abs_nonneg _).trans h3
  have a' := abs_le_scaled ha
  have b' := abs_le_scaled hb
  generalize max |Real.log a.2| |Real.log b.2| = M at *
  have h3 := chord_near (M := M) l0 l1 (ha.trans (mul_le_mul_of_nonneg_left hM1 hw)) (hb.trans (mul_le_mul_of_nonneg_left hM2 hw))
  have h4 : max |log a.2| |log b.2| ≤ (1 + w) * M :=
    max_le (a'.trans (mul_le_mul_of_nonneg_left hM1 (by linarith))) (b'.trans (mul_le_mul_of_nonneg_left hM2 (by linarith)))
  have h5 := mul_le_mul_of_nonneg_left h4 (by positivity : 0 ≤ 14 * u)
  have h6 := abs_sub_le l (log a.2 + (log b.2 - log a.2) * lam) (Real.log a.2 + (Real.log b.2 - Real.log a.2) * lam)
  linarith

/-- A rounded quotient of a logarithm. -/
theorem rate_near (R : Rounding p rnd) (hp : 1 ≤ p) {w l L t : ℝ} (h : |l - L| ≤ w * |L|) :
    |rnd (l / t) - L / t| ≤ (w + (2 : ℝ) ^ (-(p : ℤ)) * (1 + w)) * |L / t| := by
  have h1 := R.err hp (l / t)
  have h2 : |l / t - L / t| ≤ w * |L / t| := by
    rw [← sub_div, abs_div, abs_div, ← mul_div_assoc]
    exact div_le_div_of_nonneg_right h (abs_nonneg _)
  have h3 := abs_le_scaled h2
  have h4 := mul_le_mul_of_nonneg_left h3 (by positivity : 0 ≤ (2 : ℝ) ^ (-(p : ℤ)))
  have h5 := abs_sub_le (rnd (l / t)) (l / t) (L / t)
  linarith

/-- A rounded product with an inexact factor. -/
theorem product_near (R : Rounding p rnd) (hp : 1 ≤ p) {κ l L x M : ℝ} (hκ : 0 ≤ κ) (h : |l - L| ≤ κ * M) (hL : |L| ≤ M) :
    |rnd (l * x) - L * x| ≤ (κ + (2 : ℝ) ^ (-(p : ℤ)) * (1 + κ)) * (|x| * M) := by
  have h1 := R.err hp (l * x)
  have h2 : |l * x - L * x| ≤ κ * M * |x| := by
    rw [← sub_mul, abs_mul]
    exact mul_le_mul_of_nonneg_right h (abs_nonneg _)
  have h3 : |l * x| ≤ (1 + κ) * M * |x| := by
    rw [abs_mul]
    refine mul_le_mul_of_nonneg_right ?_ (abs_nonneg _)
    have := abs_sub_abs_le_abs_sub l L
    linarith
  have h4 := mul_le_mul_of_nonneg_left h3 (by positivity : 0 ≤ (2 : ℝ) ^ (-(p : ℤ)))
  have h5 := abs_sub_le (rnd (l * x)) (l * x) (L * x)
  linarith

theorem filter_nodup {pts : List (ℝ × ℝ)} (hn : (pts.map Prod.fst).Nodup) (f : ℝ × ℝ → ℝ) :
    (((pts.filter fun q => q.1 ≠ 0).map fun q => (q.1, f q)).map Prod.fst).Nodup := by
  have : ((pts.filter fun q => q.1 ≠ 0).map fun q => (q.1, f q)).map Prod.fst = (pts.filter fun q => q.1 ≠ 0).map Prod.fst := by
    simp [Function.comp_def]
  rw [this]
  exact hn.sublist (List.filter_sublist.map _)

/-- C184: the same for the log-linear interpolation of rates between two points other than zero, with the larger of the two rates times `x` in place of the larger
logarithm. -/
theorem C184_log_linear_rate (R : Rounding p rnd) (hp : 4 ≤ p) {v w : ℝ} (hexp : ∀ x, |exp x - Real.exp x| ≤ v * Real.exp x)
    (hlog : ∀ y, 0 < y → |log y - Real.log y| ≤ w * |Real.log y|) {pts : List (ℝ × ℝ)} (hn : (pts.map Prod.fst).Nodup)
    (hpos : ∀ q ∈ pts, 0 < q.2) {a b : ℝ × ℝ} (hab : Spec.Neighbours (pts.filter fun q => q.1 ≠ 0) a b) {x : ℝ} (hx : a.1 < x) (hx' : x ≤ b.1)
    (hx0 : x ≠ 0) :
    ∃ r, Rounded.logLinearRate rnd exp log (pts.map Prod.fst) (pts.map Prod.snd) x = .ok (some r) ∧
      |r - Real.exp ((Real.log a.2 / a.1 + (Real.log b.2 / b.1 - Real.log a.2 / a.1) * ((x - a.1) / (b.1 - a.1))) * x)| ≤
        ((1 + v) * Real.exp ((w + 18 * (2 : ℝ) ^ (-(p : ℤ)) * (1 + w)) * (|x| * max |Real.log a.2 / a.1| |Real.log b.2 / b.1|)) - 1) *
          Real.exp ((Real.log a.2 / a.1 + (Real.log b.2 / b.1 - Real.log a.2 / a.1) * ((x - a.1) / (b.1 - a.1))) * x) := by
  obtain ⟨l, h1, h2⟩ := C167_error R hp (filter_nodup hn _) (neighbours_map (fun q => rnd (log q.2 / q.1)) hab) hx hx'
  refine ⟨exp (rnd (l * x)), by rw [logLinearRate_eq hpos hx0, h1]; rfl, exp_err hexp ?_⟩
  simp only at h2
  have ha := rate_near R (by omega) (t := a.1) (hlog _ (hpos a (List.mem_filter.1 hab.1).1))
  have hb := rate_near R (by omega) (t := b.1) (hlog _ (hpos b (List.mem_filter.1 hab.2.1).1))
  have hu0 : 0 ≤ (2 : ℝ) ^ (-(p : ℤ)) := by positivity
  have hu := ulp_le hp
  have hw : 0 ≤ w := by
    have h3 := hlog (Real.exp 1) (Real.exp_pos 1)
    rw [Real.log_exp, abs_one, mul_one] at h3
    exact (abs_nonneg _).trans h3
  obtain ⟨l0, l1⟩ := ratio_unit hab.2.2.1 hx hx'
  have hL := chord_le (A := Real.log a.2 / a.1) (B := Real.log b.2 / b.1) l0 l1
  have a' := abs_le_scaled ha
  have b' := abs_le_scaled hb
  have hM1 := le_max_left |Real.log a.2 / a.1| |Real.log b.2 / b.1|
  have hM2 := le_max_right |Real.log a.2 / a.1| |Real.log b.2 / b.1|
  have hM0 := (abs_nonneg _).trans hM1
  have hκ : 0 ≤ w + (2 : ℝ) ^ (-(p : ℤ)) * (1 + w) := by positivity
  have h3 := chord_near (M := 0) l0 l1 (ha.trans (mul_le_mul_of_nonneg_left hM1 hκ)) (hb.trans (mul_le_mul_of_nonneg_left hM2 hκ))
  have h4 : max |rnd (log a.2 / a.1)| |rnd (log b.2 / b.1)| ≤ (1 + (w + (2 : ℝ) ^ (-(p : ℤ)) * (1 + w))) * max |Real.log a.2 / a.1| |Real.log b.2 / b.1| :=
    max_le (a'.trans (mul_le_mul_of_nonneg_left hM1 (by linarith))) (b'.trans (mul_le_mul_of_nonneg_left hM2 (by linarith)))
  have h5 := mul_le_mul_of_nonneg_left h4 (by positivity : 0 ≤ 14 * (2 : ℝ) ^ (-(p : ℤ)))
  have h6 := abs_sub_le l (rnd (log a.2 / a.1) + (rnd (log b.2 / b.1) - rnd (log a.2 / a.1)) * ((x - a.1) / (b.1 - a.1)))
    (Real.log a.2 / a.1 + (Real.log b.2 / b.1 - Real.log a.2 / a.1) * ((x - a.1) / (b.1 - a.1)))
  have h7 : |l - (Real.log a.2 / a.1 + (Real.log b.2 / b.1 - Real.log a.2 / a.1) * ((x - a.1) / (b.1 - a.1)))| ≤
      (w + (2 : ℝ) ^ (-(p : ℤ)) * (1 + w) + 14 * (2 : ℝ) ^ (-(p : ℤ)) * (1 + (w + (2 : ℝ) ^ (-(p : ℤ)) * (1 + w)))) * max |Real.log a.2 / a.1| |Real.log b.2 / b.1| := by
    linarith
  refine (product_near R (by omega) (by positivity) h7 hL).trans (mul_le_mul_of_nonneg_right ?_ (mul_nonneg (abs_nonneg _) hM0))
  generalize (2 : ℝ) ^ (-(p : ℤ)) = u at *
  have h8 : u * (1 + w) * (29 * u + 14 * u * u) ≤ u * (1 + w) * 2 := by
    refine mul_le_mul_of_nonneg_left ?_ (by positivity)
    nlinarith
  nlinarith

/-- C184: before the first and after the last point the rate of that point is kept, up to a relative error. -/
theorem C184_log_constant_rate (R : Rounding p rnd) (hp : 4 ≤ p) {v w : ℝ} (hexp : ∀ x, |exp x - Real.exp x| ≤ v * Real.exp x)
    (hlog : ∀ y, 0 < y → |log y - Real.log y| ≤ w * |Real.log y|) {pts : List (ℝ × ℝ)} (hn : (pts.map Prod.fst).Nodup)
    (hpos : ∀ q ∈ pts, 0 < q.2) (a : ℝ × ℝ) (ha : a ∈ pts) (ha0 : a.1 ≠ 0) (x : ℝ) (hx0 : x ≠ 0)
    (hx : (∀ q ∈ pts, q.1 ≠ 0 → a.1 ≤ q.1) ∧ x ≤ a.1 ∨ (∀ q ∈ pts, q.1 ≠ 0 → q.1 ≤ a.1) ∧ a.1 ≤ x) :
    ∃ r, Rounded.logConstantRate rnd exp log (pts.map Prod.fst) (pts.map Prod.snd) x = .ok (some r) ∧
      |r - Real.exp (Real.log a.2 / a.1 * x)| ≤
        ((1 + v) * Real.exp ((w + 3 * (2 : ℝ) ^ (-(p : ℤ)) * (1 + w)) * (|x| * |Real.log a.2 / a.1|)) - 1) * Real.exp (Real.log a.2 / a.1 * x) := by
  have hu0 : 0 ≤ (2 : ℝ) ^ (-(p : ℤ)) := by positivity
  have hu := ulp_le hp
  have hw : 0 ≤ w := by
    have h3 := hlog (Real.exp 1) (Real.exp_pos 1)
    rw [Real.log_exp, abs_one, mul_one] at h3
    exact (abs_nonneg _).trans h3
  have hm : (a.1, rnd (-log a.2 / a.1)) ∈ (pts.filter fun q => q.1 ≠ 0).map fun q => (q.1, rnd (-log q.2 / q.1)) :=
    List.mem_map.2 ⟨a, List.mem_filter.2 ⟨ha, by simpa using ha0⟩, rfl⟩
  obtain ⟨y, h1, h2⟩ := leftCall_sorted (filter_nodup hn fun q => rnd (-log q.2 / q.1)) (List.ne_nil_of_mem hm) x
  have hy : y = rnd (-log a.2 / a.1) := by
    obtain ⟨q, hq, rfl, h3⟩ := h2
    obtain ⟨q', hq', rfl⟩ := List.mem_map.1 hq
    obtain ⟨hq1, hq2⟩ := List.mem_filter.1 hq'
    have hq2 : q'.1 ≠ 0 := by simpa using hq2
    have he : q'.1 = a.1 := by
      rcases hx with ⟨h4, h5⟩ | ⟨h4, h5⟩
      · rcases h3 with ⟨h6, h7⟩ | ⟨h6, h7⟩
        · exact le_antisymm (h6.trans h5) (h4 _ hq1 hq2)
        · exact le_antisymm (h7 (a.1, rnd (-log a.2 / a.1)) hm) (h4 _ hq1 hq2)
      · rcases h3 with ⟨h6, h7⟩ | ⟨h6, h7⟩
        · exact le_antisymm (h4 _ hq1 hq2) (h7 (a.1, rnd (-log a.2 / a.1)) hm h5)
        · exact absurd (h6 (a.1, rnd (-log a.2 / a.1)) hm) (by simpa using h5)
    have : q' = a := by
      have := List.inj_on_of_nodup_map hn hq1 ha he
      exact this
    rw [this]
  refine ⟨exp (rnd (-y * x)), by rw [logConstantRate_eq hpos hx0, Pts_new_eq, h1]; rfl, exp_err hexp ?_⟩
  have h3 := rate_near R (by omega) (t := a.1) (l := -log a.2) (L := -Real.log a.2) (w := w) (by
    rw [abs_neg, ← neg_sub', abs_neg]; exact hlog _ (hpos a ha))
  rw [← hy, neg_div, abs_neg] at h3
  have h4 : |-y - Real.log a.2 / a.1| ≤ (w + (2 : ℝ) ^ (-(p : ℤ)) * (1 + w)) * |Real.log a.2 / a.1| := by
    rw [← abs_neg]; refine le_trans (le_of_eq ?_) h3; congr 1; ring
  refine (product_near R (by omega) (by positivity) h4 le_rfl).trans (mul_le_mul_of_nonneg_right ?_ (mul_nonneg (abs_nonneg _) (abs_nonneg _)))
  generalize (2 : ℝ) ^ (-(p : ℤ)) = u at *
  have h8 : u * (1 + w) * u ≤ u * (1 + w) * 1 := mul_le_mul_of_nonneg_left (by linarith) (by positivity)
  nlinarith

/-- C184: between neighbouring points with increasing values the log-linear interpolation is increasing without any tolerance (with increasing `exp` and `log`),
and not below what is returned at the first of both. -/
theorem C184_order (R : Rounding p rnd) (hp : 4 ≤ p) (hexp : Monotone exp) (hlog : ∀ x y, 0 < x → x ≤ y → log x ≤ log y) (hf : ∀ y, 0 < y → IsFloat p (log y))
    {pts : List (ℝ × ℝ)} (hn : (pts.map Prod.fst).Nodup) (hpos : ∀ q ∈ pts, 0 < q.2) {a b : ℝ × ℝ} (hab : Spec.Neighbours pts a b) (hy : a.2 ≤ b.2)
    {x x' : ℝ} (hx : a.1 < x) (hxx : x ≤ x') (hx' : x' ≤ b.1) :
    ∃ r r', Rounded.logLinear rnd exp log (pts.map Prod.fst) (pts.map Prod.snd) x = .ok r ∧
      Rounded.logLinear rnd exp log (pts.map Prod.fst) (pts.map Prod.snd) x' = .ok r' ∧ exp (log a.2) ≤ r ∧ r ≤ r' := by
  have hn' : ((pts.map fun q => (q.1, log q.2)).map Prod.fst).Nodup := by
    simpa [Function.comp_def] using hn
  obtain ⟨l, l', h1, h2, h3, h4⟩ := C167_order R hp hn' (neighbours_map (fun q => log q.2) hab) (hlog _ _ (hpos a hab.1) hy) hx hxx hx'
  exact ⟨exp l, exp l', by rw [logLinear_eq hpos, h1]; rfl, by rw [logLinear_eq hpos, h2]; rfl, hexp (h4 (hf _ (hpos a hab.1))), hexp h3⟩

/-! ### Given points -/

/-- Two different floats between 1/16 and 1/8 with the same logarithm: there are more floats than logarithms. -/
theorem same_log (hf : ∀ y, 0 < y → IsFloat 53 (log y)) (hlog : ∀ y, 0 < y → |log y - Real.log y| ≤ 0.01 * |Real.log y|) :
    ∃ y y' : ℝ, IsFloat 53 y ∧ IsFloat 53 y' ∧ 1 / 16 ≤ y ∧ y ≤ 1 / 8 ∧ 1 / 16 ≤ y' ∧ y' ≤ 1 / 8 ∧ y ≠ y' ∧ log y = log y' := by
  have key : ∀ m : ℕ, m < 2 ^ 52 → ∃ k : ℤ, log (((2 ^ 52 + m : ℤ) : ℝ) * (2 : ℝ) ^ (-56 : ℤ)) = k * (2 : ℝ) ^ (-51 : ℤ) ∧ -(3 * 2 ^ 51) ≤ k ∧ k ≤ -(2 * 2 ^ 51) := by
    intro m hm
    have hm' : (m : ℝ) < 2 ^ 52 := by exact_mod_cast hm
    have hm0 : (0 : ℝ) ≤ m := Nat.cast_nonneg m
    have hy1 : (2 : ℝ) ^ (-4 : ℤ) ≤ ((2 ^ 52 + m : ℤ) : ℝ) * (2 : ℝ) ^ (-56 : ℤ) := by
      push_cast; norm_num; linarith
    have hy2 : ((2 ^ 52 + m : ℤ) : ℝ) * (2 : ℝ) ^ (-56 : ℤ) ≤ (2 : ℝ) ^ (-3 : ℤ) := by
      push_cast; norm_num; linarith
    generalize ((2 ^ 52 + m : ℤ) : ℝ) * (2 : ℝ) ^ (-56 : ℤ) = y at *
    have hy0 : 0 < y := lt_of_lt_of_le (by positivity) hy1
    have l1 := Real.log_le_log (by positivity) hy1
    have l2 := Real.log_le_log hy0 hy2
    rw [Real.log_zpow] at l1 l2
    push_cast at l1 l2
    have b1 := Real.log_two_gt_d9
    have b2 := Real.log_two_lt_d9
    have h := hlog y hy0
    rw [abs_of_neg (by linarith : Real.log y < 0), abs_le] at h
    obtain ⟨k, hk⟩ := (hf y hy0).multiple (e := 1) (by rw [abs_of_neg (by linarith)]; norm_num; linarith)
    have e51 : (1 : ℤ) - (53 : ℕ) + 1 = -51 := by norm_num
    rw [e51] at hk
    refine ⟨k, hk, ?_, ?_⟩
    · have : (-(3 * 2 ^ 51) : ℝ) ≤ k := by
        have h1 : -3 ≤ k * (2 : ℝ) ^ (-51 : ℤ) := by rw [← hk]; linarith
        have h2 := mul_le_mul_of_nonneg_right h1 (by positivity : (0 : ℝ) ≤ 2 ^ 51)
        rw [mul_assoc, show (2 : ℝ) ^ (-51 : ℤ) * 2 ^ 51 = 1 by norm_num] at h2
        linarith
      exact_mod_cast this
    · have : (k : ℝ) ≤ -(2 * 2 ^ 51) := by
        have h1 : k * (2 : ℝ) ^ (-51 : ℤ) ≤ -2 := by rw [← hk]; linarith
        have h2 := mul_le_mul_of_nonneg_right h1 (by positivity : (0 : ℝ) ≤ 2 ^ 51)
        rw [mul_assoc, show (2 : ℝ) ^ (-51 : ℤ) * 2 ^ 51 = 1 by norm_num] at h2
        linarith
      exact_mod_cast this
  choose! k hk using key
  obtain ⟨m, hm, n, hn, hmn, he⟩ := Finset.exists_ne_map_eq_of_card_lt_of_maps_to (s := Finset.range (2 ^ 52))
    (t := Finset.Icc (-(3 * 2 ^ 51) : ℤ) (-(2 * 2 ^ 51))) (f := k) (by rw [Int.card_Icc, Finset.card_range]; norm_num)
    (fun m hm => by
      have h := hk m (Finset.mem_range.1 hm)
      exact Finset.mem_coe.2 (Finset.mem_Icc.2 ⟨h.2.1, h.2.2⟩))
  rw [Finset.mem_range] at hm hn
  have fl : ∀ m : ℕ, m < 2 ^ 52 → IsFloat 53 (((2 ^ 52 + m : ℤ) : ℝ) * (2 : ℝ) ^ (-56 : ℤ)) ∧ 1 / 16 ≤ ((2 ^ 52 + m : ℤ) : ℝ) * (2 : ℝ) ^ (-56 : ℤ) ∧
      ((2 ^ 52 + m : ℤ) : ℝ) * (2 : ℝ) ^ (-56 : ℤ) ≤ 1 / 8 := by
    intro m hm
    have hm' : (m : ℝ) < 2 ^ 52 := by exact_mod_cast hm
    have hm0 : (0 : ℝ) ≤ m := Nat.cast_nonneg m
    refine ⟨⟨_, _, ?_, rfl⟩, ?_, ?_⟩
    · have : (m : ℤ) < 2 ^ 52 := by exact_mod_cast hm
      rw [abs_of_nonneg (by positivity)]
      norm_num at this ⊢
      linarith
    · push_cast; norm_num; linarith
    · push_cast; norm_num; linarith
  refine ⟨_, _, (fl m hm).1, (fl n hn).1, (fl m hm).2.1, (fl m hm).2.2, (fl n hn).2.1, (fl n hn).2.2, ?_, ?_⟩
  · intro h
    have h1 := mul_right_cancel₀ (by positivity) h
    have h2 : (2 ^ 52 + m : ℤ) = 2 ^ 52 + n := by exact_mod_cast h1
    exact hmn (by exact_mod_cast add_left_cancel h2)
  · rw [(hk m hm).1, (hk n hn).1, he]

theorem logLinear_one (R : Rounding 53 rnd) (hl1 : log 1 = 0) {y : ℝ} (hy : 0 < y) (hf : IsFloat 53 (log y)) :
    Rounded.logLinear rnd exp log [0, 1] [1, y] 1 = .ok (exp (log y)) := by
  have h := logLinear_eq (rnd := rnd) (exp := exp) (log := log) (pts := [(0, 1), (1, y)]) (by simp [hy]) 1
  have h2 := roundedLinear R (by norm_num) (pts := [(0, log 1), (1, log y)]) (by simp) (a := (0, log 1)) (b := (1, log y))
    ⟨by simp, by simp, by norm_num, by simp⟩ (x := 1) (by norm_num) (by norm_num)
  simp only [List.map_cons, List.map_nil] at h h2
  rw [h, h2]
  have m1 : rnd (-1) = -1 := R.eq_self (IsFloat.one (by norm_num)).neg
  have m2 := hf.neg
  simp only [hl1, zero_sub, zero_add, sub_zero, m1, R.eq_self hf, mul_neg, mul_one, R.eq_self m2, neg_div_neg_eq, div_one]
  rfl

theorem logLinearRate_one (R : Rounding 53 rnd) {y : ℝ} (hy : 0 < y) (hf : IsFloat 53 (log y)) :
    Rounded.logLinearRate rnd exp log [0, 1] [1, y] 1 = .ok (some (exp (log y))) := by
  have h := logLinearRate_eq (rnd := rnd) (exp := exp) (log := log) (pts := [(0, 1), (1, y)]) (by simp [hy]) (x := 1) (by norm_num)
  have e : Rounded.linearCall rnd (Pts.new [(1 : ℝ)] [log y]) 1 = .ok (log y) := rfl
  simp only [List.map_cons, List.map_nil, List.filter_cons, ne_eq, not_true_eq_false, decide_false, one_ne_zero, not_false_eq_true, decide_true, List.filter_nil,
    if_true, Bool.false_eq_true, if_false, div_one, R.eq_self hf] at h
  rw [h, e]
  simp only [Py.map_ok, mul_one, R.eq_self hf]

/-- C184: no exponential function gives all points back: a curve with value one at zero misses its second point for some value between 1/16 and 1/8, with both interpolations,
because two such values have the same logarithm. -/
theorem C184_node_violated (R : Rounding 53 rnd) (exp : ℝ → ℝ) (hf : ∀ y, 0 < y → IsFloat 53 (log y)) (hlog : ∀ y, 0 < y → |log y - Real.log y| ≤ 0.01 * |Real.log y|) :
    ∃ y : ℝ, IsFloat 53 y ∧ 1 / 16 ≤ y ∧ y ≤ 1 / 8 ∧ Rounded.logLinear rnd exp log [0, 1] [1, y] 1 ≠ .ok y ∧
      Rounded.logLinearRate rnd exp log [0, 1] [1, y] 1 ≠ .ok (some y) := by
  obtain ⟨y, y', f, f', a, b, a', b', hne, he⟩ := same_log hf hlog
  have hl1 : log 1 = 0 := by simpa using hlog 1 one_pos
  have hy : 0 < y := by linarith
  have hy' : 0 < y' := by linarith
  by_cases h : exp (log y) = y
  · refine ⟨y', f', a', b', ?_, ?_⟩
    · rw [logLinear_one R hl1 hy' (hf _ hy'), ← he, h]; simpa using hne
    · rw [logLinearRate_one R hy' (hf _ hy'), ← he, h]; simpa using hne
  · refine ⟨y, f, a, b, ?_, ?_⟩
    · rw [logLinear_one R hl1 hy (hf _ hy)]; simpa using h
    · rw [logLinearRate_one R hy (hf _ hy)]; simpa using h

/-- C184: given points come back up to a relative error, that of the exponential function and that of `w + 14 u (1 + w)` times the larger logarithm: at the upper point of
neighbours, and exactly `exp(log(y))` at the first point. -/
theorem C184_node (R : Rounding p rnd) (hp : 4 ≤ p) {v w : ℝ} (hexp : ∀ x, |exp x - Real.exp x| ≤ v * Real.exp x)
    (hlog : ∀ y, 0 < y → |log y - Real.log y| ≤ w * |Real.log y|) (hf : ∀ y, 0 < y → IsFloat p (log y)) {pts : List (ℝ × ℝ)} (hn : (pts.map Prod.fst).Nodup)
    (hpos : ∀ q ∈ pts, 0 < q.2) :
    (∀ a b, Spec.Neighbours pts a b → ∃ r, Rounded.logLinear rnd exp log (pts.map Prod.fst) (pts.map Prod.snd) b.1 = .ok r ∧
      |r - b.2| ≤ ((1 + v) * Real.exp ((w + 14 * (2 : ℝ) ^ (-(p : ℤ)) * (1 + w)) * max |Real.log a.2| |Real.log b.2|) - 1) * b.2) ∧
    ∀ a ∈ pts, (∀ b ∈ pts, a.1 ≤ b.1) → Rounded.logLinear rnd exp log (pts.map Prod.fst) (pts.map Prod.snd) a.1 = .ok (exp (log a.2)) := by
  constructor
  · intro a b hab
    obtain ⟨r, h1, h2⟩ := C184_log_linear R hp hexp hlog hn hpos hab hab.2.2.1 le_rfl
    refine ⟨r, h1, ?_⟩
    have : b.1 - a.1 ≠ 0 := by linarith [hab.2.2.1]
    rwa [div_self this, mul_one, add_sub_cancel, Real.exp_log (hpos b hab.2.1)] at h2
  · intro a ha hmin
    have hn' : ((pts.map fun q => (q.1, log q.2)).map Prod.fst).Nodup := by
      simpa [Function.comp_def] using hn
    have h := (C167_exact R hp hn' (by
      intro q hq
      obtain ⟨q', hq', rfl⟩ := List.mem_map.1 hq
      exact hf _ (hpos q' hq'))).2 (a.1, log a.2) (List.mem_map.2 ⟨a, ha, rfl⟩) (by
      intro q hq
      obtain ⟨q', hq', rfl⟩ := List.mem_map.1 hq
      exact hmin q' hq')
    rw [logLinear_eq hpos, h]; rfl

/-! ### Examples -/

theorem exInterpPts (i : ℝ × ℝ) (h : i ∈ [((0 : ℝ), (1 : ℝ)), (1, 2), (3, 5)]) : 0 < i.2 := by
  simp only [List.mem_cons, List.not_mem_nil, or_false] at h
  rcases h with rfl | rfl | rfl <;> norm_num

theorem exInterpNodup : ([((0 : ℝ), (1 : ℝ)), (1, 2), (3, 5)].map Prod.fst).Nodup := by simp

theorem exInterpNeighbours : Spec.Neighbours [((0 : ℝ), (1 : ℝ)), (1, 2), (3, 5)] (1, 2) (3, 5) := by
  refine ⟨by simp, by simp, by norm_num, ?_⟩
  intro r h
  simp only [List.mem_cons, List.not_mem_nil, or_false] at h
  rcases h with rfl | rfl | rfl <;> norm_num

theorem exInterpRate : Spec.Neighbours ([((0 : ℝ), (1 : ℝ)), (1, 2), (3, 5)].filter fun q => q.1 ≠ 0) (1, 2) (3, 5) := by
  refine ⟨by simp, by simp, by norm_num, ?_⟩
  intro r h
  simp [List.filter_cons] at h
  rcases h with rfl | rfl <;> norm_num

theorem rounded_log (R : Rounding p rnd) (hp : 1 ≤ p) (y : ℝ) (_ : 0 < y) : |rnd (Real.log y) - Real.log y| ≤ (2 : ℝ) ^ (-(p : ℤ)) * |Real.log y| := R.err hp _

example := C184_unrounded [0, 1, 3] [1, 2, 5] 2

example (R : Rounding 53 rnd) : ∃ r, Rounded.logLinear rnd Real.exp (fun y => rnd (Real.log y)) [0, 1, 3] [1, 2, 5] 2 = .ok r := by
  obtain ⟨r, h, -⟩ := C184_log_linear R (by norm_num) exact_exp (rounded_log R (by norm_num)) exInterpNodup exInterpPts exInterpNeighbours (x := 2) (by norm_num) (by norm_num)
  exact ⟨r, h⟩

example (R : Rounding 53 rnd) : ∃ r, Rounded.logLinearRate rnd Real.exp (fun y => rnd (Real.log y)) [0, 1, 3] [1, 2, 5] 2 = .ok (some r) := by
  obtain ⟨r, h, -⟩ := C184_log_linear_rate R (by norm_num) exact_exp (rounded_log R (by norm_num)) exInterpNodup exInterpPts exInterpRate (x := 2) (by norm_num) (by norm_num) (by norm_num)
  exact ⟨r, h⟩

example (R : Rounding 53 rnd) : ∃ r, Rounded.logConstantRate rnd Real.exp (fun y => rnd (Real.log y)) [0, 1, 3] [1, 2, 5] 4 = .ok (some r) := by
  obtain ⟨r, h, -⟩ := C184_log_constant_rate R (by norm_num) exact_exp (rounded_log R (by norm_num)) exInterpNodup exInterpPts (3, 5) (by simp) (by norm_num) 4 (by norm_num)
    (.inr ⟨by
      intro q h h'
      simp only [List.mem_cons, List.not_mem_nil, or_false] at h
      rcases h with rfl | rfl | rfl <;> norm_num, by norm_num⟩)
  exact ⟨r, h⟩

example (R : Rounding 53 rnd) := C184_order R (by norm_num) Real.exp_monotone (log := fun y => rnd (Real.log y)) (fun x y h h' => R.mono (Real.log_le_log h h'))
  (fun y _ => R.float _) exInterpNodup exInterpPts exInterpNeighbours (by norm_num) (x := 2) (x' := 5 / 2) (by norm_num) (by norm_num) (by norm_num)

example (R : Rounding 53 rnd) := C184_node R (by norm_num) exact_exp (rounded_log R (by norm_num)) (fun y _ => R.float _) exInterpNodup exInterpPts

example : ∃ rnd, ∃ y : ℝ, IsFloat 53 y ∧ Rounded.logLinear rnd Real.exp (fun y => rnd (Real.log y)) [0, 1] [1, y] 1 ≠ .ok y := by
  obtain ⟨rnd, R⟩ := exists_rounding (p := 53) (by norm_num)
  obtain ⟨y, h1, -, -, h2, -⟩ := C184_node_violated (log := fun y => rnd (Real.log y)) R Real.exp (fun y _ => R.float _) (fun y hy =>
    (rounded_log R (by norm_num) y hy).trans (mul_le_mul_of_nonneg_right (by norm_num) (abs_nonneg _)))
  exact ⟨rnd, y, h1, h2⟩

end Dcf
