import Verif.Model.Rounded
import Mathlib.Data.Int.Log
import Mathlib.Algebra.Order.Round
import Mathlib.Tactic.Linarith
import Mathlib.Tactic.Positivity
import Mathlib.Tactic.FieldSimp

/-! # Rounding to nearest: monotone, exact on floats, small relative error; it exists -/

set_option linter.unusedSectionVars false
set_option linter.unusedSimpArgs false
set_option linter.unusedVariables false

namespace Dcf

variable {p : ℕ} {rnd : ℝ → ℝ}

theorem IsFloat.zero : IsFloat p 0 := ⟨0, 0, by simp, by simp⟩

theorem IsFloat.neg {x : ℝ} (h : IsFloat p x) : IsFloat p (-x) := by
  obtain ⟨m, e, h1, h2⟩ := h
  exact ⟨-m, e, by rwa [abs_neg], by rw [h2]; push_cast; ring⟩

theorem IsFloat.two_zpow (hp : 1 ≤ p) (e : ℤ) : IsFloat p ((2 : ℝ) ^ e) := by
  refine ⟨1, e, ?_, by simp⟩
  rw [abs_one]
  exact one_lt_pow₀ (by norm_num) (by omega)

theorem IsFloat.one (hp : 1 ≤ p) : IsFloat p 1 := by simpa using IsFloat.two_zpow hp 0

theorem IsFloat.int {m : ℤ} (h : |m| < 2 ^ p) : IsFloat p (m : ℝ) := ⟨m, 0, h, by simp⟩

/-- A mantissa of `2 ^ p` is allowed as well. -/
theorem IsFloat.of_le (hp : 1 ≤ p) {m : ℤ} {e : ℤ} (h : |m| ≤ 2 ^ p) : IsFloat p (m * (2 : ℝ) ^ e) := by
  rcases lt_or_eq_of_le h with h | h
  · exact ⟨m, e, h, rfl⟩
  · have key : IsFloat p ((2 : ℝ) ^ p * (2 : ℝ) ^ e) := by
      have := IsFloat.two_zpow hp ((p : ℤ) + e)
      rwa [zpow_add₀ (by norm_num), zpow_natCast] at this
    rcases abs_choice m with hm | hm
    · rw [hm] at h
      rw [h]; push_cast; exact key
    · rw [hm] at h
      have : m = -(2 ^ p) := by omega
      rw [this]; push_cast
      rw [neg_mul]; exact key.neg

namespace Rounding
variable (R : Rounding p rnd)
include R

theorem eq_self {x : ℝ} (h : IsFloat p x) : rnd x = x := by
  have := R.nearest x x h
  simp only [sub_self, abs_zero] at this
  exact sub_eq_zero.1 (abs_nonpos_iff.1 this)

theorem zero : rnd 0 = 0 := R.eq_self IsFloat.zero

theorem one (hp : 1 ≤ p) : rnd 1 = 1 := R.eq_self (IsFloat.one hp)

theorem idem (x : ℝ) : rnd (rnd x) = rnd x := R.eq_self (R.float x)

theorem mono : Monotone rnd := by
  intro x y hxy
  rcases eq_or_lt_of_le hxy with rfl | hlt
  · exact le_rfl
  by_contra hcon
  rw [not_le] at hcon
  have h1 := R.nearest x (rnd y) (R.float y)
  have h2 := R.nearest y (rnd x) (R.float x)
  have h1' := sq_le_sq.2 h1
  have h2' := sq_le_sq.2 h2
  nlinarith

theorem le_of_le {x f : ℝ} (h : x ≤ f) (hf : IsFloat p f) : rnd x ≤ f := by
  rw [← R.eq_self hf]; exact R.mono h

theorem ge_of_ge {x f : ℝ} (h : f ≤ x) (hf : IsFloat p f) : f ≤ rnd x := by
  rw [← R.eq_self hf]; exact R.mono h

theorem nonneg {x : ℝ} (h : 0 ≤ x) : 0 ≤ rnd x := R.ge_of_ge h IsFloat.zero

theorem nonpos {x : ℝ} (h : x ≤ 0) : rnd x ≤ 0 := R.le_of_le h IsFloat.zero

end Rounding

/-- The exponent of a number. -/
theorem exists_exponent {x : ℝ} (hx : x ≠ 0) : ∃ e : ℤ, (2 : ℝ) ^ e ≤ |x| ∧ |x| < (2 : ℝ) ^ (e + 1) := by
  have h0 : 0 < |x| := abs_pos.2 hx
  refine ⟨Int.log 2 |x|, ?_, ?_⟩
  · exact_mod_cast Int.zpow_log_le_self (R := ℝ) (b := 2) (by norm_num) h0
  · exact_mod_cast Int.lt_zpow_succ_log_self (R := ℝ) (b := 2) (by norm_num) |x|

/-- The nearest multiple of the spacing. -/
theorem exists_near (hp : 1 ≤ p) {x : ℝ} {e : ℤ} (h1 : (2 : ℝ) ^ e ≤ |x|) (h2 : |x| < (2 : ℝ) ^ (e + 1)) :
    ∃ m : ℤ, |m| ≤ 2 ^ p ∧ (∀ k : ℤ, |m * (2 : ℝ) ^ (e - p + 1) - x| ≤ |k * (2 : ℝ) ^ (e - p + 1) - x|) ∧
      |m * (2 : ℝ) ^ (e - p + 1) - x| ≤ (2 : ℝ) ^ (e - p) := by
  set s : ℝ := (2 : ℝ) ^ (e - p + 1) with hs
  have hs0 : 0 < s := zpow_pos (by norm_num) _
  have hm : ∀ k : ℤ, |k * s - x| = |x / s - k| * s := by
    intro k
    rw [abs_sub_comm, ← abs_of_pos hs0, ← abs_mul, abs_of_pos hs0]
    congr 1
    field_simp
  have hps : (2 : ℝ) ^ p * s = (2 : ℝ) ^ (e + 1) := by
    rw [hs, ← zpow_natCast, ← zpow_add₀ (by norm_num)]
    congr 1; ring
  refine ⟨round (x / s), ?_, fun k => ?_, ?_⟩
  · have hx : |x / s| < 2 ^ p := by
      rw [abs_div, abs_of_pos hs0, div_lt_iff₀ hs0, hps]; exact h2
    have hr := abs_sub_round (x / s)
    have h3 : |(round (x / s) : ℝ)| < 2 ^ p + 1 := by
      have := abs_sub_abs_le_abs_sub (round (x / s) : ℝ) (x / s)
      rw [abs_sub_comm] at this
      linarith
    have h4 : |round (x / s)| < 2 ^ p + 1 := by exact_mod_cast h3
    omega
  · rw [hm, hm]
    exact mul_le_mul_of_nonneg_right (round_le (x / s) k) hs0.le
  · rw [hm]
    have hr := abs_sub_round (x / s)
    have : (2 : ℝ) ^ (e - p) = 1 / 2 * s := by
      rw [hs, zpow_add₀ (by norm_num), zpow_one]; ring
    rw [this]
    exact mul_le_mul_of_nonneg_right hr hs0.le

/-- The relative error is at most half a unit in the last place. -/
theorem Rounding.err (R : Rounding p rnd) (hp : 1 ≤ p) (x : ℝ) : |rnd x - x| ≤ (2 : ℝ) ^ (-(p : ℤ)) * |x| := by
  by_cases hx : x = 0
  · subst hx; simp [R.zero]
  obtain ⟨e, h1, h2⟩ := exists_exponent hx
  obtain ⟨m, m1, m2, m3⟩ := exists_near hp h1 h2
  refine (R.nearest x _ (IsFloat.of_le hp m1)).trans (m3.trans ?_)
  rw [sub_eq_add_neg, add_comm, zpow_add₀ (by norm_num)]
  exact mul_le_mul_of_nonneg_left h1 (zpow_nonneg (by norm_num) _)

/-- A float not smaller than a power of two is a multiple of the spacing there. -/
theorem IsFloat.multiple {g : ℝ} {e : ℤ} (h : IsFloat p g) (hg : (2 : ℝ) ^ e ≤ |g|) : ∃ k : ℤ, g = k * (2 : ℝ) ^ (e - p + 1) := by
  obtain ⟨m, f, h1, rfl⟩ := h
  have hf : e - p + 1 ≤ f := by
    by_contra hcon
    have h3 : |((m : ℤ) : ℝ)| < 2 ^ p := by exact_mod_cast h1
    have h4 : |(m : ℝ) * 2 ^ f| < (2 : ℝ) ^ ((p : ℤ) + f) := by
      rw [abs_mul, abs_of_pos (zpow_pos (by norm_num : (0 : ℝ) < 2) f), zpow_add₀ (by norm_num), zpow_natCast]
      exact mul_lt_mul_of_pos_right h3 (zpow_pos (by norm_num) _)
    have h5 : (2 : ℝ) ^ ((p : ℤ) + f) ≤ (2 : ℝ) ^ e := zpow_le_zpow_right₀ (by norm_num) (by omega)
    linarith
  refine ⟨m * 2 ^ (f - (e - p + 1)).toNat, ?_⟩
  push_cast
  rw [mul_assoc, ← zpow_natCast, ← zpow_add₀ (by norm_num), Int.toNat_of_nonneg (by omega)]
  congr 2; ring

/-- There are roundings to nearest for every precision. -/
theorem exists_rounding (hp : 1 ≤ p) : ∃ rnd, Rounding p rnd := by
  have key : ∀ x : ℝ, ∃ f, IsFloat p f ∧ ∀ g, IsFloat p g → |f - x| ≤ |g - x| := by
    intro x
    by_cases hx : x = 0
    · subst hx; exact ⟨0, IsFloat.zero, fun g _ => by simp⟩
    obtain ⟨e, h1, h2⟩ := exists_exponent hx
    obtain ⟨m, m1, m2, m3⟩ := exists_near hp h1 h2
    refine ⟨_, IsFloat.of_le (e := e - p + 1) hp m1, fun g hg => ?_⟩
    by_cases hge : (2 : ℝ) ^ e ≤ |g|
    · obtain ⟨k, rfl⟩ := hg.multiple hge
      exact m2 k
    · rw [not_le] at hge
      have hpow : ∃ k : ℤ, (2 : ℝ) ^ e = k * (2 : ℝ) ^ (e - p + 1) := by
        refine (IsFloat.two_zpow hp e).multiple ?_
        rw [abs_of_pos (zpow_pos (by norm_num) _)]
      obtain ⟨k, hk⟩ := hpow
      rcases le_total 0 x with h0 | h0
      · refine (m2 k).trans ?_
        rw [← hk]
        rw [abs_of_nonneg h0] at h1
        have hg' := (abs_lt.1 hge).2
        rw [abs_of_nonpos (by linarith), abs_of_nonpos (by linarith)]
        linarith
      · refine (m2 (-k)).trans ?_
        push_cast
        rw [neg_mul, ← hk]
        rw [abs_of_nonpos h0] at h1
        have hg' := (abs_lt.1 hge).1
        rw [abs_of_nonneg (by linarith), abs_of_nonneg (by linarith)]
        linarith
  choose f h1 h2 using key
  exact ⟨f, h1, h2⟩

/-- Rounding as a relative error. -/
theorem Rounding.factor (R : Rounding p rnd) (hp : 1 ≤ p) (x : ℝ) : ∃ δ, |δ| ≤ (2 : ℝ) ^ (-(p : ℤ)) ∧ rnd x = x * (1 + δ) := by
  by_cases hx : x = 0
  · subst hx; exact ⟨0, by rw [abs_zero]; exact zpow_nonneg (by norm_num) _, by simp [R.zero]⟩
  · refine ⟨(rnd x - x) / x, ?_, by field_simp; ring⟩
    rw [abs_div, div_le_iff₀ (abs_pos.2 hx)]
    exact R.err hp x

end Dcf
