import Verif.Props.RoundedValue
import Verif.Props.Bracket

/-! # C171: bracketing and yields in floating point arithmetic -/

set_option linter.unusedSectionVars false
set_option linter.unusedSimpArgs false
set_option linter.unusedVariables false

namespace Dcf

section
variable {p : ℕ} {rnd : ℝ → ℝ}

/-! ### Without rounding -/

theorem lift_neg (func : ℝ → Py ℝ) :
    negFunc (fun x => (PyM.lift (func x) : PyM Unit ℝ)) = fun x => PyM.lift ((fun y => -y) <$> func x) := by
  funext x s
  cases h : func x <;> simp [negFunc, PyM.lift, h, PyM.andThen, bind, pure]

theorem lift_ok_bind {α β : Type} (a : α) (f : α → PyM Unit β) (s : Unit) : (PyM.lift (.ok a) >>= f) s = f a s := rfl

theorem lift_error_bind {α β : Type} (e : PyErr) (f : α → PyM Unit β) (s : Unit) : (PyM.lift (.error e) >>= f) s = (.error e, s) := rfl

/-- With exact arithmetic this is the bracketing of C56 and C57. -/
theorem C171_unrounded (precision : ℝ) (limit : ℕ) (func : ℝ → Py ℝ) (a b : ℝ) :
    bracket precision limit (fun x => (PyM.lift (func x) : PyM Unit ℝ)) a b () = (Rounded.bracket id precision limit func a b, ()) := by
  induction limit generalizing func a b with
  | zero => rfl
  | succ n ih =>
    rw [bracket, Rounded.bracket]
    cases ha : func a with
    | error e => rfl
    | ok fa =>
      rw [lift_ok_bind]
      cases hb : func b with
      | error e => rfl
      | ok fb =>
        rw [lift_ok_bind]
        simp only [Py.ok_bind, id, orient, lift_neg, narrow]
        by_cases h1 : fb < fa
        · simp only [h1, if_true]
          split_ifs with h2 h3
          · rfl
          · cases func (a + (b - a) * (1 / 2)) with
            | error e => rfl
            | ok y => exact ih _ _ _
          · rfl
        · simp only [h1, if_false]
          split_ifs with h2 h3
          · rfl
          · cases func (a + (b - a) * (1 / 2)) with
            | error e => rfl
            | ok y => exact ih _ _ _
          · rfl

/-! ### Midpoints -/

theorem IsFloat.half {x : ℝ} (h : IsFloat p x) : IsFloat p (x * (1 / 2)) := by
  obtain ⟨m, e, h1, rfl⟩ := h
  exact ⟨m, e - 1, h1, by rw [zpow_sub_one₀ (by norm_num)]; ring⟩

theorem mid_between_float (R : Rounding p rnd) (hp : 1 ≤ p) {a b : ℝ} (hab : a ≤ b) (ha : IsFloat p a) (hb : IsFloat p b) :
    a ≤ rnd (a + rnd (rnd (b - a) * (1 / 2))) ∧ rnd (a + rnd (rnd (b - a) * (1 / 2))) ≤ b := by
  rw [R.eq_self (R.float (b - a)).half]
  have h0 := R.nonneg (sub_nonneg.2 hab)
  have h1 := R.err hp (b - a)
  rw [abs_of_nonneg (sub_nonneg.2 hab)] at h1
  have hu : (2 : ℝ) ^ (-(p : ℤ)) ≤ 1 := zpow_le_one_of_nonpos₀ (by norm_num) (by omega)
  have h2 := (abs_le.1 h1).2
  have h3 := mul_le_mul_of_nonneg_right hu (sub_nonneg.2 hab)
  exact ⟨R.ge_of_ge (by linarith) ha, R.le_of_le (by linarith) hb⟩

/-- Both halves are shorter by a third, as long as the interval is not too short for floats. -/
theorem mid_shrinks (R : Rounding p rnd) (hp : 4 ≤ p) {a b B : ℝ} (hab : a ≤ b) (hB : |a| ≤ B) (hB' : |b| ≤ B)
    (hw : 16 * (2 : ℝ) ^ (-(p : ℤ)) * B ≤ b - a) :
    rnd (a + rnd (rnd (b - a) * (1 / 2))) - a ≤ 2 / 3 * (b - a) ∧ b - rnd (a + rnd (rnd (b - a) * (1 / 2))) ≤ 2 / 3 * (b - a) := by
  rw [R.eq_self (R.float (b - a)).half]
  have hu := ulp_le hp
  have hu0 : 0 ≤ (2 : ℝ) ^ (-(p : ℤ)) := ulp_nonneg
  have hw0 := sub_nonneg.2 hab
  have h0 := R.nonneg hw0
  have h1 := R.err (by omega) (b - a)
  rw [abs_of_nonneg hw0] at h1
  have h1u := (abs_le.1 h1).2
  have h1l := (abs_le.1 h1).1
  have h3 := mul_le_mul_of_nonneg_right hu hw0
  have hm : |a + rnd (b - a) * (1 / 2)| ≤ B := by
    rw [abs_le] at *
    constructor <;> linarith
  have h2 := R.err (by omega) (a + rnd (b - a) * (1 / 2))
  have h4 := h2.trans (mul_le_mul_of_nonneg_left hm hu0)
  rw [abs_le] at h4
  constructor <;> linarith

/-! ### The steps -/

/-- The descending case is the ascending case of the negated function. -/
theorem bracket_neg (precision : ℝ) (limit : ℕ) {g : ℝ → ℝ} {a b : ℝ} (h : g b < g a) :
    Rounded.bracket rnd precision limit (fun x => .ok (g x)) a b = Rounded.bracket rnd precision limit (fun x => .ok (-g x)) a b := by
  cases limit with
  | zero => rfl
  | succ n =>
    have h' : ¬ -g b < -g a := by linarith
    rw [Rounded.bracket, Rounded.bracket]
    simp only [Py.ok_bind, h, h', if_true, if_false, Py.map_ok]
    have e : (-g a ≤ 0 ∧ 0 ≤ -g b) ↔ (g b ≤ 0 ∧ 0 ≤ g a) := by
      constructor <;> rintro ⟨h1, h2⟩ <;> constructor <;> linarith
    rw [show -g b - -g a = g a - g b by ring]
    simp only [e]

/-- One call in the ascending case. -/
theorem bracket_step_float (precision : ℝ) (limit : ℕ) {g : ℝ → ℝ} {a b : ℝ} (ha : g a ≤ 0) (hb : 0 ≤ g b) :
    Rounded.bracket rnd precision (limit + 1) (fun x => .ok (g x)) a b =
      let m := rnd (a + rnd (rnd (b - a) * (1 / 2)))
      if |rnd (b - a)| < precision ∧ |rnd (g b - g a)| < precision then .ok (a, m, b)
      else if g m < 0 then Rounded.bracket rnd precision limit (fun x => .ok (g x)) m b
      else Rounded.bracket rnd precision limit (fun x => .ok (g x)) a m := by
  have h : ¬ g b < g a := by linarith
  rw [Rounded.bracket]
  simp only [Py.ok_bind, h, if_false, ha, hb, and_self, not_true_eq_false]
  split_ifs <;> rfl

/-- What is known of a run in the ascending case. -/
theorem bracket_run_float (R : Rounding p rnd) (hp : 1 ≤ p) {precision : ℝ} {g : ℝ → ℝ} {a₀ b₀ : ℝ} (limit : ℕ) {a b : ℝ} (hab : a ≤ b)
    (h0 : a₀ ≤ a) (h1 : b ≤ b₀) (fa : IsFloat p a) (fb : IsFloat p b) (ha : g a ≤ 0) (hb : 0 ≤ g b) :
    Rounded.bracket rnd precision limit (fun x => .ok (g x)) a b = .error .recursion ∨
      ∃ a' b', Rounded.bracket rnd precision limit (fun x => .ok (g x)) a b = .ok (a', rnd (a' + rnd (rnd (b' - a') * (1 / 2))), b') ∧
        a₀ ≤ a' ∧ a' ≤ b' ∧ b' ≤ b₀ ∧ IsFloat p a' ∧ IsFloat p b' ∧ g a' ≤ 0 ∧ 0 ≤ g b' ∧ (g a < 0 → g a' < 0) ∧
        |rnd (b' - a')| < precision ∧ |rnd (g b' - g a')| < precision := by
  induction limit generalizing a b with
  | zero => exact .inl rfl
  | succ n ih =>
    rw [bracket_step_float precision n ha hb]
    dsimp only
    have hm := mid_between_float R hp hab fa fb
    have fm := R.float (a + rnd (rnd (b - a) * (1 / 2)))
    split_ifs with h2 h3
    · exact .inr ⟨a, b, rfl, h0, hab, h1, fa, fb, ha, hb, id, h2⟩
    · rcases ih hm.2 (h0.trans hm.1) h1 fm fb h3.le hb with h | ⟨a', b', k1, k2, k3, k4, k5, k6, k7, k8, k9, k10⟩
      · exact .inl h
      · exact .inr ⟨a', b', k1, k2, k3, k4, k5, k6, k7, k8, fun _ => k9 h3, k10⟩
    · exact ih hm.1 h0 (hm.2.trans h1) fa fm ha (not_lt.1 h3)

/-- Enough calls end in the ascending case. -/
theorem bracket_ends (R : Rounding p rnd) (hp : 4 ≤ p) {precision : ℝ} {g : ℝ → ℝ} {B : ℝ}
    {a₀ b₀ : ℝ} (hB : ∀ x, a₀ ≤ x → x ≤ b₀ → |x| ≤ B)
    (hend : ∀ x y, a₀ ≤ x → x ≤ y → y ≤ b₀ → y - x ≤ 16 * (2 : ℝ) ^ (-(p : ℤ)) * B → |rnd (y - x)| < precision ∧ |rnd (g y - g x)| < precision)
    (n : ℕ) {a b : ℝ} (hab : a ≤ b) (h0 : a₀ ≤ a) (h1 : b ≤ b₀) (fa : IsFloat p a) (fb : IsFloat p b) (ha : g a ≤ 0) (hb : 0 ≤ g b)
    (hn : (2 / 3 : ℝ) ^ n * (b - a) ≤ 16 * (2 : ℝ) ^ (-(p : ℤ)) * B) {limit : ℕ} (hl : n < limit) :
    ∃ r, Rounded.bracket rnd precision limit (fun x => .ok (g x)) a b = .ok r := by
  induction n generalizing a b limit with
  | zero =>
    obtain ⟨l, rfl⟩ := Nat.exists_eq_succ_of_ne_zero (by omega : limit ≠ 0)
    rw [bracket_step_float precision l ha hb]
    dsimp only
    rw [if_pos (hend a b h0 hab h1 (by simpa using hn))]
    exact ⟨_, rfl⟩
  | succ n ih =>
    obtain ⟨l, rfl⟩ := Nat.exists_eq_succ_of_ne_zero (by omega : limit ≠ 0)
    rw [bracket_step_float precision l ha hb]
    dsimp only
    have hm := mid_between_float R (by omega) hab fa fb
    have fm := R.float (a + rnd (rnd (b - a) * (1 / 2)))
    by_cases hw : b - a ≤ 16 * (2 : ℝ) ^ (-(p : ℤ)) * B
    · rw [if_pos (hend a b h0 hab h1 hw)]
      exact ⟨_, rfl⟩
    · obtain ⟨s1, s2⟩ := mid_shrinks R hp hab (hB a h0 (hab.trans h1)) (hB b (h0.trans hab) h1) (not_le.1 hw).le
      have hq : (0 : ℝ) ≤ (2 / 3) ^ n := by positivity
      have q1 := mul_le_mul_of_nonneg_left s1 hq
      have q2 := mul_le_mul_of_nonneg_left s2 hq
      rw [pow_succ, mul_assoc] at hn
      split_ifs with h2 h3
      · exact ⟨_, rfl⟩
      · exact ih hm.2 (h0.trans hm.1) h1 fm fb h3.le hb (q2.trans hn) (by omega)
      · exact ih hm.1 h0 (hm.2.trans h1) fa fm ha (not_lt.1 h3) (q1.trans hn) (by omega)

/-! ### C171 -/

theorem rnd_abs_lt (R : Rounding p rnd) {x q : ℝ} (hq : IsFloat p q) (h : |rnd x| < q) : |x| < q := by
  by_contra hc
  rcases le_abs.1 (not_lt.1 hc) with h1 | h1
  · exact absurd (R.ge_of_ge h1 hq) (not_le.2 (lt_of_abs_lt h))
  · have := R.le_of_le (by linarith : x ≤ -q) hq.neg
    have := (abs_lt.1 h).1
    linarith

/-- Refused exactly if both values have the same strict sign. -/
theorem C171_refuses (R : Rounding p rnd) (hp : 1 ≤ p) (g : ℝ → ℝ) (precision : ℝ) {limit : ℕ} (hl : limit ≠ 0) {a b : ℝ} (hab : a ≤ b)
    (fa : IsFloat p a) (fb : IsFloat p b) :
    Rounded.bracket rnd precision limit (fun x => .ok (g x)) a b = .error .assertion ↔ 0 < g a * g b := by
  have key : ∀ g : ℝ → ℝ, g a ≤ g b → (Rounded.bracket rnd precision limit (fun x => .ok (g x)) a b = .error .assertion ↔ 0 < g a * g b) := by
    intro g hg
    by_cases h : g a ≤ 0 ∧ 0 ≤ g b
    · have h1 : ¬ 0 < g a * g b := not_lt.2 (mul_nonpos_of_nonpos_of_nonneg h.1 h.2)
      rcases bracket_run_float (precision := precision) R hp limit hab le_rfl le_rfl fa fb h.1 h.2 with e | ⟨a', b', e, -⟩
      · simp [e, h1]
      · simp [e, h1]
    · obtain ⟨n, rfl⟩ := Nat.exists_eq_succ_of_ne_zero hl
      rw [Rounded.bracket]
      simp only [Py.ok_bind, not_lt.2 hg, if_false, h, not_false_eq_true, if_true, true_iff]
      rcases lt_or_ge 0 (g a) with h1 | h1
      · exact mul_pos h1 (h1.trans_le hg)
      · have : g b < 0 := by by_contra hc; exact h ⟨h1, not_lt.1 hc⟩
        exact mul_pos_of_neg_of_neg (hg.trans_lt this) this
  rcases lt_or_ge (g b) (g a) with h | h
  · rw [bracket_neg precision limit h, key (fun x => -g x) (by linarith), neg_mul_neg]
  · exact key g h

/-- What is returned lies within the bounds, encloses a change of sign and meets the precision. -/
theorem C171_result (R : Rounding p rnd) (hp : 1 ≤ p) {g : ℝ → ℝ} {precision : ℝ} (hq : IsFloat p precision) {limit : ℕ} {a b : ℝ} (hab : a ≤ b)
    (fa : IsFloat p a) (fb : IsFloat p b) {a' m b' : ℝ} (h : Rounded.bracket rnd precision limit (fun x => .ok (g x)) a b = .ok (a', m, b')) :
    a ≤ a' ∧ a' ≤ m ∧ m ≤ b' ∧ b' ≤ b ∧ b' - a' < precision ∧ g a' * g b' ≤ 0 ∧ |g b' - g a'| < precision := by
  have key : ∀ g : ℝ → ℝ, g a ≤ g b → Rounded.bracket rnd precision limit (fun x => .ok (g x)) a b = .ok (a', m, b') →
      a ≤ a' ∧ a' ≤ m ∧ m ≤ b' ∧ b' ≤ b ∧ b' - a' < precision ∧ g a' * g b' ≤ 0 ∧ |g b' - g a'| < precision := by
    intro g hg h
    have hs : g a ≤ 0 ∧ 0 ≤ g b := by
      by_contra hc
      cases limit with
      | zero => cases h
      | succ n =>
        rw [Rounded.bracket] at h
        simp only [Py.ok_bind, not_lt.2 hg, if_false, hc, not_false_eq_true, if_true] at h
        cases h
    rcases bracket_run_float (precision := precision) R hp limit hab le_rfl le_rfl fa fb hs.1 hs.2 with e | ⟨x, y, e, k1, k2, k3, k4, k5, k6, k7, k8, k9, k10⟩
    · rw [e] at h; cases h
    · rw [e] at h
      have hm := mid_between_float R hp k2 k4 k5
      obtain ⟨rfl, rfl, rfl⟩ : x = a' ∧ rnd (x + rnd (rnd (y - x) * (1 / 2))) = m ∧ y = b' := by
        have := Except.ok.inj h
        simpa only [Prod.mk.injEq] using this
      exact ⟨k1, hm.1, hm.2, k3, lt_of_abs_lt (rnd_abs_lt R hq k9), mul_nonpos_of_nonpos_of_nonneg k6 k7, rnd_abs_lt R hq k10⟩
  rcases lt_or_ge (g b) (g a) with h' | h'
  · rw [bracket_neg precision limit h'] at h
    obtain ⟨h1, h2, h3, h4, h5, h6, h7⟩ := key (fun x => -g x) (by linarith) h
    refine ⟨h1, h2, h3, h4, h5, by simpa using h6, ?_⟩
    rwa [show -g b' - -g a' = -(g b' - g a') by ring, abs_neg] at h7
  · exact key g h' h

/-- It ends if the function is close to a Lipschitz function, close for the precision asked for. -/
theorem C171_ends (R : Rounding p rnd) (hp : 4 ≤ p) {g f : ℝ → ℝ} {precision ε L B : ℝ} {a b : ℝ} (hab : a ≤ b) (fa : IsFloat p a) (fb : IsFloat p b)
    (hs : g a * g b ≤ 0) (hB : |a| ≤ B) (hB' : |b| ≤ B) (hε : ∀ x, a ≤ x → x ≤ b → |g x - f x| ≤ ε)
    (hL : ∀ x y, a ≤ x → x ≤ y → y ≤ b → |f y - f x| ≤ L * (y - x)) (hL0 : 0 ≤ L)
    (hq : 32 * (2 : ℝ) ^ (-(p : ℤ)) * B < precision) (hq' : 4 * ε + 32 * (2 : ℝ) ^ (-(p : ℤ)) * B * L < precision) :
    ∃ n, ∀ limit, n < limit → ∃ r, Rounded.bracket rnd precision limit (fun x => .ok (g x)) a b = .ok r := by
  have hu := ulp_le hp
  have hu0 : 0 < (2 : ℝ) ^ (-(p : ℤ)) := by positivity
  have hB0 : 0 ≤ B := (abs_nonneg _).trans hB
  have key : ∀ g : ℝ → ℝ, g a ≤ g b → g a * g b ≤ 0 → (∀ x y, a ≤ x → x ≤ y → y ≤ b → |g y - g x| ≤ 2 * ε + L * (y - x)) →
      ∃ n, ∀ limit, n < limit → ∃ r, Rounded.bracket rnd precision limit (fun x => .ok (g x)) a b = .ok r := by
    intro g hg hs hgL
    have hsa : g a ≤ 0 ∧ 0 ≤ g b := by
      constructor
      · by_contra hc; nlinarith
      · by_contra hc; nlinarith
    obtain ⟨n, hn⟩ : ∃ n : ℕ, (2 / 3 : ℝ) ^ n * (b - a) ≤ 16 * (2 : ℝ) ^ (-(p : ℤ)) * B := by
      rcases hB0.eq_or_lt with h | h
      · refine ⟨0, ?_⟩
        rw [← h] at hB hB'
        rw [abs_nonpos_iff.1 hB, abs_nonpos_iff.1 hB', ← h]; simp
      · obtain ⟨n, hn⟩ := exists_pow_lt_of_lt_one (by positivity : 0 < 16 * (2 : ℝ) ^ (-(p : ℤ)) * B / (b - a + 1)) (by norm_num : (2 / 3 : ℝ) < 1)
        refine ⟨n, ?_⟩
        have hw := sub_nonneg.2 hab
        rw [lt_div_iff₀ (by linarith)] at hn
        have : (0 : ℝ) ≤ (2 / 3) ^ n := by positivity
        nlinarith
    refine ⟨n, fun limit hl => bracket_ends R hp (B := B) (a₀ := a) (b₀ := b) (fun x h1 h2 => ?_) (fun x y h0 h1 h2 h3 => ?_) n hab le_rfl le_rfl fa fb
      hsa.1 hsa.2 hn hl⟩
    · rw [abs_le] at *
      constructor <;> linarith
    · have dbl : ∀ z : ℝ, |rnd z| ≤ 2 * |z| := by
        intro z
        have k1 := R.err (by omega) z
        have k2 := abs_sub_abs_le_abs_sub (rnd z) z
        have k3 := mul_le_mul_of_nonneg_right hu (abs_nonneg z)
        have := abs_nonneg z
        linarith
      constructor
      · refine (dbl _).trans_lt ?_
        rw [abs_of_nonneg (by linarith)]; linarith
      · refine (dbl _).trans_lt ?_
        have k1 := hgL x y h0 h1 h2
        have k2 := mul_le_mul_of_nonneg_left h3 hL0
        linarith
  have hgL : ∀ x y, a ≤ x → x ≤ y → y ≤ b → |g y - g x| ≤ 2 * ε + L * (y - x) := by
    intro x y h0 h1 h2
    have k1 := hε x h0 (h1.trans h2)
    have k2 := hε y (h0.trans h1) h2
    have k3 := hL x y h0 h1 h2
    rw [abs_le] at *
    constructor <;> linarith
  rcases lt_or_ge (g b) (g a) with h | h
  · obtain ⟨n, hn⟩ := key (fun x => -g x) (by linarith) (by simpa using hs) (fun x y h0 h1 h2 => by
      rw [show -g y - -g x = -(g y - g x) by ring, abs_neg]; exact hgL x y h0 h1 h2)
    exact ⟨n, fun limit hl => by rw [bracket_neg precision limit h]; exact hn limit hl⟩
  · exact key g h hs hgL

/-- It never ends if the values leave out a neighbourhood of zero. -/
theorem bracket_stuck (R : Rounding p rnd) (hp : 1 ≤ p) {g : ℝ → ℝ} {precision s : ℝ} (fs : IsFloat p s) (hps : precision ≤ s) (hs0 : 0 < s) {a b : ℝ} (hab : a ≤ b)
    (fa : IsFloat p a) (fb : IsFloat p b) (hs : g a * g b ≤ 0) (h0 : g a ≠ 0) (hg : ∀ x, a ≤ x → x ≤ b → IsFloat p x → g x = 0 ∨ s ≤ |g x|)
    (limit : ℕ) : Rounded.bracket rnd precision limit (fun x => .ok (g x)) a b = .error .recursion := by
  have key : ∀ g : ℝ → ℝ, g a < 0 → 0 ≤ g b → (∀ x, a ≤ x → x ≤ b → IsFloat p x → g x = 0 ∨ s ≤ |g x|) →
      Rounded.bracket rnd precision limit (fun x => .ok (g x)) a b = .error .recursion := by
    intro g h1 h2 hg
    rcases bracket_run_float (precision := precision) R hp limit hab le_rfl le_rfl fa fb h1.le h2 with e | ⟨x, y, e, k1, k2, k3, k4, k5, k6, k7, k8, k9, k10⟩
    · exact e
    · exfalso
      have hx := k8 h1
      have : s ≤ |g x| := (hg x k1 (k2.trans k3) k4).resolve_left hx.ne
      rw [abs_of_neg hx] at this
      have := R.ge_of_ge (by linarith : s ≤ g y - g x) fs
      have := lt_of_abs_lt k10
      linarith
  rcases lt_or_gt_of_ne h0 with h | h
  · exact key g h (by by_contra hc; nlinarith) hg
  · have hb : g b ≤ 0 := by by_contra hc; nlinarith
    rw [bracket_neg precision limit (by linarith : g b < g a)]
    exact key (fun x => -g x) (by linarith) (by linarith) (fun x h1 h2 h3 => by simpa using hg x h1 h2 h3)

/-- The difference of two amounts of the size `2 ^ e` is zero or not below the spacing of floats of that size. -/
theorem diff_large (R : Rounding p rnd) (hp : 1 ≤ p) {v w : ℝ} {e : ℤ} (hv : IsFloat p v) (hw : IsFloat p w) (h1 : (2 : ℝ) ^ e ≤ |v|) (h2 : (2 : ℝ) ^ e ≤ |w|) :
    rnd (v - w) = 0 ∨ (2 : ℝ) ^ (e - p + 1) ≤ |rnd (v - w)| := by
  obtain ⟨k, rfl⟩ := hv.multiple h1
  obtain ⟨l, rfl⟩ := hw.multiple h2
  rw [← sub_mul]
  have f := IsFloat.two_zpow hp (e - p + 1)
  have hpos : 0 < (2 : ℝ) ^ (e - p + 1) := by positivity
  rcases lt_trichotomy k l with h | h | h
  · right
    have : ((k : ℝ) - l) ≤ -1 := by have : (k : ℝ) + 1 ≤ l := by exact_mod_cast h
                                    linarith
    have := R.le_of_le (by nlinarith : ((k : ℝ) - l) * (2 : ℝ) ^ (e - p + 1) ≤ -(2 : ℝ) ^ (e - p + 1)) f.neg
    rw [le_abs]; right; linarith
  · left; subst h; simp [R.zero]
  · right
    have : 1 ≤ ((k : ℝ) - l) := by have : (l : ℝ) + 1 ≤ k := by exact_mod_cast h
                                   linarith
    have := R.ge_of_ge (by nlinarith : (2 : ℝ) ^ (e - p + 1) ≤ ((k : ℝ) - l) * (2 : ℝ) ^ (e - p + 1)) f
    rw [le_abs]; left; exact this

/-- Amounts of the size `2 ^ e`: if the precision is not above the spacing of floats of that size, bracketing recurses for ever. -/
theorem C171_amounts_violated (R : Rounding p rnd) (hp : 1 ≤ p) {value : ℝ → ℝ} {target precision : ℝ} {e : ℤ} (hq : precision ≤ (2 : ℝ) ^ (e - p + 1))
    {a b : ℝ} (hab : a ≤ b) (fa : IsFloat p a) (fb : IsFloat p b) (ft : IsFloat p target) (ht : (2 : ℝ) ^ e ≤ |target|)
    (hv : ∀ x, a ≤ x → x ≤ b → IsFloat p x → IsFloat p (value x) ∧ (2 : ℝ) ^ e ≤ |value x|)
    (hne : value a ≠ target) (hs : (value a - target) * (value b - target) ≤ 0) (limit : ℕ) :
    Rounded.bracket rnd precision limit (fun x => .ok (rnd (value x - target))) a b = .error .recursion := by
  have hva := hv a le_rfl hab fa
  have hpos : 0 < (2 : ℝ) ^ (e - p + 1) := by positivity
  refine bracket_stuck R hp (IsFloat.two_zpow hp _) hq hpos hab fa fb ?_ ?_ (fun x h1 h2 h3 => ?_) limit
  · rcases le_total (value a - target) 0 with h | h
    · rcases h.eq_or_lt with h' | h'
      · exact absurd (sub_eq_zero.1 h') hne
      · exact mul_nonpos_of_nonpos_of_nonneg (R.nonpos h) (R.nonneg (by by_contra hc; nlinarith))
    · rcases h.eq_or_lt with h' | h'
      · exact absurd (sub_eq_zero.1 h'.symm) hne
      · exact mul_nonpos_of_nonneg_of_nonpos (R.nonneg h) (R.nonpos (by by_contra hc; nlinarith))
  · intro h
    obtain ⟨k, hk⟩ := hva.1.multiple hva.2
    obtain ⟨l, hl⟩ := ft.multiple ht
    have h2 := R.err hp (value a - target)
    rw [h, zero_sub, abs_neg] at h2
    have hu : (2 : ℝ) ^ (-(p : ℤ)) < 1 := zpow_lt_one_of_neg₀ (by norm_num) (by omega)
    have h3 : 0 < |value a - target| := abs_pos.2 (sub_ne_zero.2 hne)
    nlinarith
  · obtain ⟨h4, h5⟩ := hv x h1 h2 h3
    exact diff_large R hp h4 ft h5 ht

/-- The error function of one payment after a year. -/
theorem yieldError_one (exp : ℝ → ℝ) (hid : ∀ x, rnd (rnd x) = rnd x) (N target x : ℝ) :
    Rounded.yieldError rnd exp [(1, N)] target x = .ok (rnd (rnd (exp (rnd (-x)) * N) - target)) := by
  have hz : Rounded.linearSchemeCall rnd (Pts.new [0] [x]) 1 = .ok x := by
    have e : Pts.new [0] [x] = Pts.new (([((0 : ℝ), x)] : List (ℝ × ℝ)).map Prod.fst) (([((0 : ℝ), x)] : List (ℝ × ℝ)).map Prod.snd) := rfl
    have hl : StrictX [((0 : ℝ), x)] := by simp [StrictX]
    rw [e, Pts_new_eq, sortPairs_eq_self hl]
    unfold Rounded.linearSchemeCall
    simp only [first_xs (List.cons_ne_nil _ _), last_xs (List.cons_ne_nil _ _), Py.ok_bind]
    split_ifs with h1 h2
    · exact leftCall_first hl (List.cons_ne_nil _ _) h1
    · exact leftCall_last hl (List.cons_ne_nil _ _) h2.le
    · norm_num at h2
  have hneg : rnd (rnd (-1 * x) * 1) = rnd (-x) := by rw [mul_one, hid, neg_one_mul]
  simp only [Rounded.yieldError, Rounded.zeroValue, pyMap, Rounded.zeroDiscount, Rounded.continuousCompounding, one_ne_zero, if_false, hz, Py.ok_bind,
    Rounded.sum, List.foldl, zero_add, hid, hneg, Py.pure_eq]

/-- A payment of at least `2 ^ 31` after one year, valued at par: with the default bounds and any precision up to `2 ^ -22`, so with the default
`1e-7`, no recursion limit is enough for the yield. -/
theorem C171_yield_violated (R : Rounding 53 rnd) {exp : ℝ → ℝ} (hexp : ∀ x, |exp x - Real.exp x| ≤ (2 : ℝ) ^ (-50 : ℤ) * Real.exp x)
    {N : ℝ} (hN : IsFloat 53 N) (hN31 : (2 : ℝ) ^ 31 ≤ N) {precision : ℝ} (hq : precision ≤ (2 : ℝ) ^ (-22 : ℤ)) (limit : ℕ) :
    Rounded.yieldToMaturity rnd exp limit [(1, N)] N precision (rnd (-1 / 10)) (rnd (1 / 5)) = .error .recursion := by
  have hlo := R.err (by norm_num) (-1 / 10)
  have hhi := R.err (by norm_num) (1 / 5)
  have flo := R.float (-1 / 10)
  have fhi := R.float (1 / 5)
  have u1 : (2 : ℝ) ^ (-((53 : ℕ) : ℤ)) ≤ 1 / 1000 := by norm_num
  have u0 : (0 : ℝ) ≤ (2 : ℝ) ^ (-((53 : ℕ) : ℤ)) := by positivity
  have v1 : (2 : ℝ) ^ (-50 : ℤ) ≤ 1 / 1000 := by norm_num
  have v0 : (0 : ℝ) ≤ (2 : ℝ) ^ (-50 : ℤ) := by positivity
  have e1 : |(-1 / 10 : ℝ)| = 1 / 10 := by norm_num
  have e2 : |(1 / 5 : ℝ)| = 1 / 5 := by norm_num
  rw [e1, abs_le] at hlo
  rw [e2, abs_le] at hhi
  have hN0 : (0 : ℝ) < N := lt_of_lt_of_le (by positivity) hN31
  generalize rnd (-1 / 10) = lo at *
  generalize rnd (1 / 5) = hi at *
  have hR := R.err (by norm_num : 1 ≤ 53)
  generalize (2 : ℝ) ^ (-50 : ℤ) = v at *
  generalize (2 : ℝ) ^ (-((53 : ℕ) : ℤ)) = u at *
  have elo : ∀ x, (1 - 1 / 1000) * Real.exp x ≤ exp x := by
    intro x
    have h1 := (abs_le.1 (hexp x)).1
    have := mul_le_mul_of_nonneg_right v1 (Real.exp_pos x).le
    linarith
  have ehi : ∀ x, exp x ≤ (1 + 1 / 1000) * Real.exp x := by
    intro x
    have h1 := (abs_le.1 (hexp x)).2
    have := mul_le_mul_of_nonneg_right v1 (Real.exp_pos x).le
    linarith
  have hfun : Rounded.yieldError rnd exp [(1, N)] N = fun x => .ok (rnd (rnd (exp (rnd (-x)) * N) - N)) :=
    funext fun x => yieldError_one exp R.idem N N x
  rw [Rounded.yieldToMaturity, hfun]
  have hexp' : ∀ x, IsFloat 53 x → exp (rnd (-x)) = exp (-x) := fun x hx => by rw [R.eq_self hx.neg]
  have hd : ∀ x, x ≤ hi → 3 / 4 ≤ exp (-x) := by
    intro x hx
    have h1 := Real.add_one_le_exp (-x)
    have h2 := elo (-x)
    nlinarith
  have hlow : ∀ x, x ≤ hi → IsFloat 53 x → (2 : ℝ) ^ (30 : ℤ) ≤ rnd (exp (rnd (-x)) * N) := by
    intro x hx fx
    rw [hexp' x fx]
    refine R.ge_of_ge ?_ (IsFloat.two_zpow (by norm_num) 30)
    have h1 := mul_le_mul_of_nonneg_right (hd x hx) hN0.le
    have : (2 : ℝ) ^ (30 : ℤ) = 2 ^ 31 / 2 := by norm_num
    linarith
  have hva : N < rnd (exp (rnd (-lo)) * N) := by
    rw [hexp' lo flo]
    have h1 := Real.add_one_le_exp (-lo)
    have h2 := elo (-lo)
    have h3 : 1.05 ≤ exp (-lo) := by nlinarith
    have h4 := mul_le_mul_of_nonneg_right h3 hN0.le
    have h0 : 0 < exp (-lo) * N := lt_of_lt_of_le (by positivity) h4
    have h5 := (abs_le.1 (hR (exp (-lo) * N))).1
    rw [abs_of_pos h0] at h5
    have h6 := mul_le_mul_of_nonneg_right u1 h0.le
    linarith
  have hvb : rnd (exp (rnd (-hi)) * N) ≤ N := by
    rw [hexp' hi fhi]
    refine R.le_of_le ?_ hN
    have h1 := Real.add_one_le_exp hi
    have h2 := ehi (-hi)
    rw [Real.exp_neg] at h2
    have h3 : (Real.exp hi)⁻¹ ≤ (1.1)⁻¹ := inv_anti₀ (by norm_num) (by nlinarith)
    have h4 : exp (-hi) ≤ 1 := by
      refine h2.trans ?_
      norm_num at h3 ⊢
      linarith
    have h5 := mul_le_mul_of_nonneg_right h4 hN0.le
    linarith
  rw [C171_amounts_violated R (by norm_num) (value := fun x => rnd (exp (rnd (-x)) * N)) (target := N) (e := 30) (by norm_num at hq ⊢; exact hq) (by nlinarith) flo fhi hN
    (by rw [abs_of_pos hN0]; norm_num at hN31 ⊢; linarith) (fun x h1 h2 h3 => ⟨R.float _, (hlow x h2 h3).trans (le_abs_self _)⟩) hva.ne'
    (mul_nonpos_of_nonneg_of_nonpos (by linarith) (by linarith)) limit]
  rfl

/-- In exact arithmetic the same yield is found, for every positive precision. -/
theorem C171_yield_exact {N precision : ℝ} (hN : 0 < N) (hq : 0 < precision) :
    ∃ n, ∀ limit, n < limit → ∃ y, Rounded.yieldToMaturity id Real.exp limit [(1, N)] N precision (-1 / 10) (1 / 5) = .ok y := by
  have hfun : Rounded.yieldError id Real.exp [(1, N)] N = fun x => .ok (Real.exp (-x) * N - N) :=
    funext fun x => by simpa using yieldError_one (rnd := id) Real.exp (fun _ => rfl) N N x
  have hc : ContinuousOn (fun x => Real.exp (-x) * N - N) (Set.uIcc (-1 / 10) (1 / 5)) :=
    ((Real.continuous_exp.comp continuous_neg).mul continuous_const |>.sub continuous_const).continuousOn
  obtain ⟨n, hn⟩ := C57_continuous (computes_pure fun x => Real.exp (-x) * N - N) hq (s := ()) trivial hc (by
    have h1 : 1 ≤ Real.exp (-(-1 / 10)) := Real.one_le_exp (by norm_num)
    have h2 : Real.exp (-(1 / 5)) ≤ 1 := Real.exp_le_one_iff.2 (by norm_num)
    have h3 : 0 ≤ Real.exp (-(-1 / 10)) * N - N := by nlinarith
    have h4 : Real.exp (-(1 / 5)) * N - N ≤ 0 := by nlinarith
    exact mul_nonpos_of_nonneg_of_nonpos h3 h4)
  refine ⟨n, fun limit hl => ?_⟩
  obtain ⟨a', m, b', s', h⟩ := hn limit hl
  have e := C171_unrounded precision limit (fun x => .ok (Real.exp (-x) * N - N)) (-1 / 10) (1 / 5)
  have h' : bracket precision limit (fun x => (PyM.lift (.ok (Real.exp (-x) * N - N)) : PyM Unit ℝ)) (-1 / 10) (1 / 5) () = (.ok (a', m, b'), s') := h
  rw [e] at h'
  rw [Rounded.yieldToMaturity, hfun, show Rounded.bracket id precision limit (fun x => .ok (Real.exp (-x) * N - N)) (-1 / 10) (1 / 5) = _ from (Prod.ext_iff.1 h').1]
  exact ⟨m, rfl⟩

/-! ### Non-vacuity -/

/-- A bracketing that ends. -/
example (R : Rounding 53 rnd) : ∃ n, ∀ limit, n < limit →
    ∃ r, Rounded.bracket rnd (1 / 2 ^ 10) limit (fun x => .ok (rnd (x - 1 / 4))) 0 1 = .ok r := by
  have hu : (2 : ℝ) ^ (-((53 : ℕ) : ℤ)) ≤ 1 / 2 ^ 20 := by norm_num
  refine C171_ends R (by norm_num) (f := fun x => x - 1 / 4) (ε := (2 : ℝ) ^ (-((53 : ℕ) : ℤ))) (L := 1) (B := 1) zero_le_one IsFloat.zero
    (IsFloat.one (by norm_num)) ?_ (by norm_num) (by norm_num) (fun x h1 h2 => ?_) (fun x y h0 h1 h2 => ?_) zero_le_one (by norm_num) (by norm_num)
  · exact mul_nonpos_of_nonpos_of_nonneg (R.nonpos (by norm_num)) (R.nonneg (by norm_num))
  · refine (R.err (by norm_num) _).trans ?_
    refine mul_le_of_le_one_right (by positivity) ?_
    rw [abs_le]; constructor <;> linarith
  · rw [abs_of_nonneg (by linarith)]; linarith

/-- A yield that never ends: two to the power of 31 units of a currency. -/
example : ∃ rnd, Rounding 53 rnd ∧ ∀ limit,
    Rounded.yieldToMaturity rnd Real.exp limit [(1, 2 ^ 31)] (2 ^ 31) (1 / 10 ^ 7) (rnd (-1 / 10)) (rnd (1 / 5)) = .error .recursion := by
  obtain ⟨rnd, R⟩ := exists_rounding (by norm_num : 1 ≤ 53)
  refine ⟨rnd, R, fun limit => C171_yield_violated R (fun x => ?_) ?_ le_rfl (by norm_num) limit⟩
  · simp only [sub_self, abs_zero]; positivity
  · have := IsFloat.two_zpow (by norm_num : 1 ≤ 53) 31
    exact_mod_cast this

end

end Dcf
