import Verif.Lemmas.Bracket
import Mathlib.Topology.Order.IntermediateValue
import Mathlib.Topology.UniformSpace.HeineCantor
import Mathlib.Topology.MetricSpace.Basic
import Mathlib.Topology.MetricSpace.Lipschitz

/-! # Root search: C56, C57 -/

set_option linter.unusedVariables false

namespace Dcf

variable {σ : Type} {I : σ → Prop} {J : ℝ → σ → Prop} {func : ℝ → PyM σ ℝ} {g : ℝ → ℝ}

/-- C56: with at least one call allowed the search raises `AssertionError` exactly when both bounds give values of the
same strict sign. -/
theorem C56_refuses (h : Computes I J func g) (p : ℝ) {limit : ℕ} (hl : limit ≠ 0) (a b : ℝ) {s : σ} (hs : I s) :
    (bracket p limit func a b s).1 = .error .assertion ↔ (0 < g a ∧ 0 < g b) ∨ (g a < 0 ∧ g b < 0) := by
  obtain ⟨n, rfl⟩ := Nat.exists_eq_succ_of_ne_zero hl
  rw [← mul_pos_iff]
  obtain ⟨s', hs', H⟩ := bracket_run p n h a b hs
  rcases H with ⟨hp, -, e⟩ | ⟨hp, a', b', k, -, -, -, -, e⟩ | ⟨hp, a', b', -, -, -, e⟩
  · simp [e, hp]
  · simp [e, hp.not_gt]
  · simp [e, hp.not_gt]

/-- C56: the only other exception is that of too deep recursion. -/
theorem C56_errors (h : Computes I J func g) (p : ℝ) (limit : ℕ) (a b : ℝ) {s : σ} (hs : I s) {e : PyErr}
    (he : (bracket p limit func a b s).1 = .error e) : e = .assertion ∨ e = .recursion := by
  cases limit with
  | zero => exact .inr (Except.error.inj he).symm
  | succ n =>
    obtain ⟨s', hs', H⟩ := bracket_run p n h a b hs
    rcases H with ⟨hp, -, e'⟩ | ⟨hp, a', b', k, -, -, -, -, e'⟩ | ⟨hp, a', b', -, -, -, e'⟩ <;> rw [e'] at he
    · exact .inl (Except.error.inj he).symm
    · exact absurd he (by simp)
    · exact .inr (Except.error.inj he).symm

theorem bracket_ok (h : Computes I J func g) {p : ℝ} {limit : ℕ} {a b a' m b' : ℝ} {s s' : σ} (hs : I s)
    (hr : bracket p limit func a b s = (.ok (a', m, b'), s')) :
    ∃ k, k < limit ∧ Halved g a b a' b' k ∧ |b' - a'| < p ∧ |g b' - g a'| < p ∧ m = a' + (b' - a') * (1 / 2) ∧
      I s' ∧ J b' s' := by
  cases limit with
  | zero => exact absurd (congrArg Prod.fst hr) (by simp [bracket])
  | succ n =>
    obtain ⟨s1, hs1, H⟩ := bracket_run p n h a b hs
    rcases H with ⟨hp, -, e'⟩ | ⟨hp, a2, b2, k, hk, hH, hc, hj, e'⟩ | ⟨hp, a2, b2, -, -, -, e'⟩ <;> rw [e'] at hr
    · exact absurd (congrArg Prod.fst hr) (by simp)
    · obtain ⟨h1, h2⟩ := Prod.mk.inj hr
      obtain ⟨rfl, h3⟩ := Prod.mk.inj (Except.ok.inj h1)
      obtain ⟨rfl, rfl⟩ := Prod.mk.inj h3
      subst h2
      exact ⟨k, by omega, hH, hc.1, hc.2, rfl, hs1, hj⟩
    · exact absurd (congrArg Prod.fst hr) (by simp)

/-- C56: what the search returns is the midpoint of a sub-interval of the bounds, obtained by halving, shorter than the
precision, whose end values have no common strict sign and differ by less than the precision. -/
theorem C56_result (h : Computes I J func g) {p : ℝ} {limit : ℕ} {a b a' m b' : ℝ} {s s' : σ} (hs : I s)
    (hr : bracket p limit func a b s = (.ok (a', m, b'), s')) :
    m = (a' + b') / 2 ∧ a' ∈ Set.uIcc a b ∧ b' ∈ Set.uIcc a b ∧ (∃ k < limit, b' - a' = (b - a) / 2 ^ k) ∧
      |b' - a'| < p ∧ (g a' ≤ 0 ∧ 0 ≤ g b' ∨ g b' ≤ 0 ∧ 0 ≤ g a') ∧ |g b' - g a'| < p ∧ |g a'| < p ∧ |g b'| < p := by
  obtain ⟨k, hk, hH, h1, h2, rfl, -, -⟩ := bracket_ok h hs hr
  have hsg : g a' ≤ 0 ∧ 0 ≤ g b' ∨ g b' ≤ 0 ∧ 0 ≤ g a' := by
    rcases le_total (g a') 0 with h | h <;> rcases le_total (g b') 0 with h' | h'
    · rcases h.lt_or_eq with h3 | h3
      · rcases h'.lt_or_eq with h4 | h4
        · exact absurd (mul_pos_of_neg_of_neg h3 h4) hH.sign.not_gt
        · exact .inl ⟨h, h4.ge⟩
      · exact .inr ⟨h', h3.ge⟩
    · exact .inl ⟨h, h'⟩
    · exact .inr ⟨h', h⟩
    · rcases h.lt_or_eq with h3 | h3
      · rcases h'.lt_or_eq with h4 | h4
        · exact absurd (mul_pos h3 h4) hH.sign.not_gt
        · exact .inr ⟨h4.ge, h⟩
      · exact .inl ⟨h3.ge, h'⟩
  refine ⟨by ring, hH.left, hH.right, ⟨k, hk, hH.size⟩, h1, hsg, h2, ?_, ?_⟩
  · rw [abs_lt] at h2 ⊢
    rcases hsg with h | h <;> constructor <;> linarith [h.1, h.2, h2.1, h2.2]
  · rw [abs_lt] at h2 ⊢
    rcases hsg with h | h <;> constructor <;> linarith [h.1, h.2, h2.1, h2.2]

/-- C56: for a continuous function there is a true root next to the returned point. -/
theorem C56_root (h : Computes I J func g) {p : ℝ} {limit : ℕ} {a b a' m b' : ℝ} {s s' : σ} (hs : I s)
    (hg : ContinuousOn g (Set.uIcc a b)) (hr : bracket p limit func a b s = (.ok (a', m, b'), s')) :
    ∃ r ∈ Set.uIcc a b, g r = 0 ∧ |r - m| < p / 2 := by
  obtain ⟨hm, ha, hb, -, h1, hsg, -, -, -⟩ := C56_result h hs hr
  have hc : ContinuousOn g (Set.uIcc a' b') := hg.mono (uIcc_sub ha hb)
  obtain ⟨r, hr1, hr2⟩ : (0 : ℝ) ∈ g '' Set.uIcc a' b' := by
    apply intermediate_value_uIcc hc
    rw [Set.mem_uIcc]
    rcases hsg with h | h
    · exact .inl h
    · exact .inr h
  refine ⟨r, uIcc_sub ha hb hr1, hr2, ?_⟩
  rw [Set.mem_uIcc] at hr1
  rw [hm, abs_lt]
  rw [abs_lt] at h1
  rcases hr1 with h | h <;> constructor <;> linarith [h.1, h.2, h1.1, h1.2]

/-- C56: an exception of the function at a bound is passed on. -/
theorem C56_passes (p : ℝ) (limit : ℕ) {func : ℝ → PyM σ ℝ} {a b : ℝ} {s s' : σ} {e : PyErr}
    (h : func a s = (.error e, s')) : bracket p (limit + 1) func a b s = (.error e, s') := by
  rw [bracket, PyM.bind_error h]

/-- A python function without effects. -/
theorem computes_pure (g : ℝ → ℝ) : Computes (σ := Unit) (fun _ => True) (fun _ _ => True) (fun x => pure (g x)) g :=
  fun s _ x => ⟨s, ⟨trivial, trivial⟩, rfl⟩

/-- Non-vacuity: no sign change. -/
example : (bracket (1 / 100) 5 (fun x => (pure (x ^ 2 + 1) : PyM Unit ℝ)) 0 1 ()).1 = .error .assertion :=
  (C56_refuses (computes_pure fun x => x ^ 2 + 1) _ (by norm_num) 0 1 trivial).2 (by norm_num)

/-! ## Termination -/

/-- C57: for a function that varies by less than the precision over some distance `δ`, the search needs at most
`n` halvings if these make the interval shorter than the precision and `δ`. -/
theorem C57_steps (h : Computes I J func g) {p δ : ℝ} {a b : ℝ} {s : σ} (hs : I s) (hsign : g a * g b ≤ 0)
    (hδ : ∀ x ∈ Set.uIcc a b, ∀ y ∈ Set.uIcc a b, |y - x| < δ → |g y - g x| < p) {n : ℕ} (hn : |b - a| / 2 ^ n < p)
    (hn' : |b - a| / 2 ^ n < δ) {limit : ℕ} (hl : n < limit) :
    ∃ a' m b' s', bracket p limit func a b s = (.ok (a', m, b'), s') := by
  obtain ⟨l, rfl⟩ := Nat.exists_eq_succ_of_ne_zero (by omega : limit ≠ 0)
  obtain ⟨s', hs', H⟩ := bracket_run p l h a b hs
  rcases H with ⟨hp, -, e⟩ | ⟨hp, a', b', k, -, -, -, -, e⟩ | ⟨hp, a', b', hH, hc, -, e⟩
  · exact absurd hp hsign.not_gt
  · exact ⟨_, _, _, _, e⟩
  · exfalso
    have hsize : |b' - a'| ≤ |b - a| / 2 ^ n := by
      rw [hH.size, abs_div, abs_of_pos (by positivity : (0 : ℝ) < 2 ^ l)]
      exact div_le_div_of_nonneg_left (abs_nonneg _) (by positivity) (pow_le_pow_right₀ (by norm_num) (by omega))
    exact hc ⟨hsize.trans_lt hn, hδ _ hH.left _ hH.right (hsize.trans_lt hn')⟩

/-- C57: for every continuous function, bounds that enclose a sign change and positive precision, the search returns if
python's recursion limit is large enough. -/
theorem C57_continuous (h : Computes I J func g) {p : ℝ} (hp : 0 < p) {a b : ℝ} {s : σ} (hs : I s)
    (hg : ContinuousOn g (Set.uIcc a b)) (hsign : g a * g b ≤ 0) :
    ∃ n, ∀ limit, n < limit → ∃ a' m b' s', bracket p limit func a b s = (.ok (a', m, b'), s') := by
  have hu := isCompact_uIcc.uniformContinuousOn_of_continuous hg
  rw [Metric.uniformContinuousOn_iff] at hu
  obtain ⟨δ, hδ, H⟩ := hu p hp
  obtain ⟨n, hn⟩ : ∃ n : ℕ, |b - a| / 2 ^ n < min p δ := by
    obtain ⟨n, hn⟩ := pow_unbounded_of_one_lt (|b - a| / min p δ) (by norm_num : (1 : ℝ) < 2)
    refine ⟨n, ?_⟩
    rw [div_lt_iff₀ (lt_min hp hδ)] at hn
    rw [div_lt_iff₀ (by positivity)]
    linarith
  refine ⟨n, fun limit hl => C57_steps (δ := δ) h hs hsign (fun x hx y hy hxy => ?_) (hn.trans_le (min_le_left _ _))
    (hn.trans_le (min_le_right _ _)) hl⟩
  have := H y hy x hx (by rw [Real.dist_eq]; exact hxy)
  rwa [Real.dist_eq] at this

/-- C57: for a Lipschitz function with constant `L` the number of halvings is bounded by the logarithm of length and of
`L` times length over the precision. -/
theorem C57_lipschitz (h : Computes I J func g) {p L : ℝ} (hp : 0 < p) {a b : ℝ} {s : σ} (hs : I s)
    (hg : ∀ x ∈ Set.uIcc a b, ∀ y ∈ Set.uIcc a b, |g y - g x| ≤ L * |y - x|) (hsign : g a * g b ≤ 0) {n : ℕ}
    (hn : |b - a| < p * 2 ^ n) (hn' : L * |b - a| < p * 2 ^ n) {limit : ℕ} (hl : n < limit) :
    ∃ a' m b' s', bracket p limit func a b s = (.ok (a', m, b'), s') := by
  have h2 : (0 : ℝ) < 2 ^ n := by positivity
  rcases le_or_gt L 0 with hL | hL
  · refine C57_steps (δ := p) h hs hsign (fun x hx y hy hxy => ?_) ((div_lt_iff₀ h2).2 hn) ((div_lt_iff₀ h2).2 hn) hl
    refine (hg x hx y hy).trans_lt ?_
    have := mul_nonneg (neg_nonneg.2 hL) (abs_nonneg (y - x))
    nlinarith
  · refine C57_steps (δ := p / L) h hs hsign (fun x hx y hy hxy => ?_) ((div_lt_iff₀ h2).2 hn) ?_ hl
    · refine (hg x hx y hy).trans_lt ?_
      rw [lt_div_iff₀ hL] at hxy
      linarith
    · rw [div_lt_div_iff₀ h2 hL]
      linarith

/-- C57: if values of different sign always differ by at least the precision (a jump at the sign change), the search ends
in `RecursionError` whatever the limit. -/
theorem C57_jump (h : Computes I J func g) {p : ℝ} {a b : ℝ} {s : σ} (hs : I s) (hsign : g a * g b ≤ 0)
    (hjump : ∀ x ∈ Set.uIcc a b, ∀ y ∈ Set.uIcc a b, g x * g y ≤ 0 → p ≤ |g y - g x|) (limit : ℕ) :
    (bracket p limit func a b s).1 = .error .recursion := by
  cases limit with
  | zero => rfl
  | succ n =>
    obtain ⟨s', hs', H⟩ := bracket_run p n h a b hs
    rcases H with ⟨hp, -, e⟩ | ⟨hp, a', b', k, -, hH, hc, -, e⟩ | ⟨hp, a', b', hH, hc, -, e⟩
    · exact absurd hp hsign.not_gt
    · exact absurd hc.2 (hjump _ hH.left _ hH.right hH.sign).not_gt
    · rw [e]

/-- C57: with a precision that is not positive the search never succeeds. -/
theorem C57_precision (h : Computes I J func g) {p : ℝ} (hp : p ≤ 0) {a b : ℝ} {s : σ} (hs : I s) (hsign : g a * g b ≤ 0)
    (limit : ℕ) : (bracket p limit func a b s).1 = .error .recursion :=
  C57_jump h hs hsign (fun x _ y _ _ => hp.trans (abs_nonneg _)) limit

/-- Non-vacuity: the sign function jumps. -/
example (limit : ℕ) : (bracket 1 limit (fun x => (pure (if x < 1 / 3 then -1 else 1) : PyM Unit ℝ)) 0 1 ()).1 =
    .error .recursion := by
  refine C57_jump (computes_pure fun x => if x < 1 / 3 then -1 else 1) trivial (by norm_num) (fun x _ y _ hxy => ?_) limit
  revert hxy
  split_ifs <;> norm_num

/-- Non-vacuity: with the defaults of the package (bounds -0.1 and 0.2, precision 1e-7) 35 calls are enough for slopes
up to 1000. -/
example (t : ℝ) (ht : t ∈ Set.Icc (-0.1 : ℝ) 0.2) : ∃ a' m b' s',
    bracket 1e-7 35 (fun x => (pure (1000 * (x - t)) : PyM Unit ℝ)) (-0.1) 0.2 () = (.ok (a', m, b'), s') ∧
      |t - m| < 1e-7 / 2 := by
  suffices h : ∃ a' m b' s',
      bracket 1e-7 35 (fun x => (pure (1000 * (x - t)) : PyM Unit ℝ)) (-0.1) 0.2 () = (.ok (a', m, b'), s') by
    obtain ⟨a', m, b', s', h⟩ := h
    obtain ⟨r, -, h0, hr⟩ := C56_root (computes_pure fun x => 1000 * (x - t)) trivial (by fun_prop) h
    have : r = t := by linarith
    exact ⟨a', m, b', s', h, this ▸ hr⟩
  refine C57_lipschitz (L := 1000) (n := 34) (computes_pure fun x => 1000 * (x - t)) (by norm_num) trivial
    (fun x _ y _ => ?_) ?_ ?_ ?_ (by norm_num)
  · rw [← mul_sub, abs_mul]
    simp
  · nlinarith [ht.1, ht.2]
  · rw [abs_of_pos] <;> norm_num
  · rw [abs_of_pos] <;> norm_num

/-! ### The hypotheses can be met: each theorem applied -/

/-- Searching the root of a straight line: one call is not enough, many are. -/
theorem exLine : ∃ n, ∀ limit, n < limit → ∃ a' m b' s', bracket (1 / 100) limit (fun x => (pure (x - 1 / 3) : PyM Unit ℝ)) 0 1 () = (.ok (a', m, b'), s') :=
  C57_continuous (computes_pure fun x => x - 1 / 3) (by norm_num) trivial (by fun_prop) (by norm_num)

example := C56_errors (computes_pure fun x => x ^ 2 + 1) (1 / 100) 5 0 1 (s := ()) trivial
  ((C56_refuses (computes_pure fun x => x ^ 2 + 1) _ (by norm_num) 0 1 trivial).2 (by norm_num))

example : ∃ m : ℝ, |m - 1 / 3| < 1 / 50 := by
  obtain ⟨n, h⟩ := exLine
  obtain ⟨a, m, b, s, h⟩ := h (n + 1) (Nat.lt_succ_self n)
  obtain ⟨h1, -, -, -, h2, -, -, h3, -⟩ := C56_result (computes_pure fun x => x - 1 / 3) trivial h
  rw [abs_lt] at h2 h3
  exact ⟨m, by rw [abs_lt]; constructor <;> linarith⟩

example := C56_passes (1 / 100) 5 (func := fun _ : ℝ => (fun s => (.error .zeroDivision, s) : PyM Unit ℝ)) (a := 0) (b := 1) (s := ()) rfl

example := C57_steps (computes_pure fun x => x - 1 / 3) (p := 1 / 10) (δ := 1 / 10) (a := 0) (b := 1) (s := ()) trivial (by norm_num)
  (fun x _ y _ h => by simpa using h) (n := 4) (by norm_num) (by norm_num) (limit := 5) (by norm_num)

example := C57_precision (computes_pure fun x => x - 1 / 3) (p := 0) le_rfl (a := 0) (b := 1) (s := ()) trivial (by norm_num) 1000

end Dcf
