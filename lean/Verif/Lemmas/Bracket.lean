import Verif.Lemmas.PyM

/-! # Lemmas on bracketing -/

set_option linter.unusedVariables false

namespace Dcf

variable {σ : Type}

/-- As long as the objects satisfy `I`, calling `func` at `x` returns `g x` and leaves objects that satisfy `I` and
`J x`. -/
def Computes (I : σ → Prop) (J : ℝ → σ → Prop) (func : ℝ → PyM σ ℝ) (g : ℝ → ℝ) : Prop :=
  ∀ s, I s → ∀ x, ∃ s', (I s' ∧ J x s') ∧ func x s = (.ok (g x), s')

theorem Computes.neg {I : σ → Prop} {J : ℝ → σ → Prop} {func : ℝ → PyM σ ℝ} {g : ℝ → ℝ} (h : Computes I J func g) :
    Computes I J (negFunc func) fun x => -g x := by
  intro s hs x
  obtain ⟨s', hs', he⟩ := h s hs x
  exact ⟨s', hs', by rw [negFunc, PyM.bind_ok he]; rfl⟩

/-- The function searched and its oriented version. -/
def Oriented (g g' : ℝ → ℝ) (a b : ℝ) : Prop := ((∀ x, g' x = g x) ∨ ∀ x, g' x = -g x) ∧ g' a ≤ g' b

theorem Oriented.mul {g g' : ℝ → ℝ} {a b : ℝ} (h : Oriented g g' a b) (x y : ℝ) : g' x * g' y = g x * g y := by
  rcases h.1 with h | h <;> rw [h, h]
  ring

theorem Oriented.abs {g g' : ℝ → ℝ} {a b : ℝ} (h : Oriented g g' a b) (x y : ℝ) : |g' x - g' y| = |g x - g y| := by
  rcases h.1 with h | h <;> rw [h, h]
  rw [show -g x - -g y = -(g x - g y) by ring, abs_neg]

theorem bracket_step {I : σ → Prop} {J : ℝ → σ → Prop} {func : ℝ → PyM σ ℝ} {g : ℝ → ℝ} (h : Computes I J func g) (p : ℝ) (n : ℕ) (a b : ℝ)
    {s : σ} (hs : I s) :
    ∃ s' f' g', (I s' ∧ J b s') ∧ Computes I J f' g' ∧ Oriented g g' a b ∧
      bracket p (n + 1) func a b s =
        if 0 < g a * g b then (.error .assertion, s')
        else if |b - a| < p ∧ |g b - g a| < p then (.ok (a, a + (b - a) * (1 / 2), b), s')
        else (f' (a + (b - a) * (1 / 2)) >>= fun fm =>
          bracket p n f' (narrow a (a + (b - a) * (1 / 2)) b fm).1 (narrow a (a + (b - a) * (1 / 2)) b fm).2) s' := by
  obtain ⟨s1, h1, e1⟩ := h s hs a
  obtain ⟨s2, h2, e2⟩ := h s1 h1.1 b
  by_cases hab : g b < g a
  · refine ⟨s2, negFunc func, fun x => -g x, h2, h.neg, ⟨.inr fun _ => rfl, by simpa using hab.le⟩, ?_⟩
    rw [bracket, PyM.bind_ok e1, PyM.bind_ok e2]
    simp only [orient, if_pos hab]
    have hsign : ¬ (g b ≤ 0 ∧ 0 ≤ g a) ↔ 0 < g a * g b := by
      rw [mul_pos_iff]
      constructor
      · intro hn
        by_cases hb : g b ≤ 0
        · exact .inr ⟨lt_of_not_ge fun h => hn ⟨hb, h⟩, by
            have := lt_of_not_ge fun h => hn ⟨hb, h⟩; linarith⟩
        · exact .inl ⟨by push Not at hb; linarith, by push Not at hb; exact hb⟩
      · rintro (h | h) hn <;> linarith [hn.1, hn.2, h.1, h.2]
    by_cases hp : 0 < g a * g b
    · rw [if_pos hp, if_pos (hsign.2 hp)]; rfl
    · rw [if_neg hp, if_neg (fun h => hp (hsign.1 h)), abs_sub_comm (g a) (g b)]
      split_ifs <;> rfl
  · refine ⟨s2, func, g, h2, h, ⟨.inl fun _ => rfl, not_lt.1 hab⟩, ?_⟩
    rw [bracket, PyM.bind_ok e1, PyM.bind_ok e2]
    simp only [orient, if_neg hab]
    push Not at hab
    have hsign : ¬ (g a ≤ 0 ∧ 0 ≤ g b) ↔ 0 < g a * g b := by
      rw [mul_pos_iff]
      constructor
      · intro hn
        by_cases hb : g a ≤ 0
        · exact .inr ⟨by
            have := lt_of_not_ge fun h => hn ⟨hb, h⟩; linarith, lt_of_not_ge fun h => hn ⟨hb, h⟩⟩
        · exact .inl ⟨by push Not at hb; linarith, by push Not at hb; linarith⟩
      · rintro (h | h) hn <;> linarith [hn.1, hn.2, h.1, h.2]
    by_cases hp : 0 < g a * g b
    · rw [if_pos hp, if_pos (hsign.2 hp)]; rfl
    · rw [if_neg hp, if_neg (fun h => hp (hsign.1 h))]
      split_ifs <;> rfl

/-- A sub-interval of `k` halvings whose end values enclose 0. -/
structure Halved (g : ℝ → ℝ) (a b a' b' : ℝ) (k : ℕ) : Prop where
  left : a' ∈ Set.uIcc a b
  right : b' ∈ Set.uIcc a b
  size : b' - a' = (b - a) / 2 ^ k
  sign : g a' * g b' ≤ 0

theorem mid_mem (a b : ℝ) : a + (b - a) * (1 / 2) ∈ Set.uIcc a b := by
  rw [Set.mem_uIcc]
  rcases le_total a b with h | h
  · exact .inl ⟨by linarith, by linarith⟩
  · exact .inr ⟨by linarith, by linarith⟩

theorem uIcc_sub {a b a' b' : ℝ} (ha : a' ∈ Set.uIcc a b) (hb : b' ∈ Set.uIcc a b) : Set.uIcc a' b' ⊆ Set.uIcc a b :=
  Set.uIcc_subset_uIcc ha hb

theorem Halved.trans {g g' : ℝ → ℝ} {a b a' b' a'' b'' : ℝ} {k : ℕ} (hm : ∀ x y, g' x * g' y = g x * g y)
    (ha : a' ∈ Set.uIcc a b) (hb : b' ∈ Set.uIcc a b) (hs : b' - a' = (b - a) / 2)
    (h : Halved g' a' b' a'' b'' k) : Halved g a b a'' b'' (k + 1) where
  left := uIcc_sub ha hb h.left
  right := uIcc_sub ha hb h.right
  size := by rw [h.size, hs, pow_succ]; ring
  sign := by rw [← hm]; exact h.sign

/-- Everything bracketing can do on a function without exceptions. -/
theorem bracket_run {I : σ → Prop} {J : ℝ → σ → Prop} (p : ℝ) (n : ℕ) : ∀ {func : ℝ → PyM σ ℝ} {g : ℝ → ℝ} (h : Computes I J func g) (a b : ℝ)
    {s : σ} (hs : I s),
    ∃ s', I s' ∧
      ((0 < g a * g b ∧ J b s' ∧ bracket p (n + 1) func a b s = (.error .assertion, s')) ∨
      (g a * g b ≤ 0 ∧ ∃ a' b' k, k ≤ n ∧ Halved g a b a' b' k ∧ (|b' - a'| < p ∧ |g b' - g a'| < p) ∧ J b' s' ∧
        bracket p (n + 1) func a b s = (.ok (a', a' + (b' - a') * (1 / 2), b'), s')) ∨
      (g a * g b ≤ 0 ∧ ∃ a' b', Halved g a b a' b' n ∧ ¬ (|b' - a'| < p ∧ |g b' - g a'| < p) ∧ (∃ x ∈ Set.uIcc a b, J x s') ∧
        bracket p (n + 1) func a b s = (.error .recursion, s'))) := by
  induction n with
  | zero =>
    intro func g h a b s hs
    obtain ⟨s', f', g', hs', hf', ho, he⟩ := bracket_step h p 0 a b hs
    by_cases hp : 0 < g a * g b
    · exact ⟨s', hs'.1, .inl ⟨hp, hs'.2, by rw [he, if_pos hp]⟩⟩
    push Not at hp
    have hH : Halved g a b a b 0 := ⟨Set.left_mem_uIcc, Set.right_mem_uIcc, by simp, hp⟩
    by_cases hc : |b - a| < p ∧ |g b - g a| < p
    · exact ⟨s', hs'.1, .inr (.inl ⟨hp, a, b, 0, le_rfl, hH, hc, hs'.2, by rw [he, if_neg hp.not_gt, if_pos hc]⟩)⟩
    · obtain ⟨s1, h1, e1⟩ := hf' s' hs'.1 (a + (b - a) * (1 / 2))
      refine ⟨s1, h1.1, .inr (.inr ⟨hp, a, b, hH, hc, ⟨_, mid_mem a b, h1.2⟩, ?_⟩)⟩
      rw [he, if_neg hp.not_gt, if_neg hc, PyM.bind_ok e1]
      rfl
  | succ n ih =>
    intro func g h a b s hs
    obtain ⟨s', f', g', hs', hf', ho, he⟩ := bracket_step h p (n + 1) a b hs
    by_cases hp : 0 < g a * g b
    · exact ⟨s', hs'.1, .inl ⟨hp, hs'.2, by rw [he, if_pos hp]⟩⟩
    push Not at hp
    have hH : Halved g a b a b 0 := ⟨Set.left_mem_uIcc, Set.right_mem_uIcc, by simp, hp⟩
    by_cases hc : |b - a| < p ∧ |g b - g a| < p
    · exact ⟨s', hs'.1, .inr (.inl ⟨hp, a, b, 0, by omega, hH, hc, hs'.2, by rw [he, if_neg hp.not_gt, if_pos hc]⟩)⟩
    obtain ⟨s1, h1, e1⟩ := hf' s' hs'.1 (a + (b - a) * (1 / 2))
    rw [if_neg hp.not_gt, if_neg hc, PyM.bind_ok e1] at he
    set m := a + (b - a) * (1 / 2) with hm
    have hends : g' a ≤ 0 ∧ 0 ≤ g' b := by
      have h1 := ho.mul a b
      have h2 := ho.2
      constructor
      · by_contra hn
        push Not at hn
        nlinarith
      · by_contra hn
        push Not at hn
        nlinarith
    have hnar : ∃ a1 b1, narrow a m b (g' m) = (a1, b1) ∧ a1 ∈ Set.uIcc a b ∧ b1 ∈ Set.uIcc a b ∧
        b1 - a1 = (b - a) / 2 ∧ g' a1 * g' b1 ≤ 0 := by
      unfold narrow
      split_ifs with hlt
      · exact ⟨m, b, rfl, mid_mem a b, Set.right_mem_uIcc, by rw [hm]; ring, mul_nonpos_of_nonpos_of_nonneg hlt.le hends.2⟩
      · exact ⟨a, m, rfl, Set.left_mem_uIcc, mid_mem a b, by rw [hm]; ring,
          mul_nonpos_of_nonpos_of_nonneg hends.1 (not_lt.1 hlt)⟩
    obtain ⟨a1, b1, hn, ha1, hb1, hs1, hsg⟩ := hnar
    rw [hn] at he
    simp only at he
    obtain ⟨s2, h2, H⟩ := ih hf' a1 b1 h1.1
    refine ⟨s2, h2, .inr ?_⟩
    rcases H with ⟨hbad, -⟩ | ⟨-, a2, b2, k, hk, hH2, hc2, hj, e2⟩ | ⟨-, a2, b2, hH2, hc2, ⟨x, hx, hj⟩, e2⟩
    · exact absurd hbad hsg.not_gt
    · refine .inl ⟨hp, a2, b2, k + 1, by omega, hH2.trans ho.mul ha1 hb1 hs1, ?_, hj, he.trans e2⟩
      rw [← ho.abs]; exact hc2
    · refine .inr ⟨hp, a2, b2, hH2.trans ho.mul ha1 hb1 hs1, ?_, ⟨x, uIcc_sub ha1 hb1 hx, hj⟩, he.trans e2⟩
      rw [← ho.abs]; exact hc2

end Dcf
