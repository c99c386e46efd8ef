import Mathlib.Analysis.SpecialFunctions.Exp
import Mathlib.Tactic.Linarith

/-! # Specification vocabulary for dates -/

namespace Dcf.Spec

/-- A day count that is additive over adjacent periods and positive exactly forward in time. -/
structure GoodDayCount {D : Type} [LinearOrder D] (τ : D → D → ℝ) : Prop where
  add : ∀ a b c, τ a b + τ b c = τ a c
  pos : ∀ a b, 0 < τ a b ↔ a < b

variable {D : Type} [LinearOrder D] {τ : D → D → ℝ}

theorem GoodDayCount.self (h : GoodDayCount τ) (a : D) : τ a a = 0 := by
  have := h.add a a a; linarith

theorem GoodDayCount.neg (h : GoodDayCount τ) (a b : D) : τ b a = -τ a b := by
  have := h.add a b a; rw [h.self] at this; linarith

theorem GoodDayCount.lt_iff (h : GoodDayCount τ) (o a b : D) : τ o a < τ o b ↔ a < b := by
  rw [← h.pos, ← h.add o a b]; constructor <;> intro h <;> linarith

theorem GoodDayCount.le_iff (h : GoodDayCount τ) (o a b : D) : τ o a ≤ τ o b ↔ a ≤ b := by
  rw [← not_lt, ← not_lt, h.lt_iff]

theorem GoodDayCount.inj (h : GoodDayCount τ) (o : D) : Function.Injective (τ o) := by
  intro a b e
  exact le_antisymm ((h.le_iff o a b).1 e.le) ((h.le_iff o b a).1 e.ge)

theorem GoodDayCount.ne_zero (h : GoodDayCount τ) {a b : D} (hab : a ≠ b) : τ a b ≠ 0 := by
  intro e; exact hab (h.inj a (by rw [h.self, e]))

theorem GoodDayCount.nonneg (h : GoodDayCount τ) {a b : D} (hab : a ≤ b) : 0 ≤ τ a b := by
  have := (h.le_iff a a b).2 hab; rwa [h.self] at this

/-- Year fractions. -/
theorem goodDayCount_real : GoodDayCount fun s e : ℝ => e - s :=
  ⟨fun _ _ _ => by ring, fun _ _ => sub_pos⟩

/-- Day numbers. -/
theorem goodDayCount_int : GoodDayCount fun s e : ℤ => ((e - s : ℤ) : ℝ) / (36525 / 100) := by
  refine ⟨fun a b c => ?_, fun a b => ?_⟩
  · push_cast; ring
  · rw [div_pos_iff_of_pos_right (by norm_num)]
    norm_cast
    exact sub_pos

end Dcf.Spec
