import Verif.Model.Rating
import Verif.Lemmas.Py
import Mathlib.Algebra.Order.Floor.Ring
import Mathlib.Tactic.Linarith
import Mathlib.Tactic.FieldSimp
import Mathlib.Algebra.BigOperators.Group.Finset.Basic
import Mathlib.Algebra.BigOperators.Intervals

/-! # Lemmas on half-even rounding and on the rating vector -/

set_option linter.unusedSectionVars false

namespace Dcf.Rating

variable {K : Type} [Field K] [LinearOrder K] [IsStrictOrderedRing K] [FloorRing K]

theorem roundHalfEven_add (n : ℤ) (t : K) (h0 : 0 ≤ t) (h1 : t < 1) :
    roundHalfEven ((n : K) + t) =
      if t < 1 / 2 then n else if 1 / 2 < t then n + 1 else if n % 2 = 0 then n else n + 1 := by
  have hf : ⌊(n : K) + t⌋ = n := by
    rw [Int.floor_eq_iff]; constructor <;> linarith
  have hr : Int.fract ((n : K) + t) = t := by
    rw [Int.fract, hf]; ring
  simp only [roundHalfEven, hf, hr]

theorem exists_floor_decomp (x : K) : ∃ (n : ℤ) (t : K), x = n + t ∧ 0 ≤ t ∧ t < 1 :=
  ⟨⌊x⌋, Int.fract x, (Int.floor_add_fract x).symm, Int.fract_nonneg x, Int.fract_lt_one x⟩

@[simp] theorem roundHalfEven_intCast (n : ℤ) : roundHalfEven (n : K) = n := by
  have := roundHalfEven_add (K := K) n 0 le_rfl one_pos
  rw [add_zero] at this; rw [this, if_pos (by norm_num)]

theorem roundHalfEven_mono {x y : K} (h : x ≤ y) : roundHalfEven x ≤ roundHalfEven y := by
  obtain ⟨m, s, rfl, hs0, hs1⟩ := exists_floor_decomp x
  obtain ⟨n, t, rfl, ht0, ht1⟩ := exists_floor_decomp y
  rw [roundHalfEven_add m s hs0 hs1, roundHalfEven_add n t ht0 ht1]
  rcases lt_trichotomy m n with hmn | rfl | hmn
  · split_ifs <;> omega
  · have : s ≤ t := by linarith
    split_ifs <;> first | omega | (exfalso; linarith)
  · exfalso
    have : ((n + 1 : ℤ) : K) ≤ m := by exact_mod_cast hmn
    push_cast at this; linarith

theorem abs_roundHalfEven_sub (x : K) : |(roundHalfEven x : K) - x| ≤ 1 / 2 := by
  obtain ⟨n, t, rfl, h0, h1⟩ := exists_floor_decomp x
  rw [roundHalfEven_add n t h0 h1, abs_le]
  split_ifs <;> push_cast <;> constructor <;> linarith

/-- Reflection at an even integer (ties included). -/
theorem roundHalfEven_reflect (N : ℤ) (hN : N % 2 = 0) (x : K) :
    roundHalfEven ((N : K) - x) = N - roundHalfEven x := by
  obtain ⟨n, t, rfl, h0, h1⟩ := exists_floor_decomp x
  rcases h0.eq_or_lt with rfl | hpos
  · rw [add_zero, ← Int.cast_sub, roundHalfEven_intCast, roundHalfEven_intCast]
  · have e : (N : K) - (n + t) = ((N - n - 1 : ℤ) : K) + (1 - t) := by push_cast; ring
    rw [e, roundHalfEven_add _ (1 - t) (by linarith) (by linarith), roundHalfEven_add n t h0 h1]
    split_ifs <;> first | omega | (exfalso; linarith)

theorem round7_mono {x y : K} (h : x ≤ y) : round7 x ≤ round7 y := by
  unfold round7
  have : (roundHalfEven (x * 10000000) : K) ≤ roundHalfEven (y * 10000000) := by
    exact_mod_cast roundHalfEven_mono (by linarith)
  exact div_le_div_of_nonneg_right this (by norm_num)

@[simp] theorem round7_zero : round7 (0 : K) = 0 := by
  have := roundHalfEven_intCast (K := K) 0
  simp only [Int.cast_zero] at this
  simp [round7, this]

@[simp] theorem round7_one : round7 (1 : K) = 1 := by
  have := roundHalfEven_intCast (K := K) 10000000
  push_cast at this
  simp [round7, this]

theorem round7_one_sub (x : K) : round7 (1 - x) = 1 - round7 x := by
  unfold round7
  have := roundHalfEven_reflect (K := K) 10000000 (by norm_num) (x * 10000000)
  push_cast at this
  rw [show (1 - x) * 10000000 = 10000000 - x * 10000000 by ring, this]
  push_cast; field_simp

theorem abs_round7_sub (x : K) : |round7 x - x| ≤ 1 / 20000000 := by
  have h := abs_roundHalfEven_sub (x * 10000000)
  unfold round7
  rw [abs_le] at h ⊢
  constructor
  · rw [le_sub_iff_add_le, le_div_iff₀ (by norm_num)]; linarith
  · rw [sub_le_iff_le_add, div_le_iff₀ (by norm_num)]; linarith

/-! ### Position of the value in the scale -/

theorem firstNotLess_spec {v : K} {l : List K} (h : ∃ x ∈ l, v ≤ x) :
    ∃ c, firstNotLess v l = .ok c ∧ ∃ hc : c < l.length, v ≤ l[c] ∧
      ∀ j (hj : j < c), l[j] < v := by
  induction l with
  | nil => simp at h
  | cons x l ih =>
    unfold firstNotLess
    by_cases hx : x < v
    · rw [if_pos hx]
      obtain ⟨y, hy, hvy⟩ := h
      rcases List.mem_cons.1 hy with rfl | hy
      · exact absurd hx hvy.not_gt
      · obtain ⟨c, hc, hc1, hc2, hc3⟩ := ih ⟨y, hy, hvy⟩
        refine ⟨c + 1, by rw [hc]; rfl, by simpa using hc1, by simpa using hc2, ?_⟩
        intro j hj
        cases j with
        | zero => simpa using hx
        | succ j => simpa using hc3 j (by omega)
    · rw [if_neg hx]
      exact ⟨0, rfl, by simp, by simpa using hx, fun j hj => absurd hj (by omega)⟩

theorem foldl_min_le (l : List K) (x : K) : l.foldl min x ≤ x ∧ ∀ y ∈ l, l.foldl min x ≤ y := by
  induction l generalizing x with
  | nil => simp
  | cons a l ih =>
    have h := ih (min x a)
    refine ⟨h.1.trans (min_le_left _ _), fun y hy => ?_⟩
    rcases List.mem_cons.1 hy with rfl | hy
    · exact h.1.trans (min_le_right _ _)
    · exact h.2 y hy

theorem foldl_min_mem (l : List K) (x : K) : l.foldl min x = x ∨ l.foldl min x ∈ l := by
  induction l generalizing x with
  | nil => simp
  | cons a l ih =>
    rcases ih (min x a) with h | h
    · rw [List.foldl_cons, h]
      rcases min_choice x a with h2 | h2 <;> rw [h2] <;> simp
    · simp [List.foldl_cons, h]

theorem foldl_max_ge (l : List K) (x : K) : x ≤ l.foldl max x ∧ ∀ y ∈ l, y ≤ l.foldl max x := by
  induction l generalizing x with
  | nil => simp
  | cons a l ih =>
    have h := ih (max x a)
    refine ⟨(le_max_left _ _).trans h.1, fun y hy => ?_⟩
    rcases List.mem_cons.1 hy with rfl | hy
    · exact (le_max_right _ _).trans h.1
    · exact h.2 y hy

theorem foldl_max_mem (l : List K) (x : K) : l.foldl max x = x ∨ l.foldl max x ∈ l := by
  induction l generalizing x with
  | nil => simp
  | cons a l ih =>
    rcases ih (max x a) with h | h
    · rw [List.foldl_cons, h]
      rcases max_choice x a with h2 | h2 <;> rw [h2] <;> simp
    · simp [List.foldl_cons, h]

/-- Minimum and maximum of a non-empty increasing list are its ends. -/
theorem pyMin_sorted {l : List K} (hl : l ≠ []) (hs : l.Pairwise (· ≤ ·)) :
    pyMin l = .ok (l.head hl) := by
  cases l with
  | nil => exact absurd rfl hl
  | cons x l =>
    simp only [pyMin, List.head_cons]
    congr 1
    rcases foldl_min_mem l x with h | h
    · exact h
    · exact le_antisymm (foldl_min_le l x).1 (List.rel_of_pairwise_cons hs h)

theorem pyMax_sorted {l : List K} (hl : l ≠ []) (hs : l.Pairwise (· ≤ ·)) :
    pyMax l = .ok (l.getLast hl) := by
  cases l with
  | nil => exact absurd rfl hl
  | cons x l =>
    simp only [pyMax]
    congr 1
    have hmem : l.foldl max x ∈ x :: l := by
      rcases foldl_max_mem l x with h | h
      · rw [h]; simp
      · exact List.mem_cons_of_mem _ h
    have hge : ∀ y ∈ x :: l, y ≤ l.foldl max x := by
      intro y hy
      rcases List.mem_cons.1 hy with rfl | hy
      · exact (foldl_max_ge l y).1
      · exact (foldl_max_ge l x).2 y hy
    have hle : ∀ y ∈ x :: l, y ≤ (x :: l).getLast hl := by
      intro y hy
      obtain ⟨i, hi, rfl⟩ := List.getElem_of_mem hy
      rw [List.getLast_eq_getElem]
      rcases Nat.lt_or_ge i ((x :: l).length - 1) with h | h
      · exact List.pairwise_iff_getElem.1 hs i _ hi (by omega) h
      · have : i = (x :: l).length - 1 := by omega
        subst this; exact le_rfl
    exact le_antisymm (hle _ hmem) (hge _ (List.getLast_mem hl))

theorem map_zipIdx_index {α : Type} (l : List K) (f : ℕ → α) :
    (l.zipIdx.map fun p => f p.2) = (List.range l.length).map f := by
  apply List.ext_getElem <;> simp

theorem sum_map_range (f : ℕ → K) (n : ℕ) : ((List.range n).map f).sum = ∑ i ∈ Finset.range n, f i := by
  induction n with
  | zero => simp
  | succ n ih => rw [List.range_succ, Finset.sum_range_succ, ← ih]; simp

end Dcf.Rating
