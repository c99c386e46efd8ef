import Verif.Lemmas.Rating
import Mathlib.Tactic.LinearCombination

/-! # Rating classes: properties C08-C10 -/

set_option linter.unusedSectionVars false

namespace Dcf.Rating

/-! ## C08: geometric master scale -/

private theorem fromkeys_some (n : ℕ) (hn : 2 ≤ n) (x : ℝ) (hx : 0 < x) :
    fromkeysValues n (some x) =
      .ok ((List.range n).map fun i : ℕ => x ^ (1 - (i : ℝ) / ((n : ℝ) - 1))) := by
  have hn1 : (n : ℝ) - 1 ≠ 0 := by
    have : (2 : ℝ) ≤ n := by exact_mod_cast hn
    linarith
  unfold fromkeysValues
  simp only [Py.ok_bind]
  apply pyMap_ok
  intro i _
  rw [pyLog_ok hx, Py.ok_bind, pyDiv_ok hn1, Py.ok_bind, Real.rpow_def_of_pos hx]
  congr 2; field_simp

/-- C08: for `n ≥ 2` names and a start value `x` in `(0, 1)` the values start at `x`, end at `1`,
increase strictly and have constant ratio. -/
theorem C08_scale (n : ℕ) (hn : 2 ≤ n) (x : ℝ) (hx : 0 < x) (hx1 : x < 1) :
    ∃ l, fromkeysValues n (some x) = .ok l ∧ l.length = n ∧ l.head? = some x ∧
      l.getLast? = some 1 ∧ ∃ q, 1 < q ∧ ∀ i (h : i + 1 < l.length), l[i + 1] = q * l[i] := by
  have h2 : (2 : ℝ) ≤ n := by exact_mod_cast hn
  have hn1 : (0 : ℝ) < (n : ℝ) - 1 := by linarith
  refine ⟨_, fromkeys_some n hn x hx, by simp, ?_, ?_, x ^ (-1 / ((n : ℝ) - 1)), ?_, ?_⟩
  · rw [List.head?_eq_getElem?, List.getElem?_map, List.getElem?_range (by omega)]; simp
  · rw [List.getLast?_eq_getElem?]
    simp only [List.length_map, List.length_range, List.getElem?_map]
    rw [List.getElem?_range (by omega)]
    simp only [Option.map_some]
    rw [Nat.cast_sub (by omega), Nat.cast_one, div_self hn1.ne', sub_self, Real.rpow_zero]
  · exact Real.one_lt_rpow_of_pos_of_lt_one_of_neg hx hx1 (div_neg_of_neg_of_pos (by norm_num) hn1)
  · intro i h
    simp only [List.getElem_map, List.getElem_range]
    rw [← Real.rpow_add hx]
    congr 1; push_cast; field_simp; ring

/-- C08 (default): without start value the scale starts at `10^-(n-1)` with ratio 10. -/
theorem C08_default (n : ℕ) (hn : 2 ≤ n) :
    ∃ l, fromkeysValues n none = .ok l ∧ l.length = n ∧
      ∀ i (h : i < l.length), l[i] = (10 : ℝ) ^ ((i : ℤ) - ((n : ℤ) - 1)) := by
  have h2 : (2 : ℝ) ≤ n := by exact_mod_cast hn
  have hn1 : (0 : ℝ) < (n : ℝ) - 1 := by linarith
  have e : fromkeysValues n none = fromkeysValues n (some (Real.exp (-((n : ℝ) - 1) * Real.log 10))) :=
    rfl
  rw [e]
  refine ⟨_, fromkeys_some n hn _ (Real.exp_pos _), by simp, fun i h => ?_⟩
  simp only [List.getElem_map, List.getElem_range]
  rw [← Real.exp_mul, ← Real.rpow_intCast, Real.rpow_def_of_pos (by norm_num)]
  congr 1; push_cast; field_simp; ring

/-- C08 (degenerate): one name raises `ZeroDivisionError`, no name gives an empty scale and a
non-positive start value raises `ValueError`. -/
theorem C08_degenerate (x : ℝ) (hx : 0 < x) (n : ℕ) (hn : 1 ≤ n) (y : ℝ) (hy : y ≤ 0) :
    fromkeysValues 1 (some x) = .error .zeroDivision ∧
    fromkeysValues 1 none = .error .zeroDivision ∧
    fromkeysValues 0 (some x) = .ok [] ∧ fromkeysValues n (some y) = .error .value := by
  refine ⟨?_, ?_, by simp [fromkeysValues], ?_⟩
  · simp [fromkeysValues, pyMap_cons, pyLog_ok hx]
  · simp [fromkeysValues, pyMap_cons, pyLog]
  · unfold fromkeysValues
    simp only [Py.ok_bind]
    apply pyMap_error
    · intro a _; rw [pyLog_error hy]; rfl
    · simp; omega

example : (2 : ℕ) ≤ 10 ∧ (0 : ℝ) < 1 / 1000 ∧ (1 / 1000 : ℝ) < 1 := by norm_num

/-! ## C09, C10: rating weights -/

variable {K : Type} [Field K] [LinearOrder K] [IsStrictOrderedRing K] [FloorRing K]

/-- The class values of a scale as used for weighting: rounded to 7 digits, increasing. -/
def roundedScale (scale : List K) : List K := (scale.map round7).insertionSort (· ≤ ·)

/-- All entries lie in `[0, 1]` and add up to one. -/
def IsProbabilityVector (w : List K) : Prop := (∀ x ∈ w, 0 ≤ x ∧ x ≤ 1) ∧ w.sum = 1

theorem scaleValues_round (scale : List K) : (scaleValues scale).map round7 = roundedScale scale := by
  have hp : ((scaleValues scale).map round7).Pairwise (· ≤ ·) := by
    rw [List.pairwise_map]
    exact (List.pairwise_insertionSort (· ≤ ·) scale).imp fun h => round7_mono h
  have hperm : ((scaleValues scale).map round7).Perm (roundedScale scale) :=
    ((List.perm_insertionSort _ scale).map _).trans (List.perm_insertionSort _ _).symm
  exact hperm.eq_of_pairwise' hp (List.pairwise_insertionSort (· ≤ ·) _)

theorem vector_eq (sloppy : Bool) (scale : List K) (v lo hi : K)
    (hlo : pyMin (roundedScale scale) = .ok lo) (hhi : pyMax (roundedScale scale) = .ok hi)
    (h1 : lo ≤ round7 v) (h2 : round7 v ≤ hi) :
    vector sloppy scale v = (do
      let ceiling_index ← firstNotLess (round7 v) (roundedScale scale)
      let floor_index : ℤ := (ceiling_index : ℤ) - 1
      let pd_cap ← pyIndex (roundedScale scale) ceiling_index
      let pd_floor ← pyIndexInt (roundedScale scale) floor_index
      let alpha ← pyDiv (round7 v - pd_cap) (pd_floor - pd_cap)
      .ok ((roundedScale scale).zipIdx.map fun p =>
        if (p.2 : ℤ) = floor_index then max 0 (min (round7 alpha) 1)
        else if p.2 = ceiling_index then max 0 (min (round7 (1 - alpha)) 1)
        else 0)) := by
  unfold vector vectorWith
  simp only [scaleValues_round, hlo, hhi, Py.ok_bind]
  rw [if_neg (by simp [h1, h2])]
  rw [if_neg h1.not_gt, if_neg h2.not_gt]

private theorem sum_two (n c : ℕ) (hc0 : c ≠ 0) (hc : c < n) (a b : K) (g : ℕ → K) :
    ∑ i ∈ Finset.range n, (if (i : ℤ) = (c : ℤ) - 1 then a else if i = c then b else 0) * g i
      = a * g (c - 1) + b * g c := by
  have : ∀ i ∈ Finset.range n,
      (if (i : ℤ) = (c : ℤ) - 1 then a else if i = c then b else 0) * g i
        = (if i = c - 1 then a * g (c - 1) else 0) + (if i = c then b * g c else 0) := by
    intro i _
    by_cases h1 : i = c - 1
    · have : ¬ i = c := by omega
      rw [if_pos (by omega), if_pos h1, if_neg this, h1]; simp
    · rw [if_neg (by omega), if_neg h1]
      by_cases h2 : i = c
      · simp [h2]
      · simp [h2]
  rw [Finset.sum_congr rfl this, Finset.sum_add_distrib, Finset.sum_ite_eq', Finset.sum_ite_eq',
    if_pos (by simp; omega), if_pos (by simpa using hc)]

private theorem weights_core (n : ℕ) (vals : List K) (x lo hi : K)
    (hlo : pyMin vals = .ok lo) (hhi : pyMax vals = .ok hi) (hs : vals.Pairwise (· ≤ ·))
    (hlen : vals.length = n) (hne : lo < hi) (h1 : lo ≤ x) (h2 : x ≤ hi) :
    ∃ w, (do
      let ceiling_index ← firstNotLess x vals
      let floor_index : ℤ := (ceiling_index : ℤ) - 1
      let pd_cap ← pyIndex vals ceiling_index
      let pd_floor ← pyIndexInt vals floor_index
      let alpha ← pyDiv (x - pd_cap) (pd_floor - pd_cap)
      .ok (vals.zipIdx.map fun p =>
        if (p.2 : ℤ) = floor_index then max 0 (min (round7 alpha) 1)
        else if p.2 = ceiling_index then max 0 (min (round7 (1 - alpha)) 1)
        else 0)) = (.ok w : Py (List K)) ∧ w.length = n ∧ IsProbabilityVector w ∧
      ∃ i, ∃ hi1 : i + 1 < vals.length,
        vals[i] ≤ x ∧ x ≤ vals[i + 1] ∧
        (∀ j (hj : j < w.length), j ≠ i → j ≠ i + 1 → w[j] = 0) ∧
        |(List.zipWith (· * ·) w vals).sum - x| ≤ 1 / 20000000 * (vals[i + 1] - vals[i]) := by
  have hnil : vals ≠ [] := by
    intro h; rw [h] at hlo; simp [pyMin] at hlo
  have hlo' : lo = vals.head hnil := by
    rw [pyMin_sorted hnil hs] at hlo; injection hlo with h; exact h.symm
  have hhi' : hi = vals.getLast hnil := by
    rw [pyMax_sorted hnil hs] at hhi; injection hhi with h; exact h.symm
  have hpos : 0 < vals.length := List.length_pos_iff.2 hnil
  have hhead : vals[0] = lo := by rw [hlo', List.head_eq_getElem]
  have hlast : vals[vals.length - 1] = hi := by rw [hhi', List.getLast_eq_getElem]
  obtain ⟨c, hc, hclt, hcv, hcl⟩ := firstNotLess_spec (v := x) (l := vals)
    ⟨hi, by rw [hhi']; exact List.getLast_mem hnil, h2⟩
  rw [hc]
  simp only [Py.ok_bind, pyIndex_ok hclt]
  have hweights : ∀ a b : K, (vals.zipIdx.map fun p : K × ℕ =>
        if (p.2 : ℤ) = (c : ℤ) - 1 then a else if p.2 = c then b else 0) =
      (List.range vals.length).map fun i : ℕ =>
        if (i : ℤ) = (c : ℤ) - 1 then a else if i = c then b else 0 := fun a b =>
    map_zipIdx_index vals (fun i : ℕ => if (i : ℤ) = (c : ℤ) - 1 then a else if i = c then b else 0)
  have hzip : ∀ f : ℕ → K, (List.zipWith (· * ·) ((List.range vals.length).map f) vals).sum =
      ∑ i ∈ Finset.range vals.length, f i * vals.getD i 0 := by
    intro f
    rw [← sum_map_range]
    congr 1
    apply List.ext_getElem
    · simp
    · intro i h3 h4
      simp at h3 h4
      simp [h3]
  have hsum : ∀ f : ℕ → K, ((List.range vals.length).map f).sum =
      ∑ i ∈ Finset.range vals.length, f i * 1 := by
    intro f; rw [sum_map_range]; simp
  rcases Nat.eq_zero_or_pos c with rfl | hcpos
  · -- value equals the smallest class
    have hx0 : x = lo := le_antisymm (hcv.trans_eq hhead) h1
    have hlen2 : 1 < vals.length := by
      by_contra hcon
      have h1' : vals.length - 1 = 0 := by omega
      have : vals[0] = vals[vals.length - 1] := by simp [h1']
      rw [hhead, hlast] at this; exact hne.ne this
    have hidx : pyIndexInt vals (((0 : ℕ) : ℤ) - 1) = .ok hi := by
      unfold pyIndexInt
      rw [if_neg (by norm_num), if_pos (by omega)]
      have : ((vals.length : ℤ) + (((0 : ℕ) : ℤ) - 1)).toNat = vals.length - 1 := by omega
      rw [this, pyIndex_ok (by omega), hlast]
    rw [hidx]
    simp only [Py.ok_bind]
    rw [pyDiv_ok (by rw [hhead]; exact sub_ne_zero.2 hne.ne'), Py.ok_bind, hhead, hx0, sub_self,
      zero_div, sub_zero, round7_zero, round7_one, hweights]
    have hfun : (fun i : ℕ => if (i : ℤ) = ((0 : ℕ) : ℤ) - 1 then max (0 : K) (min 0 1)
        else if i = 0 then max 0 (min 1 1) else 0) = fun i : ℕ => if i = 0 then (1 : K) else 0 := by
      funext i
      have : ¬ (i : ℤ) = ((0 : ℕ) : ℤ) - 1 := by omega
      rw [if_neg this]; simp
    rw [hfun]
    refine ⟨_, rfl, by simp [hlen], ⟨?_, ?_⟩, 0, hlen2, by rw [hhead], ?_, ?_, ?_⟩
    · intro y hy
      obtain ⟨i, _, rfl⟩ := List.mem_map.1 hy
      split_ifs <;> simp
    · rw [hsum]; simp [hpos]
    · rw [← hhead]; exact List.pairwise_iff_getElem.1 hs 0 1 hpos hlen2 (by norm_num)
    · intro j hj h3 _; simp [h3]
    · rw [hzip]
      simp only [ite_mul, one_mul, zero_mul]
      rw [Finset.sum_ite_eq' (Finset.range vals.length) 0]
      rw [if_pos (by simpa using hpos), List.getD_eq_getElem?_getD, List.getElem?_eq_getElem hpos, Option.getD_some, hhead, sub_self, abs_zero]
      have : lo ≤ vals[0 + 1] := by
        rw [← hhead]; exact List.pairwise_iff_getElem.1 hs 0 1 hpos hlen2 (by norm_num)
      exact mul_nonneg (by norm_num) (by linarith)
  · -- value strictly above class c - 1
    have hfl : vals[c - 1] < x := hcl (c - 1) (by omega)
    have hidx : pyIndexInt vals ((c : ℤ) - 1) = .ok vals[c - 1] := by
      unfold pyIndexInt
      rw [if_pos (by omega)]
      have : ((c : ℤ) - 1).toNat = c - 1 := by omega
      rw [this, pyIndex_ok (by omega)]
    rw [hidx]
    simp only [Py.ok_bind]
    have hd : vals[c - 1] - vals[c] < 0 := by linarith
    rw [pyDiv_ok hd.ne, Py.ok_bind, hweights]
    set α := (x - vals[c]) / (vals[c - 1] - vals[c]) with hα
    have hα0 : 0 ≤ α := div_nonneg_of_nonpos (by linarith) hd.le
    have hα1 : α ≤ 1 := by rw [hα, div_le_one_of_neg hd]; linarith
    have hr0 : 0 ≤ round7 α := by simpa using round7_mono hα0
    have hr1 : round7 α ≤ 1 := by simpa using round7_mono hα1
    rw [round7_one_sub, min_eq_left hr1, max_eq_right hr0, min_eq_left (by linarith : 1 - round7 α ≤ 1),
      max_eq_right (by linarith : (0 : K) ≤ 1 - round7 α)]
    refine ⟨_, rfl, by simp [hlen], ⟨?_, ?_⟩, c - 1, by omega, hfl.le, ?_, ?_, ?_⟩
    · intro y hy
      obtain ⟨i, _, rfl⟩ := List.mem_map.1 hy
      split_ifs <;> constructor <;> linarith
    · rw [hsum, sum_two _ c (by omega) hclt]; ring
    · have : vals[c - 1 + 1]'(by omega) = vals[c] := by congr 1; omega
      rw [this]; exact hcv
    · intro j hj h3 h4
      simp only [List.getElem_map, List.getElem_range]
      rw [if_neg (by omega), if_neg (by omega)]
    · have e1 : vals[c - 1 + 1]'(by omega) = vals[c] := by congr 1; omega
      rw [hzip, sum_two _ c (by omega) hclt, e1, List.getD_eq_getElem?_getD, List.getD_eq_getElem?_getD,
        List.getElem?_eq_getElem (by omega), List.getElem?_eq_getElem hclt, Option.getD_some,
        Option.getD_some]
      have hxα : x = α * vals[c - 1] + (1 - α) * vals[c] := by
        have : α * (vals[c - 1] - vals[c]) = x - vals[c] := by rw [hα]; exact div_mul_cancel₀ _ hd.ne
        linear_combination -this
      have e2 : round7 α * vals[c - 1] + (1 - round7 α) * vals[c] - x =
          (round7 α - α) * (vals[c - 1] - vals[c]) := by
        linear_combination (-1 : K) * hxα
      rw [e2, abs_mul]
      have h5 := abs_round7_sub α
      have h6 : |vals[c - 1] - vals[c]| = vals[c] - vals[c - 1] := by
        rw [abs_of_neg hd]; ring
      rw [h6]
      exact mul_le_mul_of_nonneg_right h5 (by linarith)

/-- C09 and C10 in one statement: for a value inside the scale there is a pair of neighbouring
classes `i`, `i+1` enclosing the value; the weights are a probability vector supported there and
reproduce the value up to half a unit of the seventh digit times the distance of the classes. -/
theorem C09_C10_weights (sloppy : Bool) (scale : List K) (v lo hi : K)
    (hlo : pyMin (roundedScale scale) = .ok lo) (hhi : pyMax (roundedScale scale) = .ok hi)
    (hne : lo < hi) (h1 : lo ≤ round7 v) (h2 : round7 v ≤ hi) :
    ∃ w, vector sloppy scale v = .ok w ∧ w.length = scale.length ∧ IsProbabilityVector w ∧
      ∃ i, ∃ hi1 : i + 1 < (roundedScale scale).length,
        (roundedScale scale)[i] ≤ round7 v ∧ round7 v ≤ (roundedScale scale)[i + 1] ∧
        (∀ j (hj : j < w.length), j ≠ i → j ≠ i + 1 → w[j] = 0) ∧
        |(List.zipWith (· * ·) w (roundedScale scale)).sum - round7 v| ≤
          1 / 20000000 * ((roundedScale scale)[i + 1] - (roundedScale scale)[i]) := by
  rw [vector_eq sloppy scale v lo hi hlo hhi h1 h2]
  exact weights_core _ _ _ lo hi hlo hhi (List.pairwise_insertionSort _ _) (by simp [roundedScale])
    hne h1 h2

/-- C09 (outside): a value outside the rounded scale raises `ValueError` unless `SLOPPY`. -/
theorem C09_outside (scale : List K) (v lo hi : K)
    (hlo : pyMin (roundedScale scale) = .ok lo) (hhi : pyMax (roundedScale scale) = .ok hi)
    (h : round7 v < lo ∨ hi < round7 v) : vector false scale v = .error .value := by
  unfold vector vectorWith
  simp only [scaleValues_round, hlo, hhi, Py.ok_bind]
  rw [if_pos]
  · rfl
  · constructor
    · rintro ⟨h1, h2⟩; rcases h with h | h <;> linarith
    · simp

/-- C09 (degenerate): when all classes round to the same value (for example a single class), even
the rating of that very value raises `ZeroDivisionError`. -/
theorem C09_degenerate (sloppy : Bool) (scale : List K) (v lo : K)
    (hlo : pyMin (roundedScale scale) = .ok lo) (hhi : pyMax (roundedScale scale) = .ok lo)
    (h : round7 v = lo) : vector sloppy scale v = .error .zeroDivision := by
  have hs : (roundedScale scale).Pairwise (· ≤ ·) := List.pairwise_insertionSort _ _
  have hnil : roundedScale scale ≠ [] := by
    intro h; rw [h] at hlo; simp [pyMin] at hlo
  have hlo' : (roundedScale scale).head hnil = lo := by
    rw [pyMin_sorted hnil hs] at hlo; injection hlo with h
  have hhi' : (roundedScale scale).getLast hnil = lo := by
    rw [pyMax_sorted hnil hs] at hhi; injection hhi with h
  rw [vector_eq sloppy scale v lo lo hlo hhi h.ge h.le]
  have hpos : 0 < (roundedScale scale).length := List.length_pos_iff.2 hnil
  have hc : firstNotLess (round7 v) (roundedScale scale) = .ok 0 := by
    obtain ⟨c, hc, hclt, hcv, hcl⟩ := firstNotLess_spec (v := round7 v) (l := roundedScale scale)
      ⟨lo, by rw [← hlo']; exact List.head_mem hnil, h.le⟩
    rcases Nat.eq_zero_or_pos c with rfl | hcp
    · exact hc
    · have := hcl 0 hcp
      rw [h, ← hlo', List.head_eq_getElem] at this
      exact absurd this (lt_irrefl _)
  rw [hc]
  simp only [Py.ok_bind, pyIndex_ok hpos]
  have hidx : pyIndexInt (roundedScale scale) (((0 : ℕ) : ℤ) - 1) = .ok lo := by
    unfold pyIndexInt
    rw [if_neg (by norm_num), if_pos (by omega)]
    have : (((roundedScale scale).length : ℤ) + (((0 : ℕ) : ℤ) - 1)).toNat =
      (roundedScale scale).length - 1 := by omega
    rw [this, pyIndex_ok (by omega), ← List.getLast_eq_getElem hnil, hhi']
  rw [hidx]
  have : (roundedScale scale)[0] = lo := by rw [← hlo', List.head_eq_getElem]
  simp only [Py.ok_bind, this, sub_self, pyDiv_zero, Py.error_bind]

/-- A scale of three classes and a value between the second and the third meet the hypotheses. -/
example : pyMin (roundedScale ([1 / 2, 1, 1 / 10] : List ℚ)) = .ok (1 / 10) ∧
    pyMax (roundedScale ([1 / 2, 1, 1 / 10] : List ℚ)) = .ok 1 ∧
    vector false ([1 / 2, 1, 1 / 10] : List ℚ) (3 / 4) = .ok [0, 1 / 2, 1 / 2] := by decide +kernel

/-- A single class meets the hypotheses of `C09_degenerate`. -/
example : pyMin (roundedScale ([1 / 10] : List ℚ)) = .ok (1 / 10) ∧
    pyMax (roundedScale ([1 / 10] : List ℚ)) = .ok (1 / 10) := by decide +kernel

end Dcf.Rating
