import Verif.Model.RoundedRating
import Verif.Props.Rating
import Verif.Props.RoundedLegs

/-! # Rating weights in floating point arithmetic: C183 -/

set_option linter.unusedSectionVars false
set_option linter.unusedSimpArgs false
set_option linter.unusedVariables false

namespace Dcf.Rating

open Spec

section
variable {p : ℕ} {rnd : ℝ → ℝ}

/-- C183: without rounding these are the weights of the model. -/
theorem C183_unrounded (sloppy : Bool) (scale : List ℝ) (v : ℝ) : floatVector id sloppy scale v = vector sloppy scale v := by
  have hd : ∀ a b : ℝ, Rounded.div id a b = pyDiv a b := fun a b => by
    simp only [Rounded.div]
    cases pyDiv a b <;> rfl
  have hr : floatRound7 id = (round7 : ℝ → ℝ) := rfl
  simp only [floatVector, vector, vectorWith, hd, hr, id]

theorem floatRound7_mono (R : Rounding p rnd) : Monotone (floatRound7 rnd) := fun _ _ h => R.mono (round7_mono h)

theorem floatRound7_zero (R : Rounding p rnd) : floatRound7 rnd 0 = 0 := by rw [floatRound7, round7_zero, R.zero]

theorem floatRound7_one (R : Rounding p rnd) (hp : 1 ≤ p) : floatRound7 rnd 1 = 1 := by rw [floatRound7, round7_one, R.one hp]

theorem floatRound7_near (R : Rounding p rnd) (hp : 1 ≤ p) {x : ℝ} (h0 : 0 ≤ x) (h1 : x ≤ 1) :
    |floatRound7 rnd x - x| ≤ 0.00000005 + (2 : ℝ) ^ (-(p : ℤ)) := by
  have a := R.err hp (round7 x)
  have b := abs_round7_sub x
  have c0 : 0 ≤ round7 x := by simpa using round7_mono h0
  have c1 : round7 x ≤ 1 := by simpa using round7_mono h1
  rw [abs_of_nonneg c0] at a
  have d := abs_add_le (rnd (round7 x) - round7 x) (round7 x - x)
  rw [sub_add_sub_cancel] at d
  have e : (2 : ℝ) ^ (-(p : ℤ)) * round7 x ≤ (2 : ℝ) ^ (-(p : ℤ)) := mul_le_of_le_one_right (by positivity) c1
  have f : (1 : ℝ) / 20000000 = 0.00000005 := by norm_num
  rw [floatRound7]
  linarith

/-- The class values of a scale as used for weighting. -/
noncomputable def floatScale (rnd : ℝ → ℝ) (scale : List ℝ) : List ℝ := (scale.map (floatRound7 rnd)).insertionSort (· ≤ ·)

theorem scaleValues_float (R : Rounding p rnd) (scale : List ℝ) : (scaleValues scale).map (floatRound7 rnd) = floatScale rnd scale := by
  have hp : ((scaleValues scale).map (floatRound7 rnd)).Pairwise (· ≤ ·) := by
    rw [List.pairwise_map]
    exact (List.pairwise_insertionSort (· ≤ ·) scale).imp fun h => floatRound7_mono R h
  have hperm : ((scaleValues scale).map (floatRound7 rnd)).Perm (floatScale rnd scale) :=
    ((List.perm_insertionSort _ scale).map _).trans (List.perm_insertionSort _ _).symm
  exact hperm.eq_of_pairwise' hp (List.pairwise_insertionSort (· ≤ ·) _)

/-- The weight of the lower class. -/
theorem alpha_near (R : Rounding p rnd) (hp : 4 ≤ p) {f c x : ℝ} (h1 : f < x) (h2 : x ≤ c) :
    rnd (f - c) ≠ 0 ∧ 0 ≤ rnd (rnd (x - c) / rnd (f - c)) ∧ rnd (rnd (x - c) / rnd (f - c)) ≤ 1 ∧
    |rnd (rnd (x - c) / rnd (f - c)) - (x - c) / (f - c)| ≤ 4 * (2 : ℝ) ^ (-(p : ℤ)) := by
  have hp1 : 1 ≤ p := by omega
  have hu : (2 : ℝ) ^ (-(p : ℤ)) ≤ 1 / 16 := ulp_le hp
  have hu0 : (0 : ℝ) < (2 : ℝ) ^ (-(p : ℤ)) := by positivity
  obtain ⟨δ, hδ, e1⟩ := R.factor hp1 (x - c)
  obtain ⟨ε, hε, e2⟩ := R.factor hp1 (f - c)
  have hd : f - c < 0 := by linarith
  have hδ' := abs_le.1 hδ
  have hε' := abs_le.1 hε
  have hD : rnd (f - c) < 0 := by rw [e2]; nlinarith
  have hN : rnd (x - c) ≤ 0 := R.nonpos (by linarith)
  have hm : rnd (f - c) ≤ rnd (x - c) := R.mono (by linarith)
  have q0 : 0 ≤ rnd (x - c) / rnd (f - c) := div_nonneg_of_nonpos hN hD.le
  have q1 : rnd (x - c) / rnd (f - c) ≤ 1 := by rw [div_le_one_of_neg hD]; exact hm
  refine ⟨hD.ne, R.nonneg q0, R.le_of_le q1 (IsFloat.one hp1), ?_⟩
  have a0 : 0 ≤ (x - c) / (f - c) := div_nonneg_of_nonpos (by linarith) hd.le
  have a1 : (x - c) / (f - c) ≤ 1 := by rw [div_le_one_of_neg hd]; linarith
  have k : |rnd (x - c) / rnd (f - c) - (x - c) / (f - c)| ≤ 2.5 * (2 : ℝ) ^ (-(p : ℤ)) := by
    have hpos : 0 < 1 + ε := by linarith
    have e3 : rnd (x - c) / rnd (f - c) - (x - c) / (f - c) = (x - c) / (f - c) * ((δ - ε) / (1 + ε)) := by
      rw [e1, e2]
      have := hd.ne
      field_simp
      ring
    rw [e3, abs_mul, abs_of_nonneg a0]
    have e4 : |(δ - ε) / (1 + ε)| ≤ 2.5 * (2 : ℝ) ^ (-(p : ℤ)) := by
      rw [abs_div, abs_of_pos hpos, div_le_iff₀ hpos]
      have := abs_sub δ ε
      nlinarith
    exact (mul_le_of_le_one_left (abs_nonneg _) a1).trans e4
  have a := R.err hp1 (rnd (x - c) / rnd (f - c))
  rw [abs_of_nonneg q0] at a
  have b := abs_add_le (rnd (rnd (x - c) / rnd (f - c)) - rnd (x - c) / rnd (f - c)) (rnd (x - c) / rnd (f - c) - (x - c) / (f - c))
  rw [sub_add_sub_cancel] at b
  have d : (2 : ℝ) ^ (-(p : ℤ)) * (rnd (x - c) / rnd (f - c)) ≤ (2 : ℝ) ^ (-(p : ℤ)) := mul_le_of_le_one_right hu0.le q1
  linarith

theorem float_sum_two (n c : ℕ) (hc0 : c ≠ 0) (hc : c < n) (a b : ℝ) (g : ℕ → ℝ) :
    ∑ i ∈ Finset.range n, (if (i : ℤ) = (c : ℤ) - 1 then a else if i = c then b else 0) * g i = a * g (c - 1) + b * g c := by
  have : ∀ i ∈ Finset.range n, (if (i : ℤ) = (c : ℤ) - 1 then a else if i = c then b else 0) * g i
        = (if i = c - 1 then a * g (c - 1) else 0) + (if i = c then b * g c else 0) := by
    intro i _
    by_cases h1 : i = c - 1
    · have : ¬ i = c := by omega
      rw [if_pos (by omega), if_pos h1, if_neg this, h1]; simp
    · rw [if_neg (by omega), if_neg h1]
      by_cases h2 : i = c
      · simp [h2]
      · simp [h2]
  rw [Finset.sum_congr rfl this, Finset.sum_add_distrib, Finset.sum_ite_eq', Finset.sum_ite_eq', if_pos (by simp; omega), if_pos (by simpa using hc)]

theorem float_core (R : Rounding p rnd) (hp : 4 ≤ p) (vals : List ℝ) (x lo hi : ℝ) (hlo : pyMin vals = .ok lo) (hhi : pyMax vals = .ok hi)
    (hs : vals.Pairwise (· ≤ ·)) (hne : lo < hi) (h1 : lo ≤ x) (h2 : x ≤ hi) :
    ∃ w, (do
      let ceiling_index ← firstNotLess x vals
      let floor_index : ℤ := (ceiling_index : ℤ) - 1
      let pd_cap ← pyIndex vals ceiling_index
      let pd_floor ← pyIndexInt vals floor_index
      let alpha ← Rounded.div rnd (rnd (x - pd_cap)) (rnd (pd_floor - pd_cap))
      .ok (vals.zipIdx.map fun p =>
        if (p.2 : ℤ) = floor_index then max 0 (min (floatRound7 rnd alpha) 1)
        else if p.2 = ceiling_index then max 0 (min (floatRound7 rnd (rnd (1 - alpha))) 1)
        else 0)) = (.ok w : Py (List ℝ)) ∧ w.length = vals.length ∧ (∀ x ∈ w, 0 ≤ x ∧ x ≤ 1) ∧ |w.sum - 1| ≤ 0.0000001 + 3 * (2 : ℝ) ^ (-(p : ℤ)) ∧
      (∃ i, ∃ hi1 : i + 1 < vals.length, vals[i] ≤ x ∧ x ≤ vals[i + 1] ∧ (∀ j (hj : j < w.length), j ≠ i → j ≠ i + 1 → w[j] = 0) ∧
        |(List.zipWith (· * ·) w vals).sum - x| ≤ (0.00000005 + 6 * (2 : ℝ) ^ (-(p : ℤ))) * (|vals[i]| + |vals[i + 1]|)) ∧
      (x ∈ vals → ∃ i, vals[i]? = some x ∧ w[i]? = some 1 ∧ ∀ j (hj : j < w.length), j ≠ i → w[j] = 0) := by
  have hp1 : 1 ≤ p := by omega
  have hu0 : (0 : ℝ) < (2 : ℝ) ^ (-(p : ℤ)) := by positivity
  have hnil : vals ≠ [] := by
    intro h; rw [h] at hlo; simp [pyMin] at hlo
  have hlo' : lo = vals.head hnil := by
    rw [pyMin_sorted hnil hs] at hlo; injection hlo with h; exact h.symm
  have hhi' : hi = vals.getLast hnil := by
    rw [pyMax_sorted hnil hs] at hhi; injection hhi with h; exact h.symm
  have hpos : 0 < vals.length := List.length_pos_iff.2 hnil
  have hhead : vals[0] = lo := by rw [hlo', List.head_eq_getElem]
  have hlast : vals[vals.length - 1] = hi := by rw [hhi', List.getLast_eq_getElem]
  obtain ⟨c, hc, hclt, hcv, hcl⟩ := firstNotLess_spec (v := x) (l := vals) ⟨hi, by rw [hhi']; exact List.getLast_mem hnil, h2⟩
  rw [hc]
  simp only [Py.ok_bind, pyIndex_ok hclt]
  have hweights : ∀ a b : ℝ, (vals.zipIdx.map fun p : ℝ × ℕ => if (p.2 : ℤ) = (c : ℤ) - 1 then a else if p.2 = c then b else 0) =
      (List.range vals.length).map fun i : ℕ => if (i : ℤ) = (c : ℤ) - 1 then a else if i = c then b else 0 := fun a b =>
    map_zipIdx_index vals (fun i : ℕ => if (i : ℤ) = (c : ℤ) - 1 then a else if i = c then b else 0)
  have hzip : ∀ f : ℕ → ℝ, (List.zipWith (· * ·) ((List.range vals.length).map f) vals).sum = ∑ i ∈ Finset.range vals.length, f i * vals.getD i 0 := by
    intro f
    rw [← sum_map_range]
    congr 1
    apply List.ext_getElem
    · simp
    · intro i h3 h4
      simp at h3 h4
      simp [h3]
  have hsum : ∀ f : ℕ → ℝ, ((List.range vals.length).map f).sum = ∑ i ∈ Finset.range vals.length, f i * 1 := by
    intro f; rw [sum_map_range]; simp
  rcases Nat.eq_zero_or_pos c with rfl | hcpos
  · have hx0 : x = lo := le_antisymm (hcv.trans_eq hhead) h1
    have hlen2 : 1 < vals.length := by
      by_contra hcon
      have h1' : vals.length - 1 = 0 := by omega
      have : vals[0] = vals[vals.length - 1] := by simp [h1']
      rw [hhead, hlast] at this; exact hne.ne this
    have hidx : pyIndexInt vals (((0 : ℕ) : ℤ) - 1) = .ok hi := by
      unfold pyIndexInt
      rw [if_neg (by norm_num), if_pos (by omega)]
      have : ((vals.length : ℤ) + (((0 : ℕ) : ℤ) - 1)).toNat = vals.length - 1 := by omega
      rw [this, pyIndex_ok (by omega), hlast]
    have hD : rnd (hi - lo) ≠ 0 := by
      obtain ⟨ε, hε, e2⟩ := R.factor hp1 (hi - lo)
      have := ulp_le hp
      have := (abs_le.1 hε).1
      rw [e2]
      exact mul_ne_zero (by linarith) (by linarith)
    rw [hidx]
    simp only [Py.ok_bind, hhead, Rounded.div]
    rw [pyDiv_ok hD, Py.map_ok, Py.ok_bind, hx0, sub_self, R.zero, zero_div, R.zero, sub_zero, R.one hp1, floatRound7_zero R, floatRound7_one R hp1, hweights]
    have hfun : (fun i : ℕ => if (i : ℤ) = ((0 : ℕ) : ℤ) - 1 then max (0 : ℝ) (min 0 1) else if i = 0 then max 0 (min 1 1) else 0) =
        fun i : ℕ => if i = 0 then (1 : ℝ) else 0 := by
      funext i
      have : ¬ (i : ℤ) = ((0 : ℕ) : ℤ) - 1 := by omega
      rw [if_neg this]; simp
    rw [hfun]
    have h01 : lo ≤ vals[0 + 1] := by
      rw [← hhead]; exact List.pairwise_iff_getElem.1 hs 0 1 hpos hlen2 (by norm_num)
    refine ⟨_, rfl, by simp, ?_, ?_, ⟨0, hlen2, by rw [hhead], h01, ?_, ?_⟩, ?_⟩
    · intro y hy
      obtain ⟨i, _, rfl⟩ := List.mem_map.1 hy
      split_ifs <;> simp
    · rw [hsum]; simp [hpos]; positivity
    · intro j hj h3 _; simp [h3]
    · rw [hzip]
      simp only [ite_mul, one_mul, zero_mul]
      rw [Finset.sum_ite_eq' (Finset.range vals.length) 0, if_pos (by simpa using hpos), List.getD_eq_getElem?_getD, List.getElem?_eq_getElem hpos,
        Option.getD_some, hhead, sub_self, abs_zero]
      positivity
    · intro _
      refine ⟨0, by rw [List.getElem?_eq_getElem hpos, hhead], by simp [hpos], fun j hj h3 => by simp [h3]⟩
  · have hfl : vals[c - 1] < x := hcl (c - 1) (by omega)
    have hidx : pyIndexInt vals ((c : ℤ) - 1) = .ok vals[c - 1] := by
      unfold pyIndexInt
      rw [if_pos (by omega)]
      have : ((c : ℤ) - 1).toNat = c - 1 := by omega
      rw [this, pyIndex_ok (by omega)]
    rw [hidx]
    simp only [Py.ok_bind, Rounded.div]
    obtain ⟨g1, g2, g3, g4⟩ := alpha_near R hp hfl hcv
    rw [pyDiv_ok g1, Py.map_ok, Py.ok_bind, hweights]
    have hxα : x = (x - vals[c]) / (vals[c - 1] - vals[c]) * vals[c - 1] + (1 - (x - vals[c]) / (vals[c - 1] - vals[c])) * vals[c] := by
      have hd : vals[c - 1] - vals[c] ≠ 0 := by have : vals[c - 1] < vals[c] := hfl.trans_le hcv; linarith
      have := div_mul_cancel₀ (x - vals[c]) hd
      linear_combination -this
    have hcap : x = vals[c] → rnd (rnd (x - vals[c]) / rnd (vals[c - 1] - vals[c])) = 0 := by
      intro h; rw [h, sub_self, R.zero, zero_div, R.zero]
    generalize rnd (rnd (x - vals[c]) / rnd (vals[c - 1] - vals[c])) = α' at *
    generalize (x - vals[c]) / (vals[c - 1] - vals[c]) = α at *
    have b0 : 0 ≤ rnd (1 - α') := R.nonneg (by linarith)
    have b1 : rnd (1 - α') ≤ 1 := R.le_of_le (by linarith) (IsFloat.one hp1)
    have b2 : |rnd (1 - α') - (1 - α')| ≤ (2 : ℝ) ^ (-(p : ℤ)) := by
      refine (R.err hp1 _).trans (mul_le_of_le_one_right hu0.le ?_)
      rw [abs_of_nonneg (by linarith)]; linarith
    have n1 := floatRound7_near R hp1 g2 g3
    have n2 := floatRound7_near R hp1 b0 b1
    have r0 : 0 ≤ floatRound7 rnd α' := by simpa [floatRound7_zero R] using floatRound7_mono R g2
    have r1 : floatRound7 rnd α' ≤ 1 := by simpa [floatRound7_one R hp1] using floatRound7_mono R g3
    have s0 : 0 ≤ floatRound7 rnd (rnd (1 - α')) := by simpa [floatRound7_zero R] using floatRound7_mono R b0
    have s1 : floatRound7 rnd (rnd (1 - α')) ≤ 1 := by simpa [floatRound7_one R hp1] using floatRound7_mono R b1
    rw [min_eq_left r1, max_eq_right r0, min_eq_left s1, max_eq_right s0]
    have hcap2 : x = vals[c] → floatRound7 rnd α' = 0 ∧ floatRound7 rnd (rnd (1 - α')) = 1 := by
      intro h
      rw [hcap h, sub_zero, R.one hp1]
      exact ⟨floatRound7_zero R, floatRound7_one R hp1⟩
    generalize floatRound7 rnd (rnd (1 - α')) = wc at *
    generalize floatRound7 rnd α' = wf at *
    generalize rnd (1 - α') = β at *
    rw [abs_le] at n1 n2 b2 g4
    have e1 : vals[c - 1 + 1]'(by omega) = vals[c] := by congr 1; omega
    refine ⟨_, rfl, by simp, ?_, ?_, ⟨c - 1, by omega, hfl.le, ?_, ?_, ?_⟩, ?_⟩
    · intro y hy
      obtain ⟨i, _, rfl⟩ := List.mem_map.1 hy
      split_ifs <;> constructor <;> linarith
    · rw [hsum, float_sum_two _ c (by omega) hclt, abs_le]
      constructor <;> norm_num at * <;> linarith
    · rw [e1]; exact hcv
    · intro j hj h3 h4
      simp only [List.getElem_map, List.getElem_range]
      rw [if_neg (by omega), if_neg (by omega)]
    · rw [hzip, float_sum_two _ c (by omega) hclt, e1, List.getD_eq_getElem?_getD, List.getD_eq_getElem?_getD,
        List.getElem?_eq_getElem (by omega), List.getElem?_eq_getElem hclt, Option.getD_some, Option.getD_some]
      have e2 : wf * vals[c - 1] + wc * vals[c] - x = (wf - α) * vals[c - 1] + (wc - (1 - α)) * vals[c] := by linear_combination -hxα
      rw [e2]
      have k1 : |wf - α| ≤ 0.00000005 + 6 * (2 : ℝ) ^ (-(p : ℤ)) := abs_le.2 ⟨by linarith, by linarith⟩
      have k2 : |wc - (1 - α)| ≤ 0.00000005 + 6 * (2 : ℝ) ^ (-(p : ℤ)) := abs_le.2 ⟨by linarith, by linarith⟩
      refine (abs_add_le _ _).trans ?_
      rw [abs_mul, abs_mul, mul_add]
      exact add_le_add (mul_le_mul_of_nonneg_right k1 (abs_nonneg _)) (mul_le_mul_of_nonneg_right k2 (abs_nonneg _))
    · intro h
      obtain ⟨m, hm, rfl⟩ := List.getElem_of_mem h
      have hmc : c ≤ m := by
        by_contra hcon
        exact lt_irrefl _ (hcl m (by omega))
      have hx : vals[m] = vals[c] := by
        refine le_antisymm hcv ?_
        rcases hmc.eq_or_lt with rfl | hlt
        · exact le_rfl
        · exact List.pairwise_iff_getElem.1 hs c m hclt hm hlt
      obtain ⟨k1, k2⟩ := hcap2 hx
      refine ⟨c, by rw [List.getElem?_eq_getElem hclt, hx], ?_, ?_⟩
      · rw [List.getElem?_map, List.getElem?_range hclt]
        simp only [Option.map_some]
        rw [if_neg (by omega), if_pos trivial, k2]
      · intro j hj h3
        simp only [List.getElem_map, List.getElem_range]
        rw [k1, if_neg h3]
        simp

/-- C183: the weights of a value inside the scale are numbers from zero to one for the two classes next to it; they add up to one and reproduce the value, up to
rounding in the seventh digit and a few roundings; a value of a class has that class only. -/
theorem C183_weights (R : Rounding p rnd) (hp : 4 ≤ p) (sloppy : Bool) (scale : List ℝ) (v lo hi : ℝ) (hlo : pyMin (floatScale rnd scale) = .ok lo)
    (hhi : pyMax (floatScale rnd scale) = .ok hi) (hne : lo < hi) (h1 : lo ≤ floatRound7 rnd v) (h2 : floatRound7 rnd v ≤ hi) :
    ∃ w, floatVector rnd sloppy scale v = .ok w ∧ w.length = scale.length ∧ (∀ x ∈ w, 0 ≤ x ∧ x ≤ 1) ∧ |w.sum - 1| ≤ 0.0000001 + 3 * (2 : ℝ) ^ (-(p : ℤ)) ∧
      (∃ i, ∃ hi1 : i + 1 < (floatScale rnd scale).length,
        (floatScale rnd scale)[i] ≤ floatRound7 rnd v ∧ floatRound7 rnd v ≤ (floatScale rnd scale)[i + 1] ∧
        (∀ j (hj : j < w.length), j ≠ i → j ≠ i + 1 → w[j] = 0) ∧
        |(List.zipWith (· * ·) w (floatScale rnd scale)).sum - floatRound7 rnd v| ≤
          (0.00000005 + 6 * (2 : ℝ) ^ (-(p : ℤ))) * (|(floatScale rnd scale)[i]| + |(floatScale rnd scale)[i + 1]|)) ∧
      (floatRound7 rnd v ∈ floatScale rnd scale → ∃ i, (floatScale rnd scale)[i]? = some (floatRound7 rnd v) ∧ w[i]? = some 1 ∧
        ∀ j (hj : j < w.length), j ≠ i → w[j] = 0) := by
  obtain ⟨w, h3, h4, h5⟩ := float_core R hp (floatScale rnd scale) (floatRound7 rnd v) lo hi hlo hhi (List.pairwise_insertionSort _ _) hne h1 h2
  refine ⟨w, ?_, h4.trans (by simp [floatScale]), h5⟩
  rw [← h3]
  unfold floatVector
  simp only [scaleValues_float R, hlo, hhi, Py.ok_bind]
  rw [if_neg (by simp [h1, h2]), if_neg h1.not_gt, if_neg h2.not_gt]

/-- C183: values outside the scale are refused unless `SLOPPY`. -/
theorem C183_outside (R : Rounding p rnd) (scale : List ℝ) (v lo hi : ℝ) (hlo : pyMin (floatScale rnd scale) = .ok lo)
    (hhi : pyMax (floatScale rnd scale) = .ok hi) (h : floatRound7 rnd v < lo ∨ hi < floatRound7 rnd v) : floatVector rnd false scale v = .error .value := by
  unfold floatVector
  simp only [scaleValues_float R, hlo, hhi, Py.ok_bind]
  rw [if_pos]
  · rfl
  · constructor
    · rintro ⟨h1, h2⟩; rcases h with h | h <;> linarith
    · simp


/-! ## Examples -/

theorem exQuarters {k : ℤ} (h : |k| < 2 ^ 53) (R : Rounding 53 rnd) : floatRound7 rnd (k / 4) = k / 4 := by
  have h1 : round7 ((k : ℝ) / 4) = k / 4 := by
    have e : (k : ℝ) / 4 * 10000000 = ((2500000 * k : ℤ) : ℝ) := by push_cast; ring
    rw [round7, e, roundHalfEven_intCast]; push_cast; ring
  rw [floatRound7, h1, R.eq_self ⟨k, -2, h, by norm_num; ring⟩]

theorem exQuarterScale (R : Rounding 53 rnd) : floatScale rnd [2 / 4, 4 / 4, 1 / 4] = [1 / 4, 2 / 4, 4 / 4] := by
  have h1 := exQuarters (k := 1) (by norm_num) R
  have h2 := exQuarters (k := 2) (by norm_num) R
  have h4 := exQuarters (k := 4) (by norm_num) R
  push_cast at h1 h2 h4
  simp only [floatScale, List.map_cons, List.map_nil, h1, h2, h4]
  norm_num [List.insertionSort, List.orderedInsert]

/-- Three classes, a value halfway between the second and the third, and a value outside. -/
example (R : Rounding 53 rnd) : (∃ w, floatVector rnd false [2 / 4, 4 / 4, 1 / 4] (3 / 4) = .ok w ∧ w.length = 3 ∧
    |w.sum - 1| ≤ 0.0000001 + 3 * (2 : ℝ) ^ (-(53 : ℤ))) ∧ floatVector rnd false [2 / 4, 4 / 4, 1 / 4] (5 / 4) = .error .value := by
  have h3 := exQuarters (k := 3) (by norm_num) R
  have h5 := exQuarters (k := 5) (by norm_num) R
  push_cast at h3 h5
  have hlo : pyMin (floatScale rnd [2 / 4, 4 / 4, 1 / 4]) = .ok (1 / 4) := by rw [exQuarterScale R]; norm_num [pyMin]
  have hhi : pyMax (floatScale rnd [2 / 4, 4 / 4, 1 / 4]) = .ok (4 / 4) := by rw [exQuarterScale R]; norm_num [pyMax]
  obtain ⟨w, a, b, -, c, -⟩ := C183_weights R (by norm_num) false [2 / 4, 4 / 4, 1 / 4] (3 / 4) (1 / 4) (4 / 4) hlo hhi (by norm_num)
    (by rw [h3]; norm_num) (by rw [h3]; norm_num)
  exact ⟨⟨w, a, b, c⟩, C183_outside R _ (5 / 4) (1 / 4) (4 / 4) hlo hhi (.inr (by rw [h5]; norm_num))⟩

example := C183_unrounded false [1 / 2, 1, 1 / 4] (3 / 4)

end

end Dcf.Rating
