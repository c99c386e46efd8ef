import Verif.Props.RoundedValue

/-! # C172: curves over calendar dates in floating point arithmetic -/

set_option linter.unusedSectionVars false
set_option linter.unusedSimpArgs false
set_option linter.unusedVariables false

namespace Dcf

open Spec

section
variable {p : ℕ} {rnd : ℝ → ℝ}

/-! ### Interpolation with slightly moved abscissae -/

theorem ratio_moved {N D N' D' ε g : ℝ} (hN : 0 ≤ N) (hND : N ≤ D) (hg : 0 < g) (hD : g ≤ D) (hε : 4 * ε ≤ g) (h1 : |N' - N| ≤ 2 * ε) (h2 : |D' - D| ≤ 2 * ε) :
    |N' / D' - N / D| ≤ 8 * ε / g := by
  have hD0 : 0 < D := hg.trans_le hD
  have hD' : D / 2 ≤ D' := by have := (abs_le.1 h2).1; linarith
  have hD'0 : 0 < D' := by linarith
  have hθ : N / D ≤ 1 := (div_le_one hD0).2 hND
  have hθ0 : 0 ≤ N / D := by positivity
  have e : N' / D' - N / D = ((N' - N) - N / D * (D' - D)) / D' := by field_simp; ring
  have hε0 : 0 ≤ ε := by have := (abs_nonneg _).trans h1; linarith
  have h3 : |N / D * (D' - D)| ≤ 2 * ε := by
    rw [abs_mul, abs_of_nonneg hθ0]
    exact (mul_le_of_le_one_left (abs_nonneg _) hθ).trans h2
  rw [e, abs_div, abs_of_pos hD'0, div_le_div_iff₀ hD'0 hg]
  have h4 : |(N' - N) - N / D * (D' - D)| ≤ 4 * ε := (abs_sub _ _).trans (by linarith)
  have h5 := mul_le_mul_of_nonneg_right h4 hg.le
  have h6 : g ≤ 2 * D' := by linarith
  nlinarith

theorem StrictX.map_of {l : List (ℝ × ℝ)} (hl : StrictX l) {ψ : ℝ → ℝ} (hψ : ∀ a ∈ l, ∀ b ∈ l, a.1 < b.1 → ψ a.1 < ψ b.1) :
    StrictX (l.map fun a => (ψ a.1, a.2)) := by
  unfold StrictX
  rw [List.pairwise_map]
  exact hl.imp_of_mem fun ha hb h => hψ _ ha _ hb h

/-- Between the first and the last point there is an interval. -/
theorem exists_interval {l : List (ℝ × ℝ)} (hl : StrictX l) (hne : l ≠ []) {x : ℝ} (h1 : (l.head hne).1 < x) (h2 : x ≤ (l.getLast hne).1) :
    ∃ i, ∃ (h0 : 1 ≤ i) (hi : i < l.length), l[i - 1].1 < x ∧ x ≤ l[i].1 := by
  have hlen := List.length_pos_of_ne_nil hne
  have hex : ∃ i, ∃ hi : i < l.length, x ≤ l[i].1 := ⟨l.length - 1, by omega, by rwa [List.getLast_eq_getElem] at h2⟩
  classical
  let i := Nat.find hex
  obtain ⟨hi, hx⟩ := Nat.find_spec hex
  have h0 : 1 ≤ Nat.find hex := by
    by_contra hc
    have h0 : Nat.find hex = 0 := by omega
    simp only [h0] at hx
    rw [List.head_eq_getElem] at h1
    linarith
  refine ⟨Nat.find hex, h0, hi, ?_, hx⟩
  by_contra hc
  exact Nat.find_min hex (by omega : Nat.find hex - 1 < Nat.find hex) ⟨by omega, not_lt.1 hc⟩

theorem flin_chord {l : List (ℝ × ℝ)} (hl : StrictX l) {x : ℝ} {i : ℕ} (h0 : 1 ≤ i) (hi : i < l.length) (h1 : l[i - 1].1 < x) (h2 : x ≤ l[i].1) :
    flin l x = l[i - 1].2 + (l[i].2 - l[i - 1].2) * ((x - l[i - 1].1) / (l[i].1 - l[i - 1].1)) := by
  have hne : l ≠ [] := by intro h; simp [h] at hi
  have hf : (l.head hne).1 ≤ x := by
    rw [List.head_eq_getElem]
    exact (hl.le (by omega) (Nat.zero_le _)).trans h1.le
  have hla : x ≤ (l.getLast hne).1 := by
    rw [List.getLast_eq_getElem]
    exact h2.trans (hl.le (by omega) (by omega))
  rw [flin_eq_plin hl hne hf hla, plin_eq_chord x i h0 hi (fun j hj _ hji => (hl.le (by omega) (by omega)).trans_lt h1)
    (fun j hj hij _ => h2.trans (hl.le hj hij))]
  unfold chord
  ring

/-- The interpolated value hardly changes when all abscissae are moved by at most `ε`, a small part of the smallest gap `g`. -/
theorem flin_moved {l : List (ℝ × ℝ)} (hl : StrictX l) (hne : l ≠ []) {ψ : ℝ → ℝ} (hmono : Monotone ψ) {x ε g M : ℝ} (hg : 0 < g) (hε : 4 * ε ≤ g)
    (hgap : ∀ a ∈ l, ∀ b ∈ l, a.1 < b.1 → g ≤ b.1 - a.1) (hgx : ∀ a ∈ l, a.1 < x → g ≤ x - a.1)
    (hψ : ∀ a ∈ l, |ψ a.1 - a.1| ≤ ε) (hψx : |ψ x - x| ≤ ε) (hM : ∀ a ∈ l, |a.2| ≤ M) :
    |flin (l.map fun a => (ψ a.1, a.2)) (ψ x) - flin l x| ≤ 16 * ε / g * M := by
  have hε0 : 0 ≤ ε := (abs_nonneg _).trans hψx
  have hM0 : 0 ≤ M := (abs_nonneg _).trans (hM _ (List.head_mem hne))
  have hb : 0 ≤ 16 * ε / g * M := by positivity
  have hstrict : ∀ a ∈ l, ∀ b ∈ l, a.1 < b.1 → ψ a.1 < ψ b.1 := by
    intro a ha b hb h
    have h1 := (abs_le.1 (hψ a ha)).2
    have h2 := (abs_le.1 (hψ b hb)).1
    have := hgap a ha b hb h
    linarith
  have hl' := hl.map_of hstrict
  have hne' : (l.map fun a => (ψ a.1, a.2)) ≠ [] := by simpa using hne
  by_cases h1 : x ≤ (l.head hne).1
  · have e1 : flin l x = (l.head hne).2 := by
      obtain ⟨a, t, rfl⟩ := List.exists_cons_of_ne_nil hne
      exact flin_le_first h1
    have e2 : flin (l.map fun a => (ψ a.1, a.2)) (ψ x) = (l.head hne).2 := by
      obtain ⟨a, t, rfl⟩ := List.exists_cons_of_ne_nil hne
      exact flin_le_first (hmono h1)
    rw [e1, e2, sub_self, abs_zero]; exact hb
  · rw [not_le] at h1
    by_cases h2 : (l.getLast hne).1 ≤ x
    · rw [flin_ge_last hl hne h2, flin_ge_last hl' hne' (by simpa using hmono h2)]
      simpa using hb
    · obtain ⟨i, h0, hi, k1, k2⟩ := exists_interval hl hne h1 (not_le.1 h2).le
      have hi0 : i - 1 < l.length := by omega
      have m0 := List.getElem_mem hi0
      have m1 := List.getElem_mem hi
      have k1' : ψ l[i - 1].1 < ψ x := by
        have a1 := (abs_le.1 (hψ _ m0)).2
        have a2 := (abs_le.1 hψx).1
        have := hgx _ m0 k1
        linarith
      rw [flin_chord hl h0 hi k1 k2, flin_chord hl' h0 (by simpa using hi) (by simpa using k1') (by simpa using hmono k2)]
      simp only [List.getElem_map]
      have hd : l[i - 1].1 < l[i].1 := k1.trans_le k2
      have r := ratio_moved (N := x - l[i - 1].1) (D := l[i].1 - l[i - 1].1) (N' := ψ x - ψ l[i - 1].1) (D' := ψ l[i].1 - ψ l[i - 1].1) (ε := ε) (g := g)
        (by linarith) (by linarith) hg (hgap _ m0 _ m1 hd) hε
        (by have a1 := hψ _ m0; rw [abs_le] at *; constructor <;> linarith)
        (by have a1 := hψ _ m0; have a2 := hψ _ m1; rw [abs_le] at *; constructor <;> linarith)
      rw [show ∀ y s a b : ℝ, y + s * a - (y + s * b) = s * (a - b) by intros; ring, abs_mul]
      have hy : |l[i].2 - l[i - 1].2| ≤ 2 * M := (abs_sub _ _).trans (by have := hM _ m0; have := hM _ m1; linarith)
      calc _ ≤ 2 * M * (8 * ε / g) := mul_le_mul hy r (abs_nonneg _) (by positivity)
        _ = _ := by ring

/-! ### Calendar dates -/

theorem dayCount_cal (s t : ℤ) : Rounded.dayCount rnd (.cal s) (.cal t) = .ok (rnd (dayCal.dayCount s t)) := by
  show rnd <$> pyDiv _ _ = _
  rw [pyDiv_ok (by norm_num), Py.map_ok]; rfl

theorem dayCal_abs (o t : ℤ) : |dayCal.dayCount o t| = |((t - o : ℤ) : ℝ)| / 365.25 := by
  show |((t - o : ℤ) : ℝ) / (36525 / 100)| = _
  rw [abs_div]; norm_num

theorem dayCal_gap (o : ℤ) {a b : ℤ} (h : dayCal.dayCount o a < dayCal.dayCount o b) : 1 / 366 ≤ dayCal.dayCount o b - dayCal.dayCount o a := by
  have e : ∀ s t : ℤ, dayCal.dayCount s t = ((t - s : ℤ) : ℝ) / (36525 / 100) := fun _ _ => rfl
  rw [e, e] at *
  have h1 : ((a - o : ℤ) : ℝ) < ((b - o : ℤ) : ℝ) := by
    by_contra hc
    have := div_le_div_of_nonneg_right (not_lt.1 hc) (by norm_num : (0 : ℝ) ≤ 36525 / 100)
    linarith
  have h2 : a - o + 1 ≤ b - o := by exact_mod_cast h1
  have h3 : ((a - o : ℤ) : ℝ) + 1 ≤ ((b - o : ℤ) : ℝ) := by exact_mod_cast h2
  rw [← sub_div, le_div_iff₀ (by norm_num)]
  linarith

/-- Different calendar dates have different year fractions, in the same order. -/
theorem C172_separates (R : Rounding p rnd) (hp : 4 ≤ p) {o a b : ℤ} (hab : a < b) {T : ℝ} (hT : 1500 * ((2 : ℝ) ^ (-(p : ℤ)) * T) ≤ 1)
    (ha : |((a - o : ℤ) : ℝ)| / 365.25 ≤ T) (hb : |((b - o : ℤ) : ℝ)| / 365.25 ≤ T) :
    ∃ s t, Rounded.dayCount rnd (.cal o) (.cal a) = .ok s ∧ Rounded.dayCount rnd (.cal o) (.cal b) = .ok t ∧ s < t := by
  refine ⟨_, _, dayCount_cal o a, dayCount_cal o b, ?_⟩
  rw [← dayCal_abs] at ha hb
  have hlt : dayCal.dayCount o a < dayCal.dayCount o b := by
    show ((a - o : ℤ) : ℝ) / (36525 / 100) < ((b - o : ℤ) : ℝ) / (36525 / 100)
    have : ((a - o : ℤ) : ℝ) < ((b - o : ℤ) : ℝ) := by exact_mod_cast (by omega : a - o < b - o)
    exact div_lt_div_of_pos_right this (by norm_num)
  have h1 := dayCal_gap o hlt
  have hu0 : 0 ≤ (2 : ℝ) ^ (-(p : ℤ)) := ulp_nonneg
  have h2 := (abs_le.1 ((R.err (by omega) (dayCal.dayCount o a)).trans (mul_le_mul_of_nonneg_left ha hu0))).2
  have h3 := (abs_le.1 ((R.err (by omega) (dayCal.dayCount o b)).trans (mul_le_mul_of_nonneg_left hb hu0))).1
  generalize (2 : ℝ) ^ (-(p : ℤ)) * T = w at *
  linarith

/-- The points with rounded times. -/
noncomputable def rndPts (rnd : ℝ → ℝ) (o : ℤ) (pts : List (ℤ × ℝ)) : List (ℝ × ℝ) := pts.map fun a => (rnd (dayCal.dayCount o a.1), a.2)

theorem times_cal (o : ℤ) (pts : List (ℤ × ℝ)) :
    Rounded.times rnd (.cal o) ((pts.map Prod.fst).map .cal) = .ok ((rndPts rnd o pts).map Prod.fst) := by
  unfold Rounded.times
  rw [List.map_map, pyMap_map]
  simp only [Function.comp_apply]
  rw [pyMap_ok (g := fun a : ℤ × ℝ => rnd (dayCal.dayCount o a.1)) (fun a _ => dayCount_cal o a.1)]
  simp [rndPts]

theorem dateFunc_cal {o : ℤ} {pts : List (ℤ × ℝ)} (hn : ((rndPts rnd o pts).map Prod.fst).Nodup) :
    Rounded.dateFunc rnd (.cal o) ((pts.map Prod.fst).map .cal) (pts.map Prod.snd) =
      .ok (Pts.new ((rndPts rnd o pts).map Prod.fst) ((rndPts rnd o pts).map Prod.snd)) := by
  unfold Rounded.dateFunc
  rw [if_neg (by simp), times_cal]
  simp only [Py.pure_eq, Py.ok_bind, hn, not_true_eq_false, if_false]
  congr 2
  simp [rndPts]

/-- Sorting and rounding times commute, and values hardly change. -/
theorem rndPts_moved (R : Rounding p rnd) (hp : 4 ≤ p) {o : ℤ} {pts : List (ℤ × ℝ)} (hn : (pts.map Prod.fst).Nodup) (hne : pts ≠ []) {T M : ℝ}
    (hT : 1500 * ((2 : ℝ) ^ (-(p : ℤ)) * T) ≤ 1) (hpts : ∀ a ∈ pts, |dayCal.dayCount o a.1| ≤ T) (hM : ∀ a ∈ pts, |a.2| ≤ M) {x : ℤ}
    (hx : |dayCal.dayCount o x| ≤ T) :
    ((rndPts rnd o pts).map Prod.fst).Nodup ∧
      |flin (sortPairs (rndPts rnd o pts)) (rnd (dayCal.dayCount o x)) - linVal dayCal.dayCount o pts x| ≤ 5856 * T * (2 : ℝ) ^ (-(p : ℤ)) * M := by
  have hτ : GoodDayCount dayCal.dayCount := goodDayCount_int
  have hu0 : 0 ≤ (2 : ℝ) ^ (-(p : ℤ)) := ulp_nonneg
  set l := sortPairs (timePts dayCal.dayCount o pts) with hl
  have hs : StrictX l := sortPairs_strict (timePts_nodup hτ o hn)
  have hlne : l ≠ [] := sortPairs_ne_nil (by simpa [timePts] using hne)
  have hmem : ∀ a ∈ l, ∃ b ∈ pts, a = (dayCal.dayCount o b.1, b.2) := by
    intro a ha
    obtain ⟨b, hb, e⟩ := List.mem_map.1 ((sortPairs_perm _).mem_iff.1 ha)
    exact ⟨b, hb, e.symm⟩
  have herr : ∀ y, |y| ≤ T → |rnd y - y| ≤ (2 : ℝ) ^ (-(p : ℤ)) * T := fun y hy => (R.err (by omega) y).trans (mul_le_mul_of_nonneg_left hy hu0)
  have hgap : ∀ a ∈ l, ∀ b ∈ l, a.1 < b.1 → 1 / 366 ≤ b.1 - a.1 := by
    intro a ha b hb h
    obtain ⟨a', -, rfl⟩ := hmem a ha
    obtain ⟨b', -, rfl⟩ := hmem b hb
    exact dayCal_gap o h
  have hlerr : ∀ a ∈ l, |rnd a.1 - a.1| ≤ (2 : ℝ) ^ (-(p : ℤ)) * T := by
    intro a ha
    obtain ⟨a', ha', rfl⟩ := hmem a ha
    exact herr _ (hpts a' ha')
  have hstrict : StrictX (l.map fun a => (rnd a.1, a.2)) := by
    refine hs.map_of fun a ha b hb h => ?_
    have h1 := (abs_le.1 (hlerr a ha)).2
    have h2 := (abs_le.1 (hlerr b hb)).1
    have h3 := hgap a ha b hb h
    linarith
  have hperm : (rndPts rnd o pts).Perm (l.map fun a => (rnd a.1, a.2)) := by
    have : rndPts rnd o pts = (timePts dayCal.dayCount o pts).map fun a => (rnd a.1, a.2) := by simp [rndPts, timePts]
    rw [this]
    exact (sortPairs_perm _).symm.map _
  have hsort : sortPairs (rndPts rnd o pts) = l.map fun a => (rnd a.1, a.2) := by
    rw [sortPairs_congr hperm, sortPairs_eq_self hstrict]
  refine ⟨(hperm.map Prod.fst).nodup_iff.2 hstrict.nodup, ?_⟩
  rw [hsort]
  have := flin_moved hs hlne R.mono (x := dayCal.dayCount o x) (ε := (2 : ℝ) ^ (-(p : ℤ)) * T) (g := 1 / 366) (M := M) (by norm_num) (by linarith) hgap
    (fun a ha h => by obtain ⟨a', -, rfl⟩ := hmem a ha; exact dayCal_gap o h) hlerr (herr _ hx)
    (fun a ha => by obtain ⟨a', ha', rfl⟩ := hmem a ha; exact hM a' ha')
  refine this.trans (le_of_eq ?_)
  ring

/-- The value of a curve over calendar dates. -/
theorem C172_value (R : Rounding p rnd) (hp : 4 ≤ p) {pts : List (ℤ × ℝ)} {o? : Option ℤ} {o : ℤ} (hn : (pts.map Prod.fst).Nodup) (hne : pts ≠ [])
    (ho : o?.or (pts.map Prod.fst).head? = some o) (hf : ∀ a ∈ pts, IsFloat p a.2) {M T : ℝ} (hM : ∀ a ∈ pts, |a.2| ≤ M)
    (hT : 1500 * ((2 : ℝ) ^ (-(p : ℤ)) * T) ≤ 1) (hpts : ∀ a ∈ pts, |((a.1 - o : ℤ) : ℝ)| / 365.25 ≤ T) :
    ∃ c, DateCurve.new dayCal (pts.map Prod.fst) (pts.map Prod.snd) none o? .default linearScheme = .ok c ∧
      ∀ x : ℤ, |((x - o : ℤ) : ℝ)| / 365.25 ≤ T → ∃ y z, c.call dayCal x = .ok (some y) ∧
        Rounded.dateCall rnd (.cal o) ((pts.map Prod.fst).map .cal) (pts.map Prod.snd) (.cal x) = .ok z ∧
        |z - y| ≤ (14 + 5856 * T) * (2 : ℝ) ^ (-(p : ℤ)) * M := by
  have hτ : GoodDayCount dayCal.dayCount := goodDayCount_int
  refine ⟨_, DateCurve_new_eq dayCal none o? .default linearScheme ho trivial (timePts_nodup hτ o hn)
    (by simp [linearScheme, FuncSpec.isLog, Kind.isLog]), fun x hx => ?_⟩
  simp only [← dayCal_abs] at hpts hx
  obtain ⟨hn', hmoved⟩ := rndPts_moved R hp hn hne hT hpts hM hx
  obtain ⟨z, e, -, hz⟩ := roundedScheme R hp hn' (by simpa [rndPts] using hne)
    (fun a ha => by obtain ⟨b, hb, rfl⟩ := List.mem_map.1 ha; exact hf b hb) (M := M)
    (fun a ha => by obtain ⟨b, hb, rfl⟩ := List.mem_map.1 ha; exact hM b hb) (rnd (dayCal.dayCount o x))
  refine ⟨linVal dayCal.dayCount o pts x, z, ?_, ?_, ?_⟩
  · rw [dateCurveOf_call dayCal (dc := .default) ho trivial]
    exact funcOf_linear_call (timePts_nodup hτ o hn) (by simpa [timePts] using hne) _
  · rw [Rounded.dateCall, dateFunc_cal hn', Py.ok_bind, dayCount_cal, Py.ok_bind, ← e]
  · have := abs_sub_le z (flin (sortPairs (rndPts rnd o pts)) (rnd (dayCal.dayCount o x))) (linVal dayCal.dayCount o pts x)
    linarith

theorem factor_moved {d e A η δ : ℝ} (he : 0 < e) (hA : 1 ≤ A) (hδ : |δ| ≤ η) (h : |d - e * Real.exp δ| ≤ (A - 1) * (e * Real.exp δ)) :
    |d - e| ≤ (A * Real.exp η - 1) * e := by
  have h1 : Real.exp δ ≤ Real.exp η := Real.exp_le_exp.2 (abs_le.1 hδ).2
  have h2 : (Real.exp η)⁻¹ ≤ Real.exp δ := by rw [← Real.exp_neg]; exact Real.exp_le_exp.2 (by linarith [(abs_le.1 hδ).1])
  have hη : 1 ≤ Real.exp η := Real.one_le_exp ((abs_nonneg _).trans hδ)
  have hinv : (Real.exp η)⁻¹ * Real.exp η = 1 := inv_mul_cancel₀ (by positivity)
  have hi0 : 0 ≤ (Real.exp η)⁻¹ := by positivity
  generalize (Real.exp η)⁻¹ = r at *
  generalize Real.exp η = s at *
  generalize Real.exp δ = q at *
  rw [abs_le] at h ⊢
  have hq : e * q ≤ e * s := mul_le_mul_of_nonneg_left h1 he.le
  have hq' : e * r ≤ e * q := mul_le_mul_of_nonneg_left h2 he.le
  constructor
  · by_cases hA2 : A ≤ 2
    · have a1 : (2 - A) * (e * r) ≤ (2 - A) * (e * q) := mul_le_mul_of_nonneg_left hq' (by linarith)
      have a2 : 2 ≤ (2 - A) * r + A * s := by nlinarith [sq_nonneg (s - 1)]
      nlinarith
    · have a1 : (A - 2) * (e * q) ≤ (A - 2) * (e * s) := mul_le_mul_of_nonneg_left hq (by linarith)
      nlinarith
  · have : A * (e * q) ≤ A * (e * s) := mul_le_mul_of_nonneg_left hq (by linarith)
    linarith

/-- The discount factor of a zero rate curve over calendar dates. -/
theorem C172_discount (R : Rounding p rnd) (hp : 4 ≤ p) {exp : ℝ → ℝ} {v : ℝ} (hv : ∀ x, |exp x - Real.exp x| ≤ v * Real.exp x)
    {pts : List (ℤ × ℝ)} {o? : Option ℤ} {o : ℤ} {tenor : Option ℤ} (hn : (pts.map Prod.fst).Nodup) (hne : pts ≠ [])
    (ho : o?.or (pts.map Prod.fst).head? = some o) (hf : ∀ a ∈ pts, IsFloat p a.2) {M T : ℝ} (hM : ∀ a ∈ pts, |a.2| ≤ M)
    (hT : 1500 * ((2 : ℝ) ^ (-(p : ℤ)) * T) ≤ 1) (hpts : ∀ a ∈ pts, |((a.1 - o : ℤ) : ℝ)| / 365.25 ≤ T) :
    ∃ Z : IRCurve ℤ ℤ, IRCurve.new dayCal .zero (pts.map Prod.fst) (pts.map Prod.snd) none o? .default tenor = .ok Z ∧
      ∀ x : ℤ, |((x - o : ℤ) : ℝ)| / 365.25 ≤ T → ∃ e d, Z.discount dayCal x = .ok e ∧
        Rounded.dateDiscount rnd exp (.cal o) ((pts.map Prod.fst).map .cal) (pts.map Prod.snd) (.cal x) = .ok d ∧ 0 < e ∧
        |d - e| ≤ ((1 + v) * Real.exp ((18 + 6222 * T) * T * (2 : ℝ) ^ (-(p : ℤ)) * M) - 1) * e := by
  have hτ : GoodDayCount dayCal.dayCount := goodDayCount_int
  refine ⟨_, IRCurve_new_eq dayCal hn (by simp [IRClass.dflt, linearScheme, FuncSpec.isLog, Kind.isLog]) ho trivial hτ, fun x hx => ?_⟩
  have hans := zero_answers (cal := dayCal) (dc := .default) (tenor := tenor) hn hne ho trivial hτ
  obtain ⟨df, -, hdf, -, hdisc⟩ := C28_zero hans rfl
  simp only [← dayCal_abs] at hpts hx
  obtain ⟨hn', hmoved⟩ := rndPts_moved R hp hn hne hT hpts hM hx
  have hu := ulp_le hp
  have hu0 : 0 ≤ (2 : ℝ) ^ (-(p : ℤ)) := ulp_nonneg
  have hv0 : 0 ≤ v := by
    have := (abs_nonneg _).trans (hv 0)
    simpa using this
  have hM0 : 0 ≤ M := (abs_nonneg _).trans (hM _ (List.head_mem hne))
  have hT0 : 0 ≤ T := (abs_nonneg _).trans hx
  have hrx := R.err (by omega) (dayCal.dayCount o x)
  have hrx' := hrx.trans (mul_le_mul_of_nonneg_left hx hu0)
  have huT : (2 : ℝ) ^ (-(p : ℤ)) * T ≤ 1 / 16 * T := mul_le_mul_of_nonneg_right hu hT0
  have hx' : |rnd (dayCal.dayCount o x)| ≤ 17 / 16 * T := by
    have := abs_sub_abs_le_abs_sub (rnd (dayCal.dayCount o x)) (dayCal.dayCount o x)
    linarith
  obtain ⟨d, e, h⟩ := zeroDiscount_err R hp hv hn' (by simpa [rndPts] using hne)
    (fun a ha => by obtain ⟨b, hb, rfl⟩ := List.mem_map.1 ha; exact hf b hb) (M := M)
    (fun a ha => by obtain ⟨b, hb, rfl⟩ := List.mem_map.1 ha; exact hM b hb) hx'
  refine ⟨_, d, (hdisc x).trans (by rw [hdf, show DayCountArg.fn dayCal .default o o = 0 from hτ.self o, mul_zero, zero_sub]), ?_, Real.exp_pos _, ?_⟩
  · rw [Rounded.dateDiscount, dateFunc_cal hn', Py.ok_bind, dayCount_cal, Py.ok_bind, ← e]
  · have hF : |linVal dayCal.dayCount o pts x| ≤ M :=
      flin_abs (sortPairs_strict (timePts_nodup hτ o hn)) (sortPairs_ne_nil (by simpa [timePts] using hne))
        (fun a ha => by obtain ⟨b, hb, rfl⟩ := List.mem_map.1 ((sortPairs_perm _).mem_iff.1 ha); exact hM b hb) _
    generalize flin (sortPairs (rndPts rnd o pts)) (rnd (dayCal.dayCount o x)) = F' at *
    show |d - Real.exp (-(linVal dayCal.dayCount o pts x * dayCal.dayCount o x))| ≤ _ * Real.exp (-(linVal dayCal.dayCount o pts x * dayCal.dayCount o x))
    generalize linVal dayCal.dayCount o pts x = F at *
    generalize rnd (dayCal.dayCount o x) = t' at *
    generalize dayCal.dayCount o x = t at *
    generalize (2 : ℝ) ^ (-(p : ℤ)) = u at *
    have hδ : |F * t - F' * t'| ≤ (1 + 6222 * T) * T * u * M := by
      have e1 : F * t - F' * t' = -((F' - F) * t' + F * (t' - t)) := by ring
      rw [e1, abs_neg]
      have a1 : |(F' - F) * t'| ≤ 5856 * T * u * M * (17 / 16 * T) := by
        rw [abs_mul]; exact mul_le_mul hmoved hx' (abs_nonneg _) (by positivity)
      have a2 : |F * (t' - t)| ≤ M * (u * T) := by
        rw [abs_mul]; exact mul_le_mul hF hrx' (abs_nonneg _) hM0
      have a3 := abs_add_le ((F' - F) * t') (F * (t' - t))
      nlinarith
    have e2 : Real.exp (-(F' * t')) = Real.exp (-(F * t)) * Real.exp (F * t - F' * t') := by rw [← Real.exp_add]; congr 1; ring
    rw [e2] at h
    have hX : 1 ≤ Real.exp (16 * u * M * (17 / 16 * T)) := Real.one_le_exp (by positivity)
    have := factor_moved (Real.exp_pos _) (one_le_mul_of_one_le_of_one_le (by linarith : 1 ≤ 1 + v) hX) hδ h
    rw [mul_assoc, ← Real.exp_add] at this
    convert this using 4
    ring_nf

/-- Present values from discount factors with a relative error. -/
theorem value_err {α : Type} (R : Rounding p rnd) (hp : 4 ≤ p) {A : ℝ} (hA : 1 ≤ A) (flows : List (α × ℝ)) (d e : α → ℝ) (he : ∀ a ∈ flows, 0 < e a.1)
    (h : ∀ a ∈ flows, |d a.1 - e a.1| ≤ (A - 1) * e a.1) :
    |Rounded.sum rnd (flows.map fun a => rnd (d a.1 * a.2)) - (flows.map fun a => e a.1 * a.2).sum| ≤
      (A * (1 + (2 : ℝ) ^ (-(p : ℤ))) ^ (flows.length + 1) - 1) * (flows.map fun a => |e a.1 * a.2|).sum := by
  have hu0 : 0 ≤ (2 : ℝ) ^ (-(p : ℤ)) := ulp_nonneg
  have hterm : ∀ w ∈ flows.map (fun a => (rnd (d a.1 * a.2), e a.1 * a.2)),
      |w.1 - w.2| ≤ (A * (1 + (2 : ℝ) ^ (-(p : ℤ))) - 1) * |w.2| := by
    intro w hw
    obtain ⟨a, ha, rfl⟩ := List.mem_map.1 hw
    have k := h a ha
    have hpos := he a ha
    have r := R.err (by omega) (d a.1 * a.2)
    dsimp only
    have k2 : |d a.1 * a.2 - e a.1 * a.2| ≤ (A - 1) * |e a.1 * a.2| := by
      rw [← sub_mul, abs_mul, abs_mul, abs_of_pos hpos, ← mul_assoc]
      exact mul_le_mul_of_nonneg_right k (abs_nonneg _)
    have k3 : |d a.1 * a.2| ≤ A * |e a.1 * a.2| := by
      have := abs_sub_abs_le_abs_sub (d a.1 * a.2) (e a.1 * a.2); linarith
    have k4 := mul_le_mul_of_nonneg_left k3 hu0
    have k5 := abs_sub_le (rnd (d a.1 * a.2)) (d a.1 * a.2) (e a.1 * a.2)
    have : (A * (1 + (2 : ℝ) ^ (-(p : ℤ))) - 1) * |e a.1 * a.2| =
        (A - 1) * |e a.1 * a.2| + (2 : ℝ) ^ (-(p : ℤ)) * (A * |e a.1 * a.2|) := by ring
    linarith
  have hw0 : 0 ≤ A * (1 + (2 : ℝ) ^ (-(p : ℤ))) - 1 := by
    have a2 := one_le_mul_of_one_le_of_one_le hA (by linarith : 1 ≤ 1 + (2 : ℝ) ^ (-(p : ℤ)))
    linarith
  have := fold_err_of R hp hw0 (flows.map fun a => (rnd (d a.1 * a.2), e a.1 * a.2)) 0 0 0 0 hterm (by simp) (by simp)
  simp only [List.map_map, Function.comp_def, List.length_map, zero_add] at this
  rw [show 1 + (A * (1 + (2 : ℝ) ^ (-(p : ℤ))) - 1) = A * (1 + (2 : ℝ) ^ (-(p : ℤ))) by ring,
    mul_assoc, ← pow_succ'] at this
  exact this

/-- The present value of flows at calendar dates. -/
theorem C172_present_value (R : Rounding p rnd) (hp : 4 ≤ p) {exp : ℝ → ℝ} {v : ℝ} (hv : ∀ x, |exp x - Real.exp x| ≤ v * Real.exp x)
    {pts : List (ℤ × ℝ)} {o? : Option ℤ} {o : ℤ} {tenor : Option ℤ} (hn : (pts.map Prod.fst).Nodup) (hne : pts ≠ [])
    (ho : o?.or (pts.map Prod.fst).head? = some o) (hf : ∀ a ∈ pts, IsFloat p a.2) {M T : ℝ} (hM : ∀ a ∈ pts, |a.2| ≤ M)
    (hT : 1500 * ((2 : ℝ) ^ (-(p : ℤ)) * T) ≤ 1) (hpts : ∀ a ∈ pts, |((a.1 - o : ℤ) : ℝ)| / 365.25 ≤ T) :
    ∃ (Z : IRCurve ℤ ℤ) (df : ℤ → ℝ), IRCurve.new dayCal .zero (pts.map Prod.fst) (pts.map Prod.snd) none o? .default tenor = .ok Z ∧
      (∀ x, Z.discount dayCal x = .ok (df x)) ∧ ∀ flows : List (ℤ × ℝ), (∀ a ∈ flows, |((a.1 - o : ℤ) : ℝ)| / 365.25 ≤ T) →
        ∃ w, Rounded.dateValue rnd exp (.cal o) ((pts.map Prod.fst).map .cal) (pts.map Prod.snd) (flows.map fun a => (.cal a.1, a.2)) = .ok w ∧
          |w - (flows.map fun a => df a.1 * a.2).sum| ≤
            ((1 + v) * Real.exp ((18 + 6222 * T) * T * (2 : ℝ) ^ (-(p : ℤ)) * M) * (1 + (2 : ℝ) ^ (-(p : ℤ))) ^ (flows.length + 1) - 1) *
              (flows.map fun a => |df a.1 * a.2|).sum := by
  have hτ : GoodDayCount dayCal.dayCount := goodDayCount_int
  have hans := zero_answers (cal := dayCal) (dc := .default) (tenor := tenor) hn hne ho trivial hτ
  obtain ⟨df, -, -, -, hdisc⟩ := C28_zero hans rfl
  obtain ⟨Z, hZ, hZd⟩ := C172_discount R hp hv (tenor := tenor) hn hne ho hf (M := M) (T := T) hM hT hpts
  have hZ' := IRCurve_new_eq (tenor := tenor) (cls := .zero) (i := none) dayCal (dc := .default) hn
    (by simp [IRClass.dflt, linearScheme, FuncSpec.isLog, Kind.isLog]) ho trivial hτ
  obtain rfl : Z = irOf dayCal o o? .default none .zero tenor pts := Except.ok.inj (hZ.symm.trans hZ')
  refine ⟨_, df o, hZ', hdisc, fun flows hfl => ?_⟩
  have hu0 : 0 ≤ (2 : ℝ) ^ (-(p : ℤ)) := ulp_nonneg
  have hv0 : 0 ≤ v := by
    have := (abs_nonneg _).trans (hv 0)
    simpa using this
  have hM0 : 0 ≤ M := (abs_nonneg _).trans (hM _ (List.head_mem hne))
  have hT0 : 0 ≤ T := (div_nonneg (abs_nonneg _) (by norm_num)).trans (hpts _ (List.head_mem hne))
  choose! E d h1 h2 h3 h4 using hZd
  have hE : ∀ x : ℤ, |((x - o : ℤ) : ℝ)| / 365.25 ≤ T → E x = df o x := fun x hx => Except.ok.inj ((h1 x hx).symm.trans (hdisc x))
  unfold Rounded.dateValue
  rw [pyMap_map, pyMap_ok (g := fun a : ℤ × ℝ => rnd (d a.1 * a.2)) (fun a ha => by simp only [Function.comp_apply, h2 a.1 (hfl a ha), Py.ok_bind])]
  rw [Py.ok_bind]
  have hX : 1 ≤ Real.exp ((18 + 6222 * T) * T * (2 : ℝ) ^ (-(p : ℤ)) * M) := Real.one_le_exp (by positivity)
  refine ⟨_, rfl, value_err R hp (one_le_mul_of_one_le_of_one_le (by linarith : 1 ≤ 1 + v) hX) flows d (df o)
    (fun a ha => ?_) (fun a ha => ?_)⟩
  · have := h3 a.1 (hfl a ha); rwa [hE a.1 (hfl a ha)] at this
  · have := h4 a.1 (hfl a ha); rwa [hE a.1 (hfl a ha)] at this

theorem linearScheme_unrounded {pts : List (ℝ × ℝ)} (hn : (pts.map Prod.fst).Nodup) (hne : pts ≠ []) (y : ℝ) :
    Rounded.linearSchemeCall id (Pts.new (pts.map Prod.fst) (pts.map Prod.snd)) y = .ok (flin (sortPairs pts) y) := by
  rw [Pts_new_eq]
  have hl := sortPairs_strict hn
  have hne' := sortPairs_ne_nil hne
  generalize sortPairs pts = l at *
  unfold Rounded.linearSchemeCall
  simp only [first_xs hne', last_xs hne', Py.ok_bind, C167_unrounded]
  split_ifs with h1 h2
  · rw [leftCall_first hl hne' h1]
    match l, hne' with
    | p :: t, _ => rw [flin_le_first (by simpa using h1.le)]; rfl
  · rw [leftCall_last hl hne' h2.le, flin_ge_last hl hne' h2.le]
  · rw [linearCall_eq hl hne', flin_eq_plin hl hne' (not_lt.1 h1) (not_lt.1 h2)]

/-- Without rounding the value, discount factor and present value are those of the model. -/
theorem C172_unrounded {pts : List (ℤ × ℝ)} {o? : Option ℤ} {o : ℤ} {tenor : Option ℤ} (hn : (pts.map Prod.fst).Nodup) (hne : pts ≠ [])
    (ho : o?.or (pts.map Prod.fst).head? = some o) :
    ∃ (c : DateCurve ℤ) (Z : IRCurve ℤ ℤ), DateCurve.new dayCal (pts.map Prod.fst) (pts.map Prod.snd) none o? .default linearScheme = .ok c ∧
      IRCurve.new dayCal .zero (pts.map Prod.fst) (pts.map Prod.snd) none o? .default tenor = .ok Z ∧
      ∀ x, c.call dayCal x = some <$> Rounded.dateCall id (.cal o) ((pts.map Prod.fst).map .cal) (pts.map Prod.snd) (.cal x) ∧
        Z.discount dayCal x = Rounded.dateDiscount id Real.exp (.cal o) ((pts.map Prod.fst).map .cal) (pts.map Prod.snd) (.cal x) := by
  have hτ : GoodDayCount dayCal.dayCount := goodDayCount_int
  obtain ⟨Z, hZ, hd⟩ := C169_unrounded (cal := dayCal) (dc := .default) (tenor := tenor) hn hne ho trivial hτ
  have hp : rndPts id o pts = timePts dayCal.dayCount o pts := by simp [rndPts, timePts]
  have hn' : ((rndPts id o pts).map Prod.fst).Nodup := by rw [hp]; exact timePts_nodup hτ o hn
  have htne : timePts dayCal.dayCount o pts ≠ [] := by simpa [timePts] using hne
  refine ⟨_, Z, DateCurve_new_eq dayCal none o? .default linearScheme ho trivial (timePts_nodup hτ o hn)
    (by simp [linearScheme, FuncSpec.isLog, Kind.isLog]), hZ, fun x => ⟨?_, ?_⟩⟩
  · rw [Rounded.dateCall, dateFunc_cal hn', Py.ok_bind, dayCount_cal, Py.ok_bind, dateCurveOf_call dayCal (dc := .default) ho trivial, hp]
    show _ = some <$> Rounded.linearSchemeCall id _ (dayCal.dayCount o x)
    rw [linearScheme_unrounded (timePts_nodup hτ o hn) htne]
    exact funcOf_linear_call (timePts_nodup hτ o hn) htne _
  · rw [hd, Rounded.dateDiscount, dateFunc_cal hn', Py.ok_bind, dayCount_cal, Py.ok_bind]
    congr 2
    · simp [rndPts, DayCountArg.fn]
    · simp [rndPts]

/-- C172 (violation): two different dates given as year fractions may have the same time from the origin, and then there is no curve, whatever
date is asked. -/
theorem C172_float_violated (R : Rounding p rnd) (hp : 1 ≤ p) {δ : ℝ} (h0 : 0 < δ) (hδ : δ ≤ (2 : ℝ) ^ (-(p : ℤ) - 1)) (y z : ℝ) :
    (∀ x, Rounded.dateCall rnd (.yf (-1)) [.yf 0, .yf δ] [y, z] x = .error .assertion) ∧
    ∃ c, DateCurve.new floatCal [0, δ] [y, z] none (some (-1)) .default linearScheme = .ok c ∧ c.call floatCal 0 = .ok (some y) := by
  constructor
  · have e1 : rnd 1 = 1 := R.one hp
    have e2 : rnd (δ + 1) = 1 := by rw [add_comm]; exact rnd_one_add R hp h0.le hδ
    intro x
    simp [Rounded.dateCall, Rounded.dateFunc, Rounded.times, pyMap, Rounded.dayCount, e1, e2]
  · have hτ : GoodDayCount floatCal.dayCount := goodDayCount_real
    have hn : (([(0, y), (δ, z)] : List (ℝ × ℝ)).map Prod.fst).Nodup := by simp [h0.ne]
    refine ⟨_, DateCurve_new_eq floatCal (pts := [(0, y), (δ, z)]) none (some (-1)) .default linearScheme (o := -1) rfl trivial (timePts_nodup hτ _ hn)
      (by simp [linearScheme, FuncSpec.isLog, Kind.isLog]), ?_⟩
    rw [dateCurveOf_call floatCal (dc := .default) rfl trivial]
    refine (funcOf_linear_call (timePts_nodup hτ _ hn) (by simp [timePts]) _).trans ?_
    have hs : StrictX (timePts floatCal.dayCount (-1) [(0, y), (δ, z)]) := by
      simp [StrictX, timePts, floatCal, h0]
    rw [sortPairs_eq_self hs]
    exact congrArg (fun v => Except.ok (some v)) (flin_le_first le_rfl)

/-! ### Non-vacuity -/

/-- A curve over forty years with double precision: values are off by less than `1e-10` of the largest. -/
example (R : Rounding 53 rnd) : ∃ c, DateCurve.new dayCal [736330, 736695, 750940] [1 / 64, 1 / 32, 1 / 16] none none .default linearScheme = .ok c ∧
    ∀ x : ℤ, |((x - 736330 : ℤ) : ℝ)| / 365.25 ≤ 40 → ∃ y z, c.call dayCal x = .ok (some y) ∧
      Rounded.dateCall rnd (.cal 736330) [.cal 736330, .cal 736695, .cal 750940] [1 / 64, 1 / 32, 1 / 16] (.cal x) = .ok z ∧
      |z - y| ≤ 1 / 10 ^ 11 := by
  have f : ∀ n : ℤ, IsFloat 53 ((2 : ℝ) ^ n) := IsFloat.two_zpow (by norm_num)
  obtain ⟨c, h1, h2⟩ := C172_value R (by norm_num) (pts := [(736330, 1 / 64), (736695, 1 / 32), (750940, 1 / 16)]) (o? := none) (o := 736330)
    (by simp) (by simp) rfl
    (by
      intro a ha
      simp only [List.mem_cons, List.not_mem_nil, or_false] at ha
      rcases ha with rfl | rfl | rfl
      · have := f (-6); norm_num at this ⊢; exact this
      · have := f (-5); norm_num at this ⊢; exact this
      · have := f (-4); norm_num at this ⊢; exact this)
    (M := 1 / 16) (T := 40)
    (by
      intro a ha
      simp only [List.mem_cons, List.not_mem_nil, or_false] at ha
      rcases ha with rfl | rfl | rfl <;> norm_num [abs_le])
    (by norm_num)
    (by
      intro a ha
      simp only [List.mem_cons, List.not_mem_nil, or_false] at ha
      rcases ha with rfl | rfl | rfl <;> norm_num [abs_le])
  refine ⟨c, h1, fun x hx => ?_⟩
  obtain ⟨y, z, e1, e2, e3⟩ := h2 x hx
  exact ⟨y, z, e1, e2, e3.trans (by norm_num)⟩

/-- Double precision and year fractions `2 ^ -60` apart. -/
example : ∃ rnd, Rounding 53 rnd ∧ Rounded.dateCall rnd (.yf (-1)) [.yf 0, .yf ((2 : ℝ) ^ (-60 : ℤ))] [1, 2] (.yf 0) = .error .assertion := by
  obtain ⟨rnd, R⟩ := exists_rounding (p := 53) (by norm_num)
  exact ⟨rnd, R, (C172_float_violated R (by norm_num) (by positivity) (by norm_num) 1 2).1 _⟩

end

end Dcf
