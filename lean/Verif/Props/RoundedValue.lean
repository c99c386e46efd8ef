import Verif.Props.Rounded
import Verif.Props.RateCast
import Verif.Props.Plans

/-! # C169, C170: valuation and annuities in floating point arithmetic -/

set_option linter.unusedSectionVars false
set_option linter.unusedSimpArgs false
set_option linter.unusedVariables false

namespace Dcf

open Spec

section
variable {p : ℕ} {rnd : ℝ → ℝ}

/-! ### C169: present values on zero rate curves -/

theorem roundedScheme (R : Rounding p rnd) (hp : 4 ≤ p) {pts : List (ℝ × ℝ)} (hn : (pts.map Prod.fst).Nodup) (hne : pts ≠ [])
    (hf : ∀ a ∈ pts, IsFloat p a.2) {M : ℝ} (hM : ∀ a ∈ pts, |a.2| ≤ M) (x : ℝ) :
    ∃ z, Rounded.linearSchemeCall rnd (Pts.new (pts.map Prod.fst) (pts.map Prod.snd)) x = .ok z ∧ IsFloat p z ∧
      |z - flin (sortPairs pts) x| ≤ 14 * (2 : ℝ) ^ (-(p : ℤ)) * M := by
  have hl := sortPairs_strict hn
  have hne' := sortPairs_ne_nil hne
  have hf' : ∀ a ∈ sortPairs pts, IsFloat p a.2 := fun a ha => hf a ((sortPairs_perm pts).mem_iff.1 ha)
  have hM' : ∀ a ∈ sortPairs pts, |a.2| ≤ M := fun a ha => hM a ((sortPairs_perm pts).mem_iff.1 ha)
  rw [Pts_new_eq]
  generalize sortPairs pts = l at *
  have hM0 : 0 ≤ M := (abs_nonneg _).trans (hM' _ (List.head_mem hne'))
  have hb : 0 ≤ 14 * (2 : ℝ) ^ (-(p : ℤ)) * M := by have : 0 ≤ (2 : ℝ) ^ (-(p : ℤ)) := ulp_nonneg; positivity
  unfold Rounded.linearSchemeCall
  simp only [first_xs hne', last_xs hne', Py.ok_bind]
  split_ifs with h1 h2
  · refine ⟨_, leftCall_first hl hne' h1, hf' _ (List.head_mem hne'), ?_⟩
    match l, hne' with
    | a :: t, _ => rw [flin_le_first (by simpa using h1.le)]; simpa using hb
  · refine ⟨_, leftCall_last hl hne' h2.le, hf' _ (List.getLast_mem hne'), ?_⟩
    rw [flin_ge_last hl hne' h2.le]; simpa using hb
  · rw [flin_eq_plin hl hne' (not_lt.1 h1) (not_lt.1 h2)]
    by_cases h2' : 2 ≤ l.length
    · obtain ⟨i, hi, hi1, h3, h4, e⟩ := roundedLinear_index R hp hl h2' x
      refine ⟨_, e, R.float _, ?_⟩
      rw [plin_eq_chord x i hi1 hi h3 h4]
      have hi0 : i - 1 < l.length := by omega
      have a1 : l[i - 1].1 ≤ x := by
        rcases Nat.eq_zero_or_pos (i - 1) with h | h
        · have := not_lt.1 h1; rw [List.head_eq_getElem] at this; simpa only [h] using this
        · exact (h3 (i - 1) hi0 h (by omega)).le
      have a2 : x ≤ l[i].1 := by
        rcases lt_or_ge i (l.length - 1) with h | h
        · exact h4 i hi le_rfl h
        · have := not_lt.1 h2; rw [List.getLast_eq_getElem] at this
          have hil : i = l.length - 1 := by omega
          simpa only [hil] using this
      have := linear_core R hp (y₀ := l[i - 1].2) (y₁ := l[i].2) (hl.lt hi (by omega) : l[i - 1].1 < l[i].1) a1 a2
      rw [show chord l[i - 1] l[i] x = l[i - 1].2 + (l[i].2 - l[i - 1].2) * ((x - l[i - 1].1) / (l[i].1 - l[i - 1].1)) by unfold chord; ring]
      refine this.trans (mul_le_mul_of_nonneg_left (max_le (hM' _ (List.getElem_mem _)) (hM' _ (List.getElem_mem _))) ?_)
      have : 0 ≤ (2 : ℝ) ^ (-(p : ℤ)) := ulp_nonneg
      positivity
    · obtain ⟨a, rfl⟩ : ∃ a, l = [a] := List.length_eq_one_iff.1 (by have := List.length_pos_of_ne_nil hne'; omega)
      exact ⟨a.2, rfl, hf' a (by simp), by simpa [plin] using hb⟩

theorem flin_abs {l : List (ℝ × ℝ)} (hl : StrictX l) (hne : l ≠ []) {M : ℝ} (hM : ∀ a ∈ l, |a.2| ≤ M) (x : ℝ) : |flin l x| ≤ M :=
  abs_le.2 (flin_bounds hl hne (fun a ha => abs_le.1 (hM a ha)) x)

theorem zeroDiscount_err (R : Rounding p rnd) (hp : 4 ≤ p) {exp : ℝ → ℝ} {v : ℝ} (hv : ∀ x, |exp x - Real.exp x| ≤ v * Real.exp x)
    {pts : List (ℝ × ℝ)} (hn : (pts.map Prod.fst).Nodup) (hne : pts ≠ []) (hf : ∀ a ∈ pts, IsFloat p a.2) {M : ℝ} (hM : ∀ a ∈ pts, |a.2| ≤ M)
    {t T : ℝ} (ht : |t| ≤ T) :
    ∃ d, Rounded.zeroDiscount rnd exp (Pts.new (pts.map Prod.fst) (pts.map Prod.snd)) t = .ok d ∧
      |d - Real.exp (-(flin (sortPairs pts) t * t))| ≤
        ((1 + v) * Real.exp (16 * (2 : ℝ) ^ (-(p : ℤ)) * M * T) - 1) * Real.exp (-(flin (sortPairs pts) t * t)) := by
  have hu := ulp_le hp
  have hu0 : 0 ≤ (2 : ℝ) ^ (-(p : ℤ)) := ulp_nonneg
  have hv0 : 0 ≤ v := by
    have := (abs_nonneg _).trans (hv 0)
    simpa using this
  have hM0 : 0 ≤ M := (abs_nonneg _).trans (hM _ (List.head_mem hne))
  have hT : 0 ≤ T := (abs_nonneg _).trans ht
  unfold Rounded.zeroDiscount
  split_ifs with h0
  · subst h0
    refine ⟨1, rfl, ?_⟩
    have : 1 ≤ Real.exp (16 * (2 : ℝ) ^ (-(p : ℤ)) * M * T) := Real.one_le_exp (by positivity)
    simp only [mul_zero, neg_zero, Real.exp_zero, sub_self, abs_zero, mul_one]
    nlinarith
  · obtain ⟨z, e, hz, herr⟩ := roundedScheme R hp hn hne hf hM t
    rw [e, Py.ok_bind]
    have e0 : rnd (-1 * z) = -z := by rw [R.eq_self (by simpa using hz.neg)]; ring
    refine ⟨_, rfl, exp_err hv ?_⟩
    rw [e0]
    have hw := flin_abs (sortPairs_strict hn) (sortPairs_ne_nil hne) (M := M) (fun a ha => hM a ((sortPairs_perm pts).mem_iff.1 ha)) t
    have h1 := R.err (by omega) (-z * t)
    generalize flin (sortPairs pts) t = w at *
    generalize (2 : ℝ) ^ (-(p : ℤ)) = u at *
    have hza : |z| ≤ M + 14 * u * M := by
      have := abs_sub_abs_le_abs_sub z w; linarith
    have hz2 : |z| ≤ 2 * M := by nlinarith
    have h2 : |-z * t| ≤ |z| * T := by rw [abs_mul, abs_neg]; exact mul_le_mul_of_nonneg_left ht (abs_nonneg _)
    have h3 : |-z * t - -(w * t)| ≤ 14 * u * M * T := by
      rw [show -z * t - -(w * t) = -(z - w) * t by ring, abs_mul, abs_neg]
      exact mul_le_mul herr ht (abs_nonneg _) (by positivity)
    have h4 := abs_sub_le (rnd (-z * t)) (-z * t) (-(w * t))
    have h5 : u * |-z * t| ≤ u * (2 * M * T) :=
      mul_le_mul_of_nonneg_left (h2.trans (mul_le_mul_of_nonneg_right hz2 hT)) hu0
    linarith

/-- C169: without rounding the discount factor is that of the curve object of the model. -/
theorem C169_unrounded {D P : Type} [LinearOrder D] {cal : Cal D P} {pts : List (D × ℝ)} {o? : Option D} {dc : DayCountArg D} {o : D}
    {tenor : Option P} (hn : (pts.map Prod.fst).Nodup) (hne : pts ≠ []) (ho : o?.or (pts.map Prod.fst).head? = some o) (hd : dc.Usable)
    (hτ : GoodDayCount (dc.fn cal)) :
    ∃ Z : IRCurve D P, IRCurve.new cal .zero (pts.map Prod.fst) (pts.map Prod.snd) none o? dc tenor = .ok Z ∧
      ∀ x, Z.discount cal x =
        Rounded.zeroDiscount id Real.exp (Pts.new ((pts.map Prod.fst).map (dc.fn cal o)) (pts.map Prod.snd)) (dc.fn cal o x) := by
  refine ⟨_, IRCurve_new_eq cal hn (by simp [IRClass.dflt, linearScheme, FuncSpec.isLog, Kind.isLog]) ho hd hτ, fun x => ?_⟩
  have hans := zero_answers (cal := cal) (tenor := tenor) hn hne ho hd hτ
  obtain ⟨df, -, hdf, -, hdisc⟩ := C28_zero hans rfl
  rw [hdisc x, hdf, hτ.self, mul_zero, zero_sub]
  have htn : ((timePts (dc.fn cal) o pts).map Prod.fst).Nodup := timePts_nodup hτ o hn
  have htne : timePts (dc.fn cal) o pts ≠ [] := by simpa [timePts] using hne
  have hcall := funcOf_linear_call htn htne (dc.fn cal o x)
  rw [show (pts.map Prod.fst).map (dc.fn cal o) = (timePts (dc.fn cal) o pts).map Prod.fst by simp [timePts],
    show pts.map Prod.snd = (timePts (dc.fn cal) o pts).map Prod.snd by simp [timePts]]
  unfold Rounded.zeroDiscount
  by_cases h0 : dc.fn cal o x = 0
  · rw [if_pos h0, h0]; simp
  · rw [if_neg h0]
    have : Rounded.linearSchemeCall id (Pts.new ((timePts (dc.fn cal) o pts).map Prod.fst) ((timePts (dc.fn cal) o pts).map Prod.snd)) (dc.fn cal o x) =
        .ok (linVal (dc.fn cal) o pts x) := by
      rw [Pts_new_eq]
      unfold linVal
      generalize dc.fn cal o x = y at *
      have hl := sortPairs_strict htn
      have hne' := sortPairs_ne_nil htne
      generalize sortPairs (timePts (dc.fn cal) o pts) = l at *
      unfold Rounded.linearSchemeCall
      simp only [first_xs hne', last_xs hne', Py.ok_bind, C167_unrounded]
      split_ifs with h1 h2
      · rw [leftCall_first hl hne' h1]
        match l, hne' with
        | p :: t, _ => rw [flin_le_first (by simpa using h1.le)]; rfl
      · rw [leftCall_last hl hne' h2.le, flin_ge_last hl hne' h2.le]
      · rw [linearCall_eq hl hne', flin_eq_plin hl hne' (not_lt.1 h1) (not_lt.1 h2)]
    rw [this, Py.ok_bind]
    simp [Rounded.continuousCompounding]

/-- C169 (discount factors): on a curve of zero rates of absolute value at most `M` discount factors for dates within `T` years of the origin have a
relative error of at most `(1 + v) * exp (16 * u * M * T) - 1`, if the exponential function has the relative error `v`. -/
theorem C169_discount (R : Rounding p rnd) (hp : 4 ≤ p) {exp : ℝ → ℝ} {v : ℝ} (hv : ∀ x, |exp x - Real.exp x| ≤ v * Real.exp x)
    {D P : Type} [LinearOrder D] {cal : Cal D P} {pts : List (D × ℝ)} {o? : Option D} {dc : DayCountArg D} {o : D} {tenor : Option P}
    (hn : (pts.map Prod.fst).Nodup) (hne : pts ≠ []) (ho : o?.or (pts.map Prod.fst).head? = some o) (hd : dc.Usable)
    (hτ : GoodDayCount (dc.fn cal)) (hf : ∀ a ∈ pts, IsFloat p a.2) {M T : ℝ} (hM : ∀ a ∈ pts, |a.2| ≤ M) :
    ∃ Z : IRCurve D P, IRCurve.new cal .zero (pts.map Prod.fst) (pts.map Prod.snd) none o? dc tenor = .ok Z ∧
      ∀ x, |dc.fn cal o x| ≤ T → ∃ e d, Z.discount cal x = .ok e ∧
        Rounded.zeroDiscount rnd exp (Pts.new ((pts.map Prod.fst).map (dc.fn cal o)) (pts.map Prod.snd)) (dc.fn cal o x) = .ok d ∧ 0 < e ∧
        |d - e| ≤ ((1 + v) * Real.exp (16 * (2 : ℝ) ^ (-(p : ℤ)) * M * T) - 1) * e := by
  refine ⟨_, IRCurve_new_eq cal hn (by simp [IRClass.dflt, linearScheme, FuncSpec.isLog, Kind.isLog]) ho hd hτ, fun x hx => ?_⟩
  have hans := zero_answers (cal := cal) (tenor := tenor) hn hne ho hd hτ
  obtain ⟨df, -, hdf, -, hdisc⟩ := C28_zero hans rfl
  have htn : ((timePts (dc.fn cal) o pts).map Prod.fst).Nodup := timePts_nodup hτ o hn
  have htne : timePts (dc.fn cal) o pts ≠ [] := by simpa [timePts] using hne
  rw [show (pts.map Prod.fst).map (dc.fn cal o) = (timePts (dc.fn cal) o pts).map Prod.fst by simp [timePts],
    show pts.map Prod.snd = (timePts (dc.fn cal) o pts).map Prod.snd by simp [timePts]]
  have hmem : ∀ a ∈ timePts (dc.fn cal) o pts, ∃ b ∈ pts, a.2 = b.2 := by
    intro a ha
    obtain ⟨b, hb, rfl⟩ := List.mem_map.1 ha
    exact ⟨b, hb, rfl⟩
  obtain ⟨d, e, h⟩ := zeroDiscount_err R hp hv htn htne (fun a ha => by obtain ⟨b, hb, e⟩ := hmem a ha; rw [e]; exact hf b hb)
    (M := M) (fun a ha => by obtain ⟨b, hb, e⟩ := hmem a ha; rw [e]; exact hM b hb) hx
  refine ⟨_, d, (hdisc x).trans (by rw [hdf, hτ.self, mul_zero, zero_sub]; rfl), e, Real.exp_pos _, h⟩

/-- C169 (present values): the present value of `n` flows within `T` years is off by at most `(1 + v) * exp (16 * u * M * T) * (1 + u) ^ (n + 1) - 1` times
the sum of the absolute discounted amounts. -/
theorem C169_value (R : Rounding p rnd) (hp : 4 ≤ p) {exp : ℝ → ℝ} {v : ℝ} (hv : ∀ x, |exp x - Real.exp x| ≤ v * Real.exp x)
    {D P : Type} [LinearOrder D] {cal : Cal D P} {pts : List (D × ℝ)} {o? : Option D} {dc : DayCountArg D} {o : D} {tenor : Option P}
    (hn : (pts.map Prod.fst).Nodup) (hne : pts ≠ []) (ho : o?.or (pts.map Prod.fst).head? = some o) (hd : dc.Usable)
    (hτ : GoodDayCount (dc.fn cal)) (hf : ∀ a ∈ pts, IsFloat p a.2) {M T : ℝ} (hM : ∀ a ∈ pts, |a.2| ≤ M) :
    ∃ (Z : IRCurve D P) (df : D → ℝ), IRCurve.new cal .zero (pts.map Prod.fst) (pts.map Prod.snd) none o? dc tenor = .ok Z ∧
      (∀ x, Z.discount cal x = .ok (df x)) ∧ ∀ flows : List (D × ℝ), (∀ a ∈ flows, |dc.fn cal o a.1| ≤ T) →
        ∃ w, Rounded.zeroValue rnd exp (Pts.new ((pts.map Prod.fst).map (dc.fn cal o)) (pts.map Prod.snd))
            (flows.map fun a => (dc.fn cal o a.1, a.2)) = .ok w ∧
          |w - (flows.map fun a => df a.1 * a.2).sum| ≤
            ((1 + v) * Real.exp (16 * (2 : ℝ) ^ (-(p : ℤ)) * M * T) * (1 + (2 : ℝ) ^ (-(p : ℤ))) ^ (flows.length + 1) - 1) *
              (flows.map fun a => |df a.1 * a.2|).sum := by
  have hans := zero_answers (cal := cal) (tenor := tenor) hn hne ho hd hτ
  obtain ⟨df, -, -, -, hdisc⟩ := C28_zero hans rfl
  obtain ⟨Z, hZ, hZd⟩ := C169_discount R hp hv (cal := cal) (tenor := tenor) hn hne ho hd hτ hf (M := M) (T := T) hM
  have hZ' := IRCurve_new_eq (tenor := tenor) (cls := .zero) (i := none) cal hn
    (by simp [IRClass.dflt, linearScheme, FuncSpec.isLog, Kind.isLog]) ho hd hτ
  obtain rfl : Z = irOf cal o o? dc none .zero tenor pts := Except.ok.inj (hZ.symm.trans hZ')
  refine ⟨_, df o, hZ', hdisc, fun flows hT => ?_⟩
  have hu0 : 0 ≤ (2 : ℝ) ^ (-(p : ℤ)) := ulp_nonneg
  have hv0 : 0 ≤ v := by
    have := (abs_nonneg _).trans (hv 0)
    simpa using this
  have hM0 : 0 ≤ M := (abs_nonneg _).trans (hM _ (List.head_mem hne))
  choose! E d h1 h2 h3 h4 using hZd
  unfold Rounded.zeroValue
  rw [pyMap_map, pyMap_ok (g := fun a : D × ℝ => rnd (d a.1 * a.2)) (fun a ha => by simp only [Function.comp_apply, h2 a.1 (hT a ha), Py.ok_bind])]
  rw [Py.ok_bind]
  refine ⟨_, rfl, ?_⟩
  by_cases hfl : flows = []
  · subst hfl; simp [Rounded.sum]
  have hT0 : 0 ≤ T := (abs_nonneg _).trans (hT _ (List.head_mem hfl))
  have hE : ∀ x, |dc.fn cal o x| ≤ T → E x = df o x := fun x hx => Except.ok.inj ((h1 x hx).symm.trans (hdisc x))
  have hX : 1 ≤ Real.exp (16 * (2 : ℝ) ^ (-(p : ℤ)) * M * T) := Real.one_le_exp (by positivity)
  generalize Real.exp (16 * (2 : ℝ) ^ (-(p : ℤ)) * M * T) = X at *
  have hterm : ∀ w ∈ flows.map (fun a => (rnd (d a.1 * a.2), df o a.1 * a.2)),
      |w.1 - w.2| ≤ ((1 + v) * X * (1 + (2 : ℝ) ^ (-(p : ℤ))) - 1) * |w.2| := by
    intro w hw
    obtain ⟨a, ha, rfl⟩ := List.mem_map.1 hw
    have hTa := hT a ha
    have k := h4 a.1 hTa
    rw [hE a.1 hTa] at k
    have hpos := h3 a.1 hTa
    rw [hE a.1 hTa] at hpos
    have r := R.err (by omega) (d a.1 * a.2)
    dsimp only
    have k2 : |d a.1 * a.2 - df o a.1 * a.2| ≤ ((1 + v) * X - 1) * |df o a.1 * a.2| := by
      rw [← sub_mul, abs_mul, abs_mul, abs_of_pos hpos, ← mul_assoc]
      exact mul_le_mul_of_nonneg_right k (abs_nonneg _)
    have k3 : |d a.1 * a.2| ≤ (1 + v) * X * |df o a.1 * a.2| := by
      have := abs_sub_abs_le_abs_sub (d a.1 * a.2) (df o a.1 * a.2); linarith
    have k4 := mul_le_mul_of_nonneg_left k3 hu0
    have k5 := abs_sub_le (rnd (d a.1 * a.2)) (d a.1 * a.2) (df o a.1 * a.2)
    have : ((1 + v) * X * (1 + (2 : ℝ) ^ (-(p : ℤ))) - 1) * |df o a.1 * a.2| =
        ((1 + v) * X - 1) * |df o a.1 * a.2| + (2 : ℝ) ^ (-(p : ℤ)) * ((1 + v) * X * |df o a.1 * a.2|) := by ring
    linarith
  have hw0 : 0 ≤ (1 + v) * X * (1 + (2 : ℝ) ^ (-(p : ℤ))) - 1 := by
    have a1 : 1 ≤ (1 + v) * X := one_le_mul_of_one_le_of_one_le (by linarith) hX
    have a2 := one_le_mul_of_one_le_of_one_le a1 (by linarith : 1 ≤ 1 + (2 : ℝ) ^ (-(p : ℤ)))
    linarith
  have := fold_err_of R hp hw0 (flows.map fun a => (rnd (d a.1 * a.2), df o a.1 * a.2)) 0 0 0 0 hterm (by simp) (by simp)
  simp only [List.map_map, Function.comp_def, List.length_map, zero_add] at this
  rw [show 1 + ((1 + v) * X * (1 + (2 : ℝ) ^ (-(p : ℤ))) - 1) = (1 + v) * X * (1 + (2 : ℝ) ^ (-(p : ℤ))) by ring,
    mul_assoc, ← pow_succ'] at this
  exact this

/-! ### C170: annuities -/

/-- C170: without rounding the plan is that of the model. -/
theorem C170_unrounded (n : ℕ) (amount r : ℝ) : Rounded.annuity id (fun q i => q ^ i) n amount r = Plans.annuity (n : ℤ) amount r := by
  have h1 : ¬ (1 + r = 0 ∧ (n : ℤ) < 0) := by rintro ⟨_, h⟩; omega
  unfold Rounded.annuity Plans.annuity Plans.pyIntPow Rounded.div
  simp only [h1, if_false, Py.ok_bind, zpow_natCast, Int.toNat_natCast, id_map, id]

/-- C170 (violation): a positive interest rate of at most half a unit of rounding is a division by zero. -/
theorem C170_small_rate_violated (R : Rounding p rnd) (hp : 4 ≤ p) {pow : ℝ → ℕ → ℝ} (h1 : ∀ n, pow 1 n = 1) {r : ℝ} (hr : 0 < r)
    (hr' : r ≤ (2 : ℝ) ^ (-(p : ℤ) - 1)) (n : ℕ) (amount : ℝ) :
    Rounded.annuity rnd pow n amount r = .error .zeroDivision ∧
    (1 ≤ n → ∃ l, Plans.annuity (n : ℤ) amount r = .ok l ∧ l.length = n ∧ l.sum = amount) := by
  constructor
  · unfold Rounded.annuity Rounded.div
    simp only [rnd_one_add R (by omega) hr.le hr', h1, sub_self, R.zero, pyDiv_zero, Py.map_error, Py.error_bind]
  · intro hn
    obtain ⟨l, a, b, c, -⟩ := (Plans.C05_annuity n amount r).2 (one_lt_pow₀ (by linarith) (by omega)).ne'
    exact ⟨l, a, b, c⟩

/-- C170 (total): let `q` be one plus the rate, rounded, and `w` the unit of rounding times `q ^ n / (q ^ n - 1)`.  If `w` is at most one sixteenth the plan
has `n` payments of the sign of the amount with the total `amount`, up to `(1 + 9 * w) * (1 + u) ^ n - 1`. -/
theorem C170_total (R : Rounding p rnd) (hp : 4 ≤ p) {pow : ℝ → ℕ → ℝ} (hpow : ∀ q n, |pow q n - q ^ n| ≤ (2 : ℝ) ^ (-(p : ℤ)) * |q ^ n|)
    {r q w : ℝ} {n : ℕ} (hq : q = rnd (1 + r)) (hq1 : 1 < q) (hn : 1 ≤ n) (hw : w = (2 : ℝ) ^ (-(p : ℤ)) * (q ^ n / (q ^ n - 1)))
    (hw' : w ≤ 1 / 16) (amount : ℝ) :
    ∃ l, Rounded.annuity rnd pow n amount r = .ok l ∧ l.length = n ∧ (0 ≤ amount → ∀ x ∈ l, 0 ≤ x) ∧
      |Rounded.sum rnd l - amount| ≤ ((1 + 9 * w) * (1 + (2 : ℝ) ^ (-(p : ℤ))) ^ n - 1) * |amount| := by
  have hu0 : 0 ≤ (2 : ℝ) ^ (-(p : ℤ)) := ulp_nonneg
  have hqn : 1 < q ^ n := one_lt_pow₀ hq1 (by omega)
  have hk : 1 ≤ q ^ n / (q ^ n - 1) := by rw [le_div_iff₀ (by linarith)]; linarith
  have huw : (2 : ℝ) ^ (-(p : ℤ)) ≤ w := by rw [hw]; exact le_mul_of_one_le_right hu0 hk
  have hw0 : 0 ≤ w := hu0.trans huw
  obtain ⟨δ₁, g1, e1⟩ := R.factor (by omega) (q - 1)
  obtain ⟨δ₂, g2, e2⟩ := R.factor (by omega) (amount * rnd (q - 1))
  obtain ⟨δ₄, g4, e4⟩ := R.factor (by omega) (pow q n - 1)
  obtain ⟨δ₃, g3, e3⟩ := R.factor (by omega) (rnd (amount * rnd (q - 1)) / rnd (pow q n - 1))
  replace g1 := g1.trans huw; replace g2 := g2.trans huw; replace g3 := g3.trans huw; replace g4 := g4.trans huw
  have p1 := one_add_pos hw' g1
  have p2 := one_add_pos hw' g2
  have p3 := one_add_pos hw' g3
  have p4 := one_add_pos hw' g4
  obtain ⟨δ₅, g5, e5⟩ : ∃ δ, |δ| ≤ w ∧ pow q n - 1 = (q ^ n - 1) * (1 + δ) := by
    refine ⟨(pow q n - q ^ n) / (q ^ n - 1), ?_, by field_simp [(by linarith : q ^ n - 1 ≠ 0)]; ring⟩
    rw [abs_div, abs_of_pos (by linarith : 0 < q ^ n - 1), div_le_iff₀ (by linarith), hw, mul_assoc,
      div_mul_cancel₀ _ (by linarith : q ^ n - 1 ≠ 0)]
    simpa [abs_of_pos (by linarith : 0 < q ^ n)] using hpow q n
  have p5 := one_add_pos hw' g5
  have hd : rnd (pow q n - 1) ≠ 0 := by
    rw [e4, e5]; exact mul_ne_zero (mul_ne_zero (by linarith) p5.ne') p4.ne'
  set a := rnd (rnd (amount * rnd (q - 1)) / rnd (pow q n - 1)) with ha
  set A := amount * (q - 1) / (q ^ n - 1) with hA
  set B := (1 + δ₁) * (1 + δ₂) * (1 + δ₃) / (1 + δ₄) / (1 + δ₅) with hB
  have eA : a = A * B := by
    have hne : q ^ n - 1 ≠ 0 := by linarith
    rw [e3, e2, e1, e4, e5, hA, hB]; field_simp
  have k1 : |(1 + δ₁) - 1| ≤ 1 * w := by simpa using g1
  have k5 := factor_div hw' (factor_div hw' (factor_mul hw' (by norm_num) (factor_mul hw' (by norm_num) k1 g2) g3) g4) g5
  have kB : |B - 1| ≤ 6 * w := k5.trans (mul_le_mul_of_nonneg_right (by norm_num) hw0)
  have hB0 : 0 < B := by rw [hB]; positivity
  refine ⟨(List.range n).map fun i => rnd (a * pow q i), ?_, by simp, ?_, ?_⟩
  · unfold Rounded.annuity Rounded.div
    rw [← hq]
    dsimp only
    rw [pyDiv_ok hd, Py.map_ok, Py.ok_bind]
  · intro hN x hx
    obtain ⟨i, -, rfl⟩ := List.mem_map.1 hx
    refine R.nonneg (mul_nonneg ?_ ?_)
    · rw [eA, hA]
      exact mul_nonneg (div_nonneg (mul_nonneg hN (by linarith)) (by linarith)) hB0.le
    · have hqi : 0 < q ^ i := by have : 0 < q := by linarith
                                 positivity
      have := (abs_le.1 (hpow q i)).1
      rw [abs_of_pos hqi] at this
      nlinarith [ulp_le hp]
  · have hterm : ∀ x ∈ (List.range n).map (fun i => (rnd (a * pow q i), A * q ^ i)), |x.1 - x.2| ≤ 9 * w * |x.2| := by
      intro x hx
      obtain ⟨i, -, rfl⟩ := List.mem_map.1 hx
      have hqi : 0 < q ^ i := by have : 0 < q := by linarith
                                 positivity
      obtain ⟨δ₆, g6, e6⟩ := R.factor (by omega) (a * pow q i)
      obtain ⟨δ₇, g7, e7⟩ : ∃ δ, |δ| ≤ w ∧ pow q i = q ^ i * (1 + δ) := by
        refine ⟨(pow q i - q ^ i) / q ^ i, ?_, by field_simp; ring⟩
        rw [abs_div, div_le_iff₀ (abs_pos.2 hqi.ne')]
        exact (hpow q i).trans (mul_le_mul_of_nonneg_right huw (abs_nonneg _))
      replace g6 := g6.trans huw
      have k := factor_mul hw' (by norm_num) (factor_mul hw' (by norm_num) kB g7) g6
      dsimp only
      rw [e6, e7, eA, show A * B * (q ^ i * (1 + δ₇)) * (1 + δ₆) - A * q ^ i = (B * (1 + δ₇) * (1 + δ₆) - 1) * (A * q ^ i) by ring, abs_mul]
      exact mul_le_mul_of_nonneg_right (k.trans (mul_le_mul_of_nonneg_right (by norm_num) hw0)) (abs_nonneg _)
    have hsum : ∀ c : ℝ, ((List.range n).map fun i => c * (q - 1) / (q ^ n - 1) * q ^ i).sum = c := by
      intro c
      rw [List.sum_map_mul_left]
      have g := Plans.geom_range_sum q n
      have hne : q ^ n - 1 ≠ 0 := by linarith
      field_simp
      rw [← g]; ring
    have := fold_err_of R hp (by linarith : 0 ≤ 9 * w) ((List.range n).map fun i => (rnd (a * pow q i), A * q ^ i)) 0 0 0 0 hterm (by simp) (by simp)
    simp only [List.map_map, Function.comp_def, List.length_map, List.length_range, zero_add] at this
    have habs : ∀ i : ℕ, |A * q ^ i| = |amount| * (q - 1) / (q ^ n - 1) * q ^ i := by
      intro i
      have hq0 : 0 < q := by linarith
      rw [hA, abs_mul, abs_div, abs_mul, abs_of_pos (by linarith : 0 < q - 1), abs_of_pos (by linarith : 0 < q ^ n - 1), abs_of_pos (pow_pos hq0 i)]
    simp only [habs] at this
    rw [hsum |amount|, hA, hsum amount] at this
    exact this

end

/-! ### The hypotheses can be met -/

/-- Ten years of annual flows on a curve between one and two percent. -/
example : ∃ rnd w, Rounding 53 rnd ∧ Rounded.zeroValue rnd Real.exp (Pts.new [0, 10] [1 / 64, 1 / 32]) [(5, 100), (10, 100)] = .ok w := by
  obtain ⟨rnd, R⟩ := exists_rounding (p := 53) (by norm_num)
  have f1 : IsFloat 53 (1 / 64 : ℝ) := by
    have := IsFloat.two_zpow (p := 53) (by norm_num) (-6); norm_num at this ⊢; exact this
  have f2 : IsFloat 53 (1 / 32 : ℝ) := by
    have := IsFloat.two_zpow (p := 53) (by norm_num) (-5); norm_num at this ⊢; exact this
  have key : ∀ t : ℝ, ∃ d, Rounded.zeroDiscount rnd Real.exp (Pts.new [0, 10] [1 / 64, 1 / 32]) t = .ok d := by
    intro t
    obtain ⟨d, h, -⟩ := zeroDiscount_err R (by norm_num) (exp := Real.exp) (v := 0) (by simp) (pts := [(0, 1 / 64), (10, 1 / 32)]) (by simp) (by simp)
      (by intro a ha; simp only [List.mem_cons, List.not_mem_nil, or_false] at ha; rcases ha with rfl | rfl <;> assumption) (M := 1)
      (by intro a ha; simp at ha; rcases ha with rfl | rfl <;> norm_num) (le_refl |t|)
    exact ⟨d, h⟩
  obtain ⟨d1, h1⟩ := key 5
  obtain ⟨d2, h2⟩ := key 10
  refine ⟨rnd, Rounded.sum rnd [rnd (d1 * 100), rnd (d2 * 100)], R, ?_⟩
  simp only [Rounded.zeroValue, pyMap, h1, h2, Py.ok_bind, Py.pure_eq, List.mapM_cons, List.mapM_nil]

/-- The bound of C169 for thirty years at rates below ten percent, sixty flows and an exponential function good to the last digit. -/
example : (1 + (2 : ℝ) ^ (-53 : ℤ)) * Real.exp (16 * (2 : ℝ) ^ (-(53 : ℕ) : ℤ) * (1 / 10) * 30) * (1 + (2 : ℝ) ^ (-(53 : ℕ) : ℤ)) ^ (60 + 1) - 1 ≤ 1 / 10 ^ 13 := by
  have h1 : Real.exp (16 * (2 : ℝ) ^ (-(53 : ℕ) : ℤ) * (1 / 10) * 30) ≤ 1 + 2 * (16 * (2 : ℝ) ^ (-(53 : ℕ) : ℤ) * (1 / 10) * 30) := by
    have hx0 : (0 : ℝ) ≤ 16 * (2 : ℝ) ^ (-(53 : ℕ) : ℤ) * (1 / 10) * 30 := by norm_num
    have hx1 : 16 * (2 : ℝ) ^ (-(53 : ℕ) : ℤ) * (1 / 10) * 30 ≤ 1 / 2 := by norm_num
    generalize 16 * (2 : ℝ) ^ (-(53 : ℕ) : ℤ) * (1 / 10) * 30 = x at *
    have h := Real.add_one_le_exp (-x)
    rw [Real.exp_neg] at h
    have hpos := Real.exp_pos x
    have h' : Real.exp x * (1 - x) ≤ 1 := by
      calc Real.exp x * (1 - x) ≤ Real.exp x * (Real.exp x)⁻¹ := mul_le_mul_of_nonneg_left (by linarith) hpos.le
        _ = 1 := mul_inv_cancel₀ hpos.ne'
    nlinarith
  refine (sub_le_sub_right (mul_le_mul_of_nonneg_right (mul_le_mul_of_nonneg_left h1 (by norm_num)) (by positivity)) 1).trans ?_
  norm_num

/-- An annuity of two payments at fifty percent: the hypotheses hold with `w` below `2 ^ -52`. -/
example : ∃ rnd l, Rounding 53 rnd ∧ Rounded.annuity rnd (fun q n => q ^ n) 2 1000 (1 / 2) = .ok l ∧ l.length = 2 ∧
    |Rounded.sum rnd l - 1000| ≤ ((1 + 9 * (2 : ℝ) ^ (-52 : ℤ)) * (1 + (2 : ℝ) ^ (-(53 : ℕ) : ℤ)) ^ 2 - 1) * 1000 := by
  obtain ⟨rnd, R⟩ := exists_rounding (p := 53) (by norm_num)
  have hf : IsFloat 53 (1 + 1 / 2 : ℝ) := ⟨3, -1, by norm_num, by norm_num⟩
  have hq : (1 + 1 / 2 : ℝ) = rnd (1 + 1 / 2) := (R.eq_self hf).symm
  obtain ⟨l, h1, h2, -, h3⟩ := C170_total R (by norm_num) (pow := fun q n => q ^ n) (fun q n => by simp) hq (by norm_num) (n := 2) (by norm_num) rfl
    (by norm_num) 1000
  refine ⟨rnd, l, R, h1, h2, h3.trans ?_⟩
  norm_num

example : ∃ rnd, Rounding 53 rnd ∧ Rounded.annuity rnd (fun q n => q ^ n) 12 1000 (1 / 10 ^ 17) = .error .zeroDivision := by
  obtain ⟨rnd, R⟩ := exists_rounding (p := 53) (by norm_num)
  exact ⟨rnd, R, (C170_small_rate_violated R (by norm_num) (fun n => one_pow n) (by norm_num) (by norm_num) 12 1000).1⟩

end Dcf
