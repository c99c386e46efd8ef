import Verif.Props.RoundedDates
import Verif.Props.RoundedLegs
import Verif.Props.Risk
import Verif.Props.Portfolio
import Verif.Props.YearFractions
import Verif.Model.RoundedBuckets

/-! # C191: bucketed deltas in floating point arithmetic -/

set_option linter.unusedSectionVars false
set_option linter.unusedSimpArgs false
set_option linter.unusedVariables false

namespace Dcf

open Spec

section
variable {D : Type} [LinearOrder D]

/-- The points of the `k`-th shift curve. -/
def bucketPts (shift : ℝ) (lo : Option D) (G : List D) (k : ℕ) (hk : k < G.length) : List (D × ℝ) :=
  ((if k = 0 then lo else G[k - 1]?).map fun l => (l, (0 : ℝ))).toList ++ (G[k], shift) :: (G[k + 1]?.map fun h => (h, (0 : ℝ))).toList

theorem hatGrids_get (shift : ℝ) : ∀ {G : List D} {lo : Option D} {k : ℕ} (hk : k < G.length),
    (hatGrids shift lo G)[k]? = some (bucketPts shift lo G k hk)
  | [], _, _, hk => absurd hk (by simp)
  | [m], none, 0, _ => rfl
  | [m], some l, 0, _ => rfl
  | [m], _, k + 1, hk => absurd hk (by simp)
  | m :: h :: rest, none, 0, _ => rfl
  | m :: h :: rest, some l, 0, _ => rfl
  | m :: h :: rest, none, k + 1, hk => by
    rw [hatGrids, List.getElem?_cons_succ, hatGrids_get shift (by simpa using hk)]
    cases k <;> simp [bucketPts]
  | m :: h :: rest, some l, k + 1, hk => by
    rw [hatGrids, List.getElem?_cons_succ, hatGrids_get shift (by simpa using hk)]
    cases k <;> simp [bucketPts]

end

theorem bucketShifts_map {D E : Type} (f : D → E) (shift : ℝ) (grid : List D) :
    bucketShifts shift (grid.map f) = List.map (fun g => (g.1.map f, g.2)) <$> bucketShifts shift grid := by
  have h : ∀ l : List D, pyLast (l.map f) = f <$> pyLast l := fun l => by
    unfold pyLast
    rw [List.getLast?_map]
    cases l.getLast? <;> rfl
  match grid with
  | [] => rfl
  | [x] => rfl
  | [x, y] => rfl
  | x :: y :: z :: rest =>
    have h1 := h (x :: y :: z :: rest)
    have h2 := h (x :: y :: z :: rest).dropLast
    rw [List.map_dropLast] at h2
    simp only [List.map_cons] at h1 h2
    simp only [bucketShifts, List.map_cons, h1, h2, bind_map_py, map_bind_py, Py.map_ok]
    refine bind_congr fun a => bind_congr fun b => ?_
    congr 1
    simp only [List.map_cons, List.map_append, List.map_nil, List.map_map, List.tail_cons, List.cons_append, List.zip_cons_cons]
    congr 3
    simp only [← List.map_cons (f := f), List.zip_map, List.map_map, Function.comp_def, Prod.map_fst, Prod.map_snd, List.map_nil]
    rfl

section
variable {p : ℕ} {rnd : ℝ → ℝ}

/-- A curve over calendar dates is read at the rounded times. -/
theorem dateCall_cal {o : ℤ} {pts : List (ℤ × ℝ)} (hn : ((rndPts rnd o pts).map Prod.fst).Nodup) (x : ℤ) :
    Rounded.dateCall rnd (.cal o) ((pts.map Prod.fst).map .cal) (pts.map Prod.snd) (.cal x) =
      Rounded.linearSchemeCall rnd (ptsOf (sortPairs (rndPts rnd o pts))) (rnd (dayCal.dayCount o x)) := by
  rw [Rounded.dateCall, dateFunc_cal hn, Py.ok_bind, dayCount_cal, Py.ok_bind, Pts_new_eq]

theorem dayCal_le {o x y : ℤ} (h : x ≤ y) : dayCal.dayCount o x ≤ dayCal.dayCount o y := by
  show ((x - o : ℤ) : ℝ) / (36525 / 100) ≤ ((y - o : ℤ) : ℝ) / (36525 / 100)
  exact div_le_div_of_nonneg_right (by exact_mod_cast (by omega : x - o ≤ y - o)) (by norm_num)

/-- The rounded times of increasing dates increase. -/
theorem rndPts_strict (R : Rounding p rnd) (hp : 4 ≤ p) {o : ℤ} {T : ℝ} (hT : 1500 * ((2 : ℝ) ^ (-(p : ℤ)) * T) ≤ 1) {pts : List (ℤ × ℝ)}
    (hs : (pts.map Prod.fst).Pairwise (· < ·)) (hpts : ∀ a ∈ pts, |((a.1 - o : ℤ) : ℝ)| / 365.25 ≤ T) : StrictX (rndPts rnd o pts) := by
  unfold StrictX rndPts
  rw [List.pairwise_map] at hs ⊢
  refine hs.imp_of_mem fun {a b} ha hb h => ?_
  obtain ⟨s, t, h1, h2, h3⟩ := C172_separates R hp h hT (hpts a ha) (hpts b hb)
  rw [dayCount_cal] at h1 h2
  rw [Except.ok.inj h1, Except.ok.inj h2]
  exact h3

/-- Up to its first date a spread is its first value, exactly. -/
theorem spread_left (R : Rounding p rnd) (hp : 4 ≤ p) {a : ℤ} {y T : ℝ} (hT : 1500 * ((2 : ℝ) ^ (-(p : ℤ)) * T) ≤ 1) {pts : List (ℤ × ℝ)}
    (hs : (((a, y) :: pts).map Prod.fst).Pairwise (· < ·)) (hpts : ∀ b ∈ (a, y) :: pts, |((b.1 - a : ℤ) : ℝ)| / 365.25 ≤ T)
    (hf : ∀ b ∈ (a, y) :: pts, IsFloat p b.2) {x : ℤ} (hx : x ≤ a) :
    Rounded.dateCall rnd (.cal a) ((((a, y) :: pts).map Prod.fst).map .cal) (((a, y) :: pts).map Prod.snd) (.cal x) = .ok y := by
  have hτ : GoodDayCount dayCal.dayCount := goodDayCount_int
  have hl := rndPts_strict R hp hT hs hpts
  have hn : ((rndPts rnd a ((a, y) :: pts)).map Prod.fst).Nodup := by
    unfold StrictX at hl
    rw [List.Nodup, List.pairwise_map]; exact hl.imp fun h => h.ne
  have h0 : rnd (dayCal.dayCount a a) = 0 := by rw [hτ.self, R.zero]
  have hx0 : rnd (dayCal.dayCount a x) ≤ 0 := R.nonpos (by rw [← hτ.self a]; exact dayCal_le hx)
  have e : rndPts rnd a ((a, y) :: pts) = (0, y) :: rndPts rnd a pts := by simp [rndPts, h0]
  rw [dateCall_cal hn, sortPairs_eq_self hl]
  rw [e] at hl ⊢
  unfold Rounded.linearSchemeCall
  rw [first_xs (List.cons_ne_nil _ _), Py.ok_bind]
  rw [List.head_cons]
  rcases hx0.lt_or_eq with h | h
  · rw [if_pos h]; exact leftCall_first hl (List.cons_ne_nil _ _) h
  · rw [if_neg (by rw [h]; exact lt_irrefl _), last_xs (List.cons_ne_nil _ _), Py.ok_bind]
    have hle : ∀ b ∈ (0, y) :: rndPts rnd a pts, (0 : ℝ) ≤ b.1 := by
      intro b hb
      rcases List.mem_cons.1 hb with rfl | hb
      · exact le_rfl
      · exact (List.rel_of_pairwise_cons hl hb).le
    rw [if_neg (by rw [h]; exact not_lt.2 (hle _ (List.getLast_mem _))), h]
    have := (C167_exact R hp (pts := (0, y) :: rndPts rnd a pts) (by rw [← e]; exact hn) (by
      intro b hb
      rw [← e] at hb
      obtain ⟨c, hc, rfl⟩ := List.mem_map.1 hb
      exact hf c hc)).2 (0, y) (by simp) hle
    rwa [Pts_new_eq, sortPairs_eq_self hl] at this

/-- After its last date a spread is its last value, exactly. -/
theorem spread_right (R : Rounding p rnd) (hp : 4 ≤ p) {a h : ℤ} {y T : ℝ} (hT : 1500 * ((2 : ℝ) ^ (-(p : ℤ)) * T) ≤ 1) {pts : List (ℤ × ℝ)}
    (hs : ((pts ++ [(h, y)]).map Prod.fst).Pairwise (· < ·)) (hpts : ∀ b ∈ pts ++ [(h, y)], |((b.1 - a : ℤ) : ℝ)| / 365.25 ≤ T)
    {x : ℤ} (hx : h < x) (hxT : |((x - a : ℤ) : ℝ)| / 365.25 ≤ T) :
    Rounded.dateCall rnd (.cal a) (((pts ++ [(h, y)]).map Prod.fst).map .cal) ((pts ++ [(h, y)]).map Prod.snd) (.cal x) = .ok y := by
  have hl := rndPts_strict R hp hT hs hpts
  have hn : ((rndPts rnd a (pts ++ [(h, y)])).map Prod.fst).Nodup := by
    unfold StrictX at hl
    rw [List.Nodup, List.pairwise_map]; exact hl.imp fun h => h.ne
  obtain ⟨s, t, h1, h2, h3⟩ := C172_separates R hp hx hT (hpts (h, y) (by simp)) hxT
  rw [dayCount_cal] at h1 h2
  rw [← Except.ok.inj h1, ← Except.ok.inj h2] at h3
  have e : rndPts rnd a (pts ++ [(h, y)]) = rndPts rnd a pts ++ [(rnd (dayCal.dayCount a h), y)] := by simp [rndPts]
  rw [dateCall_cal hn, sortPairs_eq_self hl]
  rw [e] at hl ⊢
  have hne : rndPts rnd a pts ++ [(rnd (dayCal.dayCount a h), y)] ≠ [] := by simp
  have hlast : ((rndPts rnd a pts ++ [(rnd (dayCal.dayCount a h), y)]).getLast hne) = (rnd (dayCal.dayCount a h), y) := by simp
  unfold Rounded.linearSchemeCall
  rw [first_xs hne, Py.ok_bind, last_xs hne, Py.ok_bind, hlast]
  have hres := leftCall_last hl hne (x := rnd (dayCal.dayCount a x)) (by rw [hlast]; exact h3.le)
  rw [hlast] at hres
  rw [if_pos h3, hres, ite_self]

/-- A discount factor from a rate with an error and a rounded time. -/
theorem rate_discount (R : Rounding p rnd) (hp : 4 ≤ p) {exp : ℝ → ℝ} {v : ℝ} (hv : ∀ x, |exp x - Real.exp x| ≤ v * Real.exp x) {t r ρ B T : ℝ}
    (hT : 1500 * ((2 : ℝ) ^ (-(p : ℤ)) * T) ≤ 1) (ht : |t| ≤ T) (hr : IsFloat p r) (hρ : |ρ| ≤ B) (h : |r - ρ| ≤ (16 + 6222 * T) * (2 : ℝ) ^ (-(p : ℤ)) * B) :
    |exp (rnd (rnd (-1 * r) * rnd t)) - Real.exp (-(ρ * t))| ≤
      ((1 + v) * Real.exp ((25 + 6611 * T) * T * (2 : ℝ) ^ (-(p : ℤ)) * B) - 1) * Real.exp (-(ρ * t)) := by
  have hu := ulp_le hp
  have hu0 : 0 ≤ (2 : ℝ) ^ (-(p : ℤ)) := ulp_nonneg
  have hv0 : 0 ≤ v := by
    have := (abs_nonneg _).trans (hv 0)
    simpa using this
  have hB : 0 ≤ B := (abs_nonneg _).trans hρ
  have hT0 : 0 ≤ T := (abs_nonneg _).trans ht
  have er : rnd (-1 * r) = -r := by rw [neg_one_mul]; exact R.eq_self hr.neg
  have ht' := (R.err (by omega) t).trans (mul_le_mul_of_nonneg_left ht hu0)
  obtain ⟨δ, hδ, e⟩ := R.factor (by omega) (-r * rnd t)
  rw [er, e]
  generalize rnd t = t' at *
  generalize (2 : ℝ) ^ (-(p : ℤ)) = u at *
  have huT : u * T ≤ 1 / 16 * T := mul_le_mul_of_nonneg_right hu hT0
  have hx' : |t'| ≤ 17 / 16 * T := by
    have := abs_sub_abs_le_abs_sub t' t
    linarith
  have hrB : |r| ≤ 25 / 4 * B := by
    have := abs_sub_abs_le_abs_sub r ρ
    have a : (16 + 6222 * T) * u ≤ 21 / 4 := by nlinarith
    have := mul_le_mul_of_nonneg_right a hB
    linarith
  have key : |ρ * t - r * t' * (1 + δ)| ≤ (25 + 6611 * T) * T * u * B := by
    have e1 : ρ * t - r * t' * (1 + δ) = -((r - ρ) * t' + ρ * (t' - t) + δ * (r * t')) := by ring
    have a1 : |(r - ρ) * t'| ≤ (16 + 6222 * T) * u * B * (17 / 16 * T) := by
      rw [abs_mul]; exact mul_le_mul h hx' (abs_nonneg _) (by positivity)
    have a2 : |ρ * (t' - t)| ≤ B * (u * T) := by
      rw [abs_mul]; exact mul_le_mul hρ ht' (abs_nonneg _) hB
    have a3 : |δ * (r * t')| ≤ u * (25 / 4 * B * (17 / 16 * T)) := by
      rw [abs_mul, abs_mul]
      exact mul_le_mul hδ (mul_le_mul hrB hx' (abs_nonneg _) (by positivity)) (by positivity) hu0
    rw [e1, abs_neg]
    have a4 := abs_add_three ((r - ρ) * t') (ρ * (t' - t)) (δ * (r * t'))
    have a5 : 0 ≤ u * B * T := by positivity
    have a6 : 0 ≤ u * B * T * T := by positivity
    nlinarith
  have h1 := hv (-r * t' * (1 + δ))
  have e2 : Real.exp (-r * t' * (1 + δ)) = Real.exp (-(ρ * t)) * Real.exp (ρ * t - r * t' * (1 + δ)) := by rw [← Real.exp_add]; congr 1; ring
  rw [e2] at h1
  exact factor_moved (Real.exp_pos _) (by linarith) key (by rwa [add_sub_cancel_left])

/-- The values of a curve and a spread added. -/
theorem rate_sum (R : Rounding p rnd) (hp : 4 ≤ p) {y s Y σ M S T : ℝ} (hT0 : 0 ≤ T) (hY : |Y| ≤ M) (hσ : |σ| ≤ S)
    (h1 : |y - Y| ≤ (14 + 5856 * T) * (2 : ℝ) ^ (-(p : ℤ)) * M) (h2 : |s - σ| ≤ (14 + 5856 * T) * (2 : ℝ) ^ (-(p : ℤ)) * S) :
    |Y + σ| ≤ M + S ∧ |rnd (y + s) - (Y + σ)| ≤ (16 + 6222 * T) * (2 : ℝ) ^ (-(p : ℤ)) * (M + S) := by
  have hu := ulp_le hp
  have hu0 : 0 ≤ (2 : ℝ) ^ (-(p : ℤ)) := ulp_nonneg
  obtain ⟨δ, hδ, e⟩ := R.factor (by omega) (y + s)
  have hB : |Y + σ| ≤ M + S := (abs_add_le _ _).trans (add_le_add hY hσ)
  refine ⟨hB, ?_⟩
  rw [e]
  generalize (2 : ℝ) ^ (-(p : ℤ)) = u at *
  have hB0 : 0 ≤ M + S := (abs_nonneg _).trans hB
  have e1 : (y + s) * (1 + δ) - (Y + σ) = ((y - Y) + (s - σ)) * (1 + δ) + δ * (Y + σ) := by ring
  have a1 : |1 + δ| ≤ 17 / 16 := by
    have := abs_add_le 1 δ; rw [abs_one] at this; linarith
  have a2 : |(y - Y) + (s - σ)| ≤ (14 + 5856 * T) * u * (M + S) := (abs_add_le _ _).trans (by linarith)
  have a3 : |((y - Y) + (s - σ)) * (1 + δ)| ≤ (14 + 5856 * T) * u * (M + S) * (17 / 16) := by
    rw [abs_mul]; exact mul_le_mul a2 a1 (abs_nonneg _) (by positivity)
  have a4 : |δ * (Y + σ)| ≤ u * (M + S) := by
    rw [abs_mul]; exact mul_le_mul hδ hB (abs_nonneg _) hu0
  rw [e1]
  have a5 := abs_add_le (((y - Y) + (s - σ)) * (1 + δ)) (δ * (Y + σ))
  have a6 : 0 ≤ u * (M + S) := by positivity
  nlinarith

/-- A curve over calendar dates: its values are floats and close to those of the exact curve. -/
theorem dateCall_err (R : Rounding p rnd) (hp : 4 ≤ p) {pts : List (ℤ × ℝ)} {o : ℤ} (hn : (pts.map Prod.fst).Nodup) (hne : pts ≠ [])
    (hf : ∀ a ∈ pts, IsFloat p a.2) {M T : ℝ} (hM : ∀ a ∈ pts, |a.2| ≤ M) (hT : 1500 * ((2 : ℝ) ^ (-(p : ℤ)) * T) ≤ 1)
    (hpts : ∀ a ∈ pts, |((a.1 - o : ℤ) : ℝ)| / 365.25 ≤ T) {x : ℤ} (hx : |((x - o : ℤ) : ℝ)| / 365.25 ≤ T) :
    ∃ z, Rounded.dateCall rnd (.cal o) ((pts.map Prod.fst).map .cal) (pts.map Prod.snd) (.cal x) = .ok z ∧ IsFloat p z ∧
      |z - linVal dayCal.dayCount o pts x| ≤ (14 + 5856 * T) * (2 : ℝ) ^ (-(p : ℤ)) * M ∧ |linVal dayCal.dayCount o pts x| ≤ M := by
  have hτ : GoodDayCount dayCal.dayCount := goodDayCount_int
  simp only [← dayCal_abs] at hpts hx
  obtain ⟨hn', hmoved⟩ := rndPts_moved R hp hn hne hT hpts hM hx
  obtain ⟨z, h1, h2, h3⟩ := roundedScheme R hp hn' (by simpa [rndPts] using hne)
    (fun a ha => by obtain ⟨b, hb, rfl⟩ := List.mem_map.1 ha; exact hf b hb) (M := M)
    (fun a ha => by obtain ⟨b, hb, rfl⟩ := List.mem_map.1 ha; exact hM b hb) (rnd (dayCal.dayCount o x))
  refine ⟨z, ?_, h2, ?_, ?_⟩
  · rw [dateCall_cal hn', ← Pts_new_eq, h1]
  · have := abs_sub_le z (flin (sortPairs (rndPts rnd o pts)) (rnd (dayCal.dayCount o x))) (linVal dayCal.dayCount o pts x)
    linarith
  · exact flin_abs (sortPairs_strict (timePts_nodup hτ o hn)) (sortPairs_ne_nil (by simpa [timePts] using hne))
        (fun a ha => by obtain ⟨b, hb, rfl⟩ := List.mem_map.1 ((sortPairs_perm _).mem_iff.1 ha); exact hM b hb) _

/-- The value of flows on a zero rate curve with a spread. -/
theorem spread_value (R : Rounding p rnd) (hp : 4 ≤ p) {exp : ℝ → ℝ} {v : ℝ} (hv : ∀ x, |exp x - Real.exp x| ≤ v * Real.exp x)
    {pts : List (ℤ × ℝ)} {o : ℤ} (hn : (pts.map Prod.fst).Nodup) (hne : pts ≠ []) (hf : ∀ a ∈ pts, IsFloat p a.2) {M S T : ℝ} (hM : ∀ a ∈ pts, |a.2| ≤ M)
    (hT : 1500 * ((2 : ℝ) ^ (-(p : ℤ)) * T) ≤ 1) (hpts : ∀ a ∈ pts, |((a.1 - o : ℤ) : ℝ)| / 365.25 ≤ T) {flows : List (ℤ × ℝ)}
    (hfl : ∀ a ∈ flows, |((a.1 - o : ℤ) : ℝ)| / 365.25 ≤ T) {spread : Option (List (PyDate ℝ) × List ℝ)} {σ : ℤ → ℝ}
    (hσ : ∀ a ∈ flows, |σ a.1| ≤ S ∧ ∃ s, Rounded.spreadCall rnd spread (.cal a.1) = .ok s ∧ |s - σ a.1| ≤ (14 + 5856 * T) * (2 : ℝ) ^ (-(p : ℤ)) * S) (hS : 0 ≤ S) :
    ∃ w, Rounded.spreadValue rnd exp (.cal o) ((pts.map Prod.fst).map .cal) (pts.map Prod.snd) (flows.map fun a => (.cal a.1, a.2)) spread = .ok w ∧
      |w - (flows.map fun a => Real.exp (-((linVal dayCal.dayCount o pts a.1 + σ a.1) * dayCal.dayCount o a.1)) * a.2).sum| ≤
        ((1 + v) * Real.exp ((25 + 6611 * T) * T * (2 : ℝ) ^ (-(p : ℤ)) * (M + S)) * (1 + (2 : ℝ) ^ (-(p : ℤ))) ^ (flows.length + 1) - 1) *
          (flows.map fun a => |Real.exp (-((linVal dayCal.dayCount o pts a.1 + σ a.1) * dayCal.dayCount o a.1)) * a.2|).sum := by
  have hu0 : 0 ≤ (2 : ℝ) ^ (-(p : ℤ)) := ulp_nonneg
  have hv0 : 0 ≤ v := by
    have := (abs_nonneg _).trans (hv 0)
    simpa using this
  have hM0 : 0 ≤ M := (abs_nonneg _).trans (hM _ (List.head_mem hne))
  have hT0 : 0 ≤ T := (div_nonneg (abs_nonneg _) (by norm_num)).trans (hpts _ (List.head_mem hne))
  have hX : 1 ≤ Real.exp ((25 + 6611 * T) * T * (2 : ℝ) ^ (-(p : ℤ)) * (M + S)) := Real.one_le_exp (by positivity)
  have hd : ∀ x : ℤ, (∃ a ∈ flows, a.1 = x) → ∃ d, Rounded.spreadDiscount rnd exp (.cal o) ((pts.map Prod.fst).map .cal) (pts.map Prod.snd) spread (.cal x) = .ok d ∧
      |d - Real.exp (-((linVal dayCal.dayCount o pts x + σ x) * dayCal.dayCount o x))| ≤
        ((1 + v) * Real.exp ((25 + 6611 * T) * T * (2 : ℝ) ^ (-(p : ℤ)) * (M + S)) - 1) * Real.exp (-((linVal dayCal.dayCount o pts x + σ x) * dayCal.dayCount o x)) := by
    rintro x ⟨a, ha, rfl⟩
    obtain ⟨z, h1, -, h3, h4⟩ := dateCall_err R hp hn hne hf hM hT hpts (hfl a ha)
    obtain ⟨k1, s, k2, k3⟩ := hσ a ha
    obtain ⟨b1, b2⟩ := rate_sum R hp hT0 h4 k1 h3 k3
    have hx := hfl a ha
    rw [← dayCal_abs] at hx
    have key := rate_discount R hp hv hT hx (R.float (z + s)) b1 b2
    unfold Rounded.spreadDiscount
    rw [dayCount_cal, Py.ok_bind]
    by_cases h0 : rnd (dayCal.dayCount o a.1) = 0
    · rw [if_pos h0]
      have hz : dayCal.dayCount o a.1 = 0 := by
        have hu := ulp_le hp
        have e := R.err (by omega) (dayCal.dayCount o a.1)
        rw [h0, zero_sub, abs_neg] at e
        have := mul_le_mul_of_nonneg_right hu (abs_nonneg (dayCal.dayCount o a.1))
        have h := abs_nonneg (dayCal.dayCount o a.1)
        exact abs_eq_zero.1 (by linarith)
      refine ⟨1, rfl, ?_⟩
      rw [hz, mul_zero, neg_zero, Real.exp_zero, sub_self, abs_zero, mul_one]
      have := one_le_mul_of_one_le_of_one_le (by linarith : 1 ≤ 1 + v) hX
      linarith
    · rw [if_neg h0]
      refine ⟨_, ?_, key⟩
      unfold Rounded.spreadRate
      rw [k2, Py.ok_bind, h1, Py.ok_bind, Py.ok_bind]
      rfl
  choose! d h1 h2 using hd
  unfold Rounded.spreadValue
  rw [pyMap_map, pyMap_ok (g := fun a : ℤ × ℝ => rnd (d a.1 * a.2)) (fun a ha => by simp only [Function.comp_apply, h1 a.1 ⟨a, ha, rfl⟩, Py.ok_bind])]
  rw [Py.ok_bind]
  exact ⟨_, rfl, value_err R hp (one_le_mul_of_one_le_of_one_le (by linarith : 1 ≤ 1 + v) hX) flows d
    (fun x => Real.exp (-((linVal dayCal.dayCount o pts x + σ x) * dayCal.dayCount o x))) (fun a _ => Real.exp_pos _) (fun a ha => h2 a.1 ⟨a, ha, rfl⟩)⟩

/-- The shift curves of calendar dates. -/
theorem bucketShifts_cal (shift : ℝ) {G : List ℤ} (hne : G ≠ []) :
    bucketShifts shift (G.map PyDate.cal : List (PyDate ℝ)) =
      .ok ((hatGrids shift none G).map fun b => ((b.map Prod.fst).map PyDate.cal, b.map Prod.snd)) := by
  rw [bucketShifts_map, bucketShifts_eq shift hne, Py.map_ok, List.map_map]
  rfl

/-- The three shapes of a shift curve: with or without a left and a right neighbour. -/
theorem bucketPts_cases (shift : ℝ) {G : List ℤ} {k : ℕ} (hk : k < G.length) (hinc : G.Pairwise (· < ·)) :
    ((bucketPts shift none G k hk).map Prod.fst).Pairwise (· < ·) ∧ (∀ a ∈ bucketPts shift none G k hk, a.1 ∈ G ∧ (a.2 = 0 ∨ a.2 = shift)) ∧
      bucketPts shift none G k hk ≠ [] := by
  have hp := List.pairwise_iff_getElem.1 hinc
  refine ⟨?_, ?_, by simp [bucketPts]⟩
  · rcases k with _ | j
    · by_cases h : 1 < G.length
      · simpa [bucketPts, List.getElem?_eq_getElem h] using hp 0 1 hk h (by omega)
      · simp [bucketPts, List.getElem?_eq_none (not_lt.1 h)]
    · have hj : j < G.length := by omega
      by_cases h : j + 1 + 1 < G.length
      · simpa [bucketPts, List.getElem?_eq_getElem hj, List.getElem?_eq_getElem h] using
          ⟨⟨hp j (j + 1) hj hk (by omega), hp j (j + 1 + 1) hj h (by omega)⟩, hp (j + 1) (j + 1 + 1) hk h (by omega)⟩
      · simpa [bucketPts, List.getElem?_eq_getElem hj, List.getElem?_eq_none (not_lt.1 h)] using hp j (j + 1) hj hk (by omega)
  · intro a ha
    simp only [bucketPts, List.mem_append, List.mem_cons, Option.mem_toList, Option.map_eq_some_iff] at ha
    rcases ha with ⟨l, hl, rfl⟩ | rfl | ⟨l, hl, rfl⟩
    · split_ifs at hl
      exact ⟨List.mem_of_getElem? hl, .inl rfl⟩
    · exact ⟨List.getElem_mem _, .inr rfl⟩
    · exact ⟨List.mem_of_getElem? hl, .inl rfl⟩

/-- The spread of the `k`-th bucket. -/
theorem bucket_spread (R : Rounding p rnd) (hp : 4 ≤ p) {shift T : ℝ} (hs : IsFloat p shift) (hT : 1500 * ((2 : ℝ) ^ (-(p : ℤ)) * T) ≤ 1) {G : List ℤ}
    (hinc : G.Pairwise (· < ·)) (hGT : ∀ a ∈ G, ∀ b ∈ G, |((a - b : ℤ) : ℝ)| / 365.25 ≤ T) {k : ℕ} (hk : k < G.length) {x : ℤ}
    (hx : ∀ b ∈ G, |((x - b : ℤ) : ℝ)| / 365.25 ≤ T) :
    |shift * triangle dayCal.dayCount G k hk x| ≤ |shift| ∧
    ∃ s, Rounded.spreadCall rnd (some (((bucketPts shift none G k hk).map Prod.fst).map .cal, (bucketPts shift none G k hk).map Prod.snd)) (.cal x) = .ok s ∧
      |s - shift * triangle dayCal.dayCount G k hk x| ≤ (14 + 5856 * T) * (2 : ℝ) ^ (-(p : ℤ)) * |shift| := by
  have hτ : GoodDayCount dayCal.dayCount := goodDayCount_int
  constructor
  · obtain ⟨h1, h2⟩ := triangle_bounds hτ G k hk x hinc
    rw [abs_mul, abs_of_nonneg h1]
    exact mul_le_of_le_one_right (abs_nonneg _) h2
  obtain ⟨c1, c2, c3⟩ := bucketPts_cases shift hk hinc
  have hcurve := hatGrids_curves (cal := dayCal) hτ shift G none (by simpa using hinc)
  have hcurve' : CurveIs dayCal (splitPts (bucketPts shift none G k hk)) (hat dayCal.dayCount shift (if k = 0 then none else G[k - 1]?) G[k] G[k + 1]?) := by
    have h1 := hatGrids_get shift (lo := none) hk
    have h2 := hats_get dayCal.dayCount shift (lo := none) hk
    obtain ⟨l1, e1⟩ := List.getElem?_eq_some_iff.1 h1
    obtain ⟨l2, e2⟩ := List.getElem?_eq_some_iff.1 h2
    have := (List.forall₂_iff_get.1 hcurve).2 k (by simpa using l1) l2
    simpa [e1, e2] using this
  generalize hb : bucketPts shift none G k hk = B at *
  obtain ⟨⟨a, y⟩, rest, rfl⟩ : ∃ b r, B = b :: r := List.exists_cons_of_ne_nil c3
  have ha : a ∈ G := (c2 (a, y) (by simp)).1
  obtain ⟨c, h1, h2⟩ := C172_value R hp (pts := (a, y) :: rest) (o? := none) (o := a) (c1.imp fun h => h.ne) c3 rfl
    (fun b hb => by rcases (c2 b hb).2 with h | h <;> rw [h]; exacts [IsFloat.zero, hs])
    (M := |shift|) (fun b hb => by rcases (c2 b hb).2 with h | h <;> rw [h]; simp) hT (fun b hb => hGT _ (c2 b hb).1 _ ha)
  obtain ⟨y', z, h3, h4, h5⟩ := h2 x (hx a ha)
  obtain ⟨S, k1, k2⟩ := hcurve'
  rw [splitPts, h1] at k1
  obtain rfl := Except.ok.inj k1
  rw [k2, hat_scale] at h3
  obtain rfl := Option.some.inj (Except.ok.inj h3)
  exact ⟨z, by simpa [Rounded.spreadCall, pyDate] using h4, h5⟩

/-- The values of the discount factors of the shifted curve. -/
noncomputable def bucketFactor (o : ℤ) (pts : List (ℤ × ℝ)) (σ : ℤ → ℝ) (x : ℤ) : ℝ :=
  Real.exp (-((linVal dayCal.dayCount o pts x + σ x) * dayCal.dayCount o x))

/-- The values the deltas are made of. -/
theorem bucket_core (R : Rounding p rnd) (hp : 4 ≤ p) {exp : ℝ → ℝ} {v : ℝ} (hv : ∀ x, |exp x - Real.exp x| ≤ v * Real.exp x)
    {pts : List (ℤ × ℝ)} {o : ℤ} (hn : (pts.map Prod.fst).Nodup) (hne : pts ≠ []) (hf : ∀ a ∈ pts, IsFloat p a.2) {M T shift : ℝ} (hM : ∀ a ∈ pts, |a.2| ≤ M)
    (hT : 1500 * ((2 : ℝ) ^ (-(p : ℤ)) * T) ≤ 1) (hpts : ∀ a ∈ pts, |((a.1 - o : ℤ) : ℝ)| / 365.25 ≤ T) {flows : List (ℤ × ℝ)}
    (hfl : ∀ a ∈ flows, |((a.1 - o : ℤ) : ℝ)| / 365.25 ≤ T) {G : List ℤ} (hG : G ≠ []) (hinc : G.Pairwise (· < ·))
    (hGT : ∀ a ∈ G, ∀ b ∈ G, |((a - b : ℤ) : ℝ)| / 365.25 ≤ T) (hfG : ∀ a ∈ flows, ∀ b ∈ G, |((a.1 - b : ℤ) : ℝ)| / 365.25 ≤ T)
    (hs : IsFloat p shift) (hs0 : shift ≠ 0) :
    ∃ pv ds, Rounded.spreadValue rnd exp (.cal o) ((pts.map Prod.fst).map .cal) (pts.map Prod.snd) (flows.map fun a => (.cal a.1, a.2)) none = .ok pv ∧
      |pv - (flows.map fun a => bucketFactor o pts (fun _ => 0) a.1 * a.2).sum| ≤
        ((1 + v) * Real.exp ((25 + 6611 * T) * T * (2 : ℝ) ^ (-(p : ℤ)) * (M + |shift|)) * (1 + (2 : ℝ) ^ (-(p : ℤ))) ^ (flows.length + 1) - 1) *
          (flows.map fun a => |bucketFactor o pts (fun _ => 0) a.1 * a.2|).sum ∧
      Rounded.bucketedDelta rnd exp (.cal o) ((pts.map Prod.fst).map .cal) (pts.map Prod.snd) (flows.map fun a => (.cal a.1, a.2)) (G.map .cal) shift = .ok ds ∧
      ∃ hl : ds.length = G.length, ∀ k (hk : k < G.length), ∃ sh,
        Rounded.spreadValue rnd exp (.cal o) ((pts.map Prod.fst).map .cal) (pts.map Prod.snd) (flows.map fun a => (.cal a.1, a.2))
          (some (((bucketPts shift none G k hk).map Prod.fst).map .cal, (bucketPts shift none G k hk).map Prod.snd)) = .ok sh ∧
        |sh - (flows.map fun a => bucketFactor o pts (fun x => shift * triangle dayCal.dayCount G k hk x) a.1 * a.2).sum| ≤
          ((1 + v) * Real.exp ((25 + 6611 * T) * T * (2 : ℝ) ^ (-(p : ℤ)) * (M + |shift|)) * (1 + (2 : ℝ) ^ (-(p : ℤ))) ^ (flows.length + 1) - 1) *
            (flows.map fun a => |bucketFactor o pts (fun x => shift * triangle dayCal.dayCount G k hk x) a.1 * a.2|).sum ∧
        Rounded.basisPoint rnd pv sh shift = .ok ds[k] := by
  have hT0 : 0 ≤ T := (div_nonneg (abs_nonneg _) (by norm_num)).trans (hpts _ (List.head_mem hne))
  obtain ⟨pv, p1, p2⟩ := spread_value R hp hv hn hne hf hM hT hpts hfl (spread := none) (σ := fun _ => 0) (S := |shift|)
    (fun a _ => ⟨by simp, 0, rfl, by rw [sub_self, abs_zero]; have := ulp_nonneg (p := p); positivity⟩) (abs_nonneg _)
  have hall : ∀ k (hk : k < G.length), ∃ sh d,
      Rounded.spreadValue rnd exp (.cal o) ((pts.map Prod.fst).map .cal) (pts.map Prod.snd) (flows.map fun a : ℤ × ℝ => (.cal a.1, a.2))
        (some (((bucketPts shift none G k hk).map Prod.fst).map .cal, (bucketPts shift none G k hk).map Prod.snd)) = .ok sh ∧
      |sh - (flows.map fun a => bucketFactor o pts (fun x => shift * triangle dayCal.dayCount G k hk x) a.1 * a.2).sum| ≤
        ((1 + v) * Real.exp ((25 + 6611 * T) * T * (2 : ℝ) ^ (-(p : ℤ)) * (M + |shift|)) * (1 + (2 : ℝ) ^ (-(p : ℤ))) ^ (flows.length + 1) - 1) *
          (flows.map fun a => |bucketFactor o pts (fun x => shift * triangle dayCal.dayCount G k hk x) a.1 * a.2|).sum ∧
      Rounded.basisPoint rnd pv sh shift = .ok d := by
    intro k hk
    obtain ⟨sh, s1, s2⟩ := spread_value R hp hv hn hne hf hM hT hpts hfl (σ := fun x => shift * triangle dayCal.dayCount G k hk x) (S := |shift|)
      (fun a ha => bucket_spread R hp hs hT hinc hGT hk (hfG a ha)) (abs_nonneg _)
    obtain ⟨d, b1, -⟩ := C174_basis_point R hp (pv := pv) (sh := sh) (PV := pv) (SH := sh) (ε := 0) hs0 (by simp) (by simp)
    exact ⟨sh, d, s1, s2, b1⟩
  choose sh d s1 s2 s3 using hall
  have hrun : ∀ k (hk : k < G.length), (do
      let sh ← Rounded.spreadValue rnd exp (.cal o) ((pts.map Prod.fst).map .cal) (pts.map Prod.snd) (flows.map fun a : ℤ × ℝ => (.cal a.1, a.2))
        (some (((bucketPts shift none G k hk).map Prod.fst).map .cal, (bucketPts shift none G k hk).map Prod.snd))
      Rounded.basisPoint rnd pv sh shift) = .ok (d k hk) := fun k hk => by rw [s1, Py.ok_bind, s3]
  have hlen : (hatGrids shift none G).length = G.length := hatGrids_length shift G none
  have hget : ∀ k (hk : k < (hatGrids shift none G).length), (hatGrids shift none G)[k] = bucketPts shift none G k (hlen ▸ hk) := fun k hk =>
    (List.getElem?_eq_some_iff.1 (hatGrids_get shift (lo := none) (hlen ▸ hk))).2
  have hmem : ∀ b ∈ hatGrids shift none G, ∃ e, (do
      let sh ← Rounded.spreadValue rnd exp (.cal o) ((pts.map Prod.fst).map .cal) (pts.map Prod.snd) (flows.map fun a : ℤ × ℝ => (.cal a.1, a.2))
        (some ((b.map Prod.fst).map .cal, b.map Prod.snd))
      Rounded.basisPoint rnd pv sh shift) = .ok e := by
    intro b hb
    obtain ⟨k, hk, rfl⟩ := List.getElem_of_mem hb
    exact ⟨_, by rw [hget k hk]; exact hrun k _⟩
  choose! g hg using hmem
  refine ⟨pv, (hatGrids shift none G).map g, p1, p2, ?_, by rw [List.length_map, hlen], fun k hk => ⟨sh k hk, s1 k hk, s2 k hk, ?_⟩⟩
  · unfold Rounded.bucketedDelta
    rw [p1, Py.ok_bind, bucketShifts_cal shift hG, Py.ok_bind, pyMap_map]
    exact pyMap_ok hg
  · rw [List.getElem_map]
    have h1 := hg _ (List.getElem_mem (hlen ▸ hk : k < (hatGrids shift none G).length))
    rw [hget k (hlen ▸ hk), s1, Py.ok_bind] at h1
    rw [hget k (hlen ▸ hk)]
    exact h1

/-- C191: a bucket no flow depends on has a delta of exactly zero, if every flow is at or before the left neighbour of the grid date or after the right one. -/
theorem C191_local (R : Rounding p rnd) (hp : 4 ≤ p) {exp : ℝ → ℝ} {v : ℝ} (hv : ∀ x, |exp x - Real.exp x| ≤ v * Real.exp x)
    {pts : List (ℤ × ℝ)} {o : ℤ} (hn : (pts.map Prod.fst).Nodup) (hne : pts ≠ []) (hf : ∀ a ∈ pts, IsFloat p a.2) {T shift : ℝ}
    (hT : 1500 * ((2 : ℝ) ^ (-(p : ℤ)) * T) ≤ 1) (hpts : ∀ a ∈ pts, |((a.1 - o : ℤ) : ℝ)| / 365.25 ≤ T) {flows : List (ℤ × ℝ)}
    (hfl : ∀ a ∈ flows, |((a.1 - o : ℤ) : ℝ)| / 365.25 ≤ T) {G : List ℤ} (hG : G ≠ []) (hinc : G.Pairwise (· < ·))
    (hGT : ∀ a ∈ G, ∀ b ∈ G, |((a - b : ℤ) : ℝ)| / 365.25 ≤ T) (hfG : ∀ a ∈ flows, ∀ b ∈ G, |((a.1 - b : ℤ) : ℝ)| / 365.25 ≤ T)
    (hs : IsFloat p shift) (hs0 : shift ≠ 0) :
    ∃ ds, Rounded.bucketedDelta rnd exp (.cal o) ((pts.map Prod.fst).map .cal) (pts.map Prod.snd) (flows.map fun a => (.cal a.1, a.2)) (G.map .cal) shift = .ok ds ∧
      ds.length = G.length ∧ ∀ k, k < G.length → (∀ a ∈ flows, (∃ j l, k = j + 1 ∧ G[j]? = some l ∧ a.1 ≤ l) ∨ ∃ h, G[k + 1]? = some h ∧ h < a.1) → ds[k]? = some 0 := by
  obtain ⟨M, hM⟩ : ∃ M, ∀ a ∈ pts, |a.2| ≤ M := ⟨(pts.map fun a => |a.2|).sum, fun a ha =>
    List.single_le_sum (fun x hx => by obtain ⟨b, -, rfl⟩ := List.mem_map.1 hx; exact abs_nonneg _) _ (List.mem_map.2 ⟨a, ha, rfl⟩)⟩
  obtain ⟨pv, ds, h1, -, h2, hl, h3⟩ := bucket_core R hp hv hn hne hf hM hT hpts hfl hG hinc hGT hfG hs hs0
  refine ⟨ds, h2, hl, fun k hk hout => ?_⟩
  obtain ⟨sh, k1, -, k3⟩ := h3 k hk
  obtain ⟨c1, c2, c3⟩ := bucketPts_cases shift hk hinc
  have hzero : ∀ a ∈ flows, Rounded.spreadCall rnd (some (((bucketPts shift none G k hk).map Prod.fst).map .cal, (bucketPts shift none G k hk).map Prod.snd)) (.cal a.1) = .ok 0 := by
    intro a ha
    rcases hout a ha with ⟨j, l, rfl, hl, hal⟩ | ⟨h, hh, hha⟩
    · have e : bucketPts shift none G (j + 1) hk = (l, 0) :: ((G[j + 1], shift) :: (G[j + 1 + 1]?.map fun h => (h, (0 : ℝ))).toList) := by simp [bucketPts, hl]
      rw [e] at c1 c2 ⊢
      have := spread_left R hp hT c1 (fun b hb => hGT _ (c2 b hb).1 _ (List.mem_of_getElem? hl))
        (fun b hb => by rcases (c2 b hb).2 with h | h <;> rw [h]; exacts [IsFloat.zero, hs]) hal
      simpa [Rounded.spreadCall, pyDate] using this
    · have e : bucketPts shift none G k hk = (((if k = 0 then none else G[k - 1]?).map fun l => (l, (0 : ℝ))).toList ++ [(G[k], shift)]) ++ [(h, 0)] := by simp [bucketPts, hh]
      rw [e] at c1 c2 c3 ⊢
      generalize ((if k = 0 then none else G[k - 1]?).map fun l => (l, (0 : ℝ))).toList ++ [(G[k], shift)] = B at *
      cases hB : B ++ [(h, (0 : ℝ))] with
      | nil => exact absurd hB (by simp)
      | cons b r =>
        have hb : b.1 ∈ G := (c2 b (by rw [hB]; simp)).1
        have := spread_right R hp hT (a := b.1) c1 (fun q hq => hGT _ (c2 q hq).1 _ hb) hha (hfG a ha _ hb)
        rw [hB] at this
        simpa [Rounded.spreadCall, pyDate] using this
  have hsame : Rounded.spreadValue rnd exp (.cal o) ((pts.map Prod.fst).map .cal) (pts.map Prod.snd) (flows.map fun a => (.cal a.1, a.2))
      (some (((bucketPts shift none G k hk).map Prod.fst).map .cal, (bucketPts shift none G k hk).map Prod.snd)) =
      Rounded.spreadValue rnd exp (.cal o) ((pts.map Prod.fst).map .cal) (pts.map Prod.snd) (flows.map fun a => (.cal a.1, a.2)) none := by
    unfold Rounded.spreadValue
    rw [pyMap_map, pyMap_map]
    congr 1
    refine pyMap_congr fun a ha => ?_
    simp only [Rounded.spreadDiscount, Rounded.spreadRate, hzero a ha]
    rfl
  rw [hsame, h1] at k1
  obtain rfl := Except.ok.inj k1
  rw [List.getElem?_eq_getElem (hl ▸ hk)]
  have e : Rounded.basisPoint rnd pv pv shift = .ok 0 := by
    simp [Rounded.basisPoint, Rounded.div, pyDiv, hs0, R.zero]
  rw [e] at k3
  rw [← Except.ok.inj k3]

theorem bucketFactor_shift (o : ℤ) (pts : List (ℤ × ℝ)) (σ : ℤ → ℝ) (x : ℤ) :
    bucketFactor o pts σ x = bucketFactor o pts (fun _ => 0) x * Real.exp (-(σ x * dayCal.dayCount o x)) := by
  rw [bucketFactor, bucketFactor, ← Real.exp_add]
  congr 1
  ring

/-- Factors close to one in a sum. -/
theorem sum_factors {α : Type} {E : ℝ} (hE : 1 ≤ E) (l : List α) (f g : α → ℝ) (h : ∀ a ∈ l, 0 < g a ∧ g a ≤ E) :
    |(l.map fun a => f a * g a).sum - (l.map f).sum| ≤ E * (l.map fun a => |f a|).sum ∧
      (l.map fun a => |f a * g a|).sum ≤ E * (l.map fun a => |f a|).sum := by
  induction l with
  | nil => simp
  | cons a l ih =>
    obtain ⟨i1, i2⟩ := ih fun b hb => h b (by simp [hb])
    obtain ⟨g1, g2⟩ := h a (by simp)
    simp only [List.map_cons, List.sum_cons, mul_add]
    have e1 : |f a * g a - f a| ≤ E * |f a| := by
      rw [show f a * g a - f a = (g a - 1) * f a by ring, abs_mul]
      exact mul_le_mul_of_nonneg_right (abs_le.2 ⟨by linarith, by linarith⟩) (abs_nonneg _)
    have e2 : |f a * g a| ≤ E * |f a| := by
      rw [abs_mul, abs_of_pos g1, mul_comm]
      exact mul_le_mul_of_nonneg_right g2 (abs_nonneg _)
    constructor
    · refine le_trans (le_of_eq (congrArg abs ?_)) ((abs_add_le (f a * g a - f a) ((l.map fun a => f a * g a).sum - (l.map f).sum)).trans (add_le_add e1 i1))
      ring
    · exact add_le_add e2 i2

theorem sum_slope {α : Type} (s : ℝ) (l : List α) (f g : α → ℝ) :
    (l.map fun a => f a * ((g a - 1) / s)).sum = ((l.map fun a => f a * g a).sum - (l.map f).sum) / s := by
  induction l with
  | nil => simp
  | cons a l ih => simp only [List.map_cons, List.sum_cons, ih]; ring

/-- C191: every bucketed delta is computed up to a bound, relative to the value of the absolute flows over the shift. -/
theorem C191_error (R : Rounding p rnd) (hp : 4 ≤ p) {exp : ℝ → ℝ} {v : ℝ} (hv : ∀ x, |exp x - Real.exp x| ≤ v * Real.exp x)
    {pts : List (ℤ × ℝ)} {o? : Option ℤ} {o : ℤ} {tenor : Option ℤ} (hn : (pts.map Prod.fst).Nodup) (hne : pts ≠ [])
    (ho : o?.or (pts.map Prod.fst).head? = some o) (hf : ∀ a ∈ pts, IsFloat p a.2) {M T shift : ℝ} (hM : ∀ a ∈ pts, |a.2| ≤ M)
    (hT : 1500 * ((2 : ℝ) ^ (-(p : ℤ)) * T) ≤ 1) (hpts : ∀ a ∈ pts, |((a.1 - o : ℤ) : ℝ)| / 365.25 ≤ T) {flows : List (ℤ × ℝ)}
    (hfl : ∀ a ∈ flows, |((a.1 - o : ℤ) : ℝ)| / 365.25 ≤ T) {grid : Option (List ℤ)} {G : List ℤ} (hG : G ≠ []) (hinc : G.Pairwise (· < ·))
    (hGT : ∀ a ∈ G, ∀ b ∈ G, |((a - b : ℤ) : ℝ)| / 365.25 ≤ T) (hfG : ∀ a ∈ flows, ∀ b ∈ G, |((a.1 - b : ℤ) : ℝ)| / 365.25 ≤ T)
    (hs : IsFloat p shift) (hs0 : shift ≠ 0) {Z : IRCurve ℤ ℤ}
    (hZ : IRCurve.new dayCal .zero (pts.map Prod.fst) (pts.map Prod.snd) none o? .default tenor = .ok Z) {w : World ℤ ℤ} {disc : ℕ} {same : Bool}
    (hw : w.curves disc = Z.obj) (hgrid : deltaGrid (w.curves disc) grid = G) {P : Product ℤ} (hp0 : Pays dayCal w o P flows)
    (hpφ : ∀ φ : ℤ → ℝ, Pays dayCal (w.spreadBy [disc] φ) o P flows) :
    ∃ (df : ℤ → ℝ) (ds es : List ℝ), (∀ x, Z.discount dayCal x = .ok (df x)) ∧
      bucketedDelta dayCal disc same P (some o) none grid shift w = (.ok ds, w) ∧
      Rounded.bucketedDelta rnd exp (.cal o) ((pts.map Prod.fst).map .cal) (pts.map Prod.snd) (flows.map fun a => (.cal a.1, a.2)) (G.map .cal) shift = .ok es ∧
      ∃ (h1 : ds.length = G.length) (h2 : es.length = G.length), ∀ k (hk : k < G.length), |es[k] - ds[k]| ≤
        (5 * (2 : ℝ) ^ (-(p : ℤ)) + 3 * ((1 + v) * Real.exp ((25 + 6611 * T) * T * (2 : ℝ) ^ (-(p : ℤ)) * (M + |shift|)) *
          (1 + (2 : ℝ) ^ (-(p : ℤ))) ^ (flows.length + 1) - 1)) * (Real.exp (|shift| * T) * (flows.map fun a => |df a.1 * a.2|).sum) / |shift| * (1 / 10000) := by
  have hτ : GoodDayCount dayCal.dayCount := goodDayCount_int
  have hT0 : 0 ≤ T := (div_nonneg (abs_nonneg _) (by norm_num)).trans (hpts _ (List.head_mem hne))
  have hM0 : 0 ≤ M := (abs_nonneg _).trans (hM _ (List.head_mem hne))
  have hu0 : 0 ≤ (2 : ℝ) ^ (-(p : ℤ)) := ulp_nonneg
  have hv0 : 0 ≤ v := by
    have := (abs_nonneg _).trans (hv 0)
    simpa using this
  rw [IRCurve_new_eq dayCal (dc := .default) hn (by simp [IRClass.dflt, linearScheme, FuncSpec.isLog, Kind.isLog]) ho trivial hτ] at hZ
  obtain rfl := Except.ok.inj hZ
  have ha := zero_answers (cal := dayCal) (dc := .default) (tenor := tenor) hn hne ho trivial hτ
  obtain ⟨df, -, e1, e2, e3⟩ := C28_zero ha rfl
  have hdf : ∀ x, df o x = bucketFactor o pts (fun _ => 0) x := fun x => by
    rw [e1, bucketFactor]
    congr 1
    have h0 : dayCal.dayCount o o = 0 := hτ.self o
    show linVal dayCal.dayCount o pts o * dayCal.dayCount o o - linVal dayCal.dayCount o pts x * dayCal.dayCount o x = _
    rw [h0]
    ring
  have hfac : ∀ q ∈ flows, (w.curves disc).discountFactor dayCal same o q.1 = .ok (bucketFactor o pts (fun _ => 0) q.1) := fun q _ => by
    rw [hw, ← hdf]
    exact e2 same o q.1 fun _ => rfl
  obtain ⟨ds, d1, d2, d3⟩ := C139_buckets (cal := dayCal) (same := same) (shift := shift) (grid := grid) (G := G) (τ := dayCal.dayCount) hτ hτ (hw.trans rfl)
    (irOf_dayCount dayCal (dc := .default) trivial) rfl ha.origin hp0 hpφ hfac hgrid hG hinc hs0
  obtain ⟨pv, es, p1, p2, p3, hl, p4⟩ := bucket_core R hp hv hn hne hf hM hT hpts hfl hG hinc hGT hfG hs hs0
  refine ⟨df o, ds, es, e3, d1, p3, d2, hl, fun k hk => ?_⟩
  obtain ⟨sh, s1, s2, s3⟩ := p4 k hk
  set A := (1 + v) * Real.exp ((25 + 6611 * T) * T * (2 : ℝ) ^ (-(p : ℤ)) * (M + |shift|)) * (1 + (2 : ℝ) ^ (-(p : ℤ))) ^ (flows.length + 1) with hA
  have hA1 : 1 ≤ A := one_le_mul_of_one_le_of_one_le (one_le_mul_of_one_le_of_one_le (by linarith) (Real.one_le_exp (by positivity)))
    (one_le_pow₀ (by linarith))
  set E := Real.exp (|shift| * T) with hE
  have hE1 : 1 ≤ E := Real.one_le_exp (by positivity)
  have hg : ∀ a ∈ flows, 0 < Real.exp (-(shift * triangle dayCal.dayCount G k hk a.1 * dayCal.dayCount o a.1)) ∧
      Real.exp (-(shift * triangle dayCal.dayCount G k hk a.1 * dayCal.dayCount o a.1)) ≤ E := fun a ha => by
    refine ⟨Real.exp_pos _, Real.exp_le_exp.2 ((neg_le_abs _).trans ?_)⟩
    obtain ⟨t1, t2⟩ := triangle_bounds hτ G k hk a.1 hinc
    have h := hfl a ha
    rw [← dayCal_abs] at h
    rw [abs_mul, abs_mul, abs_of_nonneg t1]
    exact mul_le_mul (mul_le_of_le_one_right (abs_nonneg _) t2) h (abs_nonneg _) (abs_nonneg _)
  obtain ⟨f1, f2⟩ := sum_factors hE1 flows (fun a => bucketFactor o pts (fun _ => 0) a.1 * a.2) _ hg
  have hSH : ∀ a : ℤ × ℝ, bucketFactor o pts (fun x => shift * triangle dayCal.dayCount G k hk x) a.1 * a.2 =
      bucketFactor o pts (fun _ => 0) a.1 * a.2 * Real.exp (-(shift * triangle dayCal.dayCount G k hk a.1 * dayCal.dayCount o a.1)) := fun a => by
    rw [bucketFactor_shift]; ring
  simp only [hSH] at s2
  have hN0 : 0 ≤ (flows.map fun a => |bucketFactor o pts (fun _ => 0) a.1 * a.2|).sum :=
    List.sum_nonneg fun x hx => by obtain ⟨b, -, rfl⟩ := List.mem_map.1 hx; exact abs_nonneg _
  have hd : ds[k] = ((flows.map fun a => bucketFactor o pts (fun _ => 0) a.1 * a.2 *
      Real.exp (-(shift * triangle dayCal.dayCount G k hk a.1 * dayCal.dayCount o a.1))).sum - (flows.map fun a => bucketFactor o pts (fun _ => 0) a.1 * a.2).sum) / shift * (1 / 10000) := by
    rw [d3 k hk, ← sum_slope shift flows (fun a => bucketFactor o pts (fun _ => 0) a.1 * a.2)]
    simp only [mul_assoc]
  simp only [hdf]
  set N := (flows.map fun a => |bucketFactor o pts (fun _ => 0) a.1 * a.2|).sum with hN
  obtain ⟨b, b1, b2⟩ := C174_basis_point R hp (ε := (A - 1) * (E * N)) hs0
    (p2.trans (mul_le_mul_of_nonneg_left (le_mul_of_one_le_left hN0 hE1) (by linarith)))
    (s2.trans (mul_le_mul_of_nonneg_left f2 (by linarith)))
  rw [s3] at b1
  obtain rfl := Except.ok.inj b1
  rw [hd]
  refine b2.trans ?_
  gcongr
  nlinarith [mul_le_mul_of_nonneg_left f1 (by positivity : (0 : ℝ) ≤ 5 * (2 : ℝ) ^ (-(p : ℤ)))]

/-! ### Examples -/

theorem oneFlow_spread_pays (c : CurveObj ℤ ℤ) (φ : ℤ → ℝ) {v d : ℤ} (h : v ≤ d) : Pays dayCal ((oneFlow c d).spreadBy [0] φ) v (.list 0) [(d, 7)] := by
  refine ⟨[[(d, 7)]], ?_, by simp⟩
  rw [Product.leaves]
  refine .cons ⟨fun h' => absurd h' (by simp [oneFlow, World.spreadBy, World.spreadOn]), fun _ => 7, ?_, by simp [oneFlow, World.spreadBy, World.spreadOn, h]⟩ .nil
  intro x hx _
  simp only [oneFlow, World.spreadBy, World.spreadOn, List.mem_singleton] at hx
  subst hx
  simp [World.list, World.dated, oneFlow, World.spreadBy, World.spreadOn, CFList.getitem, Dict.ofPairs, Dict.get, Dict.set, PayOff.eval]

theorem exBucket_grid : ∀ a ∈ ([365, 730, 1461] : List ℤ), ∀ b ∈ ([365, 730, 1461] : List ℤ), |((a - b : ℤ) : ℝ)| / 365.25 ≤ 4 := by
  intro a ha b hb
  simp only [List.mem_cons, List.not_mem_nil, or_false] at ha hb
  rcases ha with rfl | rfl | rfl <;> rcases hb with rfl | rfl | rfl <;> norm_num [abs_le]

theorem exBucket_flow : ∀ a ∈ ([(1461, 7)] : List (ℤ × ℝ)), ∀ b ∈ ([365, 730, 1461] : List ℤ), |((a.1 - b : ℤ) : ℝ)| / 365.25 ≤ 4 := by
  intro a ha b hb
  simp only [List.mem_singleton] at ha
  subst ha
  exact exBucket_grid _ (by simp) b hb

theorem exBucket_rate : ∀ a ∈ ([(0, 1 / 64)] : List (ℤ × ℝ)), IsFloat 53 a.2 := by
  intro a ha
  simp only [List.mem_singleton] at ha
  subst ha
  have := IsFloat.two_zpow (p := 53) (by norm_num) (-6)
  norm_num at this ⊢
  exact this

theorem exBucket_shift : IsFloat 53 (1 / 8192 : ℝ) := by
  have := IsFloat.two_zpow (p := 53) (by norm_num) (-13)
  norm_num at this ⊢
  exact this

/-- A single flow after four years: the delta of the first grid date is exactly zero. -/
example : ∃ rnd, Rounding 53 rnd ∧ ∃ ds, Rounded.bucketedDelta rnd Real.exp (.cal 0) [.cal 0] [1 / 64] [(.cal 1461, 7)] [.cal 365, .cal 730, .cal 1461] (1 / 8192) = .ok ds ∧
    ds.length = 3 ∧ ds[0]? = some 0 := by
  obtain ⟨rnd, R⟩ := exists_rounding (p := 53) (by norm_num)
  obtain ⟨ds, h1, h2, h3⟩ := C191_local R (by norm_num) (exp := Real.exp) (v := 0) (by simp) (pts := [(0, 1 / 64)]) (o := 0) (by simp) (by simp) exBucket_rate (T := 4)
    (by norm_num) (by simp) (flows := [(1461, 7)]) (by norm_num [abs_le]) (G := [365, 730, 1461]) (by simp) (by norm_num) exBucket_grid exBucket_flow exBucket_shift (by norm_num)
  exact ⟨rnd, R, ds, h1, h2, h3 0 (by simp) (by norm_num)⟩

/-- Non-vacuity of C191_error. -/
example : ∃ rnd, Rounding 53 rnd ∧ ∃ Z ds es, IRCurve.new dayCal .zero [0] [1 / 64] none none .default none = .ok Z ∧
    bucketedDelta dayCal 0 false (.list 0) (some 0) none (some [365, 730, 1461]) (1 / 8192) (oneFlow Z.obj 1461) = (.ok ds, oneFlow Z.obj 1461) ∧
    Rounded.bucketedDelta rnd Real.exp (.cal 0) [.cal 0] [1 / 64] [(.cal 1461, 7)] [.cal 365, .cal 730, .cal 1461] (1 / 8192) = .ok es ∧
    ds.length = 3 ∧ es.length = 3 := by
  obtain ⟨rnd, R⟩ := exists_rounding (p := 53) (by norm_num)
  have hZ := flatZero_new dayCal (o? := none) (dc := .default) (tenor := none) trivial goodDayCount_int 0 (1 / 64)
  obtain ⟨df, ds, es, -, h1, h2, h3, h4, -⟩ := C191_error R (by norm_num) (exp := Real.exp) (v := 0) (by simp) (pts := [(0, 1 / 64)]) (o? := none) (o := 0) (by simp) (by simp) rfl
    exBucket_rate (M := 1) (by norm_num [abs_le]) (T := 4)
    (by norm_num) (by simp) (flows := [(1461, 7)]) (by norm_num [abs_le]) (grid := some [365, 730, 1461]) (G := [365, 730, 1461]) (by simp) (by norm_num)
    exBucket_grid exBucket_flow exBucket_shift (by norm_num) hZ (w := oneFlow _ 1461) (disc := 0) (same := false) rfl rfl (oneFlow_pays _ (by norm_num))
    (fun φ => oneFlow_spread_pays _ φ (by norm_num))
  exact ⟨rnd, R, _, ds, es, hZ, h1, h2, h3, h4⟩

end

end Dcf
