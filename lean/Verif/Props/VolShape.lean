import Verif.Props.VolCurve
import Mathlib.Order.Monotone.Union

/-! # When a terminal volatility curve gives every forward volatility: C141 -/

set_option linter.unusedSectionVars false
set_option linter.unusedSimpArgs false
set_option linter.unusedVariables false

namespace Dcf

open Spec

/-! ### Total variance of interpolated volatilities -/

/-- The variance of a volatility falling (or rising) linearly from `p` to `q` does not decrease on the way. -/
theorem variance_chord {p q : ℝ × ℝ} (hpq : p.1 < q.1) (h0 : 0 ≤ p.1) (hp : 0 ≤ p.2) (hq : 0 ≤ q.2)
    (h : 2 * q.1 * (p.2 - q.2) ≤ q.2 * (q.1 - p.1)) {x y : ℝ} (hx : p.1 ≤ x) (hxy : x ≤ y) (hy : y ≤ q.1) :
    x * chord p q x ^ 2 ≤ y * chord p q y ^ 2 := by
  have hd : 0 < q.1 - p.1 := sub_pos.2 hpq
  set k := (p.2 - q.2) / (q.1 - p.1) with hk
  have hkd : p.2 - q.2 = k * (q.1 - p.1) := by rw [hk]; field_simp
  have hc : ∀ z, chord p q z = q.2 + k * (q.1 - z) := by
    intro z
    unfold chord
    rw [hk]
    field_simp
    ring
  have hk2 : 2 * q.1 * k ≤ q.2 := by
    rw [hkd] at h
    have : (2 * q.1 * k) * (q.1 - p.1) ≤ q.2 * (q.1 - p.1) := by linarith
    exact le_of_mul_le_mul_right this hd
  rw [hc, hc]
  have hx0 : 0 ≤ x := h0.trans hx
  set σ := q.2 + k * (q.1 - y) with hσ
  have e : q.2 + k * (q.1 - x) = σ + k * (y - x) := by rw [hσ]; ring
  rw [e]
  have hs0 : 0 ≤ σ + k * (y - x) := by
    rw [← e]
    have : q.2 + k * (q.1 - x) = (q.2 * (x - p.1) + p.2 * (q.1 - x)) / (q.1 - p.1) := by
      rw [hk]; field_simp; ring
    rw [this]
    exact div_nonneg (add_nonneg (mul_nonneg hq (by linarith)) (mul_nonneg hp (by linarith))) hd.le
  have hσ0 : 0 ≤ σ := by
    have : σ = (q.2 * (y - p.1) + p.2 * (q.1 - y)) / (q.1 - p.1) := by
      rw [hσ, hk]; field_simp; ring
    rw [this]
    exact div_nonneg (add_nonneg (mul_nonneg hq (by linarith)) (mul_nonneg hp (by linarith))) hd.le
  have hyx : 0 ≤ y - x := sub_nonneg.2 hxy
  have key : y * σ ^ 2 - x * (σ + k * (y - x)) ^ 2 = (y - x) * (σ ^ 2 - x * k * (σ + (σ + k * (y - x)))) := by ring
  suffices 0 ≤ σ ^ 2 - x * k * (σ + (σ + k * (y - x))) by
    have := mul_nonneg hyx this
    linarith
  rcases le_total k 0 with hk0 | hk0
  · have : x * k * (σ + (σ + k * (y - x))) ≤ 0 :=
      mul_nonpos_of_nonpos_of_nonneg (mul_nonpos_of_nonneg_of_nonpos hx0 hk0) (add_nonneg hσ0 hs0)
    nlinarith [sq_nonneg σ]
  · have h2 : 2 * y * k ≤ σ := by
      have : 0 ≤ k * (q.1 - y) := mul_nonneg hk0 (by linarith)
      have : y * k ≤ q.1 * k := mul_le_mul_of_nonneg_right hy hk0
      rw [hσ]; nlinarith
    have h3 : 2 * (y - x) * k ≤ σ - 2 * x * k := by nlinarith
    have h4 : (2 * y * k) * (2 * (y - x) * k) ≤ σ * (σ - 2 * x * k) :=
      mul_le_mul h2 h3 (by positivity) hσ0
    have h5 : x * (y - x) * k ^ 2 ≤ y * (y - x) * k ^ 2 :=
      mul_le_mul_of_nonneg_right (mul_le_mul_of_nonneg_right hxy hyx) (sq_nonneg k)
    have h6 : 0 ≤ y * (y - x) * k ^ 2 := mul_nonneg (mul_nonneg (hx0.trans hxy) hyx) (sq_nonneg k)
    nlinarith

/-- Two neighbouring quotes: the volatility falls slowly enough. -/
def SlowFall (p q : ℝ × ℝ) : Prop := 2 * q.1 * (p.2 - q.2) ≤ q.2 * (q.1 - p.1)

/-- If all neighbours fall slowly, the variance never decreases. -/
theorem variance_mono {L : List (ℝ × ℝ)} (hL : StrictX L) (h0 : ∀ p ∈ L, 0 ≤ p.1) (hs : ∀ p ∈ L, 0 ≤ p.2)
    (h : ∀ l p q r, L = l ++ p :: q :: r → SlowFall p q) :
    MonotoneOn (fun x => x * flin L x ^ 2) (Set.Ici 0) := by
  induction L with
  | nil => intro x _ y _ hxy; simp [flin]
  | cons p t ih =>
    match t, hL, ih with
    | [], _, _ =>
      intro x _ y _ hxy
      simp only [flin]
      exact mul_le_mul_of_nonneg_right hxy (sq_nonneg _)
    | q :: t, hL, ih =>
      have hpq : p.1 < q.1 := (List.pairwise_cons.1 hL).1 q (by simp)
      have hLt : StrictX (q :: t) := (List.pairwise_cons.1 hL).2
      have ih' := ih hLt (fun x hx => h0 x (by simp [hx])) (fun x hx => hs x (by simp [hx]))
        fun l a b r e => h (p :: l) a b r (by rw [e]; rfl)
      have hp0 := h0 p (by simp)
      have e : Set.Ici (0 : ℝ) = Set.Icc 0 p.1 ∪ (Set.Icc p.1 q.1 ∪ Set.Ici q.1) := by
        rw [Set.Icc_union_Ici_eq_Ici hpq.le, Set.Icc_union_Ici_eq_Ici hp0]
      rw [e]
      refine MonotoneOn.union_right ?_ (MonotoneOn.union_right (c := q.1) ?_ ?_ ?_ ?_) (c := p.1) ?_ ?_
      · intro x hx y hy hxy
        simp only [flin_le_first hx.2, flin_le_first hy.2]
        exact mul_le_mul_of_nonneg_right hxy (sq_nonneg _)
      · have hval : ∀ x ∈ Set.Icc p.1 q.1, flin (p :: q :: t) x = chord p q x := by
          intro x hx
          simp only [flin]
          split_ifs with h1 h2
          · rw [le_antisymm h1 hx.1, chord_left]
          · rfl
          · exact absurd hx.2 h2
        intro x hx y hy hxy
        simp only [hval x hx, hval y hy]
        exact variance_chord hpq hp0 (hs p (by simp)) (hs q (by simp)) (h [] p q t rfl) hx.1 hxy hy.2
      · have hval : ∀ x ∈ Set.Ici q.1, flin (p :: q :: t) x = flin (q :: t) x := fun x hx => flin_drop (l1 := [p]) hL hx
        intro x hx y hy hxy
        simp only [hval x hx, hval y hy]
        have hq0 := hp0.trans hpq.le
        exact ih' (hq0.trans hx) (hq0.trans hy) hxy
      · exact isGreatest_Icc hpq.le
      · exact isLeast_Ici
      · exact isGreatest_Icc hp0
      · constructor
        · exact Or.inl ⟨le_rfl, hpq.le⟩
        · rintro x (hx | hx)
          · exact hx.1
          · exact hpq.le.trans hx

/-- If the volatility falls faster than that, the variance decreases just before the later quote. -/
theorem variance_falls {L l r : List (ℝ × ℝ)} {p q : ℝ × ℝ} (hL : StrictX L) (e : L = l ++ p :: q :: r) (h0 : 0 ≤ p.1)
    (hq : 0 ≤ q.2) (h : ¬ SlowFall p q) :
    ∃ x, p.1 < x ∧ x < q.1 ∧ q.1 * flin L q.1 ^ 2 < x * flin L x ^ 2 := by
  subst e
  have hL' : StrictX (p :: q :: r) := (List.pairwise_append.1 hL).2.1
  have hpq : p.1 < q.1 := (List.pairwise_cons.1 hL').1 q (by simp)
  have hval : ∀ x ∈ Set.Icc p.1 q.1, flin (l ++ p :: q :: r) x = chord p q x := by
    intro x hx
    rw [flin_drop hL hx.1]
    simp only [flin]
    split_ifs with h1 h2
    · rw [le_antisymm h1 hx.1, chord_left]
    · rfl
    · exact absurd hx.2 h2
  have hd : 0 < q.1 - p.1 := sub_pos.2 hpq
  set k := (p.2 - q.2) / (q.1 - p.1) with hk
  have hkd : p.2 - q.2 = k * (q.1 - p.1) := by rw [hk]; field_simp
  have hc : ∀ z, chord p q z = q.2 + k * (q.1 - z) := by
    intro z
    unfold chord
    rw [hk]
    field_simp
    ring
  have hq1 : 0 < q.1 := h0.trans_lt hpq
  have hk2 : q.2 < 2 * q.1 * k := by
    unfold SlowFall at h
    rw [hkd, not_le] at h
    have : q.2 * (q.1 - p.1) < (2 * q.1 * k) * (q.1 - p.1) := by linarith
    exact lt_of_mul_lt_mul_right this hd.le
  have hk0 : 0 < k := by
    by_contra hn
    have := mul_nonpos_of_nonneg_of_nonpos (by linarith : (0 : ℝ) ≤ 2 * q.1) (not_lt.1 hn)
    linarith
  -- the factor of the difference at `x`, negative at `q.1` or just before it
  have key : ∀ x, q.1 * q.2 ^ 2 - x * (q.2 + k * (q.1 - x)) ^ 2 =
      (q.1 - x) * (q.2 * (q.2 - 2 * x * k) - x * k ^ 2 * (q.1 - x)) := fun x => by ring
  -- choose `x` beyond `p.1` and with `q.2 < 2 x k`
  have hm : max p.1 (q.2 / (2 * k)) < q.1 := max_lt hpq (by rw [div_lt_iff₀ (by positivity)]; linarith)
  obtain ⟨x, hx1, hx2⟩ := exists_between hm
  have hxp : p.1 < x := (le_max_left _ _).trans_lt hx1
  have hxk : q.2 < 2 * x * k := by
    have := (le_max_right p.1 (q.2 / (2 * k))).trans_lt hx1
    rw [div_lt_iff₀ (by positivity)] at this
    linarith
  refine ⟨x, hxp, hx2, ?_⟩
  rw [hval q.1 ⟨hpq.le, le_rfl⟩, hval x ⟨hxp.le, hx2.le⟩, chord_right hpq, hc x]
  have hx0 : 0 < x := h0.trans_lt hxp
  have h1 : q.2 * (q.2 - 2 * x * k) ≤ 0 := mul_nonpos_of_nonneg_of_nonpos hq (by linarith)
  have h2 : 0 < x * k ^ 2 * (q.1 - x) := mul_pos (by positivity) (by linarith)
  have h3 : (q.1 - x) * (q.2 * (q.2 - 2 * x * k) - x * k ^ 2 * (q.1 - x)) < 0 :=
    mul_neg_of_pos_of_neg (by linarith) (by linarith)
  linarith [key x]

/-! ### Curves -/

section
variable {D P : Type} [LinearOrder D] {cal : Cal D P} {o : D}

/-- C141: volatilities at the given dates which do not fall faster than half the later volatility per time to the later date
give a volatility for every period after the origin, the one of the difference of the variances. -/
theorem C141_defined {pts : List (D × ℝ)} {o? : Option D} {dc : DayCountArg D} {tenor : Option P}
    (hinc : (pts.map Prod.fst).Pairwise (· < ·)) (hne : pts ≠ []) (hos : ∀ p ∈ pts, o ≤ p.1) (hpos : ∀ p ∈ pts, 0 ≤ p.2)
    (ho : o?.or (pts.map Prod.fst).head? = some o) (hd : dc.Usable) (hτ : GoodDayCount (dc.fn cal))
    (h : ∀ l p q r, pts = l ++ p :: q :: r → 2 * dc.fn cal o q.1 * (p.2 - q.2) ≤ q.2 * dc.fn cal p.1 q.1)
    (scipy : Bool) (limit : ℕ) :
    ∃ c, VolCurve.new cal .terminal none (pts.map Prod.fst) (pts.map Prod.snd) none o? dc tenor = .ok c ∧
      ∃ v : D → ℝ, (∀ x, c.terminalVol cal scipy (limit + 1) x none = .ok (v x)) ∧ (∀ p ∈ pts, v p.1 = p.2) ∧
      ∀ s t, o < s → s < t → ∃ a, c.terminalVol cal scipy (limit + 1) s (some t) = .ok a ∧ 0 ≤ a ∧
        a ^ 2 * dc.fn cal s t = dc.fn cal o t * v t ^ 2 - dc.fn cal o s * v s ^ 2 := by
  have hn : (pts.map Prod.fst).Nodup := hinc.imp fun h => h.ne
  have hst : StrictX (timePts (dc.fn cal) o pts) := by
    unfold StrictX timePts
    rw [List.pairwise_map]
    rw [List.pairwise_map] at hinc
    exact hinc.imp fun h => (hτ.lt_iff o _ _).2 h
  obtain ⟨h1, h2⟩ := volOf_answers (cal := cal) (cls := .terminal) (floor := none) (tenor := tenor) hn hne ho hd hτ
  refine ⟨_, VolCurve_new_eq hn (by simp [VolClass.dflt, linearScheme, FuncSpec.isLog, Kind.isLog]) ho hd hτ,
    linVal (dc.fn cal) o pts, fun x => ?_, fun p hp => ?_, fun s t hos' hst' => ?_⟩
  · simp only [VolCurve.terminalVol, volOf, VolCurve.terminalVolT]
    exact h1.call x
  · unfold linVal
    rw [sortPairs_eq_self hst]
    exact flin_node hst (List.mem_map.2 ⟨p, hp, rfl⟩)
  · refine (C45_no_floor_partial h1 rfl rfl scipy limit hst' hos'.ne').2 ?_
    unfold linVal
    rw [sortPairs_eq_self hst]
    have hm := variance_mono hst (fun p hp => by
      obtain ⟨q, hq, rfl⟩ := List.mem_map.1 hp
      exact hτ.nonneg (hos q hq)) (fun p hp => by
      obtain ⟨q, hq, rfl⟩ := List.mem_map.1 hp
      exact hpos q hq) ?_
    · exact hm (hτ.nonneg hos'.le) (hτ.nonneg (hos'.trans hst').le) ((hτ.le_iff o _ _).2 hst'.le)
    · intro l p q r e
      unfold timePts at e
      obtain ⟨l', r', e1, e2, e3⟩ := List.map_eq_append_iff.1 e
      obtain ⟨a, r2, e4, e5, e6⟩ := List.map_eq_cons_iff.1 e3
      obtain ⟨b, r3, e7, e8, e9⟩ := List.map_eq_cons_iff.1 e6
      subst e5 e8
      have := h l' a b r3 (by rw [e1, e4, e7])
      unfold SlowFall
      dsimp only
      rwa [show dc.fn cal o b.1 - dc.fn cal o a.1 = dc.fn cal a.1 b.1 by rw [← hτ.add o a.1 b.1]; ring]

/-- C141: volatilities that do not fall satisfy this. -/
theorem C141_increasing {pts : List (D × ℝ)} {dc : DayCountArg D} (hinc : (pts.map Prod.fst).Pairwise (· < ·))
    (hos : ∀ p ∈ pts, o ≤ p.1) (hpos : ∀ p ∈ pts, 0 ≤ p.2) (hτ : GoodDayCount (dc.fn cal))
    (hup : (pts.map Prod.snd).Pairwise (· ≤ ·)) :
    ∀ l p q r, pts = l ++ p :: q :: r → 2 * dc.fn cal o q.1 * (p.2 - q.2) ≤ q.2 * dc.fn cal p.1 q.1 := by
  rintro l p q r rfl
  have h1 : p.2 ≤ q.2 := by
    rw [List.pairwise_map, List.pairwise_append] at hup
    exact (List.pairwise_cons.1 hup.2.1).1 q (by simp)
  have h2 : p.1 < q.1 := by
    rw [List.pairwise_map, List.pairwise_append] at hinc
    exact (List.pairwise_cons.1 hinc.2.1).1 q (by simp)
  have h3 := hτ.nonneg (hos q (by simp))
  have h4 := mul_nonneg (hpos q (by simp)) ((hτ.pos p.1 q.1).2 h2).le
  have := mul_nonpos_of_nonneg_of_nonpos (mul_nonneg zero_le_two h3) (sub_nonpos.2 h1)
  linarith

variable {c : VolCurve D P} {v : D → ℝ} {τ : D → D → ℝ}

/-- C141: the volatility from the origin to the later date lies between the one to the earlier date and the forward
volatility. -/
theorem C141_between (h : VolAnswers cal c v τ o) (hc : c.cls = .terminal) (hf : c.floor = none) (scipy : Bool) (limit : ℕ)
    {s t : D} (hst : s < t) (hos : o < s) (hv : 0 ≤ v s) (hv' : 0 ≤ v t) {a : ℝ}
    (ha : c.terminalVol cal scipy (limit + 1) s (some t) = .ok a) :
    (v s ≤ v t ↔ v t ≤ a) ∧ (v t ≤ v s ↔ a ≤ v t) := by
  have hdef := (C44_defined h hc hf scipy limit hst hos).1 ⟨a, ha⟩
  obtain ⟨b, hb, hb0, hb2⟩ := (C45_no_floor_partial h hc hf scipy limit hst hos.ne').2 hdef
  obtain rfl := Except.ok.inj (hb.symm.trans ha)
  have h1 := (h.good.pos s t).2 hst
  have h2 := (h.good.pos o s).2 hos
  have h3 : τ o t = τ o s + τ s t := (h.good.add o s t).symm
  rw [h3] at hb2
  have e : (b ^ 2 - v t ^ 2) * τ s t = (v t ^ 2 - v s ^ 2) * τ o s := by linarith
  have p1 : v s ≤ v t ↔ v s ^ 2 ≤ v t ^ 2 := (sq_le_sq₀ hv hv').symm
  have p2 : v t ≤ b ↔ v t ^ 2 ≤ b ^ 2 := (sq_le_sq₀ hv' hb0).symm
  have p3 : v t ≤ v s ↔ v t ^ 2 ≤ v s ^ 2 := (sq_le_sq₀ hv' hv).symm
  have p4 : b ≤ v t ↔ b ^ 2 ≤ v t ^ 2 := (sq_le_sq₀ hb0 hv').symm
  rw [p1, p2, p3, p4]
  constructor
  · constructor
    · intro h
      have : 0 ≤ (b ^ 2 - v t ^ 2) * τ s t := by rw [e]; exact mul_nonneg (by linarith) h2.le
      have := nonneg_of_mul_nonneg_left this h1
      linarith
    · intro h
      have : 0 ≤ (v t ^ 2 - v s ^ 2) * τ o s := by rw [← e]; exact mul_nonneg (by linarith) h1.le
      have := nonneg_of_mul_nonneg_left this h2
      linarith
  · constructor
    · intro h
      have : 0 ≤ (v t ^ 2 - b ^ 2) * τ s t := by
        have : (v t ^ 2 - b ^ 2) * τ s t = (v s ^ 2 - v t ^ 2) * τ o s := by linarith
        rw [this]; exact mul_nonneg (by linarith) h2.le
      have := nonneg_of_mul_nonneg_left this h1
      linarith
    · intro h
      have : 0 ≤ (v s ^ 2 - v t ^ 2) * τ o s := by
        have : (v s ^ 2 - v t ^ 2) * τ o s = (v t ^ 2 - b ^ 2) * τ s t := by linarith
        rw [this]; exact mul_nonneg (by linarith) h1.le
      have := nonneg_of_mul_nonneg_left this h2
      linarith

/-- C141 (instantaneous curves): terminal volatilities stay in the band of the given ones. -/
theorem C141_band {pts : List (D × ℝ)} {o? : Option D} {dc : DayCountArg D} {tenor : Option P} {lo hi : ℝ}
    (hn : (pts.map Prod.fst).Nodup) (hne : pts ≠ []) (hb : ∀ p ∈ pts, lo ≤ p.2 ∧ p.2 ≤ hi)
    (ho : o?.or (pts.map Prod.fst).head? = some o) (hd : dc.Usable) (hτ : GoodDayCount (dc.fn cal)) (limit : ℕ) {s t : D}
    (hst : s < t) :
    ∃ c, VolCurve.new cal .instantaneous none (pts.map Prod.fst) (pts.map Prod.snd) none o? dc tenor = .ok c ∧
      ∃ a, c.terminalVol cal true limit s (some t) = .ok a ∧ lo ≤ a ∧ a ≤ hi := by
  obtain ⟨h1, h2⟩ := volOf_answers (cal := cal) (cls := .instantaneous) (floor := none) (tenor := tenor) hn hne ho hd hτ
  refine ⟨_, VolCurve_new_eq hn (by simp [VolClass.dflt, linearScheme, FuncSpec.isLog, Kind.isLog]) ho hd hτ, _,
    C80_average_partial h1 rfl h2 limit hst, ?_⟩
  set L := sortPairs (timePts (dc.fn cal) o pts) with hL
  have hLs : StrictX L := sortPairs_strict (timePts_nodup hτ o hn)
  have hLne : L ≠ [] := sortPairs_ne_nil (by unfold timePts; simpa using hne)
  have hbd := flin_bounds hLs hLne (a := lo) (b := hi) fun p hp => by
    obtain ⟨q, hq, rfl⟩ := List.mem_map.1 ((sortPairs_perm _).mem_iff.1 hp)
    exact hb q hq
  have hlt := (hτ.lt_iff o s t).2 hst
  have hT := (hτ.pos s t).2 hst
  have e : dc.fn cal o t - dc.fn cal o s = dc.fn cal s t := by rw [← hτ.add o s t]; ring
  have hcont := (flin_continuous hLs).intervalIntegrable (μ := MeasureTheory.volume) (dc.fn cal o s) (dc.fn cal o t)
  have i1 := intervalIntegral.integral_mono_on hlt.le (intervalIntegrable_const (μ := MeasureTheory.volume) (c := lo)) hcont
    fun x _ => (hbd x).1
  have i2 := intervalIntegral.integral_mono_on hlt.le hcont (intervalIntegrable_const (μ := MeasureTheory.volume) (c := hi))
    fun x _ => (hbd x).2
  rw [intervalIntegral.integral_const, e, smul_eq_mul] at i1 i2
  exact ⟨by rw [le_div_iff₀ hT]; linarith, by rw [div_le_iff₀ hT]; linarith⟩

end

/-- C141 (dates as year fractions): every period after the origin has a volatility exactly if no volatility falls faster. -/
theorem C141_iff {pts : List (ℝ × ℝ)} {o? : Option ℝ} {o : ℝ} {tenor : Option FloatPeriod}
    (hinc : (pts.map Prod.fst).Pairwise (· < ·)) (hne : pts ≠ []) (hos : ∀ p ∈ pts, o ≤ p.1) (hpos : ∀ p ∈ pts, 0 ≤ p.2)
    (ho : o?.or (pts.map Prod.fst).head? = some o) (scipy : Bool) (limit : ℕ) :
    ∃ c, VolCurve.new floatCal .terminal none (pts.map Prod.fst) (pts.map Prod.snd) none o? .default tenor = .ok c ∧
      ((∀ s t, o < s → s < t → ∃ a, c.terminalVol floatCal scipy (limit + 1) s (some t) = .ok a) ↔
        ∀ l p q r, pts = l ++ p :: q :: r → 2 * (q.1 - o) * (p.2 - q.2) ≤ q.2 * (q.1 - p.1)) := by
  have hn : (pts.map Prod.fst).Nodup := hinc.imp fun h => h.ne
  have hτ : GoodDayCount (DayCountArg.fn floatCal .default) := goodDayCount_real
  refine ⟨_, VolCurve_new_eq hn (by simp [VolClass.dflt, linearScheme, FuncSpec.isLog, Kind.isLog]) ho trivial hτ, ?_, ?_⟩
  · intro hall l p q r e
    by_contra hbad
    have hst : StrictX (timePts (DayCountArg.fn floatCal .default) o pts) := by
      unfold StrictX timePts
      rw [List.pairwise_map]
      rw [List.pairwise_map] at hinc
      exact hinc.imp fun h => (hτ.lt_iff o _ _).2 h
    obtain ⟨h1, h2⟩ := volOf_answers (cal := floatCal) (cls := .terminal) (floor := none) (tenor := tenor)
      (dc := .default) hn hne ho trivial hτ
    obtain ⟨x, hx1, hx2, hx3⟩ := variance_falls (l := timePts (DayCountArg.fn floatCal .default) o l)
      (r := timePts (DayCountArg.fn floatCal .default) o r)
      (p := (p.1 - o, p.2)) (q := (q.1 - o, q.2)) hst (by rw [e]; simp [timePts, DayCountArg.fn, floatCal])
      (by have := hos p (by rw [e]; simp); simpa using this) (hpos q (by rw [e]; simp))
      (by unfold SlowFall; dsimp only; intro h; apply hbad; linarith)
    dsimp only at hx1 hx2 hx3
    have hp := hos p (by rw [e]; simp)
    have hlt : o + x < q.1 := by linarith
    have hox : o < o + x := by linarith
    have := (C44_defined h1 rfl rfl scipy limit hlt hox).1 (hall _ _ hox hlt)
    unfold linVal at this
    rw [sortPairs_eq_self hst] at this
    simp only [DayCountArg.fn, floatCal, add_sub_cancel_left] at this hx3
    linarith
  · intro h s t hs ht
    obtain ⟨c, h1, v, -, -, h2⟩ := C141_defined (cal := floatCal) (tenor := tenor) (o? := o?) (dc := .default) hinc hne hos hpos ho
      trivial hτ h scipy limit
    rw [VolCurve_new_eq (i := none) (dc := .default) hn (by simp [VolClass.dflt, linearScheme, FuncSpec.isLog, Kind.isLog]) ho trivial hτ] at h1
    obtain rfl := Except.ok.inj h1
    obtain ⟨a, ha, -⟩ := h2 s t hs ht
    exact ⟨a, ha⟩

/-- C141 (refuted without the bound on the fall): 29% to day 100 and 10% to day 2000 have increasing variances, so there is a
volatility from one date to the other, but there is none from day 1000 to day 2000. -/
theorem C141_violated (scipy : Bool) (limit : ℕ) :
    ∃ c, VolCurve.new dayCal .terminal none [100, 2000] [29/100, 1/10] none (some 0) .default none = .ok c ∧
      (∃ a, c.terminalVol dayCal scipy (limit + 1) 100 (some 2000) = .ok a) ∧
      c.terminalVol dayCal scipy (limit + 1) 1000 (some 2000) = .error .zeroDivision := by
  have hτ : GoodDayCount (DayCountArg.fn dayCal .default) := goodDayCount_int
  have hn : (([(100, 29/100), (2000, 1/10)] : List (ℤ × ℝ)).map Prod.fst).Nodup := by simp
  obtain ⟨h1, -⟩ := volOf_answers (cal := dayCal) (cls := .terminal) (floor := none) (tenor := none) (o := 0) (o? := some 0)
    (pts := [(100, 29/100), (2000, 1/10)]) (dc := .default) hn (by simp) rfl trivial hτ
  refine ⟨_, VolCurve_new_eq (pts := [(100, 29/100), (2000, 1/10)]) (i := none) (o? := some 0) (dc := .default) (o := 0) hn
    (by simp [VolClass.dflt, linearScheme, FuncSpec.isLog, Kind.isLog]) rfl trivial hτ, ?_, ?_⟩
  · refine (C44_defined h1 rfl rfl scipy limit (by norm_num) (by norm_num)).2 ?_
    norm_num [linVal, timePts, sortPairs, pairLe, DayCountArg.fn, dayCal, flin, chord, List.insertionSort, List.orderedInsert]
  · refine (C45_no_floor_partial h1 rfl rfl scipy limit (by norm_num) (by norm_num)).1 ?_
    norm_num [linVal, timePts, sortPairs, pairLe, DayCountArg.fn, dayCal, flin, chord, List.insertionSort, List.orderedInsert]

/-- Quotes falling slowly: 30% to day 365, 28% to day 730. -/
example (scipy : Bool) : ∃ c, VolCurve.new dayCal .terminal none [365, 730] [30/100, 28/100] none (some 0) .default none = .ok c ∧
    ∃ v : ℤ → ℝ, (∀ x, c.terminalVol dayCal scipy 1 x none = .ok (v x)) ∧ v 365 = 30/100 ∧
    ∀ s t, 0 < s → s < t → ∃ a, c.terminalVol dayCal scipy 1 s (some t) = .ok a ∧ 0 ≤ a ∧
      a ^ 2 * DayCountArg.fn dayCal .default s t = DayCountArg.fn dayCal .default 0 t * v t ^ 2 -
        DayCountArg.fn dayCal .default 0 s * v s ^ 2 := by
  obtain ⟨c, h1, v, h2, h3, h4⟩ := C141_defined (cal := dayCal) (pts := [(365, 30/100), (730, 28/100)]) (o? := some 0) (o := 0)
    (dc := .default) (tenor := none) (by simp) (by simp) (by simp) (by norm_num) rfl trivial goodDayCount_int
    (by
      intro l p q r e
      match l, e with
      | [], e =>
        simp only [List.nil_append, List.cons.injEq] at e
        obtain ⟨rfl, rfl, -⟩ := e
        norm_num [DayCountArg.fn, dayCal]
      | [a], e => simp at e
      | a :: b :: l, e => simp at e) scipy 0
  exact ⟨c, h1, v, h2, h3 (365, 30/100) (by simp), h4⟩

/-- Rising quotes; and a band of instantaneous volatilities. -/
example : ∀ l p q r, ([(365, 20/100), (730, 25/100)] : List (ℤ × ℝ)) = l ++ p :: q :: r →
    2 * DayCountArg.fn dayCal .default 0 q.1 * (p.2 - q.2) ≤ q.2 * DayCountArg.fn dayCal .default p.1 q.1 :=
  C141_increasing (cal := dayCal) (o := 0) (by simp) (by simp) (by norm_num) goodDayCount_int (by norm_num)

example : ∃ c, VolCurve.new dayCal .instantaneous none [0, 100] [1/10, 3/10] none none .default none = .ok c ∧
    ∃ a, c.terminalVol dayCal true 1 20 (some 90) = .ok a ∧ 1/10 ≤ a ∧ a ≤ 3/10 :=
  C141_band (cal := dayCal) (pts := [(0, 1/10), (100, 3/10)]) (o? := none) (o := 0) (dc := .default) (by simp) (by simp) (by norm_num) rfl trivial
    goodDayCount_int 1 (by norm_num)

/-- Two quotes in year fractions: there are all volatilities after all. -/
example : ∃ c, VolCurve.new floatCal .terminal none [1, 2] [3/10, 28/100] none (some 0) .default none = .ok c ∧
    ∀ s t, 0 < s → s < t → ∃ a, c.terminalVol floatCal false 1 s (some t) = .ok a := by
  obtain ⟨c, h1, h2⟩ := C141_iff (pts := [(1, 3/10), (2, 28/100)]) (o? := some 0) (o := 0) (tenor := none) (by simp) (by simp)
    (by simp) (by norm_num) rfl false 0
  refine ⟨c, h1, h2.2 ?_⟩
  intro l p q r e
  match l, e with
  | [], e =>
    simp only [List.nil_append, List.cons.injEq] at e
    obtain ⟨rfl, rfl, -⟩ := e
    norm_num
  | [a], e => simp at e
  | a :: b :: l, e => simp at e

end Dcf
