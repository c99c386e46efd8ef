import Verif.Props.CreditCurve
import Verif.Props.InterpShape
import Verif.Props.RateCast

/-! # Rates in a band give discount factors in a band: C118 -/

set_option linter.unusedSectionVars false
set_option linter.unusedSimpArgs false
set_option linter.unusedVariables false

namespace Dcf

open Spec Finset

section
variable {D P : Type} [LinearOrder D] {cal : Cal D P} {c : IRCurve D P} {v : D → ℝ} {τ : D → D → ℝ} {o : D}

/-! ### From the given rates to all rates of a curve -/

/-- A list of points with different first entries is the graph of a function. -/
theorem graph_of_nodup {L : List (ℝ × ℝ)} (hn : (L.map Prod.fst).Nodup) :
    ∃ u : ℝ → ℝ, (∀ p ∈ L, u p.1 = p.2) ∧ L.map Prod.snd = (L.map Prod.fst).map u := by
  classical
  have h : ∀ x, ∃ y : ℝ, ∀ p ∈ L, p.1 = x → p.2 = y := fun x => by
    by_cases hx : ∃ p ∈ L, p.1 = x
    · obtain ⟨p, hp, rfl⟩ := hx
      exact ⟨p.2, fun q hq e => by rw [List.inj_on_of_nodup_map hn hq hp e]⟩
    · exact ⟨0, fun p hp e => absurd ⟨p, hp, e⟩ hx⟩
  choose u hu using h
  refine ⟨u, fun p hp => (hu _ p hp rfl).symm, ?_⟩
  rw [List.map_map]
  exact List.map_congr_left fun p hp => hu _ p hp rfl

theorem meanSpecs_log {s : FuncSpec} (hs : s ∈ meanSpecs) : s.isLog → s = logLinearScheme := by
  intro h
  simp only [meanSpecs, List.mem_cons, List.not_mem_nil, or_false] at hs
  rcases hs with rfl | rfl | rfl | rfl | rfl | rfl <;>
    first | rfl | simp [FuncSpec.isLog, Kind.isLog, linearScheme] at h

/-- C118 (data): a curve interpolating rates (zero, short and cash rate curves by default do) is built from any points; if
all given rates lie in `[a, b]`, so do all rates the curve quotes. -/
theorem C118_data {cls : IRClass} {i : Option FuncSpec} (hi : i.getD cls.dflt ∈ meanSpecs) {pts : List (D × ℝ)}
    {o? : Option D} {dc : DayCountArg D} {o : D} {tenor : Option P} (hn : (pts.map Prod.fst).Nodup) (hne : pts ≠ [])
    (hpos : i.getD cls.dflt = logLinearScheme → ∀ p ∈ pts, 0 < p.2)
    (ho : o?.or (pts.map Prod.fst).head? = some o) (hd : dc.Usable) (hτ : GoodDayCount (dc.fn cal)) :
    ∃ c v, IRCurve.new cal cls (pts.map Prod.fst) (pts.map Prod.snd) i o? dc tenor = .ok c ∧ c.cls = cls ∧
      c.tenor = tenor ∧ Answers cal c v (dc.fn cal) o ∧ (∀ p ∈ pts, v p.1 = p.2) ∧
      (∀ a b, (∀ p ∈ pts, a ≤ p.2 ∧ p.2 ≤ b) → ∀ x, a ≤ v x ∧ v x ≤ b) ∧
      ((∀ p ∈ pts, ∀ q ∈ pts, p.1 ≤ q.1 → q.2 ≤ p.2) → ∀ x y, x ≤ y → v y ≤ v x) := by
  have hτn := timePts_nodup hτ o hn
  have hne' : (timePts (dc.fn cal) o pts).map Prod.fst ≠ [] := by simpa [timePts] using hne
  obtain ⟨u, hu, hus⟩ := graph_of_nodup hτn
  have hlog : i.getD cls.dflt = logLinearScheme → ∀ x ∈ (timePts (dc.fn cal) o pts).map Prod.fst, 0 < u x := by
    intro h x hx
    obtain ⟨p, hp, rfl⟩ := List.mem_map.1 hx
    obtain ⟨q, hq, rfl⟩ := List.mem_map.1 hp
    rw [hu _ hp]; exact hpos h q hq
  obtain ⟨f, g, hf, hg, h1, -, h3⟩ := C117_shape hi hτn hne' hlog
  have hlog' : (i.getD cls.dflt).isLog → ∀ p ∈ timePts (dc.fn cal) o pts, 0 < p.2 := fun h p hp => by
    obtain ⟨q, hq, rfl⟩ := List.mem_map.1 hp
    exact hpos (meanSpecs_log hi h) q hq
  rw [← hus, Func_new_eq _ hτn hlog'] at hf
  obtain rfl := Except.ok.inj hf
  have hcall : ∀ x, (irOf cal o o? dc i cls tenor pts).call cal x = .ok (g (dc.fn cal o x)) := fun x =>
    irOf_call_some cal ho hd (hg _)
  have hnz : (i.getD cls.dflt).needsNonzero = false := by
    simp only [meanSpecs, List.mem_cons, List.not_mem_nil, or_false] at hi
    rcases hi with h | h | h | h | h | h <;> rw [h] <;> rfl
  refine ⟨_, fun x => g (dc.fn cal o x), IRCurve_new_eq cal hn (fun h => hpos (meanSpecs_log hi h)) ho hd hτ, rfl, rfl,
    ⟨hcall, irOf_dayCount cal hd, hτ, ho⟩, fun p hp => ?_, fun a b hab x => h1 a b (fun t ht => ?_) _, fun hm x y hxy => h3 ?_ ?_⟩
  · have := irOf_node cal (tenor := tenor) (cls := cls) (i := i) ho hd hτ hn (fun h => hpos (meanSpecs_log hi h)) (by rw [hnz]; simp) hp
    rw [hcall] at this
    exact Except.ok.inj this
  · obtain ⟨p, hp, rfl⟩ := List.mem_map.1 ht
    obtain ⟨q, hq, rfl⟩ := List.mem_map.1 hp
    rw [hu _ hp]; exact hab q hq
  · intro s hs t ht hst
    obtain ⟨p, hp, rfl⟩ := List.mem_map.1 hs
    obtain ⟨p', hp', rfl⟩ := List.mem_map.1 hp
    obtain ⟨q, hq, rfl⟩ := List.mem_map.1 ht
    obtain ⟨q', hq', rfl⟩ := List.mem_map.1 hq
    rw [hu _ hp, hu _ hq]
    exact hm p' hp' q' hq' (not_lt.1 fun h => hst.not_gt ((hτ.lt_iff o _ _).2 h))
  · exact not_lt.1 fun h => hxy.not_gt ((hτ.lt_iff o _ _).1 h)

/-! ### Short rates -/

theorem last_le {s x : D} {p : P} {d : ℕ → D} {n : ℕ} (hd : Steps cal p s d) (hx : s < x) (hn : StepsTo d n x) : d n ≤ x := by
  cases n with
  | zero => rw [hd.zero]; exact hx.le
  | succ n => exact (hn.lt n (Nat.lt_succ_self n)).le

theorem steps_total (hτ : GoodDayCount τ) {s x : D} {p : P} {d : ℕ → D} {n : ℕ} (hd : Steps cal p s d) :
    ∑ k ∈ range n, τ (d k) (d (k + 1)) + τ (d n) x = τ s x := by
  rw [sum_steps hτ, hτ.add, hd.zero]

/-- C118 (short rates): over every period the zero rate lies in the band of the short rates and the discount factor in the
band of the continuously compounded factors. -/
theorem C118_short (h : Answers cal c v τ o) (hc : c.cls = .short) (same : Bool) {s t : D} (hst : s < t)
    {d : ℕ → D} (hd : Steps cal cal.oneDay s d) (hi : Increasing d) (hr : ∃ m, t ≤ d (m + 1)) {a b : ℝ}
    (hv : ∀ x, a ≤ v x ∧ v x ≤ b) :
    ∃ z df, c.rate cal same s t = .ok z ∧ a ≤ z ∧ z ≤ b ∧ c.factor cal same s t = .ok df ∧
      Real.exp (-(b * τ s t)) ≤ df ∧ df ≤ Real.exp (-(a * τ s t)) := by
  obtain ⟨n, hn⟩ := StepsTo.exists hr
  have hτ := (h.good.pos s t).2 hst
  have tot := steps_total (cal := cal) h.good hd (x := t) (n := n)
  have hk : ∀ k, 0 ≤ τ (d k) (d (k + 1)) := fun k => h.good.nonneg (hi k).le
  have hl := h.good.nonneg (last_le hd hst hn)
  have h1 : a * τ s t ≤ ∑ k ∈ range n, v (d k) * τ (d k) (d (k + 1)) + v (d n) * τ (d n) t := by
    rw [← tot, mul_add, mul_sum]
    exact add_le_add (sum_le_sum fun k _ => mul_le_mul_of_nonneg_right (hv _).1 (hk k)) (mul_le_mul_of_nonneg_right (hv _).1 hl)
  have h2 : ∑ k ∈ range n, v (d k) * τ (d k) (d (k + 1)) + v (d n) * τ (d n) t ≤ b * τ s t := by
    rw [← tot, mul_add, mul_sum]
    exact add_le_add (sum_le_sum fun k _ => mul_le_mul_of_nonneg_right (hv _).2 (hk k)) (mul_le_mul_of_nonneg_right (hv _).2 hl)
  have e := C32_integral h hc same hst.ne hd hn
  have e' := factor_of_rate h (by simp [hc]) same hst.ne
  rw [e, Py.map_ok] at e'
  refine ⟨_, _, e, (le_div_iff₀ hτ).2 h1, (div_le_iff₀ hτ).2 h2, e', ?_, ?_⟩
  · rw [div_mul_cancel₀ _ hτ.ne', Real.exp_le_exp]; linarith
  · rw [div_mul_cancel₀ _ hτ.ne', Real.exp_le_exp]; linarith

/-- C118 (short rates that are not negative): discount factors lie in (0,1] and never increase with the end date. -/
theorem C118_short_decreasing (h : Answers cal c v τ o) (hc : c.cls = .short) (same same' : Bool) {s t u : D}
    {d : ℕ → D} (hd : Steps cal cal.oneDay s d) (hi : Increasing d) (hr : ∃ m, u ≤ d (m + 1))
    (hv : ∀ x, 0 ≤ v x) (hst : s ≤ t) (htu : t ≤ u) :
    ∃ a b, c.factor cal same s t = .ok a ∧ c.factor cal same' s u = .ok b ∧ 0 < b ∧ b ≤ a ∧ a ≤ 1 := by
  obtain ⟨r, cls⟩ := c
  obtain rfl : cls = .short := hc
  have h' : CreditAnswers cal (⟨r, .hazard⟩ : CRCurve D P) v τ o := ⟨h.call, h.dayCount, h.good, h.origin⟩
  obtain ⟨-, a, b, ha, hb, hh⟩ := C38_hazard h' rfl same same' hd hi hr hv hst htu
  rw [hazard_factor_eq h' rfl] at ha hb
  exact ⟨a, b, ha, hb, hh⟩

/-! ### Zero rates -/

/-- C118 (zero rates): from the origin on the discount factor lies in the band of the continuously compounded factors. -/
theorem C118_zero (h : Answers cal c v τ o) (hc : c.cls = .zero) {t : D} (hot : o ≤ t) {a b : ℝ}
    (hv : ∀ x, a ≤ v x ∧ v x ≤ b) :
    ∃ df, c.discount cal t = .ok df ∧ Real.exp (-(b * τ o t)) ≤ df ∧ df ≤ Real.exp (-(a * τ o t)) := by
  obtain ⟨df, -, h1, -, h2⟩ := C28_zero h hc
  have hτ := h.good.nonneg hot
  refine ⟨_, h2 t, ?_, ?_⟩ <;> rw [h1, h.good.self, mul_zero, zero_sub, Real.exp_le_exp]
  · have := mul_le_mul_of_nonneg_right (hv t).2 hτ; linarith
  · have := mul_le_mul_of_nonneg_right (hv t).1 hτ; linarith

/-- C118 (zero rates, later start): discount factors never increase with the end date if and only if the zero rate times
the time since the origin never decreases. -/
theorem C118_zero_decreasing (h : Answers cal c v τ o) (hc : c.cls = .zero) (s : D) :
    (∀ t u, s ≤ t → t ≤ u → v t * τ o t ≤ v u * τ o u) ↔
      ∀ t u, s ≤ t → t ≤ u → ∃ a b, c.factor cal false s t = .ok a ∧ c.factor cal false s u = .ok b ∧ b ≤ a := by
  obtain ⟨r, cls⟩ := c
  obtain rfl : cls = .zero := hc
  have h' : CreditAnswers cal (⟨r, .flat⟩ : CRCurve D P) v τ o := ⟨h.call, h.dayCount, h.good, h.origin⟩
  have := (C38_flat_monotone h' rfl s).1
  simp only [flat_factor_eq h' rfl] at this
  exact this

/-! ### Cash rates -/

theorem one_add_sum_le_prod {f : ℕ → ℝ} (hf : ∀ k, 0 ≤ f k) (n : ℕ) : 1 + ∑ k ∈ range n, f k ≤ ∏ k ∈ range n, (1 + f k) := by
  induction n with
  | zero => simp
  | succ n ih =>
    rw [sum_range_succ, prod_range_succ]
    have h1 : 0 ≤ ∑ k ∈ range n, f k := sum_nonneg fun k _ => hf k
    have := mul_le_mul_of_nonneg_right ih (add_nonneg zero_le_one (hf n))
    nlinarith [mul_nonneg h1 (hf n)]

theorem prod_le_exp_sum {f : ℕ → ℝ} (hf : ∀ k, 0 ≤ f k) (n : ℕ) : ∏ k ∈ range n, (1 + f k) ≤ Real.exp (∑ k ∈ range n, f k) := by
  rw [Real.exp_sum]
  refine prod_le_prod (fun k _ => add_nonneg zero_le_one (hf k)) fun k _ => ?_
  rw [add_comm]; exact Real.add_one_le_exp _

/-- The discount factor of a cash rate curve as the inverse of the accrued amount. -/
theorem cash_factor (h : Answers cal c v τ o) (hc : c.cls = .cash) (same : Bool) {s t : D} (hst : s < t)
    {d : ℕ → D} {n : ℕ} (hd : Steps cal (c.tenor.getD cal.threeMonths) s d) (hi : Increasing d) (hn : StepsTo d n t)
    (hv : ∀ x, 0 ≤ v x) :
    c.factor cal same s t =
      .ok (1 / ((∏ k ∈ range n, (1 + v (d k) * τ (d k) (d (k + 1)))) * (1 + v (d n) * τ (d n) t))) := by
  rw [C32_cash h hc same hst.ne hd hn
    (fun k _ => add_pos_of_pos_of_nonneg one_pos (mul_nonneg (hv _) (h.good.nonneg (hi k).le)))
    (add_pos_of_pos_of_nonneg one_pos (mul_nonneg (hv _) (h.good.nonneg (last_le hd hst hn)))),
    Finset.prod_div_distrib, prod_const_one, div_mul_div_comm, one_mul]

/-- C118 (cash rates): with rates between `a ≥ 0` and `b` the discount factor lies between the continuously compounded factor
of `b` and the simply compounded factor of `a`. -/
theorem C118_cash (h : Answers cal c v τ o) (hc : c.cls = .cash) (same : Bool) {s t : D} (hst : s < t)
    {d : ℕ → D} (hd : Steps cal (c.tenor.getD cal.threeMonths) s d) (hi : Increasing d) (hr : ∃ m, t ≤ d (m + 1)) {a b : ℝ}
    (ha : 0 ≤ a) (hv : ∀ x, a ≤ v x ∧ v x ≤ b) :
    ∃ df, c.factor cal same s t = .ok df ∧ Real.exp (-(b * τ s t)) ≤ df ∧ df ≤ 1 / (1 + a * τ s t) := by
  obtain ⟨n, hn⟩ := StepsTo.exists hr
  have tot := steps_total (cal := cal) h.good hd (x := t) (n := n)
  have hk : ∀ k, 0 ≤ τ (d k) (d (k + 1)) := fun k => h.good.nonneg (hi k).le
  have hl := h.good.nonneg (last_le hd hst hn)
  have hv0 : ∀ x, 0 ≤ v x := fun x => ha.trans (hv x).1
  have hf : ∀ k, 0 ≤ v (d k) * τ (d k) (d (k + 1)) := fun k => mul_nonneg (hv0 _) (hk k)
  have hfl : 0 ≤ v (d n) * τ (d n) t := mul_nonneg (hv0 _) hl
  have h1 : a * τ s t ≤ ∑ k ∈ range n, v (d k) * τ (d k) (d (k + 1)) + v (d n) * τ (d n) t := by
    rw [← tot, mul_add, mul_sum]
    exact add_le_add (sum_le_sum fun k _ => mul_le_mul_of_nonneg_right (hv _).1 (hk k)) (mul_le_mul_of_nonneg_right (hv _).1 hl)
  have h2 : ∑ k ∈ range n, v (d k) * τ (d k) (d (k + 1)) + v (d n) * τ (d n) t ≤ b * τ s t := by
    rw [← tot, mul_add, mul_sum]
    exact add_le_add (sum_le_sum fun k _ => mul_le_mul_of_nonneg_right (hv _).2 (hk k)) (mul_le_mul_of_nonneg_right (hv _).2 hl)
  have hP : 0 < ∏ k ∈ range n, (1 + v (d k) * τ (d k) (d (k + 1))) :=
    prod_pos fun k _ => add_pos_of_pos_of_nonneg one_pos (hf k)
  refine ⟨_, cash_factor h hc same hst hd hi hn hv0, ?_, ?_⟩
  · rw [Real.exp_neg, ← one_div]
    refine one_div_le_one_div_of_le (mul_pos hP (by linarith)) ?_
    calc _ ≤ Real.exp (∑ k ∈ range n, v (d k) * τ (d k) (d (k + 1))) * Real.exp (v (d n) * τ (d n) t) :=
          mul_le_mul (prod_le_exp_sum hf n) (by rw [add_comm]; exact Real.add_one_le_exp _) (by linarith) (Real.exp_pos _).le
      _ = Real.exp (∑ k ∈ range n, v (d k) * τ (d k) (d (k + 1)) + v (d n) * τ (d n) t) := (Real.exp_add _ _).symm
      _ ≤ _ := Real.exp_le_exp.2 h2
  · have hτ := h.good.nonneg hst.le
    refine one_div_le_one_div_of_le (add_pos_of_pos_of_nonneg one_pos (mul_nonneg ha hτ)) ?_
    have := mul_le_mul_of_nonneg_right (one_add_sum_le_prod hf n) (add_nonneg zero_le_one hfl)
    have h0 : 0 ≤ ∑ k ∈ range n, v (d k) * τ (d k) (d (k + 1)) := sum_nonneg fun k _ => hf k
    nlinarith [mul_nonneg h0 hfl]

/-- C118 (cash rates that are not negative): discount factors lie in (0,1] and never increase with the end date. -/
theorem C118_cash_decreasing (h : Answers cal c v τ o) (hc : c.cls = .cash) (same same' : Bool) {s t u : D}
    {d : ℕ → D} (hd : Steps cal (c.tenor.getD cal.threeMonths) s d) (hi : Increasing d) (hr : ∃ m, u ≤ d (m + 1))
    (hv : ∀ x, 0 ≤ v x) (hst : s < t) (htu : t ≤ u) :
    ∃ a b, c.factor cal same s t = .ok a ∧ c.factor cal same' s u = .ok b ∧ 0 < b ∧ b ≤ a ∧ a ≤ 1 := by
  obtain ⟨n, hn⟩ := StepsTo.exists hr
  obtain ⟨m, hm⟩ := StepsTo.exists (t := t) (d := d) (hr.imp fun _ h => htu.trans h)
  have hsu := hst.trans_le htu
  have hf : ∀ k, 1 ≤ 1 + v (d k) * τ (d k) (d (k + 1)) := fun k => by
    have := mul_nonneg (hv (d k)) (h.good.nonneg (hi k).le); linarith
  have hlt : 1 ≤ 1 + v (d m) * τ (d m) t := by
    have := mul_nonneg (hv (d m)) (h.good.nonneg (last_le hd hst hm)); linarith
  have hlu : 1 ≤ 1 + v (d n) * τ (d n) u := by
    have := mul_nonneg (hv (d n)) (h.good.nonneg (last_le hd hsu hn)); linarith
  have hP : ∀ n, 1 ≤ ∏ k ∈ range n, (1 + v (d k) * τ (d k) (d (k + 1))) := fun n => by
    induction n with
    | zero => simp
    | succ n ih => rw [prod_range_succ]; exact one_le_mul_of_one_le_of_one_le ih (hf n)
  have hmono : ∀ j, ∏ k ∈ range (m + 1), (1 + v (d k) * τ (d k) (d (k + 1))) ≤
      ∏ k ∈ range (m + 1 + j), (1 + v (d k) * τ (d k) (d (k + 1))) := fun j => by
    induction j with
    | zero => exact le_rfl
    | succ j ih =>
      rw [← add_assoc, prod_range_succ _ (m + 1 + j)]
      exact ih.trans (le_mul_of_one_le_right (zero_le_one.trans (hP _)) (hf _))
  have hA : 1 ≤ (∏ k ∈ range m, (1 + v (d k) * τ (d k) (d (k + 1)))) * (1 + v (d m) * τ (d m) t) :=
    one_le_mul_of_one_le_of_one_le (hP m) hlt
  have hB : 1 ≤ (∏ k ∈ range n, (1 + v (d k) * τ (d k) (d (k + 1)))) * (1 + v (d n) * τ (d n) u) :=
    one_le_mul_of_one_le_of_one_le (hP n) hlu
  refine ⟨_, _, cash_factor h hc same hst hd hi hm hv, cash_factor h hc same' hsu hd hi hn hv,
    one_div_pos.2 (zero_lt_one.trans_le hB), one_div_le_one_div_of_le (zero_lt_one.trans_le hA) ?_, ?_⟩
  · have hmn : m ≤ n := by
      by_contra hlt
      exact absurd (hm.lt n (not_le.1 hlt)) (not_lt.2 (htu.trans hn.le))
    rcases hmn.eq_or_lt with rfl | hmn
    · have : τ (d m) t ≤ τ (d m) u := by
        have := h.good.add (d m) t u
        have := h.good.nonneg htu
        linarith
      have := mul_le_mul_of_nonneg_left this (hv (d m))
      exact mul_le_mul_of_nonneg_left (by linarith) (zero_le_one.trans (hP m))
    · obtain ⟨j, rfl⟩ := Nat.exists_eq_add_of_lt hmn
      have h2 : τ (d m) t ≤ τ (d m) (d (m + 1)) := by
        have := h.good.add (d m) t (d (m + 1))
        have := h.good.nonneg hm.le
        linarith
      have h3 := mul_le_mul_of_nonneg_left h2 (hv (d m))
      calc _ ≤ ∏ k ∈ range (m + 1), (1 + v (d k) * τ (d k) (d (k + 1))) := by
            rw [prod_range_succ]; exact mul_le_mul_of_nonneg_left (by linarith) (zero_le_one.trans (hP m))
        _ ≤ ∏ k ∈ range (m + j + 1), (1 + v (d k) * τ (d k) (d (k + 1))) := by
            have := hmono j; rwa [show m + 1 + j = m + j + 1 by omega] at this
        _ ≤ _ := le_mul_of_one_le_right (zero_le_one.trans (hP _)) hlu
  · exact div_le_one_of_le₀ hA (zero_le_one.trans hA)

/-! ### Discount factors -/

/-- C118 (discount factors): if the given factors never increase and are positive, so are the factors over all periods, which
are at most one. -/
theorem C118_discount (h : Answers cal c v τ o) (hc : c.cls = .discount) (hv : ∀ x, 0 < v x) (hm : ∀ x y, x ≤ y → v y ≤ v x)
    {s t u : D} (hst : s ≤ t) (htu : t ≤ u) :
    ∃ a b, c.factor cal false s t = .ok a ∧ c.factor cal false s u = .ok b ∧ 0 < b ∧ b ≤ a ∧ a ≤ 1 := by
  have key : ∀ s t, c.factor cal false s t = .ok (v t / v s) := fun s t => by
    simp [IRCurve.factor, hc, IRCurve.discountFactorOf, h.call, pyDiv_ok (hv s).ne']
  exact ⟨_, _, key s t, key s u, div_pos (hv u) (hv s), div_le_div_of_nonneg_right (hm t u htu) (hv s).le,
    div_le_one_of_le₀ (hm s t hst) (hv s).le⟩

/-- C118 (discount factors, default interpolation): if the zero rates of the given factors lie in `[a, b]`, the discount
factors of all later dates lie in the band of the continuously compounded factors. -/
theorem C118_discount_data {pts : List (D × ℝ)} {o? : Option D} {dc : DayCountArg D} {o : D} {tenor : Option P}
    (hn : (pts.map Prod.fst).Nodup) (hle : ∀ p ∈ pts, o ≤ p.1) (hne : ∃ p ∈ pts, p.1 ≠ o) (hpos : ∀ p ∈ pts, 0 < p.2)
    (ho : o?.or (pts.map Prod.fst).head? = some o) (hd : dc.Usable) (hτ : GoodDayCount (dc.fn cal)) {a b : ℝ}
    (hab : ∀ p ∈ pts, Real.exp (-(b * dc.fn cal o p.1)) ≤ p.2 ∧ p.2 ≤ Real.exp (-(a * dc.fn cal o p.1))) :
    ∃ c, IRCurve.new cal .discount (pts.map Prod.fst) (pts.map Prod.snd) none o? dc tenor = .ok c ∧
      ∀ t, o < t → ∃ df, c.discount cal t = .ok df ∧ Real.exp (-(b * dc.fn cal o t)) ≤ df ∧ df ≤ Real.exp (-(a * dc.fn cal o t)) := by
  have hτn := timePts_nodup hτ o hn
  refine ⟨_, IRCurve_new_eq cal hn (fun _ => hpos) ho hd hτ, fun t ht => ⟨Real.exp (-(flin (sortPairs (ratePts (timePts (dc.fn cal) o pts))) (dc.fn cal o t) * dc.fn cal o t)), ?_, ?_⟩⟩
  · simp only [IRCurve.discount, irOf_origin cal ho, pyDate, Py.ok_bind, IRCurve.factor]
    exact irOf_rate cal (i := none) rfl ho hd hτ hn hne ht.ne'
  · have ht' := (hτ.pos o t).2 ht
    have hne' : sortPairs (ratePts (timePts (dc.fn cal) o pts)) ≠ [] := by
      obtain ⟨p, hp, h⟩ := hne
      refine List.ne_nil_of_mem ((sortPairs_perm _).mem_iff.2 (List.mem_map.2 ⟨(dc.fn cal o p.1, p.2), List.mem_filter.2 ⟨List.mem_map.2 ⟨p, hp, rfl⟩, ?_⟩, rfl⟩))
      simpa using hτ.ne_zero (Ne.symm h)
    have := flin_bounds (sortPairs_strict (ratePts_nodup hτn)) hne' (a := a) (b := b) (fun q hq => ?_) (dc.fn cal o t)
    · rw [Real.exp_le_exp, Real.exp_le_exp]
      have h1 := mul_le_mul_of_nonneg_right this.1 ht'.le
      have h2 := mul_le_mul_of_nonneg_right this.2 ht'.le
      constructor <;> linarith
    · obtain ⟨r, hr, rfl⟩ := List.mem_map.1 ((sortPairs_perm _).mem_iff.1 hq)
      obtain ⟨hr, h0⟩ := List.mem_filter.1 hr
      obtain ⟨p, hp, rfl⟩ := List.mem_map.1 hr
      have hp0 : 0 < dc.fn cal o p.1 := lt_of_le_of_ne (hτ.nonneg (hle p hp)) (Ne.symm (by simpa using h0))
      obtain ⟨h1, h2⟩ := hab p hp
      rw [← Real.le_log_iff_exp_le (hpos p hp)] at h1
      rw [← Real.log_le_iff_le_exp (hpos p hp)] at h2
      simp only
      rw [le_div_iff₀ hp0, div_le_iff₀ hp0]
      constructor <;> linarith

end

/-- C118 is violated by zero rate curves over later periods: positive zero rates, a discount factor above one. -/
theorem C118_violated : ∃ c df, IRCurve.new dayCal .zero [365, 730] [5 / 100, 1 / 100] none (some 0) .default none = .ok c ∧
    c.factor dayCal false 365 730 = .ok df ∧ 1 < df := by
  have hτ : GoodDayCount (DayCountArg.fn dayCal .default) := goodDayCount_int
  obtain ⟨c, v, hc, hcls, -, hA, hv, -, -⟩ := C118_data (cal := dayCal) (cls := .zero) (i := none) (o? := some 0) (dc := .default) (o := 0)
    (tenor := none) (pts := [(365, 5 / 100), (730, 1 / 100)]) (by simp [meanSpecs, IRClass.dflt]) (by decide) (by simp)
    (by intro _ p hp; fin_cases hp <;> norm_num) rfl trivial hτ
  obtain ⟨df, -, h1, h2, -⟩ := C28_zero hA hcls
  refine ⟨c, _, hc, h2 false 365 730 (by simp), ?_⟩
  have e1 := hv (365, 5 / 100) (by simp)
  have e2 := hv (730, 1 / 100) (by simp)
  simp only at e1 e2
  rw [h1, e1, e2, Real.one_lt_exp_iff]
  simp only [DayCountArg.fn, dayCal]
  norm_num

/-- The hypotheses are met by curves built from two rates. -/
example : ∃ c v, IRCurve.new dayCal .cash [0, 365] [1 / 100, 5 / 100] none none .default none = .ok c ∧ c.cls = .cash ∧
    Answers dayCal c v (DayCountArg.fn dayCal .default) 0 ∧ ∀ x, 1 / 100 ≤ v x ∧ v x ≤ 5 / 100 := by
  obtain ⟨c, v, hc, hcls, -, hA, hv, h, -⟩ := C118_data (cal := dayCal) (cls := .cash) (i := none) (o? := none) (dc := .default) (o := 0)
    (tenor := none) (pts := [(0, 1 / 100), (365, 5 / 100)]) (by simp [meanSpecs, IRClass.dflt]) (by decide) (by simp)
    (by intro _ p hp; fin_cases hp <;> norm_num) rfl trivial goodDayCount_int
  exact ⟨c, v, hc, hcls, hA, h _ _ (by intro p hp; fin_cases hp <;> norm_num)⟩

/-- The hypotheses on discount factors are met. -/
example : ∃ c, IRCurve.new dayCal .discount [0, 365] [1, Real.exp (-(2 / 100 * (365 / (36525 / 100))))] none none .default none = .ok c ∧
    ∀ t, 0 < t → ∃ df, c.discount dayCal t = .ok df ∧ Real.exp (-(3 / 100 * DayCountArg.fn dayCal .default 0 t)) ≤ df ∧
      df ≤ Real.exp (-(1 / 100 * DayCountArg.fn dayCal .default 0 t)) := by
  refine C118_discount_data (cal := dayCal) (o? := none) (dc := .default) (o := 0) (tenor := none)
    (pts := [(0, 1), (365, Real.exp (-(2 / 100 * (365 / (36525 / 100)))))]) (by decide) (by simp) ⟨(365, _), by simp; rfl, by decide⟩
    (by simp [Real.exp_pos]) rfl trivial goodDayCount_int ?_
  intro p hp
  fin_cases hp
  · simp [DayCountArg.fn, dayCal]
  · simp only [DayCountArg.fn, dayCal, Real.exp_le_exp]; norm_num

/-! ### The hypotheses can be met: each theorem applied -/

/-- Curves of each kind over one year, with values from one to five percent. -/
theorem exBetween (cls : IRClass) (hi : cls.dflt ∈ meanSpecs) (hl : cls.dflt ≠ logLinearScheme) : ∃ c v,
    IRCurve.new dayCal cls [0, 365] [1 / 100, 5 / 100] none none .default none = .ok c ∧ c.cls = cls ∧ c.tenor = none ∧
      Answers dayCal c v (DayCountArg.fn dayCal .default) 0 ∧ (v 0 = 1 / 100 ∧ v 365 = 5 / 100) ∧ ∀ x, 1 / 100 ≤ v x ∧ v x ≤ 5 / 100 := by
  obtain ⟨c, v, hc, hcls, ht, hA, hv, h, -⟩ := C118_data (cal := dayCal) (cls := cls) (i := none) (o? := none) (dc := .default) (o := 0)
    (tenor := none) (pts := [(0, 1 / 100), (365, 5 / 100)]) hi (by decide) (by simp)
    (fun e => absurd e hl) rfl trivial goodDayCount_int
  exact ⟨c, v, hc, hcls, ht, hA, ⟨hv (0, _) (by simp), hv (365, _) (by simp)⟩, h _ _ (by intro p hp; fin_cases hp <;> norm_num)⟩

theorem exDaily_increasing : Increasing fun k : ℕ => (0 : ℤ) + k * 1 := fun k => by push_cast; omega

theorem exQuarterly_increasing : Increasing fun k : ℕ => (0 : ℤ) + k * 90 := fun k => by push_cast; omega

/-- The short rates stay between the quoted ones and the factors decrease. -/
example : ∃ c, IRCurve.new dayCal .short [0, 365] [1 / 100, 5 / 100] none none .default none = .ok c ∧
    (∃ z df, c.rate dayCal false 0 100 = .ok z ∧ 1 / 100 ≤ z ∧ z ≤ 5 / 100 ∧ c.factor dayCal false 0 100 = .ok df ∧
      Real.exp (-(5 / 100 * DayCountArg.fn dayCal .default 0 100)) ≤ df ∧ df ≤ Real.exp (-(1 / 100 * DayCountArg.fn dayCal .default 0 100))) ∧
    ∃ a b, c.factor dayCal false 0 100 = .ok a ∧ c.factor dayCal false 0 200 = .ok b ∧ 0 < b ∧ b ≤ a ∧ a ≤ 1 := by
  obtain ⟨c, v, hc, hcls, -, hA, -, hv⟩ := exBetween .short (by simp [meanSpecs, IRClass.dflt]) (by simp [IRClass.dflt, linearScheme, logLinearScheme])
  exact ⟨c, hc, C118_short hA hcls false (by norm_num) (dayCal_steps 1 0) exDaily_increasing ⟨100, by norm_num⟩ hv,
    C118_short_decreasing hA hcls false false (dayCal_steps 1 0) exDaily_increasing ⟨200, by norm_num⟩ (fun x => le_trans (by norm_num) (hv x).1)
      (by norm_num) (by norm_num)⟩

/-- So do those of cash rates. -/
example : ∃ c, IRCurve.new dayCal .cash [0, 365] [1 / 100, 5 / 100] none none .default none = .ok c ∧
    (∃ df, c.factor dayCal false 0 100 = .ok df ∧
      Real.exp (-(5 / 100 * DayCountArg.fn dayCal .default 0 100)) ≤ df ∧ df ≤ 1 / (1 + 1 / 100 * DayCountArg.fn dayCal .default 0 100)) ∧
    ∃ a b, c.factor dayCal false 0 100 = .ok a ∧ c.factor dayCal false 0 200 = .ok b ∧ 0 < b ∧ b ≤ a ∧ a ≤ 1 := by
  obtain ⟨c, v, hc, hcls, ht, hA, -, hv⟩ := exBetween .cash (by simp [meanSpecs, IRClass.dflt]) (by simp [IRClass.dflt, linearScheme, logLinearScheme])
  have hs : Steps dayCal (c.tenor.getD dayCal.threeMonths) 0 fun k : ℕ => (0 : ℤ) + k * 90 := by rw [ht]; exact dayCal_steps 90 0
  exact ⟨c, hc, C118_cash hA hcls false (by norm_num) hs exQuarterly_increasing ⟨100, by norm_num⟩ (by norm_num) hv,
    C118_cash_decreasing hA hcls false false hs exQuarterly_increasing ⟨200, by norm_num⟩ (fun x => le_trans (by norm_num) (hv x).1)
      (by norm_num) (by norm_num)⟩

/-- Zero rates stay between the quoted ones; factors decrease as long as rates times years increase, as with the flat curve. -/
example : ∃ c, IRCurve.new dayCal .zero [0, 365] [1 / 100, 5 / 100] none none .default none = .ok c ∧
    ∃ df, c.discount dayCal 100 = .ok df ∧ Real.exp (-(5 / 100 * DayCountArg.fn dayCal .default 0 100)) ≤ df ∧
      df ≤ Real.exp (-(1 / 100 * DayCountArg.fn dayCal .default 0 100)) := by
  obtain ⟨c, v, hc, hcls, ht, hA, -, hv⟩ := exBetween .zero (by simp [meanSpecs, IRClass.dflt]) (by simp [IRClass.dflt, linearScheme, logLinearScheme])
  exact ⟨c, hc, C118_zero hA hcls (by norm_num) hv⟩

example : ∃ c : IRCurve ℤ ℤ, c.cls = .zero ∧ ∀ t u, (0 : ℤ) ≤ t → t ≤ u →
    ∃ a b, c.factor dayCal false 0 t = .ok a ∧ c.factor dayCal false 0 u = .ok b ∧ b ≤ a := by
  obtain ⟨c, v, hc, hcls, -, hA, hv, h, -⟩ := C118_data (cal := dayCal) (cls := .zero) (i := none) (o? := none) (dc := .default) (o := 0)
    (tenor := none) (pts := [(0, 3 / 100)]) (by simp [meanSpecs, IRClass.dflt]) (by decide) (by simp)
    (by intro _ p hp; fin_cases hp; norm_num) rfl trivial goodDayCount_int
  have hb : ∀ x, v x = 3 / 100 := fun x => by
    have := h (3 / 100) (3 / 100) (by intro p hp; fin_cases hp; norm_num) x
    exact le_antisymm this.2 this.1
  refine ⟨c, hcls, (C118_zero_decreasing hA hcls 0).1 fun t u _ htu => ?_⟩
  have : ((t : ℤ) : ℝ) ≤ u := by exact_mod_cast htu
  simp only [hb, DayCountArg.fn, dayCal]
  push_cast
  gcongr

/-- Decreasing discount factors stay between one and zero. -/
example : ∃ c, IRCurve.new dayCal .discount [0, 365] [1, 97 / 100] (some logLinearScheme) none .default none = .ok c ∧
    ∃ a b, c.factor dayCal false 0 100 = .ok a ∧ c.factor dayCal false 0 200 = .ok b ∧ 0 < b ∧ b ≤ a ∧ a ≤ 1 := by
  obtain ⟨c, v, hc, hcls, -, hA, hv, h, hm⟩ := C118_data (cal := dayCal) (cls := .discount) (i := some logLinearScheme) (o? := none) (dc := .default) (o := 0)
    (tenor := none) (pts := [(0, 1), (365, 97 / 100)]) (by simp [meanSpecs]) (by decide) (by simp)
    (by intro _ p hp; fin_cases hp <;> norm_num) rfl trivial goodDayCount_int
  have hb := h (97 / 100) 1 (by intro p hp; fin_cases hp <;> norm_num)
  exact ⟨c, hc, C118_discount hA hcls (fun x => lt_of_lt_of_le (by norm_num) (hb x).1)
    (hm (by intro p hp q hq; fin_cases hp <;> fin_cases hq <;> norm_num)) (by norm_num) (by norm_num)⟩

end Dcf
