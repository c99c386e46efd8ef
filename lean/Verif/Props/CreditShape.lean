import Verif.Props.CreditArith
import Verif.Props.DiscountShape

/-! # Credit data in a band give survival probabilities in a band: C138 -/

set_option linter.unusedSectionVars false
set_option linter.unusedSimpArgs false
set_option linter.unusedVariables false

namespace Dcf

open Spec Finset

section
variable {D P : Type} [LinearOrder D] {cal : Cal D P}

theorem storedCredit_pos {cls : CRClass} (hp : cls.isProb = true) (y : ℝ) : 0 < storeCredit cls y := by
  simp [storeCredit, hp, storedProb_pos]

theorem credit_new {pts : List (D × ℝ)} {i : Option FuncSpec} {o? : Option D} {dc : DayCountArg D} {cls : CRClass} {o : D}
    {tenor : Option P} (hn : (pts.map Prod.fst).Nodup) (ho : o?.or (pts.map Prod.fst).head? = some o) (hd : dc.Usable)
    (hτ : GoodDayCount (dc.fn cal)) (hpos : (i.getD cls.dflt).isLog → cls.isProb = false → ∀ p ∈ pts, 0 < p.2) :
    CRCurve.new cal cls (pts.map Prod.fst) (pts.map Prod.snd) i o? dc tenor =
      .ok (crOf cal o o? dc i cls tenor (pts.map fun p => (p.1, storeCredit cls p.2))) := by
  by_cases hp : cls.isProb = true
  · have := CRCurve_new_eq (cal := cal) (tenor := tenor) (i := i) hp hn ho hd hτ
    rw [this]
    simp [storeCredit, hp]
  · simp only [Bool.not_eq_true] at hp
    rw [CRCurve_new_rate hp, CRCurve_make_eq cal hn (fun h => hpos h hp) ho hd hτ]
    simp [storeCredit, hp]

/-- C138 (data): a curve that does not store probabilities since the origin is built from any points; if all stored values
lie in `[a, b]`, so do all values of the curve, and decreasing data give a decreasing curve. -/
theorem C138_data {cls : CRClass} {i : Option FuncSpec} (hi : i.getD cls.dflt ∈ meanSpecs) {pts : List (D × ℝ)}
    {o? : Option D} {dc : DayCountArg D} {o : D} {tenor : Option P} (hn : (pts.map Prod.fst).Nodup) (hne : pts ≠ [])
    (hpos : i.getD cls.dflt = logLinearScheme → cls.isProb = false → ∀ p ∈ pts, 0 < p.2)
    (ho : o?.or (pts.map Prod.fst).head? = some o) (hd : dc.Usable) (hτ : GoodDayCount (dc.fn cal)) :
    ∃ c v, CRCurve.new cal cls (pts.map Prod.fst) (pts.map Prod.snd) i o? dc tenor = .ok c ∧ c.cls = cls ∧
      c.tenor = tenor ∧ CreditAnswers cal c v (dc.fn cal) o ∧ (∀ p ∈ pts, v p.1 = storeCredit cls p.2) ∧
      (∀ a b, (∀ p ∈ pts, a ≤ storeCredit cls p.2 ∧ storeCredit cls p.2 ≤ b) → ∀ x, a ≤ v x ∧ v x ≤ b) ∧
      ((∀ p ∈ pts, ∀ q ∈ pts, p.1 ≤ q.1 → storeCredit cls q.2 ≤ storeCredit cls p.2) → ∀ x y, x ≤ y → v y ≤ v x) := by
  have hnew := credit_new (cal := cal) (tenor := tenor) (cls := cls) (i := i) hn ho hd hτ fun h hc => hpos (meanSpecs_log hi h) hc
  have hpos' : i.getD cls.dflt = logLinearScheme → ∀ p ∈ pts.map (fun p => (p.1, storeCredit cls p.2)), 0 < p.2 := by
    intro h p hp
    obtain ⟨q, hq, rfl⟩ := List.mem_map.1 hp
    by_cases hc : cls.isProb = true
    · exact storedCredit_pos hc _
    · simp only [Bool.not_eq_true] at hc
      simpa [storeCredit, hc] using hpos h hc q hq
  set Q := pts.map fun p => (p.1, storeCredit cls p.2) with hQ
  have e1 : Q.map Prod.fst = pts.map Prod.fst := by rw [hQ, List.map_map]; rfl
  have hnQ : (Q.map Prod.fst).Nodup := by rw [e1]; exact hn
  have hoQ : o?.or (Q.map Prod.fst).head? = some o := by rw [e1]; exact ho
  have hτn := timePts_nodup hτ o hnQ
  have hne' : (timePts (dc.fn cal) o Q).map Prod.fst ≠ [] := by simpa [timePts, hQ] using hne
  obtain ⟨u, hu, hus⟩ := graph_of_nodup hτn
  have hlog : i.getD cls.dflt = logLinearScheme → ∀ x ∈ (timePts (dc.fn cal) o Q).map Prod.fst, 0 < u x := by
    intro h x hx
    obtain ⟨p, hp, rfl⟩ := List.mem_map.1 hx
    obtain ⟨q, hq, rfl⟩ := List.mem_map.1 hp
    rw [hu _ hp]; exact hpos' h q hq
  obtain ⟨f, g, hf, hg, h1, -, h3⟩ := C117_shape hi hτn hne' hlog
  have hlog' : (i.getD cls.dflt).isLog → ∀ p ∈ timePts (dc.fn cal) o Q, 0 < p.2 := fun h p hp => by
    obtain ⟨q, hq, rfl⟩ := List.mem_map.1 hp
    exact hpos' (meanSpecs_log hi h) q hq
  rw [← hus, Func_new_eq _ hτn hlog'] at hf
  obtain rfl := Except.ok.inj hf
  have hcall : ∀ x, (crOf cal o o? dc i cls tenor Q).call cal x = .ok (g (dc.fn cal o x)) := fun x =>
    crOf_call_some cal hoQ hd (hg _)
  have hnz : (i.getD cls.dflt).needsNonzero = false := by
    simp only [meanSpecs, List.mem_cons, List.not_mem_nil, or_false] at hi
    rcases hi with h | h | h | h | h | h <;> rw [h] <;> rfl
  refine ⟨_, fun x => g (dc.fn cal o x), hnew, rfl, rfl,
    ⟨hcall, crOf_dayCount cal hd, hτ, hoQ⟩, fun p hp => ?_, fun a b hab x => h1 a b (fun t ht => ?_) _, fun hm x y hxy => h3 ?_ ?_⟩
  · have := crOf_node cal (tenor := tenor) (cls := cls) (i := i) hoQ hd hτ hnQ (fun h => hpos' (meanSpecs_log hi h)) (by rw [hnz]; simp)
      (List.mem_map.2 ⟨p, hp, rfl⟩)
    rw [hcall] at this
    exact Except.ok.inj this
  · obtain ⟨p, hp, rfl⟩ := List.mem_map.1 ht
    obtain ⟨q, hq, rfl⟩ := List.mem_map.1 hp
    rw [hu _ hp]
    obtain ⟨r, hr, rfl⟩ := List.mem_map.1 hq
    exact hab r hr
  · intro s hs t ht hst
    obtain ⟨p, hp, rfl⟩ := List.mem_map.1 hs
    obtain ⟨p', hp', rfl⟩ := List.mem_map.1 hp
    obtain ⟨q, hq, rfl⟩ := List.mem_map.1 ht
    obtain ⟨q', hq', rfl⟩ := List.mem_map.1 hq
    rw [hu _ hp, hu _ hq]
    obtain ⟨p'', hp'', rfl⟩ := List.mem_map.1 hp'
    obtain ⟨q'', hq'', rfl⟩ := List.mem_map.1 hq'
    exact hm p'' hp'' q'' hq'' (not_lt.1 fun h => hst.not_gt ((hτ.lt_iff o _ _).2 h))
  · exact not_lt.1 fun h => hxy.not_gt ((hτ.lt_iff o _ _).1 h)

/-- C138 (hazard rates): if all given hazard rates lie in `[a, b]`, then over every period the flat intensity lies in
`[a, b]` and the survival probability between the exponentials. -/
theorem C138_hazard {pts : List (D × ℝ)} {i : Option FuncSpec} (hi : i.getD CRClass.hazard.dflt ∈ meanSpecs) {o? : Option D}
    {dc : DayCountArg D} {o : D} {tenor : Option P} (hn : (pts.map Prod.fst).Nodup) (hne : pts ≠ [])
    (hpos : i.getD CRClass.hazard.dflt = logLinearScheme → ∀ p ∈ pts, 0 < p.2)
    (ho : o?.or (pts.map Prod.fst).head? = some o) (hd : dc.Usable) (hτ : GoodDayCount (dc.fn cal)) {a b : ℝ}
    (hab : ∀ p ∈ pts, a ≤ p.2 ∧ p.2 ≤ b) :
    ∃ c, CRCurve.new cal .hazard (pts.map Prod.fst) (pts.map Prod.snd) i o? dc tenor = .ok c ∧
      ∀ same s t, s < t → ∀ d : ℕ → D, Steps cal cal.oneDay s d → Increasing d → (∃ m, t ≤ d (m + 1)) →
        ∃ z sv, c.rate cal same s t = .ok z ∧ a ≤ z ∧ z ≤ b ∧ c.factor cal same s t = .ok sv ∧
          Real.exp (-(b * dc.fn cal s t)) ≤ sv ∧ sv ≤ Real.exp (-(a * dc.fn cal s t)) := by
  obtain ⟨c, v, hc, hcls, -, hA, -, hv, -⟩ := C138_data (cal := cal) (cls := .hazard) (tenor := tenor) hi hn hne
    (fun h _ => hpos h) ho hd hτ
  refine ⟨c, hc, fun same s t hst d hs hinc hr => ?_⟩
  have hband := hv a b (fun p hp => by simpa [storeCredit, CRClass.isProb] using hab p hp)
  obtain ⟨z, sv, h1, h2, h3, h4, h5⟩ := C118_short (hA.ir .short) rfl same hst hs hinc hr hband
  rw [← hazard_rate_eq hA hcls same s t] at h1
  rw [← hazard_factor_eq hA hcls same s t] at h4
  exact ⟨z, sv, h1, h2, h3, h4, h5⟩

/-- C138 (flat intensities): if all given intensities lie in `[a, b]`, then so do the intensities since the origin, and the
survival probabilities since the origin lie between the exponentials. -/
theorem C138_flat {pts : List (D × ℝ)} {i : Option FuncSpec} (hi : i.getD CRClass.flat.dflt ∈ meanSpecs) {o? : Option D}
    {dc : DayCountArg D} {o : D} {tenor : Option P} (hn : (pts.map Prod.fst).Nodup) (hne : pts ≠ [])
    (hpos : i.getD CRClass.flat.dflt = logLinearScheme → ∀ p ∈ pts, 0 < p.2)
    (ho : o?.or (pts.map Prod.fst).head? = some o) (hd : dc.Usable) (hτ : GoodDayCount (dc.fn cal)) {a b : ℝ}
    (hab : ∀ p ∈ pts, a ≤ p.2 ∧ p.2 ≤ b) :
    ∃ c, CRCurve.new cal .flat (pts.map Prod.fst) (pts.map Prod.snd) i o? dc tenor = .ok c ∧
      ∀ t, o ≤ t → ∃ z sv, c.flatIntensity cal t = .ok z ∧ a ≤ z ∧ z ≤ b ∧ c.survivalProb cal t = .ok sv ∧
        Real.exp (-(b * dc.fn cal o t)) ≤ sv ∧ sv ≤ Real.exp (-(a * dc.fn cal o t)) := by
  obtain ⟨c, v, hc, hcls, -, hA, -, hv, -⟩ := C138_data (cal := cal) (cls := .flat) (tenor := tenor) hi hn hne
    (fun h _ => hpos h) ho hd hτ
  refine ⟨c, hc, fun t hot => ?_⟩
  have hband := hv a b (fun p hp => by simpa [storeCredit, CRClass.isProb] using hab p hp)
  obtain ⟨sv, -, h1, -, h2⟩ := C38_flat hA hcls
  have hτt := hτ.nonneg hot
  refine ⟨v t, _, ?_, (hband t).1, (hband t).2, h2 t, ?_⟩
  · simp only [CRCurve.flatIntensity, hA.origin, pyDate, Py.ok_bind, CRCurve.rate, hcls, CRCurve.flatRateOf]
    by_cases h : o = t
    · subst h; simp [hA.call]
    · simp [h, hA.call]
  · rw [h1, hτ.self, mul_zero, zero_sub, Real.exp_le_exp, Real.exp_le_exp]
    constructor
    · have := mul_le_mul_of_nonneg_right (hband t).2 hτt; linarith
    · have := mul_le_mul_of_nonneg_right (hband t).1 hτt; linarith

/-- C138 (marginal probabilities): if the marginal survival probabilities (given, or as complement of the given default
probabilities) lie in `[p, q]` within the clamped range, the survival probability over `n` steps of the tenor and the
fraction `r` of another one lies between `p ^ (n + r)` and `q ^ (n + r)`. -/
theorem C138_marginal {pts : List (D × ℝ)} {cls : CRClass} (hcl : cls = .marginal ∨ cls = .marginalDefault) {o? : Option D}
    {dc : DayCountArg D} {o : D} {tenor : Option P} (hn : (pts.map Prod.fst).Nodup) (hne : pts ≠ [])
    (ho : o?.or (pts.map Prod.fst).head? = some o) (hd : dc.Usable) (hτ : GoodDayCount (dc.fn cal)) {p q : ℝ}
    (hp : 2 * floatMin ≤ p) (hq : q ≤ 1)
    (hab : ∀ x ∈ pts, p ≤ (if cls = .marginal then x.2 else 1 - x.2) ∧ (if cls = .marginal then x.2 else 1 - x.2) ≤ q) :
    ∃ c, CRCurve.new cal cls (pts.map Prod.fst) (pts.map Prod.snd) none o? dc tenor = .ok c ∧
      ∀ same s t, s < t → ∀ d : ℕ → D, Steps cal (tenor.getD cal.oneYear) s d → Increasing d → ∀ n, StepsTo d n t →
        ∃ sv, c.factor cal same s t = .ok sv ∧
          p ^ (n + dc.fn cal (d n) t / dc.fn cal (d n) (d (n + 1))) ≤ sv ∧
          sv ≤ q ^ (n + dc.fn cal (d n) t / dc.fn cal (d n) (d (n + 1))) := by
  have hp0 : 0 < p := (mul_pos two_pos floatMin_pos).trans_le hp
  have hpq : p ≤ q := by
    obtain ⟨x, l, rfl⟩ := List.exists_cons_of_ne_nil hne
    have := hab x (by simp)
    linarith
  have hst : ∀ x ∈ pts, storeCredit cls x.2 = if cls = .marginal then x.2 else 1 - x.2 := by
    intro x hx
    have h := hab x hx
    have hm := floatMin_pos
    rcases hcl with rfl | rfl
    · simp only [if_true] at h ⊢
      have e := clampProb_eq (d := x.2) (by linarith) (by linarith)
      simp only [storeCredit, CRClass.isProb, storedProb, if_true, if_false, reduceCtorEq, or_self, or_true, or_false]
      exact e
    · simp only [reduceCtorEq, if_false] at h ⊢
      have e := clampProb_eq (d := 1 - x.2) (by linarith) (by linarith)
      simp only [storeCredit, CRClass.isProb, storedProb, if_true, if_false, reduceCtorEq, or_self, or_true, or_false]
      exact e
  obtain ⟨c, v, hc, hcls, hten, hA, -, hv, -⟩ := C138_data (cal := cal) (cls := cls) (i := none) (tenor := tenor)
    (by rcases hcl with rfl | rfl <;> simp [CRClass.dflt, meanSpecs]) hn hne
    (fun _ h => by rcases hcl with rfl | rfl <;> simp [CRClass.isProb] at h) ho hd hτ
  have hband := hv p q (fun x hx => by rw [hst x hx]; exact hab x hx)
  refine ⟨c, hc, fun same s t hst d hs hinc n hn' => ⟨_, C38_marginal_product hA (by rw [hcls]; exact hcl) same hst.ne
    (by rw [hten]; exact hs) hinc hn' fun x => hp.trans (hband x).1, ?_⟩⟩
  have hv0 : ∀ x, 0 < v x := fun x => hp0.trans_le (hband x).1
  have hr : 0 ≤ dc.fn cal (d n) t / dc.fn cal (d n) (d (n + 1)) :=
    div_nonneg (hτ.nonneg (last_le hs hst hn')) (hτ.nonneg (hinc n).le)
  rw [Real.rpow_add hp0, Real.rpow_add (hp0.trans_le hpq), Real.rpow_natCast, Real.rpow_natCast]
  constructor
  · refine mul_le_mul ?_ (Real.rpow_le_rpow hp0.le (hband _).1 hr) (Real.rpow_nonneg hp0.le _) (prod_nonneg fun k _ => (hv0 _).le)
    rw [← card_range n, ← prod_const, card_range]
    exact prod_le_prod (fun _ _ => hp0.le) fun k _ => (hband _).1
  · refine mul_le_mul ?_ (Real.rpow_le_rpow (hv0 _).le (hband _).2 hr) (Real.rpow_nonneg (hv0 _).le _) (pow_nonneg (hp0.trans_le hpq).le _)
    rw [← card_range n, ← prod_const, card_range]
    exact prod_le_prod (fun k _ => (hv0 _).le) fun k _ => (hband _).2

/-- C138 (survival and default probabilities): if the intensities of all given survival probabilities lie in `[a, b]`, the
survival probabilities of all dates after the origin lie between the exponentials. -/
theorem C138_survival {pts : List (D × ℝ)} {cls : CRClass} (hcl : cls = .survival ∨ cls = .default) {o? : Option D}
    {dc : DayCountArg D} {o : D} {tenor : Option P} (hn : (pts.map Prod.fst).Nodup) (hle : ∀ p ∈ pts, o ≤ p.1)
    (hne : ∃ p ∈ pts, p.1 ≠ o)
    (ho : o?.or (pts.map Prod.fst).head? = some o) (hd : dc.Usable) (hτ : GoodDayCount (dc.fn cal)) {a b : ℝ}
    (hab : ∀ p ∈ pts, Real.exp (-(b * dc.fn cal o p.1)) ≤ storeCredit cls p.2 ∧
      storeCredit cls p.2 ≤ Real.exp (-(a * dc.fn cal o p.1))) :
    ∃ c, CRCurve.new cal cls (pts.map Prod.fst) (pts.map Prod.snd) none o? dc tenor = .ok c ∧
      ∀ t, o < t → ∃ sv, c.survivalProb cal t = .ok sv ∧ Real.exp (-(b * dc.fn cal o t)) ≤ sv ∧
        sv ≤ Real.exp (-(a * dc.fn cal o t)) := by
  have hp : cls.isProb = true := by rcases hcl with rfl | rfl <;> rfl
  have hnew := credit_new (cal := cal) (tenor := tenor) (cls := cls) (i := none) hn ho hd hτ fun _ h => by simp [hp] at h
  set Q := pts.map fun p => (p.1, storeCredit cls p.2) with hQ
  have e1 : Q.map Prod.fst = pts.map Prod.fst := by rw [hQ, List.map_map]; rfl
  have hnQ : (Q.map Prod.fst).Nodup := by rw [e1]; exact hn
  have hoQ : o?.or (Q.map Prod.fst).head? = some o := by rw [e1]; exact ho
  have hi : (none : Option FuncSpec).getD cls.dflt = logLinearRateScheme := by rcases hcl with rfl | rfl <;> rfl
  have hneQ : ∃ p ∈ Q, p.1 ≠ o := by
    obtain ⟨p, hp, hpo⟩ := hne
    exact ⟨_, List.mem_map.2 ⟨p, hp, rfl⟩, hpo⟩
  obtain ⟨c', hc', hb⟩ := C118_discount_data (cal := cal) (pts := Q) (tenor := tenor) hnQ
    (fun p hp => by obtain ⟨q, hq, rfl⟩ := List.mem_map.1 hp; exact hle q hq) hneQ
    (fun p hp' => by obtain ⟨q, hq, rfl⟩ := List.mem_map.1 hp'; exact storedCredit_pos hp _) hoQ hd hτ (a := a) (b := b)
    (fun p hp => by obtain ⟨q, hq, rfl⟩ := List.mem_map.1 hp; exact hab q hq)
  refine ⟨_, hnew, fun t ht => ?_⟩
  obtain ⟨df, h1, h2⟩ := hb t ht
  refine ⟨df, ?_, h2⟩
  rw [IRCurve_new_eq cal hnQ (fun _ p hp' => by obtain ⟨q, hq, rfl⟩ := List.mem_map.1 hp'; exact storedCredit_pos hp _) hoQ hd hτ] at hc'
  obtain rfl := Except.ok.inj hc'
  have hc := crOf_rate cal (tenor := tenor) (cls := cls) (i := none) hi hoQ hd hτ hnQ hneQ ht.ne'
  have hc2 := irOf_rate cal (tenor := tenor) (cls := .discount) (i := none) rfl hoQ hd hτ hnQ hneQ ht.ne'
  simp only [IRCurve.discount, irOf_origin cal hoQ, pyDate, Py.ok_bind, IRCurve.factor] at h1
  have h1' : (irOf cal o o? dc none .discount tenor Q).call cal t = .ok df := h1
  rw [← h1', hc2, ← hc]
  have ho2 : (crOf cal o o? dc none cls tenor Q).base.origin = some o := hoQ
  set C := crOf cal o o? dc none cls tenor Q with hC
  have hcls : C.cls = cls := rfl
  rcases hcl with rfl | rfl <;>
    simp [CRCurve.survivalProb, ho2, pyDate, CRCurve.factor, hcls, CRCurve.survivalFactorOf]

end

/-- C138 (refuted, flat intensities): positive intensities can give a survival probability above one for a later start. -/
theorem C138_flat_violated : ∃ c sv, CRCurve.new dayCal .flat [365, 730] [5 / 100, 1 / 100] none (some 0) .default none = .ok c ∧
    c.factor dayCal false 365 730 = .ok sv ∧ 1 < sv := by
  have hτ : GoodDayCount (DayCountArg.fn dayCal .default) := goodDayCount_int
  obtain ⟨c, v, hc, hcls, -, hA, hv, -, -⟩ := C138_data (cal := dayCal) (cls := .flat) (i := none) (o? := some 0) (dc := .default)
    (o := 0) (tenor := none) (pts := [(365, 5 / 100), (730, 1 / 100)]) (by simp [meanSpecs, CRClass.dflt]) (by decide) (by simp)
    (by intro _ _ p hp; fin_cases hp <;> norm_num) rfl trivial hτ
  obtain ⟨df, -, h1, h2, -⟩ := C38_flat hA hcls
  refine ⟨c, _, hc, h2 false 365 730 (by simp), ?_⟩
  have e1 := hv (365, 5 / 100) (by simp)
  have e2 := hv (730, 1 / 100) (by simp)
  simp only [storeCredit, CRClass.isProb] at e1 e2
  rw [h1, e1, e2, Real.one_lt_exp_iff]
  simp only [DayCountArg.fn, dayCal]
  norm_num

/-- C138 (refuted, survival probabilities): the interpolation of decreasing survival probabilities can increase, so that
the survival probability for a later start is above one. -/
theorem C138_survival_violated : ∃ c sv, CRCurve.new dayCal .survival [400, 800]
      [Real.exp (-(5 / 100 * dayCal.dayCount 0 400)), Real.exp (-(3 / 100 * dayCal.dayCount 0 800))] none (some 0) .default none = .ok c ∧
    Real.exp (-(3 / 100 * dayCal.dayCount 0 800)) < Real.exp (-(5 / 100 * dayCal.dayCount 0 400)) ∧
    c.factor dayCal false 700 800 = .ok sv ∧ 1 < sv := by
  have hτ : GoodDayCount (DayCountArg.fn dayCal .default) := goodDayCount_int
  set p : ℝ := Real.exp (-(5 / 100 * dayCal.dayCount 0 400)) with hp
  set q : ℝ := Real.exp (-(3 / 100 * dayCal.dayCount 0 800)) with hq
  have t4 : dayCal.dayCount 0 400 = 40000 / 36525 := by simp only [dayCal]; norm_num
  have t7 : dayCal.dayCount 0 700 = 70000 / 36525 := by simp only [dayCal]; norm_num
  have t8 : dayCal.dayCount 0 800 = 80000 / 36525 := by simp only [dayCal]; norm_num
  have hfm : floatMin ≤ 1 / 2 := by have := floatMin_le_one; linarith
  have hclamp : ∀ z : ℝ, 0 ≤ z → z ≤ 1 / 2 → storeCredit .survival (Real.exp (-z)) = Real.exp (-z) := fun z h0 h1 => by
    have h2 : 1 / 2 ≤ Real.exp (-z) := by have := Real.add_one_le_exp (-z); linarith
    have h3 : Real.exp (-z) ≤ 1 := Real.exp_le_one_iff.2 (by linarith)
    have e := clampProb_eq (hfm.trans h2) h3
    simp only [storeCredit, CRClass.isProb, storedProb, if_true, if_false, reduceCtorEq, or_self]
    exact e
  have hpq : q < p := by rw [hp, hq, Real.exp_lt_exp, t4, t8]; norm_num
  have hsp : storeCredit .survival p = p := hclamp _ (by rw [t4]; norm_num) (by rw [t4]; norm_num)
  have hsq : storeCredit .survival q = q := hclamp _ (by rw [t8]; norm_num) (by rw [t8]; norm_num)
  have hn : (([(400, p), (800, q)] : List (ℤ × ℝ)).map Prod.fst).Nodup := by simp
  have ho : (some (0 : ℤ)).or (([(400, p), (800, q)] : List (ℤ × ℝ)).map Prod.fst).head? = some 0 := rfl
  have hnew := credit_new (cal := dayCal) (pts := [(400, p), (800, q)]) (tenor := none) (cls := .survival) (i := none) (dc := .default)
    (o? := some 0) (o := 0) hn ho trivial hτ fun _ h => by simp [CRClass.isProb] at h
  simp only [List.map_cons, List.map_nil, hsp, hsq] at hnew
  have key : ∀ x : ℤ, x ≠ 0 → (crOf dayCal 0 (some 0) .default none .survival none [(400, p), (800, q)]).call dayCal x =
      .ok (Real.exp (-(flin [(dayCal.dayCount 0 400, 5 / 100), (dayCal.dayCount 0 800, 3 / 100)] (dayCal.dayCount 0 x) *
        dayCal.dayCount 0 x))) := fun x hx => by
    have := crOf_rate dayCal (tenor := none) (cls := .survival) (i := none) (dc := .default) (o? := some 0) (o := 0) (x := x)
      (pts := [(400, p), (800, q)]) rfl ho trivial hτ hn ⟨(400, p), by simp, by simp⟩ hx
    rw [this]
    have e : sortPairs (ratePts (timePts (DayCountArg.fn dayCal .default) 0 [((400 : ℤ), p), (800, q)])) =
        [(dayCal.dayCount 0 400, 5 / 100), (dayCal.dayCount 0 800, 3 / 100)] := by
      have e1 : ratePts (timePts (DayCountArg.fn dayCal .default) 0 [((400 : ℤ), p), (800, q)]) =
          [(dayCal.dayCount 0 400, 5 / 100), (dayCal.dayCount 0 800, 3 / 100)] := by
        have d4 : DayCountArg.fn dayCal .default 0 400 = 40000 / 36525 := t4
        have d8 : DayCountArg.fn dayCal .default 0 800 = 80000 / 36525 := t8
        simp only [timePts, ratePts, List.map_cons, List.map_nil, d4, d8, t4, t8, hp, hq]
        norm_num
      rw [e1]
      exact sortPairs_eq_self (by rw [t4, t8]; simp [StrictX]; norm_num)
    rw [e]
    rfl
  have k7 := key 700 (by norm_num)
  have k8 := key 800 (by norm_num)
  have f7 : flin [(dayCal.dayCount 0 400, (5 / 100 : ℝ)), (dayCal.dayCount 0 800, 3 / 100)] (dayCal.dayCount 0 700) = 35 / 1000 := by
    rw [t4, t7, t8]; norm_num [flin, chord]
  have f8 : flin [(dayCal.dayCount 0 400, (5 / 100 : ℝ)), (dayCal.dayCount 0 800, 3 / 100)] (dayCal.dayCount 0 800) = 3 / 100 := by
    rw [t4, t8]; norm_num [flin, chord]
  rw [f7, t7] at k7
  rw [f8, t8] at k8
  refine ⟨_, Real.exp (-(3 / 100 * (80000 / 36525))) / Real.exp (-(35 / 1000 * (70000 / 36525))), hnew, hpq, ?_, ?_⟩
  · have hcls : (crOf dayCal 0 (some 0) .default none .survival none [((400 : ℤ), p), (800, q)]).cls = .survival := rfl
    simp only [CRCurve.factor, hcls, CRCurve.survivalFactorOf, k7, k8, Py.ok_bind]
    simp [pyDiv_ok (Real.exp_pos _).ne']
  · rw [← Real.exp_sub, Real.one_lt_exp_iff]; norm_num

/-! ### Examples -/

example : ∃ c, CRCurve.new dayCal .hazard [0, 100] [1 / 100, 3 / 100] none none .default none = .ok c ∧
    ∀ same s t, s < t → ∀ d : ℕ → ℤ, Steps dayCal dayCal.oneDay s d → Increasing d → (∃ m, t ≤ d (m + 1)) →
      ∃ z sv, c.rate dayCal same s t = .ok z ∧ 1 / 100 ≤ z ∧ z ≤ 3 / 100 ∧ c.factor dayCal same s t = .ok sv ∧
        Real.exp (-(3 / 100 * dayCal.dayCount s t)) ≤ sv ∧ sv ≤ Real.exp (-(1 / 100 * dayCal.dayCount s t)) :=
  C138_hazard (cal := dayCal) (pts := [((0 : ℤ), (1 / 100 : ℝ)), (100, 3 / 100)]) (i := none) (dc := .default) (o := 0)
    (by simp [CRClass.dflt, meanSpecs]) (by simp) (by simp) (by simp [CRClass.dflt, logLinearScheme]) rfl trivial goodDayCount_int
    (by intro p hp; fin_cases hp <;> norm_num)

example : ∃ c, CRCurve.new dayCal .flat [0, 100] [1 / 100, 3 / 100] none none .default none = .ok c ∧
    ∀ t, 0 ≤ t → ∃ z sv, c.flatIntensity dayCal t = .ok z ∧ 1 / 100 ≤ z ∧ z ≤ 3 / 100 ∧ c.survivalProb dayCal t = .ok sv ∧
      Real.exp (-(3 / 100 * dayCal.dayCount 0 t)) ≤ sv ∧ sv ≤ Real.exp (-(1 / 100 * dayCal.dayCount 0 t)) :=
  C138_flat (cal := dayCal) (pts := [((0 : ℤ), (1 / 100 : ℝ)), (100, 3 / 100)]) (i := none) (dc := .default) (o := 0)
    (by simp [CRClass.dflt, meanSpecs]) (by simp) (by simp) (by simp [CRClass.dflt, linearScheme, logLinearScheme]) rfl trivial
    goodDayCount_int (by intro p hp; fin_cases hp <;> norm_num)

theorem floatMin_le_quarter : floatMin ≤ 1 / 4 := by
  have : floatMin ≤ (1 / 2 : ℝ) ^ 2 := pow_le_pow_of_le_one (by norm_num) (by norm_num) (show 2 ≤ 1022 by norm_num)
  linarith

/-- Marginal default probabilities of 1% and 4%: two and a half years. -/
example : ∃ c, CRCurve.new dayCal .marginalDefault [0, 100] [1 / 100, 4 / 100] none none .default none = .ok c ∧
    ∀ same s t, s < t → ∀ d : ℕ → ℤ, Steps dayCal dayCal.oneYear s d → Increasing d → ∀ n, StepsTo d n t →
      ∃ sv, c.factor dayCal same s t = .ok sv ∧
        (96 / 100 : ℝ) ^ (n + dayCal.dayCount (d n) t / dayCal.dayCount (d n) (d (n + 1))) ≤ sv ∧
        sv ≤ (99 / 100 : ℝ) ^ (n + dayCal.dayCount (d n) t / dayCal.dayCount (d n) (d (n + 1))) :=
  C138_marginal (cal := dayCal) (pts := [((0 : ℤ), (1 / 100 : ℝ)), (100, 4 / 100)]) (.inr rfl) (dc := .default) (o := 0) (tenor := none)
    (by simp) (by simp) rfl trivial goodDayCount_int
    ((mul_le_mul_of_nonneg_left floatMin_le_quarter zero_le_two).trans (by norm_num)) (by norm_num)
    (by intro p hp; fin_cases hp <;> simp only [reduceCtorEq, if_false] <;> norm_num)

example : ∃ c, CRCurve.new dayCal .survival [0, 365] [1, 1] none none .default none = .ok c ∧
    ∀ t, 0 < t → ∃ sv, c.survivalProb dayCal t = .ok sv ∧ Real.exp (-(0 * dayCal.dayCount 0 t)) ≤ sv ∧
      sv ≤ Real.exp (-(0 * dayCal.dayCount 0 t)) := by
  have h1 : storeCredit .survival 1 = 1 := by
    have := clampProb_eq (by have := floatMin_le_one; have := floatMin_pos; linarith : floatMin ≤ 1) le_rfl
    simp only [storeCredit, CRClass.isProb, storedProb, if_true, if_false, reduceCtorEq, or_self]
    exact this
  exact C138_survival (cal := dayCal) (pts := [((0 : ℤ), (1 : ℝ)), (365, 1)]) (.inl rfl) (dc := .default) (o := 0)
    (by simp) (by simp) ⟨(365, 1), by simp, by simp⟩ rfl trivial goodDayCount_int (by intro p hp; fin_cases hp <;> simp [h1])

/-! ### The hypotheses can be met: each theorem applied -/

example := C138_data (cal := dayCal) (cls := .hazard) (i := none) (pts := [((0 : ℤ), (1 / 100 : ℝ)), (100, 3 / 100)]) (o? := none) (dc := .default)
  (o := 0) (tenor := none) (by simp [CRClass.dflt, meanSpecs]) (by simp) (by simp) (by simp [CRClass.dflt, logLinearScheme]) rfl trivial
  goodDayCount_int

end Dcf
