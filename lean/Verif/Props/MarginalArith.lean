import Verif.Props.CreditArith

/-! # Arithmetic of marginal survival probability curves, settings and different origins: C137 -/

set_option linter.unusedSectionVars false
set_option linter.unusedSimpArgs false
set_option linter.unusedVariables false

namespace Dcf

open Spec

section
variable {D P : Type} [LinearOrder D] {cal : Cal D P}

/-- The logarithms of the given values. -/
noncomputable def lnPts (A : List (D × ℝ)) : List (D × ℝ) := A.map fun p => (p.1, Real.log p.2)

theorem lnPts_fst (A : List (D × ℝ)) : (lnPts A).map Prod.fst = A.map Prod.fst := by unfold lnPts; rw [List.map_map]; rfl

/-- Marginal probabilities are interpolated linearly in their logarithms. -/
theorem marginal_call (hτ : GoodDayCount cal.dayCount) {cls : CRClass} (hc : cls = .marginal ∨ cls = .marginalDefault) {A : List (D × ℝ)}
    (hA : (A.map Prod.fst).Nodup) (hA0 : A ≠ []) (hpos : ∀ p ∈ A, 0 < p.2) {o : D} {o? : Option D}
    (ho : o?.or (A.map Prod.fst).head? = some o) (t : Option P) (x : D) :
    (crOf cal o o? .default none cls t A).call cal x = .ok (Real.exp (linVal cal.dayCount o (lnPts A) x)) := by
  have hi : (none : Option FuncSpec).getD cls.dflt = logLinearScheme := by rcases hc with rfl | rfl <;> rfl
  rw [crOf_loglinear cal (dc := .default) hi ho trivial hτ hA hA0 hpos]
  have e : timePts cal.dayCount o (lnPts A) = logPts (timePts cal.dayCount o A) := by
    simp [timePts, lnPts, logPts, Function.comp_def]
  rw [linVal, e, sort_logPts (timePts_nodup hτ o hA)]
  rfl

/-- A marginal probability over one tenor is the quoted one. -/
theorem marginal_own (hτ : GoodDayCount cal.dayCount) {cls : CRClass} (hc : cls = .marginal ∨ cls = .marginalDefault) {t : Option P}
    (ht : ∀ x, ∃ e, cal.add x (t.getD cal.oneYear) = .ok e ∧ x ≠ e) : OwnStorage cal cls (fun y => 2 * floatMin ≤ y) t := by
  have fm := floatMin_pos
  refine ⟨fun y h => by linarith, fun {pts o o?} ho limit same x y h hb => ?_⟩
  have hp : cls.isProb = true := by rcases hc with rfl | rfl <;> rfl
  obtain ⟨e, he, hne⟩ := ht x
  have hy : 2 * floatMin ≤ y := hb hp
  have hy0 : 0 < y := by linarith
  have hz := hτ.ne_zero hne
  set c : CRCurve D P := crOf cal o o? .default none cls t pts with hcd
  have hten : c.forwardTenor cal = t.getD cal.oneYear := rfl
  have hcl : c.cls = cls := rfl
  have hdc : ∀ s u, c.dayCount cal s u = .ok (cal.dayCount s u) := fun s u => crOf_dayCount cal (dc := .default) trivial s u
  have hloop : ∀ (up : ℝ → D → D → Py ℝ), stepLoop cal (t.getD cal.oneYear) e up x 1 = .ok (x, 1) := fun up => by
    unfold stepLoop
    rw [pyWhile_step]
    simp [he]
  have e1 : cls.storage cal (limit + 1) same c x = c.marginalFactorOf cal x e := by
    rcases hc with rfl | rfl <;> simp [CRClass.storage, hten, he, CRCurve.factor, hcl]
  rw [e1]
  simp only [CRCurve.marginalFactorOf, hne, if_false, hten, hloop, Py.ok_bind, h, hy, if_true, he, hdc, continuousRate, pyLog_ok hy0, pyDiv_ok hz,
    continuousCompounding]
  congr 1
  rw [one_mul, show -1 * (-Real.log y / cal.dayCount x e) * cal.dayCount x e = Real.log y by field_simp, Real.exp_log hy0]

/-- Interpolated marginal probabilities stay in the range of the given ones. -/
theorem marginal_range (hτ : GoodDayCount cal.dayCount) {A : List (D × ℝ)} (hA : (A.map Prod.fst).Nodup) (hA0 : A ≠ []) {a b : ℝ} (ha : 0 < a)
    (h : ∀ p ∈ A, a ≤ p.2 ∧ p.2 ≤ b) (o x : D) :
    a ≤ Real.exp (linVal cal.dayCount o (lnPts A) x) ∧ Real.exp (linVal cal.dayCount o (lnPts A) x) ≤ b := by
  have hb : 0 < b := by
    have := h _ (List.head_mem hA0); linarith
  have := flin_bounds (a := Real.log a) (b := Real.log b) (sortPairs_strict (timePts_nodup hτ o (pts := lnPts A) (by rw [lnPts_fst]; exact hA)))
    (sortPairs_ne_nil (by simpa [timePts, lnPts] using hA0)) (fun p hp => ?_) (cal.dayCount o x)
  · constructor
    · rw [← Real.log_le_iff_le_exp ha]; exact this.1
    · rw [← Real.le_log_iff_exp_le hb]; exact this.2
  · obtain ⟨q, hq, rfl⟩ := List.mem_map.1 ((sortPairs_perm _).subset hp)
    obtain ⟨r, hr, rfl⟩ := List.mem_map.1 hq
    exact ⟨Real.log_le_log ha (h r hr).1, Real.log_le_log (ha.trans_le (h r hr).1) (h r hr).2⟩

end

section
variable {D P : Type} [LinearOrder D] [AddCommGroup D] {cal : Cal D P}

/-- Resampling on a finer grid gives the same curve. -/
theorem marginal_grid (hτ : GoodDayCount cal.dayCount) {cls : CRClass} (hc : cls = .marginal ∨ cls = .marginalDefault) {A B : List (D × ℝ)}
    (hA : (A.map Prod.fst).Nodup) (hB : (B.map Prod.fst).Nodup) (hA0 : A ≠ []) (hB0 : B ≠ []) {xs : List D} (hs : xs.Pairwise (· < ·))
    (hAx : ∀ x ∈ A.map Prod.fst, x ∈ xs) (hBx : ∀ x ∈ B.map Prod.fst, x ∈ xs) (o : D) (a b : ℝ) {m : D} {o? : Option D}
    (hm : o?.or xs.head? = some m) (t : Option P) (x : D) :
    (crOf cal m o? .default none cls t (xs.map fun x =>
      (x, Real.exp (a * linVal cal.dayCount o (lnPts A) x + b * linVal cal.dayCount o (lnPts B) x)))).call cal x =
        .ok (Real.exp (a * linVal cal.dayCount o (lnPts A) x + b * linVal cal.dayCount o (lnPts B) x)) := by
  have hne : xs ≠ [] := List.ne_nil_of_mem (hAx _ (List.head_mem (by simpa using hA0)))
  rw [marginal_call hτ hc (by rw [graph_fst]; exact hs.imp fun h => h.ne) (by simpa using hne) (fun p hp => by
    obtain ⟨y, -, rfl⟩ := List.mem_map.1 hp; exact Real.exp_pos _) (by rw [graph_fst]; exact hm)]
  have e : lnPts (xs.map fun x => (x, Real.exp (a * linVal cal.dayCount o (lnPts A) x + b * linVal cal.dayCount o (lnPts B) x))) =
      xs.map fun x => (x, a * linVal cal.dayCount o (lnPts A) x + b * linVal cal.dayCount o (lnPts B) x) := by
    simp [lnPts, Function.comp_def]
  rw [e, linVal_finer hτ (by rw [lnPts_fst]; exact hA) (by rw [lnPts_fst]; exact hB) (by simpa [lnPts] using hA0) (by simpa [lnPts] using hB0) hs
    (by rw [lnPts_fst]; exact hAx) (by rw [lnPts_fst]; exact hBx)]

end

section
variable {D P : Type} [LinearOrder D] [AddCommGroup D] {cal : Cal D P}
variable {A B : List (D × ℝ)} {o : D} {oa ob : Option D} {ta tb : Option P} {f g : CRCurve D P}

/-- C137: products of marginal survival probability curves are pointwise at every date, whatever the tenors of both; the tenor of
the first curve is kept.  The products must not be too small for a float. -/
theorem C137_marginal_partial (h : CreditOperands cal .marginal A B o oa ob ta tb f g) (hoB : o ∈ B.map Prod.fst) {a b : ℝ} (ha : 0 < a)
    (hab : 2 * floatMin ≤ a * b) (hA : ∀ p ∈ A, a ≤ p.2 ∧ p.2 ≤ 1) (hB : ∀ p ∈ B, b ≤ p.2 ∧ p.2 ≤ 1)
    (ht : ∀ x, ∃ e, cal.add x (g.forwardTenor cal) = .ok e ∧ x ≠ e) (limit : ℕ) (same₁ same₂ same₃ : D → Bool) :
    ∃ S, f.binop cal (· * ·) (limit + 1) same₁ same₂ same₃ g = .ok S ∧ CreditResult cal (· * ·) f g S := by
  have hτ := h.good
  have fm := floatMin_pos
  have hcl : CRClass.marginal = .marginal ∨ CRClass.marginal = .marginalDefault := .inl rfl
  have hcd : CRClass.marginal ≠ .default ∧ CRClass.marginal ≠ .marginalDefault := by decide
  have ha1 : a ≤ 1 := (hA _ (List.head_mem h.leftNe)).1.trans (hA _ (List.head_mem h.leftNe)).2
  have hb1 : b ≤ 1 := (hB _ (List.head_mem h.rightNe)).1.trans (hB _ (List.head_mem h.rightNe)).2
  have hb : 0 < b := by
    by_contra hb
    have := mul_nonpos_of_nonneg_of_nonpos ha.le (not_lt.1 hb)
    linarith
  have hba : a * b ≤ b := by nlinarith
  have hbb : a * b ≤ a := by nlinarith
  have f1 : floatMin ≤ 2 * floatMin := by linarith
  obtain rfl : f = crOf cal o oa .default none .marginal ta A := by
    have := h.newLeft
    rw [CRCurve_new_eq (cal := cal) rfl h.left h.leftOrigin (dc := .default) trivial hτ,
      stored_graph hcd fun p hp => ⟨by linarith [(hA p hp).1], (hA p hp).2⟩] at this
    exact (Except.ok.inj this).symm
  obtain rfl : g = crOf cal o ob .default none .marginal tb B := by
    have := h.newRight
    rw [CRCurve_new_eq (cal := cal) rfl h.right h.rightOrigin (dc := .default) trivial hτ,
      stored_graph hcd fun p hp => ⟨by linarith [(hB p hp).1], (hB p hp).2⟩] at this
    exact (Except.ok.inj this).symm
  have hu := marginal_call hτ hcl h.left h.leftNe (fun p hp => ha.trans_le (hA p hp).1) h.leftOrigin ta
  have hv := marginal_call hτ hcl h.right h.rightNe (fun p hp => hb.trans_le (hB p hp).1) h.rightOrigin tb
  have ru := marginal_range hτ h.left h.leftNe ha hA o
  have rv := marginal_range hτ h.right h.rightNe hb hB o
  set lu := linVal cal.dayCount o (lnPts A) with hlu
  set lv := linVal cal.dayCount o (lnPts B) with hlv
  have hprod : ∀ x, Real.exp (lu x) * Real.exp (lv x) = Real.exp (1 * lu x + 1 * lv x) := fun x => by rw [← Real.exp_add]; congr 1; ring
  have hlow : ∀ x, 2 * floatMin ≤ Real.exp (lu x) * Real.exp (lv x) := fun x =>
    hab.trans (mul_le_mul (ru x).1 (rv x).1 hb.le (Real.exp_pos _).le)
  have hhigh : ∀ x, Real.exp (lu x) * Real.exp (lv x) ≤ 1 := fun x => mul_le_one₀ (ru x).2 (Real.exp_pos _).le (rv x).2
  have own : OwnStorage cal .marginal (fun y => 2 * floatMin ≤ y) tb := marginal_own hτ hcl ht
  have own' : OwnStorage cal .marginal (fun y => 2 * floatMin ≤ y) (none : Option P) := marginal_own hτ hcl fun x => by
    obtain ⟨y, hy, hlt⟩ := h.moves.year x
    exact ⟨y, hy, hlt.ne⟩
  obtain ⟨xs, m, hxs, hxm, hxmem, hk⟩ := own_binop hτ h.moves h.left h.leftNe h.rightNe h.leftOrigin h.rightOrigin h.first ta tb own own' hu hv
    (fun _ x => by linarith [(rv x).1]) (fun ys hys hmem o?' hho x => by
      have hsub : ∀ x ∈ B.map Prod.fst, x ∈ ys := fun x hx => (hmem x).2 (.inl hx)
      have := marginal_grid hτ hcl h.right h.right h.rightNe h.rightNe hys hsub hsub o 0 1 hho (none : Option P) x
      simpa using this) (· * ·) limit same₁ same₂ same₃
  have hxA : ∀ x ∈ A.map Prod.fst, x ∈ xs := fun x hx => (hxmem x).2 (.inl hx)
  have hxB : ∀ x ∈ B.map Prod.fst, x ∈ xs := fun x hx => (hxmem x).2 (.inr (.inl hx))
  have hst : ∀ x, storeCredit .marginal (Real.exp (lu x) * Real.exp (lv x)) = Real.exp (lu x) * Real.exp (lv x) := fun x => by
    simp only [storeCredit, CRClass.isProb, storedProb, reduceCtorEq, or_self, if_false, if_true]
    rw [min_eq_left (hhigh x), max_eq_right (by linarith [hlow x])]
  have grid : ∀ (ys : List D), ys.Pairwise (· < ·) → (∀ x ∈ xs, x ∈ ys) → ∀ o?' m', o?'.or ys.head? = some m' → ∀ (t : Option P) x,
      (crOf cal m' o?' .default none .marginal t (ys.map fun x => (x, Real.exp (lu x) * Real.exp (lv x)))).call cal x =
        .ok (Real.exp (lu x) * Real.exp (lv x)) := by
    intro ys hys hsub o?' m' hho t x
    simp only [hprod]
    exact marginal_grid hτ hcl h.left h.right h.leftNe h.rightNe hys (fun x hx => hsub x (hxA x hx)) (fun x hx => hsub x (hxB x hx)) o 1 1 hho t x
  obtain ⟨ys, o?', h1, h2, h3, h4⟩ := hk (fun x => Real.exp (lu x) * Real.exp (lv x)) (fun x => by
    simp only [hst]; exact grid xs hxs (fun _ h => h) none m (by simpa using hxm) none x) (fun _ x => hlow x)
  have hfst : (ys.map fun x => (x, Real.exp (lu x) * Real.exp (lv x))).map Prod.fst = ys := graph_fst _ _
  have hsub : ∀ x ∈ xs, x ∈ ys := fun x hx => (h3 x).2 (.inl hx)
  refine ⟨_, h1, ⟨fun x => ⟨_, _, hu x, hv x, grid ys h2 hsub o?' m h4 ta x⟩, rfl, rfl, ?_, fun x hx => ?_, ?_, ?_, rfl⟩⟩
  · show (List.map Prod.fst _).Pairwise _
    rw [hfst]; exact h2
  · show x ∈ List.map Prod.fst _
    rw [hfst]; exact hsub x (hx.elim (hxA x) (hxB x))
  · show ∀ x ∈ List.map Prod.fst _, _
    rw [hfst]; exact (result_dates h.moves hxs h2 hxmem hxm h3 fun _ => hoB).2
  · show o?'.or (List.map Prod.fst _).head? = (List.map Prod.fst _).head?
    rw [hfst, h4, (result_dates h.moves hxs h2 hxmem hxm h3 fun _ => hoB).1]

/-- What the constructor makes of a marginal probability. -/
noncomputable def clampedMarginal (cls : CRClass) (y : ℝ) : ℝ := if cls = .marginalDefault then clampProb (1 - y) else clampProb y

/-- C137 (what goes wrong): at the dates of both curves the result of an operation on marginal probabilities is cut off at one and,
for marginal default probabilities, replaced by its complement. -/
theorem C137_marginal_dates {cls : CRClass} (hcl : cls = .marginal ∨ cls = .marginalDefault) (h : CreditOperands cal cls A B o oa ob ta tb f g)
    {op : ℝ → ℝ → ℝ} (hA : ∀ p ∈ A, 2 * floatMin ≤ clampedMarginal cls p.2) (hB : ∀ p ∈ B, 2 * floatMin ≤ clampedMarginal cls p.2)
    (hop : ∀ x u v, f.call cal x = .ok u → g.call cal x = .ok v → 2 * floatMin ≤ clampedMarginal cls (op u v))
    (ht : ∀ x, ∃ e, cal.add x (g.forwardTenor cal) = .ok e ∧ x ≠ e) (limit : ℕ) (same₁ same₂ same₃ : D → Bool) :
    ∃ S, f.binop cal op (limit + 1) same₁ same₂ same₃ g = .ok S ∧ ∀ x, x ∈ A.map Prod.fst ∨ x ∈ B.map Prod.fst →
      ∃ u v, f.call cal x = .ok u ∧ g.call cal x = .ok v ∧ S.call cal x = .ok (clampedMarginal cls (op u v)) := by
  have hτ := h.good
  have fm := floatMin_pos
  have hp : cls.isProb = true := by rcases hcl with rfl | rfl <;> rfl
  have hsp : ∀ y, storedProb cls y = clampedMarginal cls y := fun y => by
    rcases hcl with rfl | rfl <;> simp [clampedMarginal, storedProb, clampProb]
  have hst : ∀ y, storeCredit cls y = clampedMarginal cls y := fun y => by
    simp only [storeCredit, hp, if_true]; exact hsp y
  set A' := A.map (fun p => (p.1, storedProb cls p.2)) with hA'
  set B' := B.map (fun p => (p.1, storedProb cls p.2)) with hB'
  have eA : A'.map Prod.fst = A.map Prod.fst := by rw [hA', List.map_map]; rfl
  have eB : B'.map Prod.fst = B.map Prod.fst := by rw [hB', List.map_map]; rfl
  have hA0 : A' ≠ [] := by simpa [hA'] using h.leftNe
  have hB0 : B' ≠ [] := by simpa [hB'] using h.rightNe
  have hle : ∀ y, clampedMarginal cls y ≤ 1 := fun y => by
    unfold clampedMarginal; split_ifs <;> exact (clampProb_mem _).2
  have hrA : ∀ p ∈ A', 2 * floatMin ≤ p.2 ∧ p.2 ≤ 1 := fun p hp => by
    obtain ⟨q, hq, rfl⟩ := List.mem_map.1 hp
    simp only [hsp]; exact ⟨hA q hq, hle _⟩
  have hrB : ∀ p ∈ B', 2 * floatMin ≤ p.2 ∧ p.2 ≤ 1 := fun p hp => by
    obtain ⟨q, hq, rfl⟩ := List.mem_map.1 hp
    simp only [hsp]; exact ⟨hB q hq, hle _⟩
  obtain rfl : f = crOf cal o oa .default none cls ta A' := by
    have := h.newLeft
    rw [CRCurve_new_eq (cal := cal) hp h.left h.leftOrigin (dc := .default) trivial hτ] at this
    exact (Except.ok.inj this).symm
  obtain rfl : g = crOf cal o ob .default none cls tb B' := by
    have := h.newRight
    rw [CRCurve_new_eq (cal := cal) hp h.right h.rightOrigin (dc := .default) trivial hτ] at this
    exact (Except.ok.inj this).symm
  have hnA : (A'.map Prod.fst).Nodup := by rw [eA]; exact h.left
  have hnB : (B'.map Prod.fst).Nodup := by rw [eB]; exact h.right
  have f2 : 0 < 2 * floatMin := by linarith
  have hu := marginal_call hτ hcl hnA hA0 (fun p hp => f2.trans_le (hrA p hp).1) (by rw [eA]; exact h.leftOrigin) ta
  have hv := marginal_call hτ hcl hnB hB0 (fun p hp => f2.trans_le (hrB p hp).1) (by rw [eB]; exact h.rightOrigin) tb
  have rv := marginal_range hτ hnB hB0 f2 hrB o
  have own : OwnStorage cal cls (fun y => 2 * floatMin ≤ y) tb := marginal_own hτ hcl ht
  have own' : OwnStorage cal cls (fun y => 2 * floatMin ≤ y) (none : Option P) := marginal_own hτ hcl fun x => by
    obtain ⟨y, hy, hlt⟩ := h.moves.year x
    exact ⟨y, hy, hlt.ne⟩
  obtain ⟨xs, m, hxs, hxm, hxmem, hk⟩ := own_binop hτ h.moves hnA hA0 hB0 (by rw [eA]; exact h.leftOrigin) (by rw [eB]; exact h.rightOrigin)
    (by rw [eB]; exact h.first) ta tb own own' hu hv
    (fun _ x => (rv x).1) (fun ys hys hmem o?' hho x => by
      have hsub : ∀ x ∈ B'.map Prod.fst, x ∈ ys := fun x hx => (hmem x).2 (.inl hx)
      have := marginal_grid hτ hcl hnB hnB hB0 hB0 hys hsub hsub o 0 1 hho (none : Option P) x
      simpa using this) op limit same₁ same₂ same₃
  rw [eA, eB] at hxmem
  have hxA : ∀ x ∈ A.map Prod.fst, x ∈ xs := fun x hx => (hxmem x).2 (.inl hx)
  have hxB : ∀ x ∈ B.map Prod.fst, x ∈ xs := fun x hx => (hxmem x).2 (.inr (.inl hx))
  have hxne : xs ≠ [] := by rintro rfl; cases hxm
  set u := fun x => Real.exp (linVal cal.dayCount o (lnPts A') x) with hud
  set v := fun x => Real.exp (linVal cal.dayCount o (lnPts B') x) with hvd
  set st := xs.map fun x => (x, storeCredit cls (op (u x) (v x))) with hstd
  have hsf : st.map Prod.fst = xs := graph_fst _ _
  have hsr : ∀ p ∈ st, 2 * floatMin ≤ p.2 ∧ p.2 ≤ 1 := fun p hp' => by
    obtain ⟨q, -, rfl⟩ := List.mem_map.1 hp'
    simp only [hst]; exact ⟨hop q _ _ (hu q) (hv q), hle _⟩
  have hs0 : st ≠ [] := by simpa [hstd] using hxne
  have hsn : (st.map Prod.fst).Nodup := by rw [hsf]; exact hxs.imp fun h => h.ne
  have hspos : ∀ p ∈ st, 0 < p.2 := fun p hp => f2.trans_le (hsr p hp).1
  have hsorg : (none : Option D).or (st.map Prod.fst).head? = some m := by rw [hsf]; exact hxm
  have hcall := marginal_call hτ hcl hsn hs0 hspos hsorg (none : Option P)
  have hwr := marginal_range hτ hsn hs0 f2 hsr m
  set w := fun x => Real.exp (linVal cal.dayCount m (lnPts st) x) with hwd
  obtain ⟨ys, o?', h1, h2, h3, h4⟩ := hk w hcall fun _ x => (hwr x).1
  refine ⟨_, h1, fun x hx => ⟨_, _, hu x, hv x, ?_⟩⟩
  have hxx : x ∈ xs := hx.elim (hxA x) (hxB x)
  have hnz : ((none : Option FuncSpec).getD cls.dflt).needsNonzero → False := by
    rcases hcl with rfl | rfl <;> simp [CRClass.dflt, logLinearScheme, FuncSpec.needsNonzero, Kind.isRate]
  have hwx : w x = clampedMarginal cls (op (u x) (v x)) := by
    have e := crOf_node cal (dc := .default) (cls := cls) (i := none) (tenor := (none : Option P)) hsorg trivial hτ hsn (fun _ => hspos) (fun h => (hnz h).elim)
      (List.mem_map.2 ⟨x, hxx, rfl⟩)
    rw [hcall x] at e
    rw [← hst]
    exact Except.ok.inj e
  have hyf : (ys.map fun x => (x, w x)).map Prod.fst = ys := graph_fst _ _
  rw [← hwx]
  refine crOf_node cal (dc := .default) (by rw [hyf]; exact h4) trivial hτ (by rw [hyf]; exact h2.imp fun h => h.ne) (fun _ p hp => ?_)
    (fun h => (hnz h).elim) (List.mem_map.2 ⟨x, (h3 x).2 (.inl hxx), rfl⟩)
  obtain ⟨q, -, rfl⟩ := List.mem_map.1 hp; exact Real.exp_pos _

/-- C137 (refuted for marginal probabilities): the sum of marginal survival probabilities of at least one half is 1 at all dates of both
curves, and the product of curves with marginal default probabilities of at most one half and not 0 has `1 - u v` where they have `u` and `v`. -/
theorem C137_marginal_violated {cls : CRClass} (h : CreditOperands cal cls A B o oa ob ta tb f g)
    (ht : ∀ x, ∃ e, cal.add x (g.forwardTenor cal) = .ok e ∧ x ≠ e) (limit : ℕ) (same₁ same₂ same₃ : D → Bool) :
    (cls = .marginal → (∀ p ∈ A ++ B, 1 / 2 ≤ p.2) →
      ∃ S, f.binop cal (· + ·) (limit + 1) same₁ same₂ same₃ g = .ok S ∧
        ∀ x, x ∈ A.map Prod.fst ∨ x ∈ B.map Prod.fst → S.call cal x = .ok 1) ∧
    (cls = .marginalDefault → (∀ p ∈ A ++ B, 2 * floatMin ≤ p.2 ∧ p.2 ≤ 1 / 2) →
      ∃ S, f.binop cal (· * ·) (limit + 1) same₁ same₂ same₃ g = .ok S ∧ ∀ x, x ∈ A.map Prod.fst ∨ x ∈ B.map Prod.fst →
        ∃ u v, f.call cal x = .ok u ∧ g.call cal x = .ok v ∧ 1 / 2 ≤ u ∧ 1 / 2 ≤ v ∧ S.call cal x = .ok (1 - u * v)) := by
  have fm := floatMin_pos
  have f1 : 2 * floatMin ≤ 1 / 2 := by
    have : floatMin ≤ (1 / 2) ^ 2 := by
      unfold floatMin; exact pow_le_pow_of_le_one (by norm_num) (by norm_num) (by norm_num)
    norm_num at this ⊢; linarith
  have hτ := h.good
  -- what the curves quote is at least one half, and as far from one as the given values
  have quotes : ∀ {c : ℝ} {cls : CRClass} {A : List (D × ℝ)} {oa : Option D} {ta : Option P} {f : CRCurve D P}, (cls = .marginal ∨ cls = .marginalDefault) →
      (A.map Prod.fst).Nodup → A ≠ [] → oa.or (A.map Prod.fst).head? = some o →
      CRCurve.new cal cls (A.map Prod.fst) (A.map Prod.snd) none oa .default ta = .ok f →
      (∀ p ∈ A, 1 / 2 ≤ clampedMarginal cls p.2 ∧ clampedMarginal cls p.2 ≤ c) → ∀ x, ∃ u, f.call cal x = .ok u ∧ 1 / 2 ≤ u ∧ u ≤ c := by
    intro c cls A oa ta f hcl hA hA0 ho hn hr x
    have hp : cls.isProb = true := by rcases hcl with rfl | rfl <;> rfl
    have hsp : ∀ y, storedProb cls y = clampedMarginal cls y := fun y => by
      rcases hcl with rfl | rfl <;> simp [clampedMarginal, storedProb, clampProb]
    rw [CRCurve_new_eq (cal := cal) hp hA ho (dc := .default) trivial hτ] at hn
    cases hn
    have e : (A.map (fun p => (p.1, storedProb cls p.2))).map Prod.fst = A.map Prod.fst := by rw [List.map_map]; rfl
    have hr' : ∀ p ∈ A.map (fun p => (p.1, storedProb cls p.2)), 1 / 2 ≤ p.2 ∧ p.2 ≤ c := fun p hp => by
      obtain ⟨q, hq, rfl⟩ := List.mem_map.1 hp
      simp only [hsp]; exact hr q hq
    exact ⟨_, marginal_call hτ hcl (by rw [e]; exact hA) (by simpa using hA0) (fun p hp => by linarith [(hr' p hp).1]) (by rw [e]; exact ho) ta x,
      marginal_range hτ (by rw [e]; exact hA) (by simpa using hA0) (by norm_num) hr' o x⟩
  constructor
  · rintro rfl hr
    have hc : ∀ y : ℝ, 1 / 2 ≤ y → 1 / 2 ≤ clampedMarginal .marginal y ∧ clampedMarginal .marginal y ≤ 1 := fun y hy => by
      simp only [clampedMarginal, reduceCtorEq, if_false, clampProb]
      exact ⟨le_max_of_le_right (le_min hy (by norm_num)), max_le (by linarith) (min_le_right _ _)⟩
    have qA := quotes (.inl rfl) h.left h.leftNe h.leftOrigin h.newLeft fun p hp => hc _ (hr p (List.mem_append_left _ hp))
    have qB := quotes (.inl rfl) h.right h.rightNe h.rightOrigin h.newRight fun p hp => hc _ (hr p (List.mem_append_right _ hp))
    have hone : ∀ x u v, f.call cal x = .ok u → g.call cal x = .ok v → clampedMarginal .marginal (u + v) = 1 := by
      intro x u v hu hv
      obtain ⟨u', hu', h1, -⟩ := qA x
      obtain ⟨v', hv', h2, -⟩ := qB x
      rw [hu] at hu'; rw [hv] at hv'; cases hu'; cases hv'
      simp only [clampedMarginal, reduceCtorEq, if_false, clampProb]
      rw [min_eq_right (by linarith), max_eq_right (by linarith)]
    obtain ⟨S, hS, hd⟩ := C137_marginal_dates (op := (· + ·)) (.inl rfl) h (fun p hp => f1.trans (hc _ (hr p (List.mem_append_left _ hp))).1)
      (fun p hp => f1.trans (hc _ (hr p (List.mem_append_right _ hp))).1) (fun x u v hu hv => by rw [hone x u v hu hv]; linarith) ht limit same₁ same₂ same₃
    refine ⟨S, hS, fun x hx => ?_⟩
    obtain ⟨u, v, hu, hv, e⟩ := hd x hx
    rw [e, hone x u v hu hv]
  · rintro rfl hr
    have hc : ∀ p ∈ A ++ B, 1 / 2 ≤ clampedMarginal .marginalDefault p.2 ∧ clampedMarginal .marginalDefault p.2 ≤ 1 - 2 * floatMin := fun p hp => by
      simp only [clampedMarginal, if_true]
      rw [clampProb_eq (by linarith [(hr p hp).2]) (by linarith [(hr p hp).1])]
      exact ⟨by linarith [(hr p hp).2], by linarith [(hr p hp).1]⟩
    have qA := quotes (.inr rfl) h.left h.leftNe h.leftOrigin h.newLeft fun p hp => hc p (List.mem_append_left _ hp)
    have qB := quotes (.inr rfl) h.right h.rightNe h.rightOrigin h.newRight fun p hp => hc p (List.mem_append_right _ hp)
    have hone : ∀ x u v, f.call cal x = .ok u → g.call cal x = .ok v → 1 / 2 ≤ u ∧ 1 / 2 ≤ v ∧ 2 * floatMin ≤ 1 - u * v ∧
        clampedMarginal .marginalDefault (u * v) = 1 - u * v := by
      intro x u v hu hv
      obtain ⟨u', hu', h1, h1'⟩ := qA x
      obtain ⟨v', hv', h2, h2'⟩ := qB x
      rw [hu] at hu'; rw [hv] at hv'; cases hu'; cases hv'
      have : u * v ≤ 1 - 2 * floatMin := by nlinarith
      refine ⟨h1, h2, by linarith, ?_⟩
      simp only [clampedMarginal, if_true]
      exact clampProb_eq (by linarith) (by nlinarith)
    obtain ⟨S, hS, hd⟩ := C137_marginal_dates (op := (· * ·)) (.inr rfl) h (fun p hp => f1.trans (hc _ (List.mem_append_left _ hp)).1)
      (fun p hp => f1.trans (hc _ (List.mem_append_right _ hp)).1) (fun x u v hu hv => by
        obtain ⟨-, -, h1, h2⟩ := hone x u v hu hv
        rw [h2]; exact h1) ht limit same₁ same₂ same₃
    refine ⟨S, hS, fun x hx => ?_⟩
    obtain ⟨u, v, hu, hv, e⟩ := hd x hx
    obtain ⟨h1, h2, -, h4⟩ := hone x u v hu hv
    exact ⟨u, v, hu, hv, h1, h2, by rw [e, h4]⟩

/-! ### Settings and origins -/

/-- C137 (what goes wrong): the day count and the interpolation of both curves are dropped, for all classes. -/
theorem C137_settings_violated {f g S : CRCurve D P} {op : ℝ → ℝ → ℝ} {limit : ℕ} {same₁ same₂ same₃ : D → Bool}
    (h : f.binop cal op limit same₁ same₂ same₃ g = .ok S) : S.base.dc = .default ∧ S.base.interp = none := by
  have hmake : ∀ {cls : CRClass} {xs : List D} {ys : List ℝ} {i : Option FuncSpec} {o : Option D} {dc : DayCountArg D} {t : Option P} {c : CRCurve D P},
      CRCurve.make cal cls xs ys i o dc t = .ok c → c.base.dc = dc ∧ c.base.interp = i := by
    intro cls xs ys i o dc t c h
    simp only [CRCurve.make, DateCurve.new, DateCurve.update] at h
    split_ifs at h with hl
    · simp only [Py.pure_eq, Py.ok_bind, Py.bind_eq_ok] at h
      obtain ⟨b, ⟨_, _, _, _, hb⟩, hc⟩ := h
      cases hb; cases hc
      exact ⟨rfl, rfl⟩
    · simp [Py.throw_eq, Py.error_bind] at h
  have hnew : ∀ {cls : CRClass} {xs : List D} {ys : List ℝ} {i : Option FuncSpec} {o : Option D} {dc : DayCountArg D} {t : Option P} {c : CRCurve D P},
      CRCurve.new cal cls xs ys i o dc t = .ok c → c.base.dc = dc ∧ c.base.interp = i := by
    intro cls xs ys i o dc t c h
    simp only [CRCurve.new] at h
    split_ifs at h
    · exact hmake h
    · simp [Py.throw_eq, Py.error_bind] at h
    · exact hmake h
  simp only [CRCurve.binop, Py.bind_eq_ok] at h
  obtain ⟨_, _, _, _, n, hn, _, _, _, _, h⟩ := h
  have hd := (hnew hn).1
  simp only [CRCurve.cast] at h
  split_ifs at h <;> simp only [CRCurve.castOn, Py.bind_eq_ok] at h
  · obtain ⟨_, _, _, _, _, _, _, _, _, _, h⟩ := h
    simpa [hd, DayCountArg.or, DayCountArg.kwarg] using hmake h
  · obtain ⟨_, _, _, _, _, _, h⟩ := h
    simpa [hd, DayCountArg.or, DayCountArg.kwarg] using hmake h

/-- C137 (what goes wrong): the origins of both curves are dropped; the result of an operation on intensity curves starts at the first date. -/
theorem C137_origin_violated (h : CreditOperands cal .flat A B o oa ob ta tb f g) (hlt : ∀ p ∈ A ++ B, o < p.1) (limit : ℕ)
    (same₁ same₂ same₃ : D → Bool) :
    f.base.origin = some o ∧ g.base.origin = some o ∧
      ∃ S, f.binop cal (· + ·) (limit + 1) same₁ same₂ same₃ g = .ok S ∧ ∃ m, S.base.origin = some m ∧ o < m := by
  have hc : CRClass.flat.plain := .inr (.inr (.inl rfl))
  obtain ⟨⟨S, hS, hR⟩, -⟩ := C137_intensity_partial h limit same₁ same₂ same₃
  obtain ⟨ef, eg⟩ := h.eq hc rfl
  refine ⟨by rw [ef]; exact h.leftOrigin, by rw [eg]; exact h.rightOrigin, S, hS, ?_⟩
  have hd1 : f.base.domain = A.map Prod.fst := by rw [ef]; rfl
  have hd2 : g.base.domain = B.map Prod.fst := by rw [eg]; rfl
  have hne : S.base.domain ≠ [] := List.ne_nil_of_mem (hR.domain _ (.inl (by rw [hd1]; exact List.head_mem (by simpa using h.leftNe))))
  obtain ⟨m, l, hl⟩ := List.exists_cons_of_ne_nil hne
  refine ⟨m, by rw [hR.origin, hl]; rfl, ?_⟩
  have hin : ∀ x, x ∈ f.base.domain ∨ x ∈ g.base.domain → o < x := by
    rw [hd1, hd2]
    rintro x (hx | hx) <;> obtain ⟨p, hp, rfl⟩ := List.mem_map.1 hx
    · exact hlt p (List.mem_append_left _ hp)
    · exact hlt p (List.mem_append_right _ hp)
  rcases hR.domainOnly m (by rw [hl]; simp) with h1 | h1 | ⟨y, h1, h2⟩
  · exact hin m (.inl h1)
  · exact hin m (.inr h1)
  · exact (hin y h1).trans h2

/-- A curve of one intensity or hazard rate quotes it at every date. -/
theorem constant_call (hτ : GoodDayCount cal.dayCount) {cls : CRClass} (hc : cls = .flat ∨ cls = .hazard) {A : List (D × ℝ)}
    (hA : (A.map Prod.fst).Nodup) (hA0 : A ≠ []) {r : ℝ} (hr : ∀ p ∈ A, p.2 = r) {o : D} {o? : Option D}
    (ho : o?.or (A.map Prod.fst).head? = some o) (t : Option P) (x : D) : (crOf cal o o? .default none cls t A).call cal x = .ok r := by
  rcases hc with rfl | rfl
  · rw [crOf_linear cal (dc := .default) rfl ho trivial hτ hA hA0]
    have := flin_bounds (a := r) (b := r) (sortPairs_strict (timePts_nodup hτ o hA)) (sortPairs_ne_nil (by simpa [timePts] using hA0)) (fun p hp => by
      obtain ⟨q, hq, rfl⟩ := List.mem_map.1 ((sortPairs_perm _).subset hp)
      simp [hr q hq]) (cal.dayCount o x)
    exact congrArg _ (le_antisymm this.2 this.1)
  · obtain ⟨y, h1, p, hp, rfl, -⟩ := hazard_left hτ hA hA0 ho t x
    rw [h1, hr p hp]

/-- C137 for different origins: operations on curves of one intensity or one hazard rate each are pointwise at every date, although the
second curve is moved by the difference of the origins. -/
theorem C137_constant_partial (hτ : GoodDayCount cal.dayCount) (hm : MovesOn cal) {cls : CRClass} (hcl : cls = .flat ∨ cls = .hazard) {o' : D} {r s : ℝ}
    (hA : (A.map Prod.fst).Nodup) (hB : (B.map Prod.fst).Nodup) (hA0 : A ≠ []) (hB0 : B ≠ []) (hoa : oa.or (A.map Prod.fst).head? = some o)
    (hob : ob.or (B.map Prod.fst).head? = some o') (hfirst : ob = some o' ∨ (o' ∈ B.map Prod.fst ∧ ∀ x ∈ B.map Prod.fst, o' ≤ x))
    (hr : ∀ p ∈ A, p.2 = r) (hs : ∀ p ∈ B, p.2 = s)
    (hf : CRCurve.new cal cls (A.map Prod.fst) (A.map Prod.snd) none oa .default ta = .ok f)
    (hg : CRCurve.new cal cls (B.map Prod.fst) (B.map Prod.snd) none ob .default tb = .ok g)
    (op : ℝ → ℝ → ℝ) (limit : ℕ) (same₁ same₂ same₃ : D → Bool) :
    ∃ S, f.binop cal op (limit + 1) same₁ same₂ same₃ g = .ok S ∧ S.cls = cls ∧ S.tenor = ta ∧ (∀ x ∈ A.map Prod.fst, x ∈ S.base.domain) ∧
      (∀ x ∈ B.map Prod.fst, x + (o - o') ∈ S.base.domain) ∧
      ∀ x, f.call cal x = .ok r ∧ g.call cal x = .ok s ∧ S.call cal x = .ok (op r s) := by
  have hp : cls.isProb = false := by rcases hcl with rfl | rfl <;> rfl
  have hc : cls.plain := .inr (.inr (hcl.imp id id))
  have hnp : ∀ {Q : Prop}, cls.isProb = true → Q := fun h => absurd h (by simp [hp])
  rw [CRCurve_new_rate hp, CRCurve_make_eq cal hA (fun h => hnp (log_prob h)) hoa (dc := .default) trivial hτ] at hf
  rw [CRCurve_new_rate hp, CRCurve_make_eq cal hB (fun h => hnp (log_prob h)) hob (dc := .default) trivial hτ] at hg
  cases hf
  cases hg
  have hu := constant_call hτ hcl hA hA0 hr hoa ta
  have hv := constant_call hτ hcl hB hB0 hs hob tb
  obtain ⟨gs, og, hcast, hgs, hgm, hgh⟩ := own_cast hτ hm hB0 hob hfirst (plain_own hc tb) (t' := none) hv (fun h => hnp h) limit same₁
  have hgfst : (gs.map fun x => (x, s)).map Prod.fst = gs := graph_fst gs fun _ => s
  have hgn : gs.Nodup := hgs.imp fun h => h.ne
  have hgB : ∀ x ∈ B.map Prod.fst, x ∈ gs := fun x hx => (hgm x).2 (.inl hx)
  have hg0 : gs ≠ [] := List.ne_nil_of_mem (hgB _ (List.head_mem (by simpa using hB0)))
  set hs' := gs.map (· + (o - o')) with hhs
  have hhn : hs'.Nodup := hgn.map (add_left_injective _)
  have hh0 : hs' ≠ [] := by simpa [hhs] using hg0
  obtain ⟨m', hm'⟩ : ∃ m', (cal.or none og).or hs'.head? = some m' := by
    obtain ⟨a, l, h⟩ := List.exists_cons_of_ne_nil hh0
    rw [h]
    cases cal.or none og with
    | none => exact ⟨a, rfl⟩
    | some q => exact ⟨q, rfl⟩
  have hhfst : (hs'.map fun x => (x, s)).map Prod.fst = hs' := graph_fst hs' fun _ => s
  have hconst : ∀ {l : List D}, ∀ p ∈ l.map (fun x => (x, s)), p.2 = s := fun p hp => by
    obtain ⟨y, -, rfl⟩ := List.mem_map.1 hp; rfl
  have hoperand : (crOf cal o oa .default none cls ta A).operand cal (limit + 1) same₁ same₂ (crOf cal o' ob .default none cls tb B) =
      .ok (crOf cal m' (cal.or none og) .default none cls none (hs'.map fun x => (x, s))) := by
    simp only [CRCurve.operand]
    rw [show (crOf cal o oa .default none cls ta A).cls = cls from rfl, hcast, Py.ok_bind]
    set g₁ : CRCurve D P := crOf cal o' og .default none cls none (gs.map fun x => (x, s)) with hg₁
    have hod : originDiff (crOf cal o oa .default none cls ta A).base g₁.base = .ok (o - o') := by
      have e1 : (crOf cal o oa .default none cls ta A).base.origin = some o := hoa
      have e2 : g₁.base.origin = some o' := by
        show og.or ((gs.map fun x => (x, s)).map Prod.fst).head? = some o'
        rw [hgfst]; exact hgh
      simp [originDiff, e1, e2, pyDate]
    rw [hod, Py.ok_bind]
    simp only [CRCurve.shifted]
    have hgrid : (if o - o' ≠ 0 then g₁.base.domain.map (· + (o - o')) else g₁.base.domain) = hs' := by
      rw [show g₁.base.domain = gs from hgfst]
      split_ifs with h0
      · rfl
      · rw [hhs, not_not.1 h0]; simp
    rw [hgrid]
    exact own_castOn (org := none) hτ (by rw [hgfst]; exact hgh) (plain_own hc none)
      (fun y _ => constant_call hτ hcl (by rw [hgfst]; exact hgn) (by simpa using hg0) hconst (by rw [hgfst]; exact hgh) none y)
      (fun h => hnp h) hhn hm' limit same₂
  obtain ⟨xs, m, hxs, hxm, hxmem, hk⟩ := own_binop_tail hτ hm (plain_own hc none) hA0 hoa ta hu hhfst
    (constant_call hτ hcl (by rw [hhfst]; exact hhn) (by simpa using hh0) hconst (by rw [hhfst]; exact hm') none) op same₃ hoperand
  have hst : ∀ y, storeCredit cls y = y := fun y => by simp [storeCredit, hp]
  have hxne : xs ≠ [] := by rintro rfl; cases hxm
  obtain ⟨ys, o?', h1, h2, h3, h4⟩ := hk (fun _ => op r s) (fun x => by
    refine constant_call hτ hcl (by rw [graph_fst]; exact hxs.imp fun h => h.ne) (by simpa using hxne) (fun p hp => ?_)
      (by rw [graph_fst]; simpa using hxm) none x
    obtain ⟨y, -, rfl⟩ := List.mem_map.1 hp; exact hst _) (fun h => hnp h)
  have hyf : (ys.map fun _ => (_, op r s)).map Prod.fst = ys := graph_fst ys fun _ => op r s
  have hin : ∀ x ∈ xs, x ∈ ys := fun x hx => (h3 x).2 (.inl hx)
  have hy0 : ys ≠ [] := List.ne_nil_of_mem (hin _ (List.head_mem hxne))
  refine ⟨_, h1, rfl, rfl, fun x hx => ?_, fun x hx => ?_, fun x => ⟨hu x, hv x, ?_⟩⟩
  · show x ∈ List.map Prod.fst _
    rw [graph_fst]; exact hin x ((hxmem x).2 (.inl hx))
  · show _ ∈ List.map Prod.fst _
    rw [graph_fst]; exact hin _ ((hxmem _).2 (.inr (List.mem_map.2 ⟨x, hgB x hx, rfl⟩)))
  · refine constant_call hτ hcl (by rw [graph_fst]; exact h2.imp fun h => h.ne) (by simpa using hy0) (fun p hp => ?_) (by rw [graph_fst]; exact h4) ta x
    obtain ⟨y, -, rfl⟩ := List.mem_map.1 hp; rfl

end

/-- C137 for marginal probabilities is not vacuous: two curves from day 0 with tenors of 90 and 30 days. -/
example : ∃ f g : CRCurve ℤ ℤ, CreditOperands dayCal .marginal [(0, 9 / 10), (365, 8 / 10)] [(0, 7 / 10), (100, 6 / 10)] 0 none none (some 90) (some 30) f g ∧
    ∀ x, ∃ e, dayCal.add x (g.forwardTenor dayCal) = .ok e ∧ x ≠ e := by
  refine ⟨_, crOf dayCal 0 none .default none .marginal (some 30) _, ⟨goodDayCount_int, movesOn_day, by simp, by simp, by simp, by simp, rfl, rfl,
    .inr (by simp), CRCurve_new_eq (cal := dayCal) (o := 0) rfl (by simp) rfl (dc := .default) trivial goodDayCount_int,
    CRCurve_new_eq (cal := dayCal) (o := 0) rfl (by simp) rfl (dc := .default) trivial goodDayCount_int⟩, fun x => ⟨x + 30, rfl, by simp⟩⟩

/-- C137 for different origins is not vacuous: a hazard rate curve from day 0 and one from day 5. -/
example : (∃ f : CRCurve ℤ ℤ, CRCurve.new dayCal .hazard [0, 365] [1 / 50, 1 / 50] none none .default none = .ok f) ∧
    ∃ g : CRCurve ℤ ℤ, CRCurve.new dayCal .hazard [5] [1 / 100] none none .default none = .ok g := by
  constructor
  · have := CRCurve_make_eq dayCal (pts := [(0, 1 / 50), (365, 1 / 50)]) (cls := .hazard) (i := none) (o? := none) (o := 0) (dc := .default) (tenor := none)
      (by simp) (by simp [CRClass.dflt, FuncSpec.isLog, Kind.isLog]) rfl trivial goodDayCount_int
    rw [CRCurve_new_rate rfl]
    exact ⟨_, this⟩
  · have := CRCurve_make_eq dayCal (pts := [(5, 1 / 100)]) (cls := .hazard) (i := none) (o? := none) (o := 5) (dc := .default) (tenor := none)
      (by simp) (by simp [CRClass.dflt, FuncSpec.isLog, Kind.isLog]) rfl trivial goodDayCount_int
    rw [CRCurve_new_rate rfl]
    exact ⟨_, this⟩

/-! ### The hypotheses can be met: each theorem applied -/

theorem exTiny : 2 * floatMin ≤ 1 / 8 := by
  have : floatMin ≤ (1 / 2 : ℝ) ^ 4 := pow_le_pow_of_le_one (by norm_num) (by norm_num) (show 4 ≤ 1022 by norm_num)
  linarith

theorem exClamped {y : ℝ} (h0 : 0 ≤ y) (h1 : y ≤ 7 / 8) : 2 * floatMin ≤ clampedMarginal .marginalDefault y := by
  have := exTiny
  simp only [clampedMarginal, clampProb, if_true]
  exact le_max_of_le_right (le_min (by linarith) (by linarith))

theorem exMarginals (cls : CRClass) (hc : cls = .marginal ∨ cls = .marginalDefault) (A B : List (ℤ × ℝ)) (hA : (A.map Prod.fst).Nodup)
    (hB : (B.map Prod.fst).Nodup) (h0 : (A.map Prod.fst).head? = some 0) (h1 : (B.map Prod.fst).head? = some 0)
    (hm : ∀ x ∈ B.map Prod.fst, 0 ≤ x) :
    ∃ f g : CRCurve ℤ ℤ, CreditOperands dayCal cls A B 0 none none (some 90) (some 30) f g ∧
      ∀ x, ∃ e, dayCal.add x (g.forwardTenor dayCal) = .ok e ∧ x ≠ e := by
  have hA0 : A ≠ [] := by rintro rfl; simp at h0
  have hB0 : B ≠ [] := by rintro rfl; simp at h1
  refine ⟨_, crOf dayCal 0 none .default none cls (some 30) _, ⟨goodDayCount_int, movesOn_day, hA, hB, hA0, hB0, h0, h1,
    .inr ⟨List.mem_of_mem_head? h1, hm⟩, CRCurve_new_eq (cal := dayCal) (o := 0) (by rcases hc with rfl | rfl <;> rfl) hA h0 (dc := .default) trivial goodDayCount_int,
    CRCurve_new_eq (cal := dayCal) (o := 0) (by rcases hc with rfl | rfl <;> rfl) hB h1 (dc := .default) trivial goodDayCount_int⟩, fun x => ⟨x + 30, rfl, by simp⟩⟩

theorem exMarginal : ∃ f g : CRCurve ℤ ℤ, CreditOperands dayCal .marginal [(0, 9 / 10), (365, 8 / 10)] [(0, 7 / 10), (100, 6 / 10)] 0 none none (some 90) (some 30) f g ∧
    ∀ x, ∃ e, dayCal.add x (g.forwardTenor dayCal) = .ok e ∧ x ≠ e :=
  exMarginals _ (.inl rfl) _ _ (by simp) (by simp) rfl rfl (by simp)

/-- Products of survival probabilities, at the dates and in between; sums are one. -/
example (limit : ℕ) (same₁ same₂ same₃ : ℤ → Bool) : ∃ f g S T : CRCurve ℤ ℤ,
    CreditOperands dayCal .marginal [(0, 9 / 10), (365, 8 / 10)] [(0, 7 / 10), (100, 6 / 10)] 0 none none (some 90) (some 30) f g ∧
    f.binop dayCal (· * ·) (limit + 1) same₁ same₂ same₃ g = .ok S ∧ CreditResult dayCal (· * ·) f g S ∧
    S.base.dc = .default ∧ f.binop dayCal (· + ·) (limit + 1) same₁ same₂ same₃ g = .ok T ∧ T.call dayCal 365 = .ok 1 := by
  obtain ⟨f, g, h, ht⟩ := exMarginal
  obtain ⟨S, h1, h2⟩ := C137_marginal_partial h (by simp) (a := 1 / 2) (b := 1 / 2) (by norm_num)
    (by have := exTiny; norm_num; linarith) (by norm_num) (by norm_num) ht limit same₁ same₂ same₃
  obtain ⟨T, h3, h4⟩ := (C137_marginal_violated h ht limit same₁ same₂ same₃).1 rfl (by norm_num)
  exact ⟨f, g, S, T, h, h1, h2, (C137_settings_violated h1).1, h3, h4 365 (by simp)⟩

/-- Default probabilities: the product is at the dates that of the survival probabilities. -/
example (limit : ℕ) (same₁ same₂ same₃ : ℤ → Bool) : ∃ f g S : CRCurve ℤ ℤ,
    CreditOperands dayCal .marginalDefault [(0, 1 / 10), (365, 2 / 10)] [(0, 3 / 10), (100, 4 / 10)] 0 none none (some 90) (some 30) f g ∧
    f.binop dayCal (fun _ _ => 1 / 2) (limit + 1) same₁ same₂ same₃ g = .ok S ∧ S.call dayCal 365 = .ok (clampedMarginal .marginalDefault (1 / 2)) := by
  obtain ⟨f, g, h, ht⟩ := exMarginals .marginalDefault (.inr rfl) [(0, 1 / 10), (365, 2 / 10)] [(0, 3 / 10), (100, 4 / 10)] (by simp) (by simp) rfl rfl (by simp)
  obtain ⟨S, h1, h2⟩ := C137_marginal_dates (.inr rfl) h (op := fun _ _ => 1 / 2)
    (by intro p hp; fin_cases hp <;> exact exClamped (by norm_num) (by norm_num))
    (by intro p hp; fin_cases hp <;> exact exClamped (by norm_num) (by norm_num)) (fun x u v _ _ => exClamped (by norm_num) (by norm_num)) ht limit same₁ same₂ same₃
  obtain ⟨u, v, -, -, h3⟩ := h2 365 (.inl (by simp))
  exact ⟨f, g, S, h, h1, h3⟩

/-- Curves whose first date is after the origin. -/
example (limit : ℕ) (same₁ same₂ same₃ : ℤ → Bool) : ∃ f g S : CRCurve ℤ ℤ, f.base.origin = some 0 ∧ g.base.origin = some 0 ∧
    f.binop dayCal (· + ·) (limit + 1) same₁ same₂ same₃ g = .ok S ∧ ∃ m, S.base.origin = some m ∧ 0 < m := by
  have nf := CRCurve_make_eq dayCal (pts := [(10, 1 / 50)]) (cls := .flat) (i := none) (o? := some 0) (o := 0) (dc := .default) (tenor := none)
    (by simp) (by simp [CRClass.dflt, FuncSpec.isLog, Kind.isLog]) rfl trivial goodDayCount_int
  obtain ⟨h1, h2, S, h3, h4⟩ := C137_origin_violated (cal := dayCal) (A := [(10, 1 / 50)]) (B := [(10, 1 / 50)]) (o := 0) (oa := some 0) (ob := some 0)
    (ta := none) (tb := none) ⟨goodDayCount_int, movesOn_day, by simp, by simp, by simp, by simp, rfl, rfl, .inl rfl,
      (CRCurve_new_rate (cls := .flat) rfl _ _ _ _ _ _).trans nf, (CRCurve_new_rate (cls := .flat) rfl _ _ _ _ _ _).trans nf⟩ (by simp) limit same₁ same₂ same₃
  exact ⟨_, _, S, h1, h2, h3, h4⟩

/-- Constant rates from different days add up. -/
example (limit : ℕ) (same₁ same₂ same₃ : ℤ → Bool) : ∃ f g S : CRCurve ℤ ℤ,
    CRCurve.new dayCal .hazard [0, 365] [1 / 50, 1 / 50] none none .default none = .ok f ∧
    CRCurve.new dayCal .hazard [5] [1 / 100] none none .default none = .ok g ∧
    f.binop dayCal (· + ·) (limit + 1) same₁ same₂ same₃ g = .ok S ∧ ∀ x, S.call dayCal x = .ok (1 / 50 + 1 / 100) := by
  have nf := CRCurve_make_eq dayCal (pts := [(0, 1 / 50), (365, 1 / 50)]) (cls := .hazard) (i := none) (o? := none) (o := 0) (dc := .default) (tenor := none)
    (by simp) (by simp [CRClass.dflt, FuncSpec.isLog, Kind.isLog]) rfl trivial goodDayCount_int
  have ng := CRCurve_make_eq dayCal (pts := [(5, 1 / 100)]) (cls := .hazard) (i := none) (o? := none) (o := 5) (dc := .default) (tenor := none)
    (by simp) (by simp [CRClass.dflt, FuncSpec.isLog, Kind.isLog]) rfl trivial goodDayCount_int
  have nf' := (CRCurve_new_rate (cal := dayCal) (cls := .hazard) rfl _ _ _ _ _ _).trans nf
  have ng' := (CRCurve_new_rate (cal := dayCal) (cls := .hazard) rfl _ _ _ _ _ _).trans ng
  obtain ⟨S, h1, -, -, -, -, h2⟩ := C137_constant_partial (cal := dayCal) (A := [(0, 1 / 50), (365, 1 / 50)]) (B := [(5, 1 / 100)]) (oa := none) (ob := none)
    (o := 0) (o' := 5) (r := 1 / 50) (s := 1 / 100) goodDayCount_int movesOn_day (.inr rfl) (by simp) (by simp) (by simp) (by simp) rfl rfl (.inr (by simp))
    (by simp) (by simp) nf' ng' (· + ·) limit same₁ same₂ same₃
  exact ⟨_, _, S, nf', ng', h1, fun x => (h2 x).2.2⟩

end Dcf
