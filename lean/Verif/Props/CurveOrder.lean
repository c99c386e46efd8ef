import Verif.Props.CreditShape
import Verif.Props.Delta

/-! # Higher rates give lower factors and lower present values: C158 -/

set_option linter.unusedSectionVars false
set_option linter.unusedSimpArgs false
set_option linter.unusedVariables false

namespace Dcf

open Spec Finset

section
variable {D P : Type} [LinearOrder D] {cal : Cal D P}

theorem dategraph_lists (ds : List D) (u : D → ℝ) :
    (ds.map fun d => (d, u d)).map Prod.fst = ds ∧ (ds.map fun d => (d, u d)).map Prod.snd = ds.map u := by
  constructor <;> simp [List.map_map, Function.comp_def]

/-- The points of the time curve as the graph of a function of time. -/
theorem time_graph {τ : D → D → ℝ} (hτ : GoodDayCount τ) (o : D) {ds : List D} (hn : ds.Nodup) (u : D → ℝ) :
    ∃ U : ℝ → ℝ, (∀ d ∈ ds, U (τ o d) = u d) ∧
      (timePts τ o (ds.map fun d => (d, u d))).map Prod.fst = ds.map (τ o) ∧
      (timePts τ o (ds.map fun d => (d, u d))).map Prod.snd = (ds.map (τ o)).map U := by
  have hn' : ((ds.map fun d => (d, u d)).map Prod.fst).Nodup := by rw [(dategraph_lists ds u).1]; exact hn
  obtain ⟨U, hU, hUs⟩ := graph_of_nodup (timePts_nodup hτ o hn')
  have e : (timePts τ o (ds.map fun d => (d, u d))).map Prod.fst = ds.map (τ o) := by
    simp [timePts, List.map_map, Function.comp_def]
  refine ⟨U, fun d hd => hU (τ o d, u d) ?_, e, by rw [hUs, e]⟩
  exact List.mem_map.2 ⟨(d, u d), List.mem_map.2 ⟨d, hd, rfl⟩, rfl⟩

/-! ### From higher data to higher curves -/

/-- C158 (curves): two curves of the same class on the same dates, the data of one nowhere above the data of the other: both are built,
and the values of the one are nowhere above the values of the other. -/
theorem C158_data {cls : IRClass} {i : Option FuncSpec} (hi : i.getD cls.dflt ∈ meanSpecs) {ds : List D} {u u' : D → ℝ}
    {o? : Option D} {dc : DayCountArg D} {o : D} {tenor : Option P} (hn : ds.Nodup) (hne : ds ≠ [])
    (hpos : i.getD cls.dflt = logLinearScheme → ∀ d ∈ ds, 0 < u d) (hle : ∀ d ∈ ds, u d ≤ u' d)
    (ho : o?.or ds.head? = some o) (hd : dc.Usable) (hτ : GoodDayCount (dc.fn cal)) :
    ∃ c c' v v', IRCurve.new cal cls ds (ds.map u) i o? dc tenor = .ok c ∧
      IRCurve.new cal cls ds (ds.map u') i o? dc tenor = .ok c' ∧ c.cls = cls ∧ c'.cls = cls ∧ c.tenor = tenor ∧ c'.tenor = tenor ∧
      Answers cal c v (dc.fn cal) o ∧ Answers cal c' v' (dc.fn cal) o ∧ (∀ d ∈ ds, v d = u d ∧ v' d = u' d) ∧
      (∀ a, (∀ d ∈ ds, a ≤ u d) → ∀ x, a ≤ v x) ∧ ∀ x, v x ≤ v' x := by
  have hpos' : i.getD cls.dflt = logLinearScheme → ∀ d ∈ ds, 0 < u' d := fun h d hd => (hpos h d hd).trans_le (hle d hd)
  have hxn : (ds.map (dc.fn cal o)).Nodup := by
    have := timePts_nodup hτ o (pts := ds.map fun d => (d, u d)) (by rw [(dategraph_lists ds u).1]; exact hn)
    rwa [(time_graph hτ o hn u).choose_spec.2.1] at this
  obtain ⟨V, hV, hb⟩ := mean_rule hi hxn (by simpa using hne)
  have one : ∀ w : D → ℝ, (i.getD cls.dflt = logLinearScheme → ∀ d ∈ ds, 0 < w d) → ∃ c W,
      IRCurve.new cal cls ds (ds.map w) i o? dc tenor = .ok c ∧ c.cls = cls ∧ c.tenor = tenor ∧
      Answers cal c (fun x => V W (dc.fn cal o x)) (dc.fn cal) o ∧ (∀ d ∈ ds, W (dc.fn cal o d) = w d) ∧
      ∀ d ∈ ds, V W (dc.fn cal o d) = w d := by
    intro w hw
    obtain ⟨W, hW, e1, e2⟩ := time_graph hτ o hn w
    have hnp : ((ds.map fun d => (d, w d)).map Prod.fst).Nodup := by rw [(dategraph_lists ds w).1]; exact hn
    have hτn := timePts_nodup hτ o hnp
    have hop : o?.or ((ds.map fun d => (d, w d)).map Prod.fst).head? = some o := by rw [(dategraph_lists ds w).1]; exact ho
    have hwp : i.getD cls.dflt = logLinearScheme → ∀ p ∈ ds.map fun d => (d, w d), 0 < p.2 := fun h p hp => by
      obtain ⟨d, hd, rfl⟩ := List.mem_map.1 hp; exact hw h d hd
    obtain ⟨f, hf, hcf⟩ := hb W fun h x hx => by
      obtain ⟨d, hd, rfl⟩ := List.mem_map.1 hx
      rw [hW d hd]; exact hw h d hd
    have hlog' : (i.getD cls.dflt).isLog → ∀ p ∈ timePts (dc.fn cal) o (ds.map fun d => (d, w d)), 0 < p.2 := fun h p hp => by
      obtain ⟨q, hq, rfl⟩ := List.mem_map.1 hp
      exact hwp (meanSpecs_log hi h) q hq
    rw [← e2, ← e1, Func_new_eq _ hτn hlog'] at hf
    obtain rfl := Except.ok.inj hf
    have hcall : ∀ x, (irOf cal o o? dc i cls tenor (ds.map fun d => (d, w d))).call cal x = .ok (V W (dc.fn cal o x)) :=
      fun x => irOf_call_some cal hop hd (hcf _)
    have hnz : (i.getD cls.dflt).needsNonzero = false := by
      simp only [meanSpecs, List.mem_cons, List.not_mem_nil, or_false] at hi
      rcases hi with h | h | h | h | h | h <;> rw [h] <;> rfl
    have hnew := IRCurve_new_eq cal (tenor := tenor) (cls := cls) hnp (fun h => hwp (meanSpecs_log hi h)) hop hd hτ
    rw [(dategraph_lists ds w).1, (dategraph_lists ds w).2] at hnew
    refine ⟨_, W, hnew, rfl, rfl, ⟨hcall, irOf_dayCount cal hd, hτ, hop⟩, hW, fun d hd' => ?_⟩
    have := irOf_node cal (tenor := tenor) (cls := cls) (i := i) hop hd hτ hnp (fun h => hwp (meanSpecs_log hi h)) (by rw [hnz]; simp)
      (List.mem_map.2 ⟨d, hd', rfl⟩)
    rw [hcall] at this
    exact Except.ok.inj this
  obtain ⟨c, W, h1, h2, h3, h4, h5, h6⟩ := one u hpos
  obtain ⟨c', W', h1', h2', h3', h4', h5', h6'⟩ := one u' hpos'
  have hWpos : i.getD cls.dflt = logLinearScheme → ∀ x ∈ ds.map (dc.fn cal o), 0 < W x := fun h x hx => by
    obtain ⟨d, hd, rfl⟩ := List.mem_map.1 hx
    rw [h5 d hd]; exact hpos h d hd
  refine ⟨c, c', _, _, h1, h1', h2, h2', h3, h3', h4, h4', fun d hd => ⟨h6 d hd, h6' d hd⟩, fun a ha x => ?_, fun x => ?_⟩
  · obtain ⟨b, hb⟩ := (ds.map u).toFinset.bddAbove
    refine (hV.range W a b hWpos (fun y hy => ?_) _).1
    obtain ⟨d, hd, rfl⟩ := List.mem_map.1 hy
    rw [h5 d hd]
    exact ⟨ha d hd, hb (by rw [Finset.mem_coe, List.mem_toFinset]; exact List.mem_map.2 ⟨d, hd, rfl⟩)⟩
  · refine hV.order W W' hWpos (fun y hy => ?_) _
    obtain ⟨d, hd, rfl⟩ := List.mem_map.1 hy
    rw [h5 d hd, h5' d hd]
    exact hle d hd

/-! ### From higher curves to lower factors -/

variable {c c' : IRCurve D P} {v v' : D → ℝ} {τ : D → D → ℝ} {o : D}

theorem zero_order (h : Answers cal c v τ o) (h' : Answers cal c' v' τ o) (hc : c.cls = .zero) (hc' : c'.cls = .zero)
    (hv : ∀ x, v x ≤ v' x) {t : D} (hot : o ≤ t) (same : Bool) :
    ∃ df df', c.factor cal same o t = .ok df ∧ c'.factor cal same o t = .ok df' ∧ 0 < df' ∧ df' ≤ df := by
  obtain ⟨df, -, h1, h2, -⟩ := C28_zero h hc
  obtain ⟨df', -, h1', h2', -⟩ := C28_zero h' hc'
  refine ⟨_, _, h2 same o t fun _ => rfl, h2' same o t fun _ => rfl, ?_, ?_⟩ <;> rw [h1']
  · exact Real.exp_pos _
  · rw [h1, h.good.self, mul_zero, mul_zero, Real.exp_le_exp]
    have := mul_le_mul_of_nonneg_right (hv t) (h.good.nonneg hot)
    linarith

theorem short_order (h : Answers cal c v τ o) (h' : Answers cal c' v' τ o) (hc : c.cls = .short) (hc' : c'.cls = .short)
    (hv : ∀ x, v x ≤ v' x) {s t : D} (hst : s ≤ t) (same : Bool) {d : ℕ → D} (hd : Steps cal cal.oneDay s d) (hi : Increasing d)
    (hr : ∃ m, t ≤ d (m + 1)) :
    ∃ df df', c.factor cal same s t = .ok df ∧ c'.factor cal same s t = .ok df' ∧ 0 < df' ∧ df' ≤ df := by
  rcases hst.eq_or_lt with rfl | hst
  · exact ⟨1, 1, C28_empty (by simp [hc]) same s, C28_empty (by simp [hc']) same s, one_pos, le_rfl⟩
  obtain ⟨n, hn⟩ := StepsTo.exists hr
  have e := factor_of_rate h (by simp [hc]) same hst.ne
  have e' := factor_of_rate h' (by simp [hc']) same hst.ne
  rw [C32_integral h hc same hst.ne hd hn, Py.map_ok, div_mul_cancel₀ _ (h.good.ne_zero hst.ne)] at e
  rw [C32_integral h' hc' same hst.ne hd hn, Py.map_ok, div_mul_cancel₀ _ (h.good.ne_zero hst.ne)] at e'
  refine ⟨_, _, e, e', Real.exp_pos _, Real.exp_le_exp.2 (neg_le_neg ?_)⟩
  exact add_le_add (sum_le_sum fun k _ => mul_le_mul_of_nonneg_right (hv _) (h.good.nonneg (hi k).le))
    (mul_le_mul_of_nonneg_right (hv _) (h.good.nonneg (last_le hd hst hn)))

theorem cash_order (h : Answers cal c v τ o) (h' : Answers cal c' v' τ o) (hc : c.cls = .cash) (hc' : c'.cls = .cash)
    (ht : c.tenor = c'.tenor) (h0 : ∀ x, 0 ≤ v x)
    (hv : ∀ x, v x ≤ v' x) {s t : D} (hst : s ≤ t) (same : Bool) {d : ℕ → D} (hd : Steps cal (c.tenor.getD cal.threeMonths) s d)
    (hi : Increasing d) (hr : ∃ m, t ≤ d (m + 1)) :
    ∃ df df', c.factor cal same s t = .ok df ∧ c'.factor cal same s t = .ok df' ∧ 0 < df' ∧ df' ≤ df := by
  rcases hst.eq_or_lt with rfl | hst
  · exact ⟨1, 1, C28_empty (by simp [hc]) same s, C28_empty (by simp [hc']) same s, one_pos, le_rfl⟩
  obtain ⟨n, hn⟩ := StepsTo.exists hr
  have h0' : ∀ x, 0 ≤ v' x := fun x => (h0 x).trans (hv x)
  have hk : ∀ k, 0 ≤ τ (d k) (d (k + 1)) := fun k => h.good.nonneg (hi k).le
  have hl := h.good.nonneg (last_le hd hst hn)
  have hp : ∀ k, 0 < 1 + v (d k) * τ (d k) (d (k + 1)) := fun k => add_pos_of_pos_of_nonneg one_pos (mul_nonneg (h0 _) (hk k))
  have hp' : ∀ k, 0 < 1 + v' (d k) * τ (d k) (d (k + 1)) := fun k => add_pos_of_pos_of_nonneg one_pos (mul_nonneg (h0' _) (hk k))
  have hpl : 0 < 1 + v (d n) * τ (d n) t := add_pos_of_pos_of_nonneg one_pos (mul_nonneg (h0 _) hl)
  have hpl' : 0 < 1 + v' (d n) * τ (d n) t := add_pos_of_pos_of_nonneg one_pos (mul_nonneg (h0' _) hl)
  refine ⟨_, _, cash_factor h hc same hst hd hi hn h0, cash_factor h' hc' same hst (ht ▸ hd) hi hn h0',
    one_div_pos.2 (mul_pos (prod_pos fun k _ => hp' k) hpl'), one_div_le_one_div_of_le (mul_pos (prod_pos fun k _ => hp k) hpl) ?_⟩
  refine mul_le_mul (prod_le_prod (fun k _ => (hp k).le) fun k _ => ?_) ?_ hpl.le (prod_pos fun k _ => hp' k).le
  · exact add_le_add le_rfl (mul_le_mul_of_nonneg_right (hv _) (hk k))
  · exact add_le_add le_rfl (mul_le_mul_of_nonneg_right (hv _) hl)

end

section
variable {D P : Type} [LinearOrder D] {cal : Cal D P} {i : Option FuncSpec} {ds : List D} {u u' : D → ℝ} {o? : Option D}
  {dc : DayCountArg D} {o : D} {tenor : Option P}

/-- C158 (zero rates): higher zero rates give lower discount factors from the origin. -/
theorem C158_zero (hi : i.getD IRClass.zero.dflt ∈ meanSpecs) (hn : ds.Nodup) (hne : ds ≠ [])
    (hpos : i.getD IRClass.zero.dflt = logLinearScheme → ∀ d ∈ ds, 0 < u d) (hle : ∀ d ∈ ds, u d ≤ u' d)
    (ho : o?.or ds.head? = some o) (hd : dc.Usable) (hτ : GoodDayCount (dc.fn cal)) :
    ∃ c c', IRCurve.new cal .zero ds (ds.map u) i o? dc tenor = .ok c ∧
      IRCurve.new cal .zero ds (ds.map u') i o? dc tenor = .ok c' ∧
      ∀ same t, o ≤ t → ∃ df df', c.factor cal same o t = .ok df ∧ c'.factor cal same o t = .ok df' ∧ 0 < df' ∧ df' ≤ df := by
  obtain ⟨c, c', v, v', h1, h1', h2, h2', -, -, hA, hA', -, -, hv⟩ := C158_data (cal := cal) (cls := .zero) (tenor := tenor) hi hn hne
    hpos hle ho hd hτ
  exact ⟨c, c', h1, h1', fun same t ht => zero_order hA hA' h2 h2' hv ht same⟩

/-- C158 (short rates): higher short rates give lower discount factors over every period. -/
theorem C158_short (hi : i.getD IRClass.short.dflt ∈ meanSpecs) (hn : ds.Nodup) (hne : ds ≠ [])
    (hpos : i.getD IRClass.short.dflt = logLinearScheme → ∀ d ∈ ds, 0 < u d) (hle : ∀ d ∈ ds, u d ≤ u' d)
    (ho : o?.or ds.head? = some o) (hd : dc.Usable) (hτ : GoodDayCount (dc.fn cal)) :
    ∃ c c', IRCurve.new cal .short ds (ds.map u) i o? dc tenor = .ok c ∧
      IRCurve.new cal .short ds (ds.map u') i o? dc tenor = .ok c' ∧
      ∀ same s t, s ≤ t → ∀ d : ℕ → D, Steps cal cal.oneDay s d → Increasing d → (∃ m, t ≤ d (m + 1)) →
        ∃ df df', c.factor cal same s t = .ok df ∧ c'.factor cal same s t = .ok df' ∧ 0 < df' ∧ df' ≤ df := by
  obtain ⟨c, c', v, v', h1, h1', h2, h2', -, -, hA, hA', -, -, hv⟩ := C158_data (cal := cal) (cls := .short) (tenor := tenor) hi hn hne
    hpos hle ho hd hτ
  exact ⟨c, c', h1, h1', fun same s t hst d h3 h4 h5 => short_order hA hA' h2 h2' hv hst same h3 h4 h5⟩

/-- C158 (cash rates): higher cash rates, none of them negative, give lower discount factors over every period. -/
theorem C158_cash (hi : i.getD IRClass.cash.dflt ∈ meanSpecs) (hn : ds.Nodup) (hne : ds ≠ [])
    (hpos : i.getD IRClass.cash.dflt = logLinearScheme → ∀ d ∈ ds, 0 < u d) (h0 : ∀ d ∈ ds, 0 ≤ u d) (hle : ∀ d ∈ ds, u d ≤ u' d)
    (ho : o?.or ds.head? = some o) (hd : dc.Usable) (hτ : GoodDayCount (dc.fn cal)) :
    ∃ c c', IRCurve.new cal .cash ds (ds.map u) i o? dc tenor = .ok c ∧
      IRCurve.new cal .cash ds (ds.map u') i o? dc tenor = .ok c' ∧
      ∀ same s t, s ≤ t → ∀ d : ℕ → D, Steps cal (tenor.getD cal.threeMonths) s d → Increasing d → (∃ m, t ≤ d (m + 1)) →
        ∃ df df', c.factor cal same s t = .ok df ∧ c'.factor cal same s t = .ok df' ∧ 0 < df' ∧ df' ≤ df := by
  obtain ⟨c, c', v, v', h1, h1', h2, h2', h3, h3', hA, hA', -, hb, hv⟩ := C158_data (cal := cal) (cls := .cash) (tenor := tenor) hi hn hne
    hpos hle ho hd hτ
  exact ⟨c, c', h1, h1', fun same s t hst d h4 h5 h6 => cash_order hA hA' h2 h2' (h3.trans h3'.symm) (hb 0 h0) hv hst same
    (h3 ▸ h4) h5 h6⟩

/-- C158 (discount factors): higher discount factors, interpolated as by default, give higher discount factors after the origin. -/
theorem C158_discount (hn : ds.Nodup) (hge : ∀ d ∈ ds, o ≤ d) (hne : ∃ d ∈ ds, d ≠ o) (hpos : ∀ d ∈ ds, 0 < u d)
    (hle : ∀ d ∈ ds, u d ≤ u' d) (ho : o?.or ds.head? = some o) (hd : dc.Usable) (hτ : GoodDayCount (dc.fn cal)) :
    ∃ c c', IRCurve.new cal .discount ds (ds.map u) none o? dc tenor = .ok c ∧
      IRCurve.new cal .discount ds (ds.map u') none o? dc tenor = .ok c' ∧
      ∀ t, o < t → ∃ df df', c.discount cal t = .ok df ∧ c'.discount cal t = .ok df' ∧ 0 < df ∧ df ≤ df' := by
  have hpos' : ∀ d ∈ ds, 0 < u' d := fun d hd => (hpos d hd).trans_le (hle d hd)
  obtain ⟨U, hU, e1, e2⟩ := time_graph hτ o hn u
  obtain ⟨U', hU', e1', e2'⟩ := time_graph hτ o hn u'
  have hnp : ∀ w : D → ℝ, ((ds.map fun d => (d, w d)).map Prod.fst).Nodup := fun w => by rw [(dategraph_lists ds w).1]; exact hn
  have hop : ∀ w : D → ℝ, o?.or ((ds.map fun d => (d, w d)).map Prod.fst).head? = some o := fun w => by
    rw [(dategraph_lists ds w).1]; exact ho
  have hxn : (ds.map (dc.fn cal o)).Nodup := e1 ▸ timePts_nodup hτ o (hnp u)
  have hmem : ∀ {p : ℝ → Prop}, (∀ d ∈ ds, p (dc.fn cal o d)) → ∀ x ∈ ds.map (dc.fn cal o), p x := fun h x hx => by
    obtain ⟨d, hd, rfl⟩ := List.mem_map.1 hx; exact h d hd
  obtain ⟨f, f', g, g', hf, hf', hg, hg', hrange, hord⟩ := C117_rate hxn (hmem fun d hd => hτ.nonneg (hge d hd))
    (by obtain ⟨d, hd, h⟩ := hne; exact ⟨_, List.mem_map.2 ⟨d, hd, rfl⟩, hτ.ne_zero (Ne.symm h)⟩)
    (u := U) (v := U') (hmem fun d hd => by rw [hU d hd]; exact hpos d hd) (hmem fun d hd => by rw [hU' d hd]; exact hpos' d hd)
  have hpp : ∀ {w : D → ℝ}, (∀ d ∈ ds, 0 < w d) → ∀ p ∈ ds.map fun d => (d, w d), 0 < p.2 := fun h p hp => by
    obtain ⟨d, hd, rfl⟩ := List.mem_map.1 hp; exact h d hd
  have htp : ∀ {w : D → ℝ}, (∀ d ∈ ds, 0 < w d) → ∀ p ∈ timePts (dc.fn cal) o (ds.map fun d => (d, w d)), 0 < p.2 := fun h p hp => by
    obtain ⟨q, hq, rfl⟩ := List.mem_map.1 hp; exact hpp h q hq
  rw [← e2, ← e1, Func_new_eq _ (timePts_nodup hτ o (hnp u)) fun _ => htp hpos] at hf
  rw [← e2', ← e1', Func_new_eq _ (timePts_nodup hτ o (hnp u')) fun _ => htp hpos'] at hf'
  obtain rfl := Except.ok.inj hf
  obtain rfl := Except.ok.inj hf'
  have hnew := IRCurve_new_eq cal (tenor := tenor) (cls := .discount) (i := none) (hnp u) (fun _ => hpp hpos) (hop u) hd hτ
  have hnew' := IRCurve_new_eq cal (tenor := tenor) (cls := .discount) (i := none) (hnp u') (fun _ => hpp hpos') (hop u') hd hτ
  have hcall := fun (x : D) (hx : o < x) => irOf_call_some cal (tenor := tenor) (cls := .discount) (i := none) (hop u) hd
    (hg (dc.fn cal o x) ((hτ.pos o x).2 hx))
  have hcall' := fun (x : D) (hx : o < x) => irOf_call_some cal (tenor := tenor) (cls := .discount) (i := none) (hop u') hd
    (hg' (dc.fn cal o x) ((hτ.pos o x).2 hx))
  rw [(dategraph_lists ds u).1, (dategraph_lists ds u).2] at hnew
  rw [(dategraph_lists ds u').1, (dategraph_lists ds u').2] at hnew'
  refine ⟨_, _, hnew, hnew', fun t ht => ⟨g (dc.fn cal o t), g' (dc.fn cal o t), ?_, ?_, ?_, hord ?_ _ ((hτ.pos o t).2 ht)⟩⟩
  · simp only [IRCurve.discount, irOf_origin cal (hop u), pyDate, Py.ok_bind, IRCurve.factor]
    exact hcall t ht
  · simp only [IRCurve.discount, irOf_origin cal (hop u'), pyDate, Py.ok_bind, IRCurve.factor]
    exact hcall' t ht
  · have := irOf_rate cal (tenor := tenor) (cls := .discount) (i := none) rfl (hop u) hd hτ (hnp u)
      (by obtain ⟨d, hd, h⟩ := hne; exact ⟨_, List.mem_map.2 ⟨d, hd, rfl⟩, h⟩) ht.ne'
    have e := hcall t ht
    rw [show (irOf cal o o? dc none .discount tenor (ds.map fun d => (d, u d))).call cal t = _ from this] at e
    rw [← Except.ok.inj e]
    exact Real.exp_pos _
  · exact hmem fun d hd => by rw [hU d hd, hU' d hd]; exact hle d hd

/-! ### Present values -/

/-- C158 (present values): a product that pays only non-negative amounts from the valuation date on is worth less on the curve with the
lower discount factors. -/
theorem C158_present_value {w : World D P} {v : D} {p : Product D} {L : List (D × ℝ)} (h : Pays cal w v p L) (h0 : ∀ q ∈ L, 0 ≤ q.2)
    {c c' : CurveObj D P} {same same' : Bool}
    (hdf : ∀ q ∈ L, ∃ df df', c.discountFactor cal same v q.1 = .ok df ∧ c'.discountFactor cal same' v q.1 = .ok df' ∧ df' ≤ df) :
    ∃ x x', pv cal c same (some v) p w = (.ok x, w) ∧ pv cal c' same' (some v) p w = (.ok x', w) ∧ x' ≤ x := by
  have hx : ∀ d, ∃ df df', (∃ q ∈ L, q.1 = d) → c.discountFactor cal same v d = .ok df ∧ c'.discountFactor cal same' v d = .ok df' ∧
      df' ≤ df := fun d => by
    by_cases hd : ∃ q ∈ L, q.1 = d
    · obtain ⟨q, hq, rfl⟩ := hd
      obtain ⟨df, df', h⟩ := hdf q hq
      exact ⟨df, df', fun _ => h⟩
    · exact ⟨0, 0, fun h => absurd h hd⟩
  choose df df' hf using hx
  refine ⟨_, _, C54_flows h fun q hq => (hf q.1 ⟨q, hq, rfl⟩).1, C54_flows h fun q hq => (hf q.1 ⟨q, hq, rfl⟩).2.1, ?_⟩
  exact List.sum_le_sum fun q hq => mul_le_mul_of_nonneg_right (hf q.1 ⟨q, hq, rfl⟩).2.2 (h0 q hq)

/-- C158 (zero rates to present values): the product is worth less today on the curve with the higher zero rates. -/
theorem C158_zero_present_value (hi : i.getD IRClass.zero.dflt ∈ meanSpecs) (hn : ds.Nodup) (hne : ds ≠ [])
    (hpos : i.getD IRClass.zero.dflt = logLinearScheme → ∀ d ∈ ds, 0 < u d) (hle : ∀ d ∈ ds, u d ≤ u' d)
    (ho : o?.or ds.head? = some o) (hd : dc.Usable) (hτ : GoodDayCount (dc.fn cal)) {w : World D P} {p : Product D} {L : List (D × ℝ)}
    (h : Pays cal w o p L) (h0 : ∀ q ∈ L, o ≤ q.1 ∧ 0 ≤ q.2) :
    ∃ c c' x x', IRCurve.new cal .zero ds (ds.map u) i o? dc tenor = .ok c ∧
      IRCurve.new cal .zero ds (ds.map u') i o? dc tenor = .ok c' ∧
      pv cal c.obj false none p w = (.ok x, w) ∧ pv cal c'.obj false none p w = (.ok x', w) ∧ x' ≤ x := by
  obtain ⟨c, c', v, v', h1, h1', h2, h2', -, -, hA, hA', -, -, hv⟩ := C158_data (cal := cal) (cls := .zero) (tenor := tenor) hi hn hne
    hpos hle ho hd hτ
  obtain ⟨x, x', e, e', hx⟩ := C158_present_value (c := c.obj) (c' := c'.obj) (same := true) (same' := true) h (fun q hq => (h0 q hq).2)
    fun q hq => by
      obtain ⟨df, df', k1, k2, -, k3⟩ := zero_order hA hA' h2 h2' hv (h0 q hq).1 true
      exact ⟨df, df', k1, k2, k3⟩
  refine ⟨c, c', x, x', h1, h1', ?_, ?_, hx⟩
  · rw [C54_default (c := c.obj) hA.origin, e]
  · rw [C54_default (c := c'.obj) hA'.origin, e']

/-! ### Credit curves -/

theorem credit_order {cls : CRClass} (hi : i.getD cls.dflt ∈ meanSpecs) (hn : ds.Nodup) (hne : ds ≠ [])
    (hpos : i.getD cls.dflt = logLinearScheme → cls.isProb = false → ∀ d ∈ ds, 0 < u d)
    (hle : ∀ d ∈ ds, storeCredit cls (u d) ≤ storeCredit cls (u' d))
    (ho : o?.or ds.head? = some o) (hd : dc.Usable) (hτ : GoodDayCount (dc.fn cal)) :
    ∃ c c' v v', CRCurve.new cal cls ds (ds.map u) i o? dc tenor = .ok c ∧
      CRCurve.new cal cls ds (ds.map u') i o? dc tenor = .ok c' ∧ c.cls = cls ∧ c'.cls = cls ∧ c.tenor = tenor ∧ c'.tenor = tenor ∧
      CreditAnswers cal c v (dc.fn cal) o ∧ CreditAnswers cal c' v' (dc.fn cal) o ∧
      (∀ a, (∀ d ∈ ds, a ≤ storeCredit cls (u d)) → ∀ x, a ≤ v x) ∧ ∀ x, v x ≤ v' x := by
  have hxn : (ds.map (dc.fn cal o)).Nodup := by
    have := timePts_nodup hτ o (pts := ds.map fun d => (d, u d)) (by rw [(dategraph_lists ds u).1]; exact hn)
    rwa [(time_graph hτ o hn u).choose_spec.2.1] at this
  obtain ⟨V, hV, hb⟩ := mean_rule hi hxn (by simpa using hne)
  have hst : ∀ w : D → ℝ, (i.getD cls.dflt = logLinearScheme → cls.isProb = false → ∀ d ∈ ds, 0 < w d) →
      i.getD cls.dflt = logLinearScheme → ∀ d ∈ ds, 0 < storeCredit cls (w d) := fun w hw h d hd => by
    by_cases hc : cls.isProb = true
    · exact storedCredit_pos hc _
    · simp only [Bool.not_eq_true] at hc
      simpa [storeCredit, hc] using hw h hc d hd
  have one : ∀ w : D → ℝ, (i.getD cls.dflt = logLinearScheme → cls.isProb = false → ∀ d ∈ ds, 0 < w d) → ∃ c W,
      CRCurve.new cal cls ds (ds.map w) i o? dc tenor = .ok c ∧ c.cls = cls ∧ c.tenor = tenor ∧
      CreditAnswers cal c (fun x => V W (dc.fn cal o x)) (dc.fn cal) o ∧ ∀ d ∈ ds, W (dc.fn cal o d) = storeCredit cls (w d) := by
    intro w hw
    obtain ⟨W, hW, e1, e2⟩ := time_graph hτ o hn fun d => storeCredit cls (w d)
    set Q := ds.map fun d => (d, storeCredit cls (w d)) with hQ
    have e0 : Q.map Prod.fst = ds := (dategraph_lists ds _).1
    have hop : o?.or (Q.map Prod.fst).head? = some o := by rw [e0]; exact ho
    have hτn := timePts_nodup hτ o (show (Q.map Prod.fst).Nodup by rw [e0]; exact hn)
    obtain ⟨f, hf, hcf⟩ := hb W fun h x hx => by
      obtain ⟨d, hd, rfl⟩ := List.mem_map.1 hx
      rw [hW d hd]; exact hst w hw h d hd
    rw [← e2, ← e1, Func_new_eq _ hτn fun h p hp => by
      obtain ⟨q, hq, rfl⟩ := List.mem_map.1 hp
      obtain ⟨d, hd, rfl⟩ := List.mem_map.1 hq
      exact hst w hw (meanSpecs_log hi h) d hd] at hf
    obtain rfl := Except.ok.inj hf
    have hcall : ∀ x, (crOf cal o o? dc i cls tenor Q).call cal x = .ok (V W (dc.fn cal o x)) :=
      fun x => crOf_call_some cal hop hd (hcf _)
    have hnew := credit_new (cal := cal) (tenor := tenor) (cls := cls) (i := i) (pts := ds.map fun d => (d, w d)) (o? := o?) (o := o)
      (by rw [(dategraph_lists ds w).1]; exact hn) (by rw [(dategraph_lists ds w).1]; exact ho) hd hτ fun h hc p hp => by
        obtain ⟨d, hd, rfl⟩ := List.mem_map.1 hp; exact hw (meanSpecs_log hi h) hc d hd
    rw [(dategraph_lists ds w).1, (dategraph_lists ds w).2, List.map_map] at hnew
    exact ⟨_, W, hnew, rfl, rfl, ⟨hcall, crOf_dayCount cal hd, hτ, hop⟩, hW⟩
  have hpos' : i.getD cls.dflt = logLinearScheme → cls.isProb = false → ∀ d ∈ ds, 0 < u' d := fun h hc d hd => by
    have := hle d hd
    simp only [storeCredit, hc] at this
    exact (hpos h hc d hd).trans_le this
  obtain ⟨c, W, h1, h2, h3, h4, h5⟩ := one u hpos
  obtain ⟨c', W', h1', h2', h3', h4', h5'⟩ := one u' hpos'
  have hWpos : i.getD cls.dflt = logLinearScheme → ∀ x ∈ ds.map (dc.fn cal o), 0 < W x := fun h x hx => by
    obtain ⟨d, hd, rfl⟩ := List.mem_map.1 hx
    rw [h5 d hd]; exact hst u hpos h d hd
  refine ⟨c, c', _, _, h1, h1', h2, h2', h3, h3', h4, h4', fun a ha x => ?_, fun x => ?_⟩
  · obtain ⟨b, hb⟩ := (ds.map fun d => storeCredit cls (u d)).toFinset.bddAbove
    refine (hV.range W a b hWpos (fun y hy => ?_) _).1
    obtain ⟨d, hd, rfl⟩ := List.mem_map.1 hy
    rw [h5 d hd]
    exact ⟨ha d hd, hb (by rw [Finset.mem_coe, List.mem_toFinset]; exact List.mem_map.2 ⟨d, hd, rfl⟩)⟩
  · refine hV.order W W' hWpos (fun y hy => ?_) _
    obtain ⟨d, hd, rfl⟩ := List.mem_map.1 hy
    rw [h5 d hd, h5' d hd]
    exact hle d hd

/-- C158 (flat intensities): higher intensities give lower survival probabilities since the origin. -/
theorem C158_flat (hi : i.getD CRClass.flat.dflt ∈ meanSpecs) (hn : ds.Nodup) (hne : ds ≠ [])
    (hpos : i.getD CRClass.flat.dflt = logLinearScheme → ∀ d ∈ ds, 0 < u d) (hle : ∀ d ∈ ds, u d ≤ u' d)
    (ho : o?.or ds.head? = some o) (hd : dc.Usable) (hτ : GoodDayCount (dc.fn cal)) :
    ∃ c c', CRCurve.new cal .flat ds (ds.map u) i o? dc tenor = .ok c ∧
      CRCurve.new cal .flat ds (ds.map u') i o? dc tenor = .ok c' ∧
      ∀ t, o ≤ t → ∃ sv sv', c.survivalProb cal t = .ok sv ∧ c'.survivalProb cal t = .ok sv' ∧ 0 < sv' ∧ sv' ≤ sv := by
  obtain ⟨c, c', v, v', h1, h1', h2, h2', -, -, hA, hA', -, hv⟩ := credit_order (cal := cal) (cls := .flat) (tenor := tenor) hi hn hne
    (fun h _ => hpos h) (u' := u') (fun d hd => by simpa [storeCredit, CRClass.isProb] using hle d hd) ho hd hτ
  refine ⟨c, c', h1, h1', fun t ht => ?_⟩
  obtain ⟨df, df', k1, k2, k3⟩ := zero_order (hA.ir .zero) (hA'.ir .zero) rfl rfl hv ht true
  refine ⟨df, df', ?_, ?_, k3⟩
  · simp only [CRCurve.survivalProb, hA.origin, pyDate, Py.ok_bind]
    rw [flat_factor_eq hA h2, k1]
  · simp only [CRCurve.survivalProb, hA'.origin, pyDate, Py.ok_bind]
    rw [flat_factor_eq hA' h2', k2]

/-- C158 (hazard rates): higher hazard rates give lower survival probabilities over every period. -/
theorem C158_hazard (hi : i.getD CRClass.hazard.dflt ∈ meanSpecs) (hn : ds.Nodup) (hne : ds ≠ [])
    (hpos : i.getD CRClass.hazard.dflt = logLinearScheme → ∀ d ∈ ds, 0 < u d) (hle : ∀ d ∈ ds, u d ≤ u' d)
    (ho : o?.or ds.head? = some o) (hd : dc.Usable) (hτ : GoodDayCount (dc.fn cal)) :
    ∃ c c', CRCurve.new cal .hazard ds (ds.map u) i o? dc tenor = .ok c ∧
      CRCurve.new cal .hazard ds (ds.map u') i o? dc tenor = .ok c' ∧
      ∀ same s t, s ≤ t → ∀ d : ℕ → D, Steps cal cal.oneDay s d → Increasing d → (∃ m, t ≤ d (m + 1)) →
        ∃ sv sv', c.factor cal same s t = .ok sv ∧ c'.factor cal same s t = .ok sv' ∧ 0 < sv' ∧ sv' ≤ sv := by
  obtain ⟨c, c', v, v', h1, h1', h2, h2', -, -, hA, hA', -, hv⟩ := credit_order (cal := cal) (cls := .hazard) (tenor := tenor) hi hn hne
    (fun h _ => hpos h) (u' := u') (fun d hd => by simpa [storeCredit, CRClass.isProb] using hle d hd) ho hd hτ
  refine ⟨c, c', h1, h1', fun same s t hst d h3 h4 h5 => ?_⟩
  rw [hazard_factor_eq hA h2, hazard_factor_eq hA' h2']
  exact short_order (hA.ir .short) (hA'.ir .short) rfl rfl hv hst same h3 h4 h5

theorem storeCredit_mono {cls : CRClass} (hp : cls.isProb = true) {x y : ℝ}
    (h : if cls = .default ∨ cls = .marginalDefault then y ≤ x else x ≤ y) : storeCredit cls x ≤ storeCredit cls y := by
  simp only [storeCredit, hp, if_true, storedProb]
  split_ifs at h ⊢
  · exact max_le_max le_rfl (min_le_min (by linarith) le_rfl)
  · exact max_le_max le_rfl (min_le_min h le_rfl)

/-- C158 (survival and default probabilities): higher survival probabilities, that is lower default probabilities, interpolated as by
default, give higher survival probabilities after the origin. -/
theorem C158_survival {cls : CRClass} (hcl : cls = .survival ∨ cls = .default) (hn : ds.Nodup) (hge : ∀ d ∈ ds, o ≤ d)
    (hne : ∃ d ∈ ds, d ≠ o) (hle : ∀ d ∈ ds, if cls = .survival then u d ≤ u' d else u' d ≤ u d)
    (ho : o?.or ds.head? = some o) (hd : dc.Usable) (hτ : GoodDayCount (dc.fn cal)) :
    ∃ c c', CRCurve.new cal cls ds (ds.map u) none o? dc tenor = .ok c ∧
      CRCurve.new cal cls ds (ds.map u') none o? dc tenor = .ok c' ∧
      ∀ t, o < t → ∃ sv sv', c.survivalProb cal t = .ok sv ∧ c'.survivalProb cal t = .ok sv' ∧ 0 < sv ∧ sv ≤ sv' := by
  have hp : cls.isProb = true := by rcases hcl with rfl | rfl <;> rfl
  have hi : (none : Option FuncSpec).getD cls.dflt = logLinearRateScheme := by rcases hcl with rfl | rfl <;> rfl
  obtain ⟨C, C', hC, hC', hh⟩ := C158_discount (cal := cal) (tenor := tenor) (u := fun d => storeCredit cls (u d))
    (u' := fun d => storeCredit cls (u' d)) hn hge hne (fun d _ => storedCredit_pos hp _)
    (fun d hd => storeCredit_mono hp (by have := hle d hd; rcases hcl with rfl | rfl <;> simpa using this)) ho hd hτ
  have one : ∀ w : D → ℝ, ∃ c, CRCurve.new cal cls ds (ds.map w) none o? dc tenor = .ok c ∧
      ∀ B, IRCurve.new cal .discount ds (ds.map fun d => storeCredit cls (w d)) none o? dc tenor = .ok B →
        ∀ t, o < t → c.survivalProb cal t = B.discount cal t := by
    intro w
    have hnew := credit_new (cal := cal) (tenor := tenor) (cls := cls) (i := none) (pts := ds.map fun d => (d, w d)) (o? := o?) (o := o)
      (by rw [(dategraph_lists ds w).1]; exact hn) (by rw [(dategraph_lists ds w).1]; exact ho) hd hτ fun _ h => by simp [hp] at h
    rw [(dategraph_lists ds w).1, (dategraph_lists ds w).2, List.map_map] at hnew
    refine ⟨_, hnew, fun B hB t ht => ?_⟩
    set Q := ds.map fun d => (d, storeCredit cls (w d)) with hQ
    have e0 : Q.map Prod.fst = ds := (dategraph_lists ds _).1
    have hnQ : (Q.map Prod.fst).Nodup := by rw [e0]; exact hn
    have hoQ : o?.or (Q.map Prod.fst).head? = some o := by rw [e0]; exact ho
    have hneQ : ∃ p ∈ Q, p.1 ≠ o := by
      obtain ⟨d, hd, h⟩ := hne
      exact ⟨_, List.mem_map.2 ⟨d, hd, rfl⟩, h⟩
    have hB' := IRCurve_new_eq cal (tenor := tenor) (cls := .discount) (i := none) hnQ
      (fun _ p hp' => by obtain ⟨q, hq, rfl⟩ := List.mem_map.1 hp'; exact storedCredit_pos hp _) hoQ hd hτ
    rw [e0, show Q.map Prod.snd = ds.map fun d => storeCredit cls (w d) from (dategraph_lists ds _).2, hB] at hB'
    obtain rfl := Except.ok.inj hB'
    have hc := crOf_rate cal (tenor := tenor) (cls := cls) (i := none) hi hoQ hd hτ hnQ hneQ ht.ne'
    have hc2 := irOf_rate cal (tenor := tenor) (cls := .discount) (i := none) rfl hoQ hd hτ hnQ hneQ ht.ne'
    simp only [IRCurve.discount, irOf_origin cal hoQ, pyDate, Py.ok_bind, IRCurve.factor]
    refine Eq.trans ?_ (hc.trans hc2.symm)
    have ho2 : (crOf cal o o? dc none cls tenor Q).base.origin = some o := hoQ
    have hcls : (crOf cal o o? dc none cls tenor Q).cls = cls := rfl
    show (crOf cal o o? dc none cls tenor Q).survivalProb cal t = _
    rcases hcl with rfl | rfl <;>
      simp [CRCurve.survivalProb, ho2, pyDate, CRCurve.factor, hcls, CRCurve.survivalFactorOf]
  obtain ⟨c, h1, h2⟩ := one u
  obtain ⟨c', h1', h2'⟩ := one u'
  refine ⟨c, c', h1, h1', fun t ht => ?_⟩
  rw [h2 C hC t ht, h2' C' hC' t ht]
  exact hh t ht

/-- C158 (marginal probabilities): higher marginal survival probabilities, that is lower marginal default probabilities, none of them
clamped at the bottom, give higher survival probabilities over every period. -/
theorem C158_marginal {cls : CRClass} (hcl : cls = .marginal ∨ cls = .marginalDefault) (hn : ds.Nodup) (hne : ds ≠ [])
    (hmin : ∀ d ∈ ds, 2 * floatMin ≤ if cls = .marginal then u d else 1 - u d)
    (hle : ∀ d ∈ ds, if cls = .marginal then u d ≤ u' d else u' d ≤ u d)
    (ho : o?.or ds.head? = some o) (hd : dc.Usable) (hτ : GoodDayCount (dc.fn cal)) :
    ∃ c c', CRCurve.new cal cls ds (ds.map u) none o? dc tenor = .ok c ∧
      CRCurve.new cal cls ds (ds.map u') none o? dc tenor = .ok c' ∧
      ∀ same s t, s < t → ∀ d : ℕ → D, Steps cal (tenor.getD cal.oneYear) s d → Increasing d → (∃ m, t ≤ d (m + 1)) →
        ∃ sv sv', c.factor cal same s t = .ok sv ∧ c'.factor cal same s t = .ok sv' ∧ 0 < sv ∧ sv ≤ sv' := by
  have hp : cls.isProb = true := by rcases hcl with rfl | rfl <;> rfl
  obtain ⟨c, c', v, v', h1, h1', h2, h2', h3, h3', hA, hA', hb, hv⟩ := credit_order (cal := cal) (cls := cls) (i := none) (tenor := tenor)
    (by rcases hcl with rfl | rfl <;> simp [CRClass.dflt, meanSpecs]) hn hne (fun _ h => by simp [hp] at h) (u' := u')
    (fun d hd => storeCredit_mono hp (by have := hle d hd; rcases hcl with rfl | rfl <;> simpa using this)) ho hd hτ
  have hm : 2 * floatMin ≤ 1 := by
    have : floatMin ≤ 1 / 2 := by
      unfold floatMin
      calc ((1 : ℝ) / 2) ^ 1022 ≤ (1 / 2) ^ 1 := pow_le_pow_of_le_one (by norm_num) (by norm_num) (by norm_num)
        _ = 1 / 2 := pow_one _
    linarith
  have hge : ∀ x, 2 * floatMin ≤ v x := hb _ fun d hd => by
    have := hmin d hd
    rcases hcl with rfl | rfl
    · simp only [if_true] at this
      simp only [storeCredit, hp, if_true, storedProb, reduceCtorEq, or_self, if_false]
      exact le_max_of_le_right (le_min this hm)
    · simp only [reduceCtorEq, if_false] at this
      simp only [storeCredit, hp, if_true, storedProb, or_true]
      exact le_max_of_le_right (le_min this hm)
  have hge' : ∀ x, 2 * floatMin ≤ v' x := fun x => (hge x).trans (hv x)
  have h0 : ∀ x, 0 < v x := fun x => (mul_pos two_pos floatMin_pos).trans_le (hge x)
  have h0' : ∀ x, 0 < v' x := fun x => (h0 x).trans_le (hv x)
  refine ⟨c, c', h1, h1', fun same s t hst d h4 h5 h6 => ?_⟩
  obtain ⟨n, hn'⟩ := StepsTo.exists h6
  refine ⟨_, _, C38_marginal_product hA (h2.symm ▸ hcl) same hst.ne (h3.symm ▸ h4) h5 hn' hge,
    C38_marginal_product hA' (h2'.symm ▸ hcl) same hst.ne (h3'.symm ▸ h4) h5 hn' hge',
    mul_pos (prod_pos fun k _ => h0 _) (Real.rpow_pos_of_pos (h0 _) _), ?_⟩
  exact mul_le_mul (prod_le_prod (fun k _ => (h0 _).le) fun k _ => hv _)
    (Real.rpow_le_rpow (h0 _).le (hv _) (div_nonneg (hτ.nonneg (last_le h4 hst hn')) (hτ.nonneg (h5 n).le)))
    (Real.rpow_pos_of_pos (h0 _) _).le (prod_pos fun k _ => h0' _).le

end

/-! ### What goes wrong and examples -/

/-- C158 (why only from the origin): raising one zero rate raises the discount factor of the period that starts there. -/
theorem C158_zero_sharp : ∃ c c' df df',
    IRCurve.new dayCal .zero [365, 730] [1 / 100, 1 / 100] none (some 0) .default none = .ok c ∧
    IRCurve.new dayCal .zero [365, 730] [2 / 100, 1 / 100] none (some 0) .default none = .ok c' ∧
    c.factor dayCal false 365 730 = .ok df ∧ c'.factor dayCal false 365 730 = .ok df' ∧ df < df' := by
  have hτ : GoodDayCount (DayCountArg.fn dayCal .default) := goodDayCount_int
  obtain ⟨c, c', v, v', h1, h1', h2, h2', -, -, hA, hA', hn, -, -⟩ := C158_data (cal := dayCal) (cls := .zero) (i := none)
    (ds := [365, 730]) (u := fun _ => 1 / 100) (u' := fun d => if d = 365 then 2 / 100 else 1 / 100) (o? := some 0) (dc := .default)
    (o := 0) (tenor := none) (by simp [meanSpecs, IRClass.dflt]) (by decide) (by simp) (by intro _ d _; norm_num)
    (by intro d _; split_ifs <;> norm_num) rfl trivial hτ
  obtain ⟨df, -, e, k, -⟩ := C28_zero hA h2
  obtain ⟨df', -, e', k', -⟩ := C28_zero hA' h2'
  refine ⟨c, c', _, _, by simpa using h1, by simpa using h1', k false 365 730 (by simp), k' false 365 730 (by simp), ?_⟩
  rw [e, e', (hn 365 (by simp)).1, (hn 365 (by simp)).2, (hn 730 (by simp)).1, (hn 730 (by simp)).2, Real.exp_lt_exp]
  norm_num [DayCountArg.fn, dayCal]

/-- Non-vacuity: a raised zero rate, given after the origin. -/
example := C158_zero (cal := dayCal) (i := none) (ds := [365, 730]) (u := fun _ => 1 / 100)
  (u' := fun d => if d = 365 then 2 / 100 else 1 / 100) (o? := some 0) (dc := .default) (o := 0) (tenor := none)
  (by simp [meanSpecs, IRClass.dflt]) (by decide) (by simp) (by intro _ d _; norm_num)
  (by intro d _; split_ifs <;> norm_num) rfl trivial goodDayCount_int

/-- Non-vacuity: a negative and a positive short rate. -/
example := C158_short (cal := dayCal) (i := none) (ds := [0, 365]) (u := fun _ => -1 / 100) (u' := fun _ => 1 / 100) (o? := none)
  (dc := .default) (o := 0) (tenor := none) (by simp [meanSpecs, IRClass.dflt]) (by decide) (by simp)
  (by simp [IRClass.dflt, logLinearScheme]) (by intro d _; norm_num) rfl trivial goodDayCount_int

/-- Non-vacuity: cash rates of one and two percent. -/
example := C158_cash (cal := dayCal) (i := none) (ds := [0, 365]) (u := fun _ => 1 / 100) (u' := fun _ => 2 / 100) (o? := none)
  (dc := .default) (o := 0) (tenor := none) (by simp [meanSpecs, IRClass.dflt]) (by decide) (by simp)
  (by intro _ d _; norm_num) (by intro d _; norm_num) (by intro d _; norm_num) rfl trivial goodDayCount_int

/-- Non-vacuity: discount factors. -/
example := C158_discount (cal := dayCal) (ds := [0, 365]) (u := fun d => if d = 0 then 1 else 9 / 10) (u' := fun _ => 1) (o? := none)
  (dc := .default) (o := 0) (tenor := none) (by decide) (by decide) ⟨365, by simp, by norm_num⟩
  (by intro d _; split_ifs <;> norm_num) (by intro d _; split_ifs <;> norm_num) rfl trivial goodDayCount_int

/-- Non-vacuity: default probabilities. -/
example := C158_survival (cal := dayCal) (cls := .default) (ds := [0, 365]) (u := fun _ => 2 / 10) (u' := fun _ => 1 / 10) (o? := none)
  (dc := .default) (o := 0) (tenor := none) (.inr rfl) (by decide) (by decide) ⟨365, by simp, by norm_num⟩
  (by intro d _; simp; norm_num) rfl trivial goodDayCount_int

/-- Non-vacuity: a product with two flows and two flat curves. -/
example := C158_zero_present_value (cal := floatCal) (i := none) (ds := [0]) (u := fun _ => 1 / 100) (u' := fun _ => 2 / 100)
  (o? := none) (dc := .default) (o := 0) (tenor := none) (by simp [meanSpecs, IRClass.dflt]) (by simp) (by simp)
  (by intro _ d _; norm_num) (by intro d _; norm_num) rfl trivial goodDayCount_real (exPays (w := exWorld) rfl)
  (by intro q hq; simp at hq; rcases hq with rfl | rfl <;> norm_num)

/-! ### The hypotheses can be met: each theorem applied -/

example := C158_data (cal := dayCal) (cls := .zero) (i := none) (ds := [365, 730]) (u := fun _ => 1 / 100)
  (u' := fun d => if d = 365 then 2 / 100 else 1 / 100) (o? := some 0) (dc := .default) (o := 0) (tenor := none)
  (by simp [meanSpecs, IRClass.dflt]) (by decide) (by simp) (by intro _ d _; norm_num)
  (by intro d _; split_ifs <;> norm_num) rfl trivial goodDayCount_int
example := C158_present_value (exPays (w := exWorld) rfl) (by intro q hq; simp at hq; rcases hq with rfl | rfl <;> norm_num)
  (c := exWorld.curves 0) (c' := exWorld.curves 0) (same := false) (same' := false) (fun q _ => ⟨_, _, exDf 0 q.1, exDf 0 q.1, le_rfl⟩)
example := C158_flat (cal := dayCal) (i := none) (ds := [0, 365]) (u := fun _ => 1 / 100) (u' := fun _ => 2 / 100) (o? := none)
  (dc := .default) (o := 0) (tenor := none) (by simp [meanSpecs, CRClass.dflt]) (by decide) (by simp) (by intro _ d _; norm_num)
  (by intro d _; norm_num) rfl trivial goodDayCount_int
example := C158_hazard (cal := dayCal) (i := none) (ds := [0, 365]) (u := fun _ => 1 / 100) (u' := fun _ => 2 / 100) (o? := none)
  (dc := .default) (o := 0) (tenor := none) (by simp [meanSpecs, CRClass.dflt]) (by decide) (by simp) (by intro _ d _; norm_num)
  (by intro d _; norm_num) rfl trivial goodDayCount_int
example := C158_marginal (cal := dayCal) (cls := .marginal) (ds := [0, 365]) (u := fun _ => 9 / 10) (u' := fun _ => 95 / 100) (o? := none)
  (dc := .default) (o := 0) (tenor := none) (.inl rfl) (by decide) (by simp)
  (by intro d _; simp only [if_true]; linarith [floatMin_le_quarter]) (by intro d _; norm_num) rfl trivial goodDayCount_int

end Dcf
