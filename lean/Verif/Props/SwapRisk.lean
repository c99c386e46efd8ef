import Verif.Props.FloatRisk

/-! # Rate risk of interest rate swaps: C150 -/

set_option linter.unusedSectionVars false
set_option linter.unusedSimpArgs false
set_option linter.unusedVariables false

namespace Dcf

open Spec

section
variable {D P : Type} [LinearOrder D] {cal : Cal D P}

/-- The legs of a swap do not depend on the forward curve of the receiver leg. -/
theorem swap_forward (back : D → D → Py D) {sched rsched : Py (List D)} {s : D} {N : ℝ} {dc rdc : ProductDayCount D}
    {fo po : Option P} {x y : ℝ} {f : Fwd D} {lp lr : CFList D P} {dom : List D} {oo : Option D}
    (h : interestRateSwap cal back sched rsched s N dc rdc x y .none f fo po = .ok (.legs [.flat lp, .flat lr] dom oo)) (f' : Fwd D) :
    interestRateSwap cal back sched rsched s N dc rdc x y .none f' fo po =
        .ok (.legs [.flat lp, .flat { lr with arg := .fwd f' }] dom oo) ∧ lp.arg = .fwd .none ∧ lr.arg = .fwd f := by
  simp only [interestRateSwap, Py.bind_eq_ok] at h ⊢
  obtain ⟨d, hd, l, hl, d', hd', k, hk, h⟩ := h
  obtain ⟨o, h1, h2⟩ := CF.newLegs_eq h
  obtain ⟨hk', hka⟩ := couponLeg_forward back hk f'
  obtain ⟨-, hla⟩ := couponLeg_forward back hl .none
  simp only [CF.legs.injEq, List.cons.injEq, CF.flat.injEq, and_true] at h1
  obtain ⟨⟨rfl, rfl⟩, rfl, rfl⟩ := h1
  refine ⟨⟨d, hd, _, hl, d', hd', _, hk', ?_⟩, hla, hka⟩
  simp only [CF.newLegs, List.map_cons, List.map_nil, CF.origin, CF.domain, CFList.origin] at h2 ⊢
  rw [h2]
  rfl

/-- The lists `a` and `b` of the world are the legs of a swap with notional `N`: it pays the fixed rate `K` over the dates `T`
and receives, over the dates `S`, the rate of the curve `fa`, whatever its state, plus the margin `m`. -/
structure SwapIn (cal : Cal D P) (back : D → D → Py D) (T S : ℕ → D) (n k : ℕ) (N : ℝ) (dc rdc : ProductDayCount D) (K m : ℝ)
    (sameF : D → Bool) (limit fa a b : ℕ) (dom : List D) (oo : Option D) (w : World D P) : Prop where
  built : interestRateSwap cal back (.ok (payDatesOf T n)) (.ok (payDatesOf S k)) (T 0) N dc rdc K m .none
    (fwdRef cal sameF limit fa w.curves) none none = .ok (.legs [.flat (w.list a), .flat (w.list b)] dom oo)
  fixed : (w.lists a).arg = .fwd fun _ => .none
  floating : (w.lists b).arg = .fwd (fwdRef cal sameF limit fa)

/-- It stays one when curves change. -/
theorem SwapIn.moved {back : D → D → Py D} {T S : ℕ → D} {n k : ℕ} {N : ℝ} {dc rdc : ProductDayCount D} {K m : ℝ}
    {sameF : D → Bool} {limit fa a b : ℕ} {dom : List D} {oo : Option D} {w w' : World D P}
    (h : SwapIn cal back T S n k N dc rdc K m sameF limit fa a b dom oo w) (hl : w'.lists = w.lists) :
    SwapIn cal back T S n k N dc rdc K m sameF limit fa a b dom oo w' := by
  refine ⟨?_, by rw [hl]; exact h.fixed, by rw [hl]; exact h.floating⟩
  obtain ⟨h1, -, -⟩ := swap_forward back h.built (fwdRef cal sameF limit fa w'.curves)
  rw [h1]
  congr 4
  · simp [World.list, hl, h.fixed, World.arg]
  · simp [World.list, hl, h.floating, World.arg]

variable {T S : ℕ → D} {n k : ℕ} {dc rdc : ProductDayCount D} {g rg : D → D → ℝ} {sameF : D → Bool} {limit : ℕ} {K m N : ℝ}
  {fa disc a b : ℕ} {dom : List D} {oo : Option D} {w : World D P}

/-- C150: what a swap is worth when its floating rates come from one curve and it is discounted by another. -/
theorem C150_value (back : D → D → Py D) {c d : IRCurve D P} {v : D → ℝ} {τ dfF df : D → D → ℝ} {o o' : D} (h : Answers cal c v τ o)
    (hF : Factors cal c dfF o) (hc : c.cls ≠ .cash) (hD : Factors cal d df o') (hn : 0 < n) (hk : 0 < k)
    (hT : ∀ i < n, T i < T (i + 1)) (hS : ∀ i < k, S i < S (i + 1)) (h0 : T 0 = S 0)
    (hten : ∀ i < k, cal.add (S i) (c.tenor.getD cal.threeMonths) = .ok (S (i + 1))) (hg : dc.Means cal g) (hrg : rdc.Means cal rg)
    (hgτ : ∀ i < k, rg (S i) (S (i + 1)) = τ (S i) (S (i + 1))) (hs : ∀ d, sameF d = true → d = o)
    (hw : SwapIn cal back T S n k N dc rdc K m sameF (limit + 1) fa a b dom oo w) (hfa : w.curves fa = c.obj)
    (hdisc : w.curves disc = d.obj) {same : Bool} {vd : D} (hvd : vd ≤ T 0) (hsame : same = true → vd = o') :
    pvOn cal disc same (some vd) (.legs [.list a, .list b] dom oo) w =
      (.ok (N * (∑ i ∈ Finset.range k, df vd (S (i + 1)) * (m * τ (S i) (S (i + 1)) + 1 / dfF (S i) (S (i + 1)) - 1) -
        K * ∑ i ∈ Finset.range n, g (T i) (T (i + 1)) * df vd (T (i + 1)))), w) := by
  have hex : ∀ i, ∃ f, i < k → Floats cal (c.asFwd cal sameF (limit + 1)) none (S i) f ∧
      (1 + f * τ (S i) (S (i + 1))) * dfF (S i) (S (i + 1)) = 1 := by
    intro i
    by_cases hi : i < k
    · obtain ⟨f, hf⟩ := floats_curve h hF hc hs limit (hS i hi).ne (.tenor _ (hten i hi))
      exact ⟨f, fun _ => hf⟩
    · exact ⟨0, fun h => absurd h hi⟩
  choose r hr using hex
  obtain ⟨lp, hlp, hp⟩ := couponLeg_sched (cal := cal) back hn hT hg (f := .none) (fo := none) (r := fun _ => 0)
    (fun i _ => .none rfl) K (-N)
  obtain ⟨lr, hlr, hr'⟩ := couponLeg_sched back hk hS hrg (fun i hi => (hr i hi).1) m N
  have hfwd : fwdRef cal sameF (limit + 1) fa w.curves = c.asFwd cal sameF (limit + 1) := by
    simp [fwdRef, hfa, IRCurve.obj, CurveObj.ir?]
  have hbuilt := hw.built
  rw [← h0] at hlr
  rw [hfwd] at hbuilt
  simp only [interestRateSwap, Py.ok_bind, hlp, hlr] at hbuilt
  obtain ⟨o1, e1, -⟩ := CF.newLegs_eq hbuilt
  simp only [CF.legs.injEq, List.cons.injEq, CF.flat.injEq, and_true] at e1
  obtain ⟨⟨ha, hb⟩, -, -⟩ := e1
  have hP : Pays cal w vd (.legs [.list a, .list b] dom oo)
      (((List.range n).map fun i => (T (i + 1), (K + 0) * g (T i) (T (i + 1)) * -N)) ++
        ((List.range k).map fun i => (S (i + 1), (m + r i) * rg (S i) (S (i + 1)) * N))) := by
    refine ⟨[(List.range n).map fun i => (T (i + 1), (K + 0) * g (T i) (T (i + 1)) * -N),
      (List.range k).map fun i => (S (i + 1), (m + r i) * rg (S i) (S (i + 1)) * N)], ?_, by simp⟩
    simp only [Product.leaves, Product.leavesOf, List.append_nil, List.singleton_append]
    exact .cons (hp.pays hT ha hvd) (.cons (hr'.pays hS hb (h0 ▸ hvd)) .nil)
  have hdf : ∀ t, d.obj.discountFactor cal same vd t = .ok (df vd t) := fun t => hD.factor same vd t hsame
  rw [pvOn, hdisc, C54_flows hP (df := df vd) fun q _ => hdf q.1]
  refine Prod.ext (congrArg Except.ok ?_) rfl
  rw [List.map_append, List.sum_append, List.map_map, List.map_map, Function.comp_def, Function.comp_def, sum_map_range,
    sum_map_range]
  have e1 : ∑ i ∈ Finset.range n, df vd (T (i + 1)) * ((K + 0) * g (T i) (T (i + 1)) * -N) =
      -(N * (K * ∑ i ∈ Finset.range n, g (T i) (T (i + 1)) * df vd (T (i + 1)))) := by
    rw [Finset.mul_sum, Finset.mul_sum, ← Finset.sum_neg_distrib]
    exact Finset.sum_congr rfl fun i hi => by ring
  have e2 : ∑ i ∈ Finset.range k, df vd (S (i + 1)) * ((m + r i) * rg (S i) (S (i + 1)) * N) =
      N * ∑ i ∈ Finset.range k, df vd (S (i + 1)) * (m * τ (S i) (S (i + 1)) + 1 / dfF (S i) (S (i + 1)) - 1) := by
    rw [Finset.mul_sum]
    refine Finset.sum_congr rfl fun i hi => ?_
    have hi' : i < k := by simpa using hi
    have h3 := (hF.laws.pos (S i) (S (i + 1))).ne'
    have h4 : 1 / dfF (S i) (S (i + 1)) = 1 + r i * τ (S i) (S (i + 1)) := by rw [div_eq_iff h3, (hr i hi').2]
    rw [hgτ i hi', h4]
    ring
  simp only [e1, e2]
  ring

/-- C150: the basis point value of a swap, whichever curves are shifted: discount factors and floating rates move with the
curve they come from. -/
theorem C150_risk (back : D → D → Py D) {c d : IRCurve D P} {v u : D → ℝ} {τ θ dfF df : D → D → ℝ} {o o' : D}
    (h : Answers cal c v τ o) (hF : Factors cal c dfF o) (hc : c.cls = .zero) (hf : c.spread = none)
    (h' : Answers cal d u θ o') (hD : Factors cal d df o') (hd : d.cls = .zero) (hf' : d.spread = none) (hn : 0 < n) (hk : 0 < k)
    (hT : ∀ i < n, T i < T (i + 1)) (hS : ∀ i < k, S i < S (i + 1)) (h0 : T 0 = S 0)
    (hten : ∀ i < k, cal.add (S i) (c.tenor.getD cal.threeMonths) = .ok (S (i + 1))) (hg : dc.Means cal g) (hrg : rdc.Means cal rg)
    (hgτ : ∀ i < k, rg (S i) (S (i + 1)) = τ (S i) (S (i + 1))) (hs : ∀ d, sameF d = true → d = o)
    (hw : SwapIn cal back T S n k N dc rdc K m sameF (limit + 1) fa a b dom oo w) (hfa : w.curves fa = c.obj)
    (hdisc : w.curves disc = d.obj) {same : Bool} {vd : D} (hvd : vd ≤ T 0) (hsame : same = true → vd = o')
    {delta : Option (List ℕ)} (hl : Bumpable (delta.getD [disc]) w) {shift : ℝ} (hsh : shift ≠ 0) :
    basisPointValue cal disc same (.legs [.list a, .list b] dom oo) (some vd) delta shift w =
      (.ok ((N * (∑ i ∈ Finset.range k, df vd (S (i + 1)) *
              Real.exp (-(shiftAt (delta.getD [disc]) disc shift * θ vd (S (i + 1)))) * (m * τ (S i) (S (i + 1)) +
              Real.exp (shiftAt (delta.getD [disc]) fa shift * τ (S i) (S (i + 1))) / dfF (S i) (S (i + 1)) - 1) -
            K * ∑ i ∈ Finset.range n, g (T i) (T (i + 1)) * (df vd (T (i + 1)) *
              Real.exp (-(shiftAt (delta.getD [disc]) disc shift * θ vd (T (i + 1)))))) -
          N * (∑ i ∈ Finset.range k, df vd (S (i + 1)) * (m * τ (S i) (S (i + 1)) + 1 / dfF (S i) (S (i + 1)) - 1) -
            K * ∑ i ∈ Finset.range n, g (T i) (T (i + 1)) * df vd (T (i + 1)))) / shift * (1 / 10000)), w) := by
  obtain ⟨c', v', hc1, hc2, hc3, hc4, hc5⟩ := bumped_curve hfa h hc hf hF (delta.getD [disc]) shift
  obtain ⟨d', u', hd1, hd2, hd3, hd4, hd5⟩ := bumped_curve hdisc h' hd hf' hD (delta.getD [disc]) shift
  have hx := C150_value back h hF (by simp [hc]) hD hn hk hT hS h0 hten hg hrg hgτ hs hw hfa hdisc hvd hsame
  have hy := C150_value back hc2 hc5 (by simp [hc3]) hd5 hn hk hT hS h0 (by rw [hc4]; exact hten) hg hrg hgτ hs
    (hw.moved (w' := w.bumped (delta.getD [disc]) shift) rfl) hc1 hd1 hvd hsame
  refine C61_value.2 ⟨rfl, hsh, hl, _, _, hx, hy, ?_⟩
  have e : ∀ i, Real.exp (shiftAt (delta.getD [disc]) fa shift * τ (S i) (S (i + 1))) / dfF (S i) (S (i + 1)) =
      1 / (dfF (S i) (S (i + 1)) * Real.exp (-(shiftAt (delta.getD [disc]) fa shift * τ (S i) (S (i + 1))))) := by
    intro i
    rw [one_div, mul_inv, ← Real.exp_neg, neg_neg, mul_comm (dfF _ _)⁻¹, ← div_eq_mul_inv]
  simp only [e]

/-- C150: with one curve for rates and discounting, shifting it (or all copies of it the swap depends on) moves a swap without
margin as if the floating leg were a payment of the notional at the start against one at the end. -/
theorem C150_single (back : D → D → Py D) {c : IRCurve D P} {v : D → ℝ} {τ df : D → D → ℝ} {o : D}
    (h : Answers cal c v τ o) (hF : Factors cal c df o) (hc : c.cls = .zero) (hf : c.spread = none) (hn : 0 < n) (hk : 0 < k)
    (hT : ∀ i < n, T i < T (i + 1)) (hS : ∀ i < k, S i < S (i + 1)) (h0 : T 0 = S 0)
    (hten : ∀ i < k, cal.add (S i) (c.tenor.getD cal.threeMonths) = .ok (S (i + 1))) (hg : dc.Means cal g) (hrg : rdc.Means cal rg)
    (hgτ : ∀ i < k, rg (S i) (S (i + 1)) = τ (S i) (S (i + 1))) (hs : ∀ d, sameF d = true → d = o)
    (hw : SwapIn cal back T S n k N dc rdc K 0 sameF (limit + 1) fa a b dom oo w) (hfa : w.curves fa = c.obj)
    (hdisc : w.curves disc = c.obj) {same : Bool} {vd : D} (hvd : vd ≤ T 0) (hsame : same = true → vd = o)
    {delta : Option (List ℕ)} (hl : Bumpable (delta.getD [disc]) w) (h1 : fa ∈ delta.getD [disc]) (h2 : disc ∈ delta.getD [disc])
    {shift : ℝ} (hsh : shift ≠ 0) :
    basisPointValue cal disc same (.legs [.list a, .list b] dom oo) (some vd) delta shift w =
      (.ok (N * (df vd (S 0) * (Real.exp (-(shift * τ vd (S 0))) - 1) - df vd (S k) * (Real.exp (-(shift * τ vd (S k))) - 1) -
        K * ∑ i ∈ Finset.range n, g (T i) (T (i + 1)) * df vd (T (i + 1)) * (Real.exp (-(shift * τ vd (T (i + 1)))) - 1)) /
          shift * (1 / 10000)), w) := by
  rw [C150_risk back h hF hc hf h hF hc hf hn hk hT hS h0 hten hg hrg hgτ hs hw hfa hdisc hvd hsame hl hsh]
  refine Prod.ext (congrArg Except.ok ?_) rfl
  congr 2
  rw [← mul_sub]
  refine congrArg (N * ·) ?_
  simp only [shiftAt, h1, h2, if_true, zero_mul, zero_add]
  have e1 : ∀ i, df vd (S (i + 1)) * (1 / df (S i) (S (i + 1)) - 1) = df vd (S i) - df vd (S (i + 1)) := by
    intro i
    have hp := (hF.laws.pos (S i) (S (i + 1))).ne'
    rw [← hF.laws.mul vd (S i) (S (i + 1))]
    field_simp
  have e2 : ∀ i, df vd (S (i + 1)) * Real.exp (-(shift * τ vd (S (i + 1)))) *
      (Real.exp (shift * τ (S i) (S (i + 1))) / df (S i) (S (i + 1)) - 1) =
      df vd (S i) * Real.exp (-(shift * τ vd (S i))) - df vd (S (i + 1)) * Real.exp (-(shift * τ vd (S (i + 1)))) := by
    intro i
    have hp := (hF.laws.pos (S i) (S (i + 1))).ne'
    have e : Real.exp (-(shift * τ vd (S (i + 1)))) * Real.exp (shift * τ (S i) (S (i + 1))) = Real.exp (-(shift * τ vd (S i))) := by
      rw [← Real.exp_add, ← h.good.add vd (S i) (S (i + 1))]
      congr 1
      ring
    rw [← e, ← hF.laws.mul vd (S i) (S (i + 1))]
    field_simp
  simp only [e1, e2]
  rw [Finset.sum_range_sub' (fun i => df vd (S i)), Finset.sum_range_sub' (fun i => df vd (S i) * Real.exp (-(shift * τ vd (S i))))]
  have e3 : ∑ i ∈ Finset.range n, g (T i) (T (i + 1)) * df vd (T (i + 1)) * (Real.exp (-(shift * τ vd (T (i + 1)))) - 1) =
      ∑ i ∈ Finset.range n, g (T i) (T (i + 1)) * (df vd (T (i + 1)) * Real.exp (-(shift * τ vd (T (i + 1))))) -
        ∑ i ∈ Finset.range n, g (T i) (T (i + 1)) * df vd (T (i + 1)) := by
    rw [← Finset.sum_sub_distrib]
    exact Finset.sum_congr rfl fun i _ => by ring
  rw [e3]
  ring

/-- C150: a swap that pays a fixed rate of at least 0 and starts at the valuation date gains when rates rise, one with negative
notional (a receiver swap) loses. -/
theorem C150_sign (back : D → D → Py D) {c : IRCurve D P} {v : D → ℝ} {τ df : D → D → ℝ} {o : D}
    (h : Answers cal c v τ o) (hF : Factors cal c df o) (hc : c.cls = .zero) (hf : c.spread = none) (hn : 0 < n) (hk : 0 < k)
    (hT : ∀ i < n, T i < T (i + 1)) (hS : ∀ i < k, S i < S (i + 1)) (h0 : T 0 = S 0)
    (hten : ∀ i < k, cal.add (S i) (c.tenor.getD cal.threeMonths) = .ok (S (i + 1))) (hg : dc.Means cal g) (hrg : rdc.Means cal rg)
    (hpos : ∀ i < n, 0 < g (T i) (T (i + 1)))
    (hgτ : ∀ i < k, rg (S i) (S (i + 1)) = τ (S i) (S (i + 1))) (hs : ∀ d, sameF d = true → d = o)
    (hw : SwapIn cal back T S n k N dc rdc K 0 sameF (limit + 1) fa a b dom oo w) (hfa : w.curves fa = c.obj)
    (hdisc : w.curves disc = c.obj) {same : Bool} (hsame : same = true → T 0 = o)
    {delta : Option (List ℕ)} (hl : Bumpable (delta.getD [disc]) w) (h1 : fa ∈ delta.getD [disc]) (h2 : disc ∈ delta.getD [disc])
    {shift : ℝ} (hsh : shift ≠ 0) (hK : 0 ≤ K) (hN : N ≠ 0) :
    ∃ z, basisPointValue cal disc same (.legs [.list a, .list b] dom oo) (some (T 0)) delta shift w = (.ok z, w) ∧
      (0 < z ↔ 0 < N) ∧ (z < 0 ↔ N < 0) := by
  have key : ∀ x y : ℝ, 0 < x → 0 < y → y * (Real.exp (-(shift * x)) - 1) / shift < 0 := by
    intro x y hx hy
    rcases hsh.lt_or_gt with hlt | hgt
    · refine div_neg_of_pos_of_neg (mul_pos hy (sub_pos.2 (Real.one_lt_exp_iff.2 ?_))) hlt
      nlinarith
    · refine div_neg_of_neg_of_pos (mul_neg_of_pos_of_neg hy (sub_neg.2 (Real.exp_lt_one_iff.2 ?_))) hgt
      nlinarith
  have hτT : ∀ i < n, 0 < τ (T 0) (T (i + 1)) := fun i hi =>
    (h.good.pos _ _).2 (increasing_lt hT (by omega : 0 < i + 1) (by omega))
  have hτS : 0 < τ (T 0) (S k) := by
    rw [h0]
    exact (h.good.pos _ _).2 (increasing_lt hS hk le_rfl)
  refine ⟨_, C150_single back h hF hc hf hn hk hT hS h0 hten hg hrg hgτ hs hw hfa hdisc le_rfl hsame hl h1 h2 hsh, ?_⟩
  have e : N * (df (T 0) (S 0) * (Real.exp (-(shift * τ (T 0) (S 0))) - 1) - df (T 0) (S k) * (Real.exp (-(shift * τ (T 0) (S k))) - 1) -
        K * ∑ i ∈ Finset.range n, g (T i) (T (i + 1)) * df (T 0) (T (i + 1)) * (Real.exp (-(shift * τ (T 0) (T (i + 1)))) - 1)) /
          shift * (1 / 10000) =
      N * ((-(df (T 0) (S k) * (Real.exp (-(shift * τ (T 0) (S k))) - 1) / shift) +
        K * ∑ i ∈ Finset.range n, -(g (T i) (T (i + 1)) * df (T 0) (T (i + 1)) * (Real.exp (-(shift * τ (T 0) (T (i + 1)))) - 1) / shift)) *
          (1 / 10000)) := by
    rw [← h0, h.good.self, Finset.sum_neg_distrib, ← Finset.sum_div]
    simp
    ring
  rw [e]
  have hA := key _ _ hτS (hF.laws.pos (T 0) (S k))
  have hB : 0 ≤ ∑ i ∈ Finset.range n, -(g (T i) (T (i + 1)) * df (T 0) (T (i + 1)) * (Real.exp (-(shift * τ (T 0) (T (i + 1)))) - 1) / shift) := by
    refine Finset.sum_nonneg fun i hi => ?_
    have hi' : i < n := by simpa using hi
    have := key _ _ (hτT i hi') (mul_pos (hpos i hi') (hF.laws.pos (T 0) (T (i + 1))))
    linarith
  have hC := mul_nonneg hK hB
  have hX : 0 < (-(df (T 0) (S k) * (Real.exp (-(shift * τ (T 0) (S k))) - 1) / shift) +
        K * ∑ i ∈ Finset.range n, -(g (T i) (T (i + 1)) * df (T 0) (T (i + 1)) * (Real.exp (-(shift * τ (T 0) (T (i + 1)))) - 1) / shift)) *
          (1 / 10000) := mul_pos (by linarith) (by norm_num)
  exact ⟨mul_pos_iff_of_pos_right hX, ⟨fun hz => by nlinarith, fun hz => mul_neg_of_neg_of_pos hz hX⟩⟩

end

/-- A world with a swap against 3%: curves 0 and 1 hold the same rates, list 0 the fixed leg, list 1 the floating leg. -/
theorem exSwap (K : ℝ) (fa : ℕ) : ∃ (w : World ℝ FloatPeriod) (dom : List ℝ) (oo : Option ℝ),
    SwapIn floatCal (fun _ _ => .error .value) (fun i => (i : ℝ)) (fun i => (i : ℝ)) 5 5 100 .none .none K 0 (fun _ => false) 1 fa 0 1
      dom oo w ∧ ∀ a, w.curves a = (flatZero floatCal none .default (some (.num 1)) 0 0.03).obj := by
  set c := flatZero floatCal none .default (some (.num 1)) 0 0.03 with hc
  obtain ⟨df, hF⟩ := Factors.zero (flatZero_answers 0.03) rfl
  obtain ⟨ln, lk, dom, oo, h, -⟩ := C107_value (fun _ _ => .error .value) (flatZero_answers 0.03) hF (by simp [flatZero, irOf])
    (T := fun i => (i : ℝ)) (S := fun i => (i : ℝ)) (n := 5) (k := 5) (by simp) (by simp) (by simp) (by simp) rfl rfl
    (by simp [flatZero, irOf, floatCal]) (dc := .none) (rdc := .none) rfl rfl (fun _ _ => rfl) (sameF := fun _ => false) (by simp) 0 K 100
  obtain ⟨-, h1, h2⟩ := swap_forward _ h .none
  let w : World ℝ FloatPeriod :=
    { curves := fun _ => c.obj
      models := exWorld.models
      lists := fun a => if a = 0 then ⟨ln.origin?, ln.domain, ln.flows, .fwd fun _ => .none, ln.hasModel, false, false⟩
        else ⟨lk.origin?, lk.domain, lk.flows, .fwd (fwdRef floatCal (fun _ => false) 1 fa), lk.hasModel, true, true⟩ }
  have hw0 : w.list 0 = ln := by
    cases ln
    simp only [World.list, w, World.arg, if_true] at h1 ⊢
    rw [h1]
  have hw1 : w.list 1 = lk := by
    cases lk
    simp only [World.list, w, World.arg, if_neg one_ne_zero] at h2 ⊢
    rw [h2]
    rfl
  refine ⟨w, dom, oo, ⟨?_, by simp [w], by simp [w]⟩, fun _ => rfl⟩
  rw [hw0, hw1]
  exact h

example : ∃ (w : World ℝ FloatPeriod) (p : Product ℝ), ∀ shift ≠ 0,
    ∃ z > 0, basisPointValue floatCal 0 false p (some 0) (some [0, 1]) shift w = (.ok z, w) := by
  obtain ⟨w, dom, oo, hw, hc⟩ := exSwap (1 / 50) 1
  obtain ⟨df, hF⟩ := Factors.zero (flatZero_answers 0.03) rfl
  refine ⟨w, .legs [.list 0, .list 1] dom oo, fun shift h0 => ?_⟩
  obtain ⟨z, h1, h2, -⟩ := C150_sign (fun _ _ => .error .value) (flatZero_answers 0.03) hF rfl rfl (T := fun i => (i : ℝ))
      (S := fun i => (i : ℝ)) (n := 5) (k := 5) (by simp) (by simp) (by simp) (by simp) rfl
      (by simp [flatZero, irOf, floatCal]) (dc := .none) (rdc := .none) (g := floatCal.dayCount) (rg := floatCal.dayCount) rfl rfl
      (by simp [floatCal]) (fun _ _ => rfl) (sameF := fun _ => false) (by simp) hw (hc 1) (hc 0)
      (by simp) (delta := some [0, 1]) ⟨by simp, by simp [hc, IRCurve.obj, flatZero, irOf],
        by simp [hc, IRCurve.obj, (flatZero_answers 0.03).origin]⟩ (by simp) (by simp) h0 (by norm_num) (by norm_num)
  exact ⟨z, h2.2 (by norm_num), by simpa using h1⟩

end Dcf
