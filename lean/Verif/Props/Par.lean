import Verif.Props.Products
import Verif.Props.PresentValue
import Verif.Props.RateLoops
import Verif.Lemmas.FlatCurve

/-! # Floating rate notes and par swaps: C106, C107 -/

set_option linter.unusedSectionVars false
set_option linter.unusedSimpArgs false
set_option linter.unusedVariables false

namespace Dcf

open Spec

section
variable {D P : Type} [LinearOrder D] {cal : Cal D P}

/-- All discount factors of the curve, whether or not dates are the origin object, are given by `df`, which is positive, 1
over empty periods and multiplies over adjacent ones. -/
structure Factors (cal : Cal D P) (c : IRCurve D P) (df : D → D → ℝ) (o : D) : Prop where
  laws : DiscountLaws df
  factor : ∀ same s t, (same = true → s = o) → c.factor cal same s t = .ok (df s t)

/-- The pay dates `T 1, ..., T n`. -/
def payDatesOf (T : ℕ → D) (n : ℕ) : List D := (List.range n).map fun i => T (i + 1)

theorem increasing_lt {T : ℕ → D} {n : ℕ} (hT : ∀ i < n, T i < T (i + 1)) {i j : ℕ} (hij : i < j) (hj : j ≤ n) : T i < T j := by
  induction j with
  | zero => omega
  | succ j ih =>
    rcases Nat.lt_succ_iff_lt_or_eq.1 hij with h | rfl
    · exact (ih h (by omega)).trans (hT j (by omega))
    · exact hT i (by omega)

theorem payDatesOf_nodup {T : ℕ → D} {n : ℕ} (hT : ∀ i < n, T i < T (i + 1)) : (payDatesOf T n).Nodup := by
  rw [payDatesOf, List.nodup_iff_pairwise_ne, List.pairwise_map]
  refine List.Pairwise.imp_of_mem ?_ (List.pairwise_lt_range (n := n))
  intro a b ha hb h
  exact (increasing_lt hT (by omega) (by simp at hb; omega)).ne

theorem payDatesOf_get {T : ℕ → D} {n i : ℕ} (hi : i < (payDatesOf T n).length) : (payDatesOf T n)[i] = T (i + 1) := by
  simp [payDatesOf]

theorem payDatesOf_length (T : ℕ → D) (n : ℕ) : (payDatesOf T n).length = n := by simp [payDatesOf]

theorem payDatesOf_start {T : ℕ → D} {n i : ℕ} (hi : i < n) :
    (T 0 :: payDatesOf T n)[i]'(by simp [payDatesOf]; omega) = T i := by
  cases i with
  | zero => rfl
  | succ i => simp [payDatesOf]

/-- Flat lists without payoff model pay what they say. -/
theorem paysList_of {w : World D P} {a : ℕ} {l : CFList D P} (hl : w.list a = l) (hm : l.hasModel = false) {vd : D}
    {ι : Type} {is : List ι} {d : ι → D} {x : ι → ℝ} (hd : l.domain = is.map d) (hv : ∀ i ∈ is, vd ≤ d i)
    (hx : ∀ i ∈ is, l.getitem cal (d i) = .ok (x i)) : PaysList cal w vd a (is.map fun i => (d i, x i)) := by
  subst hl
  have hm' : (w.lists a).hasModel = false := hm
  have hd' : (w.lists a).domain = is.map d := hd
  have hw : w.dated (some vd) a = w := by simp [World.dated, hm']
  refine ⟨fun h => by simp [hm'] at h, fun t => match (w.list a).getitem cal t with
    | .ok y => y
    | .error _ => 0, fun t ht _ => ?_, ?_⟩
  · rw [hd'] at ht
    obtain ⟨i, hi, rfl⟩ := List.mem_map.1 ht
    rw [hw]
    simp [hx i hi]
  · rw [hd', List.filter_eq_self.2 (by simpa using hv), List.map_map]
    refine List.map_congr_left fun i hi => ?_
    simp [hx i hi]

theorem sum_map_range (n : ℕ) (f : ℕ → ℝ) : ((List.range n).map f).sum = ∑ i ∈ Finset.range n, f i := by
  rw [Finset.sum_range, ← List.sum_ofFn]
  congr 1
  apply List.ext_getElem <;> simp

/-- A coupon leg without pay offset on the dates `T`, its rates `r`. -/
theorem couponLeg_sched (back : D → D → Py D) {T : ℕ → D} {n : ℕ} (hn : 0 < n) (hT : ∀ i < n, T i < T (i + 1))
    {dc : ProductDayCount D} {g : D → D → ℝ} (hg : dc.Means cal g) {f : Fwd D} {fo : Option P} {r : ℕ → ℝ}
    (hr : ∀ i < n, Floats cal f fo (T i) (r i)) (c x : ℝ) :
    ∃ l, couponLeg cal back (payDatesOf T n) (List.replicate (payDatesOf T n).length x) (T 0) dc fo none c f = .ok l ∧
      Coupons cal l (T 0) (payDatesOf T n) fun i => (c + r i) * g (T i) (T (i + 1)) * x := by
  have hlen := payDatesOf_length T n
  refine couponLeg_of (sh := id) (r := r) hg (by rw [← List.length_pos_iff, hlen]; exact hn) (payDatesOf_nodup hT) (by simp)
    (fun d _ => rfl) (fun i hi => ?_) (fun i hi => ?_)
  · rw [id, payDatesOf_start (by omega)]
    exact hr i (by omega)
  · simp only [id]
    rw [payDatesOf_start (by omega), payDatesOf_get]
    simp

/-- What such a leg pays. -/
theorem Coupons.pays {l : CFList D P} {T : ℕ → D} {n : ℕ} {pay : ℕ → ℝ} (hT : ∀ i < n, T i < T (i + 1))
    (h : Coupons cal l (T 0) (payDatesOf T n) pay) {w : World D P} {a : ℕ} (hl : w.list a = l) {vd : D} (hv : vd ≤ T 0) :
    PaysList cal w vd a ((List.range n).map fun i => (T (i + 1), pay i)) := by
  refine paysList_of hl h.model h.domain (fun i hi => ?_) (fun i hi => ?_)
  · exact hv.trans (increasing_lt hT (Nat.succ_pos i) (by simp at hi; omega)).le
  · have hi' : i < (payDatesOf T n).length := by rw [payDatesOf_length]; simpa using hi
    have := h.flow i hi'
    rwa [payDatesOf_get] at this

/-- The floating rate of one period: `(1 + f τ) df = 1` for the discount factor of the period. -/
theorem floats_curve {c : IRCurve D P} {v : D → ℝ} {τ df : D → D → ℝ} {o : D} (h : Answers cal c v τ o)
    (hF : Factors cal c df o) (hc : c.cls ≠ .cash) {sameF : D → Bool} (hs : ∀ d, sameF d = true → d = o) (limit : ℕ)
    {s e : D} (hse : s ≠ e) (he : CashEnd c cal s none none e) :
    ∃ f, Floats cal (c.asFwd cal sameF (limit + 1)) none s f ∧ (1 + f * τ s e) * df s e = 1 := by
  obtain ⟨f, hf, hrel⟩ := C31_relation h hc (sameF s) limit he hse (hF.factor (sameF s) s e (hs s)) (hF.laws.pos s e).ne'
  exact ⟨f, .curve rfl (.cash hf), hrel⟩

/-- Discounted floating coupons telescope. -/
theorem float_sum {τ df : D → D → ℝ} (hL : DiscountLaws df) {T : ℕ → D} {r : ℕ → ℝ} {n : ℕ}
    (hr : ∀ i < n, (1 + r i * τ (T i) (T (i + 1))) * df (T i) (T (i + 1)) = 1) (vd : D) :
    ∑ i ∈ Finset.range n, df vd (T (i + 1)) * (r i * τ (T i) (T (i + 1))) = df vd (T 0) - df vd (T n) := by
  rw [← Finset.sum_range_sub' (fun i => df vd (T i)) n]
  refine Finset.sum_congr rfl fun i hi => ?_
  have h1 := hr i (by simpa using hi)
  have h2 := hL.mul vd (T i) (T (i + 1))
  rw [← h2]
  linear_combination df vd (T i) * h1

/-- C106: a floating rate note over the tenor of its curve, paying the margin `m` on top, is worth the discounted margins:
the notional flows and the floating coupons cancel, at every valuation date up to the start. -/
theorem C106_margin (back : D → D → Py D) {c : IRCurve D P} {v : D → ℝ} {τ df : D → D → ℝ} {o : D} (h : Answers cal c v τ o)
    (hF : Factors cal c df o) (hc : c.cls ≠ .cash) {T : ℕ → D} {n : ℕ} (hn : 0 < n) (hT : ∀ i < n, T i < T (i + 1))
    (hten : ∀ i < n, cal.add (T i) (c.tenor.getD cal.threeMonths) = .ok (T (i + 1))) {dc : ProductDayCount D}
    {g : D → D → ℝ} (hg : dc.Means cal g) (hgτ : ∀ i < n, g (T i) (T (i + 1)) = τ (T i) (T (i + 1)))
    {sameF : D → Bool} (hs : ∀ d, sameF d = true → d = o) (limit : ℕ) (m N : ℝ) :
    ∃ ln lk dom oo, bond cal back (.ok (payDatesOf T n)) (T 0) (T n) (.scalar N) dc m (c.asFwd cal sameF (limit + 1)) none none =
        .ok (.legs [.flat ln, .flat lk] dom oo) ∧
      ∀ (w : World D P) a b, w.list a = ln → w.list b = lk → ∀ same vd, vd ≤ T 0 → (same = true → vd = o) →
        pv cal c.obj same (some vd) (.legs [.list a, .list b] dom oo) w =
          (.ok (m * N * ∑ i ∈ Finset.range n, τ (T i) (T (i + 1)) * df vd (T (i + 1))), w) := by
  have hex : ∀ i, ∃ f, i < n → Floats cal (c.asFwd cal sameF (limit + 1)) none (T i) f ∧
      (1 + f * τ (T i) (T (i + 1))) * df (T i) (T (i + 1)) = 1 := by
    intro i
    by_cases hi : i < n
    · obtain ⟨f, hf⟩ := floats_curve h hF hc hs limit (hT i hi).ne (.tenor _ (hten i hi))
      exact ⟨f, fun _ => hf⟩
    · exact ⟨0, fun h => absurd h hi⟩
  choose r hr using hex
  have h0n : T 0 < T n := increasing_lt hT hn le_rfl
  obtain ⟨ln, hln, hnk, hnd, hno, hnm, hnf⟩ := fixedLeg_of (P := P) (cal := cal) (dates := [T 0, T n])
    (as := [-N, N]) (T 0) rfl (by simp [h0n.ne])
  obtain ⟨lk, hlk, hk⟩ := couponLeg_sched back hn hT hg (fun i hi => (hr i hi).1) m N
  obtain ⟨b, hb, -⟩ := twoLegs_of hnk hno hk
  obtain ⟨oo, rfl, -⟩ := CF.newLegs_eq hb
  refine ⟨ln, lk, sortedSet (List.map CF.domain [.flat ln, .flat lk]).flatten, oo, ?_, fun w a b ha hb' same vd hvd hsame => ?_⟩
  · simp only [bond, notionalPlan, Py.ok_bind, hln, hlk]
    exact hb
  · have hP : Pays cal w vd (.legs [.list a, .list b] (sortedSet (List.map CF.domain [.flat ln, .flat lk]).flatten) oo)
        ([(T 0, -N), (T n, N)] ++ ((List.range n).map fun i => (T (i + 1), (m + r i) * g (T i) (T (i + 1)) * N))) := by
      refine ⟨[[(T 0, -N), (T n, N)], (List.range n).map fun i => (T (i + 1), (m + r i) * g (T i) (T (i + 1)) * N)], ?_, by simp⟩
      simp only [Product.leaves, Product.leavesOf, List.append_nil, List.singleton_append]
      refine .cons ?_ (.cons (hk.pays hT hb' hvd) .nil)
      have := paysList_of (cal := cal) ha hnm (vd := vd) (is := [(T 0, -N), (T n, N)]) (d := Prod.fst) (x := Prod.snd)
        (by simpa using hnd) (by simp [hvd, hvd.trans h0n.le]) (by
          have h1 := hnf 0 (by simp)
          have h2 := hnf 1 (by simp)
          simpa using ⟨h1, h2⟩)
      simpa using this
    have hdf : ∀ t, c.obj.discountFactor cal same vd t = .ok (df vd t) := fun t => hF.factor same vd t hsame
    rw [C54_flows hP (df := df vd) fun q _ => hdf q.1]
    refine Prod.ext (congrArg Except.ok ?_) rfl
    rw [List.map_append, List.sum_append, List.map_map, Function.comp_def, sum_map_range]
    have key := float_sum hF.laws (fun i hi => (hr i hi).2) vd
    have : ∑ i ∈ Finset.range n, df vd (T (i + 1)) * ((m + r i) * g (T i) (T (i + 1)) * N) =
        m * N * (∑ i ∈ Finset.range n, τ (T i) (T (i + 1)) * df vd (T (i + 1))) +
          N * ∑ i ∈ Finset.range n, df vd (T (i + 1)) * (r i * τ (T i) (T (i + 1))) := by
      rw [Finset.mul_sum, Finset.mul_sum, ← Finset.sum_add_distrib]
      refine Finset.sum_congr rfl fun i hi => ?_
      rw [hgτ i (by simpa using hi)]
      ring
    simp only [this, key]
    simp
    ring

/-- C106: without margin it is worth nothing at the start and before: the notional paid is the value of what is received. -/
theorem C106_par (back : D → D → Py D) {c : IRCurve D P} {v : D → ℝ} {τ df : D → D → ℝ} {o : D} (h : Answers cal c v τ o)
    (hF : Factors cal c df o) (hc : c.cls ≠ .cash) {T : ℕ → D} {n : ℕ} (hn : 0 < n) (hT : ∀ i < n, T i < T (i + 1))
    (hten : ∀ i < n, cal.add (T i) (c.tenor.getD cal.threeMonths) = .ok (T (i + 1))) {dc : ProductDayCount D}
    {g : D → D → ℝ} (hg : dc.Means cal g) (hgτ : ∀ i < n, g (T i) (T (i + 1)) = τ (T i) (T (i + 1)))
    {sameF : D → Bool} (hs : ∀ d, sameF d = true → d = o) (limit : ℕ) (N : ℝ) :
    ∃ ln lk dom oo, bond cal back (.ok (payDatesOf T n)) (T 0) (T n) (.scalar N) dc 0 (c.asFwd cal sameF (limit + 1)) none none =
        .ok (.legs [.flat ln, .flat lk] dom oo) ∧
      ∀ (w : World D P) a b, w.list a = ln → w.list b = lk → ∀ same vd, vd ≤ T 0 → (same = true → vd = o) →
        pv cal c.obj same (some vd) (.legs [.list a, .list b] dom oo) w = (.ok 0, w) := by
  obtain ⟨ln, lk, dom, oo, hb, hp⟩ := C106_margin back h hF hc hn hT hten hg hgτ hs limit 0 N
  refine ⟨ln, lk, dom, oo, hb, fun w a b ha hb same vd hv hsame => ?_⟩
  rw [hp w a b ha hb same vd hv hsame]
  simp

/-- C107: a swap paying the fixed rate `K` on the dates `T` for the floating rate of the curve on its tenor dates `S`,
both from the same start to the same end, is worth the discounted notional at the start less that at the end less the
discounted fixed coupons. -/
theorem C107_value (back : D → D → Py D) {c : IRCurve D P} {v : D → ℝ} {τ df : D → D → ℝ} {o : D} (h : Answers cal c v τ o)
    (hF : Factors cal c df o) (hc : c.cls ≠ .cash) {T S : ℕ → D} {n k : ℕ} (hn : 0 < n) (hk : 0 < k)
    (hT : ∀ i < n, T i < T (i + 1)) (hS : ∀ i < k, S i < S (i + 1)) (h0 : T 0 = S 0) (h1 : T n = S k)
    (hten : ∀ i < k, cal.add (S i) (c.tenor.getD cal.threeMonths) = .ok (S (i + 1))) {dc rdc : ProductDayCount D}
    {g rg : D → D → ℝ} (hg : dc.Means cal g) (hrg : rdc.Means cal rg)
    (hgτ : ∀ i < k, rg (S i) (S (i + 1)) = τ (S i) (S (i + 1)))
    {sameF : D → Bool} (hs : ∀ d, sameF d = true → d = o) (limit : ℕ) (K N : ℝ) :
    ∃ lp lr dom oo, interestRateSwap cal back (.ok (payDatesOf T n)) (.ok (payDatesOf S k)) (T 0) N dc rdc K 0 .none
        (c.asFwd cal sameF (limit + 1)) none none = .ok (.legs [.flat lp, .flat lr] dom oo) ∧
      ∀ (w : World D P) a b, w.list a = lp → w.list b = lr → ∀ same vd, vd ≤ T 0 → (same = true → vd = o) →
        pv cal c.obj same (some vd) (.legs [.list a, .list b] dom oo) w =
          (.ok (N * (df vd (T 0) - df vd (T n) - K * ∑ i ∈ Finset.range n, g (T i) (T (i + 1)) * df vd (T (i + 1)))), w) := by
  have hex : ∀ i, ∃ f, i < k → Floats cal (c.asFwd cal sameF (limit + 1)) none (S i) f ∧
      (1 + f * τ (S i) (S (i + 1))) * df (S i) (S (i + 1)) = 1 := by
    intro i
    by_cases hi : i < k
    · obtain ⟨f, hf⟩ := floats_curve h hF hc hs limit (hS i hi).ne (.tenor _ (hten i hi))
      exact ⟨f, fun _ => hf⟩
    · exact ⟨0, fun h => absurd h hi⟩
  choose r hr using hex
  obtain ⟨lp, hlp, hp⟩ := couponLeg_sched (cal := cal) back hn hT hg (f := .none) (fo := none) (r := fun _ => 0)
    (fun i _ => .none rfl) K (-N)
  obtain ⟨lr, hlr, hr'⟩ := couponLeg_sched back hk hS hrg (fun i hi => (hr i hi).1) 0 N
  have hr0 : Coupons cal lr (T 0) (payDatesOf S k) fun i => (0 + r i) * rg (S i) (S (i + 1)) * N := by rw [h0]; exact hr'
  obtain ⟨b, hb, -⟩ := twoLegs_of hp.keyed hp.origin hr0
  obtain ⟨oo, rfl, -⟩ := CF.newLegs_eq hb
  refine ⟨lp, lr, sortedSet (List.map CF.domain [.flat lp, .flat lr]).flatten, oo, ?_, fun w a b ha hb' same vd hvd hsame => ?_⟩
  · rw [← h0] at hlr
    simp only [interestRateSwap, Py.ok_bind, hlp, hlr]
    exact hb
  · have hP : Pays cal w vd (.legs [.list a, .list b] (sortedSet (List.map CF.domain [.flat lp, .flat lr]).flatten) oo)
        (((List.range n).map fun i => (T (i + 1), (K + 0) * g (T i) (T (i + 1)) * -N)) ++
          ((List.range k).map fun i => (S (i + 1), (0 + r i) * rg (S i) (S (i + 1)) * N))) := by
      refine ⟨[(List.range n).map fun i => (T (i + 1), (K + 0) * g (T i) (T (i + 1)) * -N),
        (List.range k).map fun i => (S (i + 1), (0 + r i) * rg (S i) (S (i + 1)) * N)], ?_, by simp⟩
      simp only [Product.leaves, Product.leavesOf, List.append_nil, List.singleton_append]
      exact .cons (hp.pays hT ha hvd) (.cons (hr'.pays hS hb' (h0 ▸ hvd)) .nil)
    have hdf : ∀ t, c.obj.discountFactor cal same vd t = .ok (df vd t) := fun t => hF.factor same vd t hsame
    rw [C54_flows hP (df := df vd) fun q _ => hdf q.1]
    refine Prod.ext (congrArg Except.ok ?_) rfl
    rw [List.map_append, List.sum_append, List.map_map, List.map_map, Function.comp_def, Function.comp_def, sum_map_range,
      sum_map_range]
    have key := float_sum hF.laws (fun i hi => (hr i hi).2) vd
    have e1 : ∑ i ∈ Finset.range n, df vd (T (i + 1)) * ((K + 0) * g (T i) (T (i + 1)) * -N) =
        -(N * K * ∑ i ∈ Finset.range n, g (T i) (T (i + 1)) * df vd (T (i + 1))) := by
      rw [Finset.mul_sum, ← Finset.sum_neg_distrib]
      exact Finset.sum_congr rfl fun i hi => by ring
    have e2 : ∑ i ∈ Finset.range k, df vd (S (i + 1)) * ((0 + r i) * rg (S i) (S (i + 1)) * N) =
        N * ∑ i ∈ Finset.range k, df vd (S (i + 1)) * (r i * τ (S i) (S (i + 1))) := by
      rw [Finset.mul_sum]
      refine Finset.sum_congr rfl fun i hi => ?_
      rw [hgτ i (by simpa using hi)]
      ring
    simp only [e1, e2, key, h0, h1]
    ring

/-- C107: the swap is worth nothing exactly for the par rate. -/
theorem C107_par (back : D → D → Py D) {c : IRCurve D P} {v : D → ℝ} {τ df : D → D → ℝ} {o : D} (h : Answers cal c v τ o)
    (hF : Factors cal c df o) (hc : c.cls ≠ .cash) {T S : ℕ → D} {n k : ℕ} (hn : 0 < n) (hk : 0 < k)
    (hT : ∀ i < n, T i < T (i + 1)) (hS : ∀ i < k, S i < S (i + 1)) (h0 : T 0 = S 0) (h1 : T n = S k)
    (hten : ∀ i < k, cal.add (S i) (c.tenor.getD cal.threeMonths) = .ok (S (i + 1))) {dc rdc : ProductDayCount D}
    {g rg : D → D → ℝ} (hg : dc.Means cal g) (hrg : rdc.Means cal rg) (hpos : ∀ i < n, 0 < g (T i) (T (i + 1)))
    (hgτ : ∀ i < k, rg (S i) (S (i + 1)) = τ (S i) (S (i + 1)))
    {sameF : D → Bool} (hs : ∀ d, sameF d = true → d = o) (limit : ℕ) (K : ℝ) {N : ℝ} (hN : N ≠ 0) :
    ∃ lp lr dom oo, interestRateSwap cal back (.ok (payDatesOf T n)) (.ok (payDatesOf S k)) (T 0) N dc rdc K 0 .none
        (c.asFwd cal sameF (limit + 1)) none none = .ok (.legs [.flat lp, .flat lr] dom oo) ∧
      ∀ (w : World D P) a b, w.list a = lp → w.list b = lr → ∀ same vd, vd ≤ T 0 → (same = true → vd = o) →
        (pv cal c.obj same (some vd) (.legs [.list a, .list b] dom oo) w = (.ok 0, w) ↔
          K = (df vd (T 0) - df vd (T n)) / ∑ i ∈ Finset.range n, g (T i) (T (i + 1)) * df vd (T (i + 1))) := by
  obtain ⟨lp, lr, dom, oo, hb, hp⟩ := C107_value back h hF hc hn hk hT hS h0 h1 hten hg hrg hgτ hs limit K N
  refine ⟨lp, lr, dom, oo, hb, fun w a b ha hb same vd hv hsame => ?_⟩
  rw [hp w a b ha hb same vd hv hsame]
  have hA : 0 < ∑ i ∈ Finset.range n, g (T i) (T (i + 1)) * df vd (T (i + 1)) :=
    Finset.sum_pos (fun i hi => mul_pos (hpos i (by simpa using hi)) (hF.laws.pos _ _)) ⟨0, by simpa using hn⟩
  rw [eq_div_iff hA.ne']
  simp only [Prod.mk.injEq, Except.ok.injEq, and_true, mul_eq_zero, hN, false_or]
  constructor <;> intro h <;> linarith

/-- Zero rate curves have such discount factors whatever their values. -/
theorem Factors.zero {c : IRCurve D P} {v : D → ℝ} {τ : D → D → ℝ} {o : D} (h : Answers cal c v τ o) (hc : c.cls = .zero) :
    ∃ df, Factors cal c df o := by
  obtain ⟨df, hl, -, hf, -⟩ := C28_zero h hc
  exact ⟨df, hl, hf⟩

/-- Discount factor curves have them for positive values, 1 at the origin. -/
theorem Factors.discount {c : IRCurve D P} {v : D → ℝ} {τ : D → D → ℝ} {o : D} (h : Answers cal c v τ o) (hc : c.cls = .discount)
    (h1 : v o = 1) (hv : ∀ x, 0 < v x) : ∃ df, Factors cal c df o := by
  obtain ⟨df, hl, -, hf, -⟩ := C28_discount h hc h1 hv
  exact ⟨df, hl, hf⟩

end

theorem flatZero_answers (y : ℝ) :
    Answers floatCal (flatZero floatCal none .default (some (.num 1)) 0 y) (fun _ => y) floatCal.dayCount 0 :=
  ⟨fun x => flatZero_call floatCal (o? := none) (dc := .default) (tenor := some (.num 1)) trivial goodDayCount_real 0 y x,
    fun s e => irOf_dayCount floatCal (dc := .default) trivial s e, goodDayCount_real, irOf_origin floatCal (or_head none 0 y)⟩

example : ∃ ln lk dom oo, bond floatCal (fun _ _ => .error .value) (.ok (payDatesOf (fun i => (i : ℝ)) 5)) 0 5 (.scalar 100) .none
      0.001 ((flatZero floatCal none .default (some (.num 1)) 0 0.03).asFwd floatCal (fun _ => false) 1) none none =
      .ok (.legs [.flat ln, .flat lk] dom oo) := by
  obtain ⟨df, hF⟩ := Factors.zero (flatZero_answers 0.03) rfl
  obtain ⟨ln, lk, dom, oo, h, -⟩ := C106_margin (fun _ _ => .error .value) (flatZero_answers 0.03) hF (by simp [flatZero, irOf])
    (T := fun i => (i : ℝ)) (n := 5) (by simp) (by simp)
    (by simp [flatZero, irOf, floatCal]) (dc := .none) rfl (fun _ _ => rfl) (sameF := fun _ => false) (by simp) 0 0.001 100
  refine ⟨ln, lk, dom, oo, ?_⟩
  simpa using h

example : ∃ lp lr dom oo, interestRateSwap floatCal (fun _ _ => .error .value) (.ok (payDatesOf (fun i => 2 * (i : ℝ)) 2))
      (.ok (payDatesOf (fun i => (i : ℝ)) 4)) 0 100 .none .none 0.02 0 .none
      ((flatZero floatCal none .default (some (.num 1)) 0 0.03).asFwd floatCal (fun _ => false) 1) none none =
      .ok (.legs [.flat lp, .flat lr] dom oo) := by
  obtain ⟨df, hF⟩ := Factors.zero (flatZero_answers 0.03) rfl
  obtain ⟨lp, lr, dom, oo, h, -⟩ := C107_par (fun _ _ => .error .value) (flatZero_answers 0.03) hF (by simp [flatZero, irOf])
    (T := fun i => 2 * (i : ℝ)) (S := fun i => (i : ℝ)) (n := 2) (k := 4) (by simp) (by simp) (by simp) (by simp) (by simp) (by norm_num)
    (by simp [flatZero, irOf, floatCal]) (dc := .none) (rdc := .none) rfl rfl (fun i _ => by simp [floatCal]) (fun _ _ => rfl)
    (sameF := fun _ => false) (by simp) 0 0.02 (N := 100) (by norm_num)
  refine ⟨lp, lr, dom, oo, ?_⟩
  simpa using h

/-! ### The hypotheses can be met: each theorem applied -/

example : ∃ ln lk dom oo, bond floatCal (fun _ _ => .error .value) (.ok (payDatesOf (fun i => (i : ℝ)) 5)) 0 5 (.scalar 100) .none
      0 ((flatZero floatCal none .default (some (.num 1)) 0 0.03).asFwd floatCal (fun _ => false) 1) none none =
      .ok (.legs [.flat ln, .flat lk] dom oo) := by
  obtain ⟨df, hF⟩ := Factors.zero (flatZero_answers 0.03) rfl
  obtain ⟨ln, lk, dom, oo, h, -⟩ := C106_par (fun _ _ => .error .value) (flatZero_answers 0.03) hF (by simp [flatZero, irOf])
    (T := fun i => (i : ℝ)) (n := 5) (by simp) (by simp)
    (by simp [flatZero, irOf, floatCal]) (dc := .none) rfl (fun _ _ => rfl) (sameF := fun _ => false) (by simp) 0 100
  refine ⟨ln, lk, dom, oo, ?_⟩
  simpa using h

end Dcf
