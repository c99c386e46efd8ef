import Verif.Props.Par
import Verif.Props.Delta

/-! # Rate risk of floating rate notes: C145 -/

set_option linter.unusedSectionVars false
set_option linter.unusedSimpArgs false
set_option linter.unusedVariables false

namespace Dcf

open Spec

section
variable {D P : Type} [LinearOrder D] {cal : Cal D P}

theorem newRate_forward (back : D → D → Py D) {dates : List D} {as : NumArg} {o : Option D} {dc : Option (D → D → ℝ)}
    {fo po : Option P} {x : ℝ} {f : Fwd D} {l : CFList D P} (h : CFList.newRate cal back dates as o dc fo po x f = .ok l) (f' : Fwd D) :
    CFList.newRate cal back dates as o dc fo po x f' = .ok { l with arg := .fwd f' } ∧ l.arg = .fwd f := by
  simp only [CFList.newRate, Py.bind_eq_ok, CFList.ofPayoffs] at h ⊢
  obtain ⟨s, hs, p, hp, h⟩ := h
  split_ifs at h with hl
  cases h
  exact ⟨⟨s, hs, p, hp, by simp [hl]⟩, rfl⟩

/-- The payoffs of a coupon leg do not depend on its forward curve. -/
theorem couponLeg_forward (back : D → D → Py D) {dates : List D} {as : List ℝ} {o : D} {dc : ProductDayCount D}
    {fo po : Option P} {x : ℝ} {f : Fwd D} {l : CFList D P} (h : couponLeg cal back dates as o dc fo po x f = .ok l) (f' : Fwd D) :
    couponLeg cal back dates as o dc fo po x f' = .ok { l with arg := .fwd f' } ∧ l.arg = .fwd f := by
  cases dc with
  | none => exact newRate_forward back h f'
  | fn g => exact newRate_forward back h f'
  | name s =>
    simp only [couponLeg] at h ⊢
    split_ifs at h ⊢ with hs
    · exact newRate_forward back h f'
    · simp only [Py.bind_eq_ok, CFList.ofPayoffs] at h ⊢
      obtain ⟨s, hs, p, hp, h⟩ := h
      split_ifs at h with hl
      cases h
      exact ⟨⟨s, hs, p, hp, by simp [hl]⟩, rfl⟩

/-- Neither do the legs of a bond. -/
theorem bond_forward (back : D → D → Py D) {sched : Py (List D)} {s e : D} {N : NumArg} {dc : ProductDayCount D}
    {fo po : Option P} {x : ℝ} {f : Fwd D} {ln lk : CFList D P} {dom : List D} {oo : Option D}
    (h : bond cal back sched s e N dc x f fo po = .ok (.legs [.flat ln, .flat lk] dom oo)) (f' : Fwd D) :
    bond cal back sched s e N dc x f' fo po = .ok (.legs [.flat ln, .flat { lk with arg := .fwd f' }] dom oo) ∧ ln.arg = .fwd .none ∧
      lk.arg = .fwd f := by
  simp only [bond, Py.bind_eq_ok] at h ⊢
  obtain ⟨d, hd, p, hp, l, hl, k, hk, h⟩ := h
  obtain ⟨o, h1, h2⟩ := CF.newLegs_eq h
  obtain ⟨hk', hka⟩ := couponLeg_forward back hk f'
  simp only [CF.legs.injEq, List.cons.injEq, CF.flat.injEq, and_true] at h1
  obtain ⟨⟨rfl, rfl⟩, rfl, rfl⟩ := h1
  refine ⟨⟨d, hd, p, hp, _, hl, _, hk', ?_⟩, ?_, hka⟩
  · simp only [CF.newLegs, List.map_cons, List.map_nil, CF.origin, CF.domain, CFList.origin] at h2 ⊢
    rw [h2]
    rfl
  · simp only [CFList.newFixed, CFList.ofPayoffs] at hl
    split_ifs at hl
    cases hl
    rfl

/-- The lists `a` and `b` of the world are the legs of a floating rate note over the dates `T` with notional `N` and margin
`m`, its rates taken from the curve `fa` whatever its state. -/
structure NoteIn (cal : Cal D P) (back : D → D → Py D) (T : ℕ → D) (n : ℕ) (N : ℝ) (dc : ProductDayCount D) (m : ℝ)
    (sameF : D → Bool) (limit fa a b : ℕ) (dom : List D) (oo : Option D) (w : World D P) : Prop where
  built : bond cal back (.ok (payDatesOf T n)) (T 0) (T n) (.scalar N) dc m (fwdRef cal sameF limit fa w.curves) none none =
    .ok (.legs [.flat (w.list a), .flat (w.list b)] dom oo)
  notional : (w.lists a).arg = .fwd fun _ => .none
  coupons : (w.lists b).arg = .fwd (fwdRef cal sameF limit fa)

/-- It stays one when curves change. -/
theorem NoteIn.moved {back : D → D → Py D} {T : ℕ → D} {n : ℕ} {N : ℝ} {dc : ProductDayCount D} {m : ℝ}
    {sameF : D → Bool} {limit fa a b : ℕ} {dom : List D} {oo : Option D} {w w' : World D P}
    (h : NoteIn cal back T n N dc m sameF limit fa a b dom oo w) (hl : w'.lists = w.lists) :
    NoteIn cal back T n N dc m sameF limit fa a b dom oo w' := by
  refine ⟨?_, by rw [hl]; exact h.notional, by rw [hl]; exact h.coupons⟩
  obtain ⟨h1, -, -⟩ := bond_forward back h.built (fwdRef cal sameF limit fa w'.curves)
  rw [h1]
  congr 4
  · simp [World.list, hl, h.notional, World.arg]
  · simp [World.list, hl, h.coupons, World.arg]

/-- C145: what a floating rate note is worth when its rates come from one curve and it is discounted by another. -/
theorem C145_value (back : D → D → Py D) {c d : IRCurve D P} {v : D → ℝ} {τ dfF df : D → D → ℝ} {o o' : D} (h : Answers cal c v τ o)
    (hF : Factors cal c dfF o) (hc : c.cls ≠ .cash) (hD : Factors cal d df o') {T : ℕ → D} {n : ℕ} (hn : 0 < n)
    (hT : ∀ i < n, T i < T (i + 1)) (hten : ∀ i < n, cal.add (T i) (c.tenor.getD cal.threeMonths) = .ok (T (i + 1)))
    {dc : ProductDayCount D} {g : D → D → ℝ} (hg : dc.Means cal g) (hgτ : ∀ i < n, g (T i) (T (i + 1)) = τ (T i) (T (i + 1)))
    {sameF : D → Bool} (hs : ∀ d, sameF d = true → d = o) {limit : ℕ} {m N : ℝ} {fa disc a b : ℕ} {dom : List D} {oo : Option D}
    {w : World D P} (hw : NoteIn cal back T n N dc m sameF (limit + 1) fa a b dom oo w) (hfa : w.curves fa = c.obj)
    (hdisc : w.curves disc = d.obj) {same : Bool} {vd : D} (hvd : vd ≤ T 0) (hsame : same = true → vd = o') :
    pvOn cal disc same (some vd) (.legs [.list a, .list b] dom oo) w =
      (.ok (N * ∑ i ∈ Finset.range n, (df vd (T (i + 1)) * (m * τ (T i) (T (i + 1)) + 1 / dfF (T i) (T (i + 1))) - df vd (T i))), w) := by
  have hex : ∀ i, ∃ f, i < n → Floats cal (c.asFwd cal sameF (limit + 1)) none (T i) f ∧
      (1 + f * τ (T i) (T (i + 1))) * dfF (T i) (T (i + 1)) = 1 := by
    intro i
    by_cases hi : i < n
    · obtain ⟨f, hf⟩ := floats_curve h hF hc hs limit (hT i hi).ne (.tenor _ (hten i hi))
      exact ⟨f, fun _ => hf⟩
    · exact ⟨0, fun h => absurd h hi⟩
  choose r hr using hex
  have h0n : T 0 < T n := increasing_lt hT hn le_rfl
  obtain ⟨ln, hln, hnk, hnd, hno, hnm, hnf⟩ := fixedLeg_of (P := P) (cal := cal) (dates := [T 0, T n])
    (as := [-N, N]) (T 0) rfl (by simp [h0n.ne])
  obtain ⟨lk, hlk, hk⟩ := couponLeg_sched back hn hT hg (fun i hi => (hr i hi).1) m N
  have hfwd : fwdRef cal sameF (limit + 1) fa w.curves = c.asFwd cal sameF (limit + 1) := by
    simp [fwdRef, hfa, IRCurve.obj, CurveObj.ir?]
  have hbuilt := hw.built
  rw [hfwd] at hbuilt
  simp only [bond, notionalPlan, Py.ok_bind, hln, hlk] at hbuilt
  obtain ⟨o1, h1, -⟩ := CF.newLegs_eq hbuilt
  simp only [CF.legs.injEq, List.cons.injEq, CF.flat.injEq, and_true] at h1
  obtain ⟨⟨ha, hb⟩, -, -⟩ := h1
  have hP : Pays cal w vd (.legs [.list a, .list b] dom oo)
      ([(T 0, -N), (T n, N)] ++ ((List.range n).map fun i => (T (i + 1), (m + r i) * g (T i) (T (i + 1)) * N))) := by
    refine ⟨[[(T 0, -N), (T n, N)], (List.range n).map fun i => (T (i + 1), (m + r i) * g (T i) (T (i + 1)) * N)], ?_, by simp⟩
    simp only [Product.leaves, Product.leavesOf, List.append_nil, List.singleton_append]
    refine .cons ?_ (.cons (hk.pays hT hb hvd) .nil)
    have := paysList_of (cal := cal) ha hnm (vd := vd) (is := [(T 0, -N), (T n, N)]) (d := Prod.fst) (x := Prod.snd)
      (by simpa using hnd) (by simp [hvd, hvd.trans h0n.le]) (by
        have h1 := hnf 0 (by simp)
        have h2 := hnf 1 (by simp)
        simpa using ⟨h1, h2⟩)
    simpa using this
  have hdf : ∀ t, d.obj.discountFactor cal same vd t = .ok (df vd t) := fun t => hD.factor same vd t hsame
  rw [pvOn, hdisc, C54_flows hP (df := df vd) fun q _ => hdf q.1]
  refine Prod.ext (congrArg Except.ok ?_) rfl
  rw [List.map_append, List.sum_append, List.map_map, Function.comp_def, sum_map_range]
  have key : df vd (T n) - df vd (T 0) = ∑ i ∈ Finset.range n, (df vd (T (i + 1)) - df vd (T i)) :=
    (Finset.sum_range_sub (fun i => df vd (T i)) n).symm
  have : ([(T 0, -N), (T n, N)].map fun q => df vd q.1 * q.2).sum = N * (df vd (T n) - df vd (T 0)) := by simp; ring
  rw [this, key, Finset.mul_sum, Finset.mul_sum, ← Finset.sum_add_distrib]
  refine Finset.sum_congr rfl fun i hi => ?_
  have hi' : i < n := by simpa using hi
  have h2 := (hr i hi').2
  have h3 := (hF.laws.pos (T i) (T (i + 1))).ne'
  have h4 : 1 / dfF (T i) (T (i + 1)) = 1 + r i * τ (T i) (T (i + 1)) := by rw [div_eq_iff h3, h2]
  rw [h4, hgτ i hi']
  ring

/-- The curve with its parallel shift. -/
def IRCurve.bumped (c : IRCurve D P) (shift : ℝ) : IRCurve D P := ⟨{ c.toRateCurve with spread := some fun _ => .ok (some shift) }, c.cls⟩

theorem Answers.bumped {c : IRCurve D P} {v : D → ℝ} {τ : D → D → ℝ} {o : D} (h : Answers cal c v τ o) (hf : c.spread = none)
    (shift : ℝ) : Answers cal (c.bumped shift) (fun x => v x + shift) τ o := by
  refine ⟨fun x => ?_, h.dayCount, h.good, h.origin⟩
  have h1 := h.call x
  simp only [IRCurve.bumped, IRCurve.call, RateCurve.call, hf, Py.ok_bind] at h1 ⊢
  obtain ⟨b, hb, h1⟩ := Py.bind_eq_ok.1 h1
  obtain ⟨b', hb', h1⟩ := Py.bind_eq_ok.1 h1
  simp only [pyNum, Py.ok_bind, Except.ok.injEq, add_zero] at h1
  rw [hb, Py.ok_bind, hb', Py.ok_bind]
  simp [pyNum, h1]

theorem Factors.bumped {c : IRCurve D P} {v : D → ℝ} {τ df : D → D → ℝ} {o : D} (h : Answers cal c v τ o) (hc : c.cls = .zero)
    (hf : c.spread = none) (hF : Factors cal c df o) (shift : ℝ) :
    Factors cal (c.bumped shift) (fun s t => df s t * Real.exp (-(shift * τ s t))) o := by
  obtain ⟨rc, cls⟩ := c
  obtain rfl : cls = .zero := hc
  refine ⟨⟨fun t => ?_, fun s t u => ?_, fun s t => mul_pos (hF.laws.pos s t) (Real.exp_pos _)⟩, fun same s t hs => ?_⟩
  · simp [hF.laws.self, h.good.self]
  · rw [← hF.laws.mul s t u, ← h.good.add s t u, mul_add, neg_add, Real.exp_add]
    ring
  · exact zero_shift_factor h.good h.dayCount hf shift (hF.factor same s t hs)

/-- How far a curve of a risk calculation is shifted. -/
noncomputable def shiftAt (l : List ℕ) (a : ℕ) (shift : ℝ) : ℝ := if a ∈ l then shift else 0

theorem bumped_curve {w : World D P} {a : ℕ} {c : IRCurve D P} (hw : w.curves a = c.obj) {v : D → ℝ} {τ df : D → D → ℝ} {o : D}
    (h : Answers cal c v τ o) (hc : c.cls = .zero) (hf : c.spread = none) (hF : Factors cal c df o) (l : List ℕ) (shift : ℝ) :
    ∃ c' v', (w.bumped l shift).curves a = c'.obj ∧ Answers cal c' v' τ o ∧ c'.cls = .zero ∧ c'.tenor = c.tenor ∧
      Factors cal c' (fun s t => df s t * Real.exp (-(shiftAt l a shift * τ s t))) o := by
  by_cases ha : a ∈ l
  · refine ⟨c.bumped shift, _, ?_, h.bumped hf shift, hc, rfl, ?_⟩
    · simp [World.spreadOn, ha, hw, IRCurve.obj, IRCurve.bumped]
    · simpa [shiftAt, ha] using Factors.bumped h hc hf hF shift
  · refine ⟨c, v, ?_, h, hc, rfl, ?_⟩
    · simp [World.spreadOn, ha, hw]
    · simpa [shiftAt, ha] using hF

/-- C145: the basis point value of a floating rate note, whichever curves are shifted: discount factors and floating rates
move with the curve they come from. -/
theorem C145_risk (back : D → D → Py D) {c d : IRCurve D P} {v u : D → ℝ} {τ θ dfF df : D → D → ℝ} {o o' : D}
    (h : Answers cal c v τ o) (hF : Factors cal c dfF o) (hc : c.cls = .zero) (hf : c.spread = none)
    (h' : Answers cal d u θ o') (hD : Factors cal d df o') (hd : d.cls = .zero) (hf' : d.spread = none) {T : ℕ → D} {n : ℕ}
    (hn : 0 < n) (hT : ∀ i < n, T i < T (i + 1))
    (hten : ∀ i < n, cal.add (T i) (c.tenor.getD cal.threeMonths) = .ok (T (i + 1))) {dc : ProductDayCount D} {g : D → D → ℝ}
    (hg : dc.Means cal g) (hgτ : ∀ i < n, g (T i) (T (i + 1)) = τ (T i) (T (i + 1))) {sameF : D → Bool}
    (hs : ∀ d, sameF d = true → d = o) {limit : ℕ} {m N : ℝ} {fa disc a b : ℕ} {dom : List D} {oo : Option D} {w : World D P}
    (hw : NoteIn cal back T n N dc m sameF (limit + 1) fa a b dom oo w) (hfa : w.curves fa = c.obj) (hdisc : w.curves disc = d.obj)
    {same : Bool} {vd : D} (hvd : vd ≤ T 0) (hsame : same = true → vd = o') {delta : Option (List ℕ)}
    (hl : Bumpable (delta.getD [disc]) w) {shift : ℝ} (h0 : shift ≠ 0) :
    basisPointValue cal disc same (.legs [.list a, .list b] dom oo) (some vd) delta shift w =
      (.ok ((N * (∑ i ∈ Finset.range n,
          (df vd (T (i + 1)) * Real.exp (-(shiftAt (delta.getD [disc]) disc shift * θ vd (T (i + 1)))) *
            (m * τ (T i) (T (i + 1)) +
              Real.exp (shiftAt (delta.getD [disc]) fa shift * τ (T i) (T (i + 1))) / dfF (T i) (T (i + 1))) -
            df vd (T i) * Real.exp (-(shiftAt (delta.getD [disc]) disc shift * θ vd (T i))))) -
        N * ∑ i ∈ Finset.range n, (df vd (T (i + 1)) * (m * τ (T i) (T (i + 1)) + 1 / dfF (T i) (T (i + 1))) - df vd (T i))) /
          shift * (1 / 10000)), w) := by
  obtain ⟨c', v', hc1, hc2, hc3, hc4, hc5⟩ := bumped_curve hfa h hc hf hF (delta.getD [disc]) shift
  obtain ⟨d', u', hd1, hd2, hd3, hd4, hd5⟩ := bumped_curve hdisc h' hd hf' hD (delta.getD [disc]) shift
  have hx := C145_value back h hF (by simp [hc]) hD hn hT hten hg hgτ hs hw hfa hdisc hvd hsame
  have hy := C145_value back hc2 hc5 (by simp [hc3]) hd5 hn hT (by rw [hc4]; exact hten) hg hgτ hs
    (hw.moved (w' := w.bumped (delta.getD [disc]) shift) rfl) hc1 hd1 hvd hsame
  refine C61_value.2 ⟨rfl, h0, hl, _, _, hx, hy, ?_⟩
  have e : ∀ i, Real.exp (shiftAt (delta.getD [disc]) fa shift * τ (T i) (T (i + 1))) / dfF (T i) (T (i + 1)) =
      1 / (dfF (T i) (T (i + 1)) * Real.exp (-(shiftAt (delta.getD [disc]) fa shift * τ (T i) (T (i + 1))))) := by
    intro i
    rw [one_div, mul_inv, ← Real.exp_neg, neg_neg, mul_comm (dfF _ _)⁻¹, ← div_eq_mul_inv]
  simp only [e]

/-- C145: shifting all curves the note depends on leaves only the margins exposed; a note without margin has no rate risk. -/
theorem C145_margin (back : D → D → Py D) {c : IRCurve D P} {v : D → ℝ} {τ df : D → D → ℝ} {o : D}
    (h : Answers cal c v τ o) (hF : Factors cal c df o) (hc : c.cls = .zero) (hf : c.spread = none) {T : ℕ → D} {n : ℕ}
    (hn : 0 < n) (hT : ∀ i < n, T i < T (i + 1))
    (hten : ∀ i < n, cal.add (T i) (c.tenor.getD cal.threeMonths) = .ok (T (i + 1))) {dc : ProductDayCount D} {g : D → D → ℝ}
    (hg : dc.Means cal g) (hgτ : ∀ i < n, g (T i) (T (i + 1)) = τ (T i) (T (i + 1))) {sameF : D → Bool}
    (hs : ∀ d, sameF d = true → d = o) {limit : ℕ} {m N : ℝ} {fa disc a b : ℕ} {dom : List D} {oo : Option D} {w : World D P}
    (hw : NoteIn cal back T n N dc m sameF (limit + 1) fa a b dom oo w) (hfa : w.curves fa = c.obj) (hdisc : w.curves disc = c.obj)
    {same : Bool} {vd : D} (hvd : vd ≤ T 0) (hsame : same = true → vd = o) {delta : Option (List ℕ)}
    (hl : Bumpable (delta.getD [disc]) w) (h1 : fa ∈ delta.getD [disc]) (h2 : disc ∈ delta.getD [disc]) {shift : ℝ} (h0 : shift ≠ 0) :
    basisPointValue cal disc same (.legs [.list a, .list b] dom oo) (some vd) delta shift w =
      (.ok (m * N * (∑ i ∈ Finset.range n,
        τ (T i) (T (i + 1)) * df vd (T (i + 1)) * (Real.exp (-(shift * τ vd (T (i + 1)))) - 1)) / shift * (1 / 10000)), w) := by
  rw [C145_risk back h hF hc hf h hF hc hf hn hT hten hg hgτ hs hw hfa hdisc hvd hsame hl h0]
  refine Prod.ext (congrArg Except.ok ?_) rfl
  congr 2
  rw [← mul_sub, ← Finset.sum_sub_distrib, mul_comm m N, mul_assoc]
  refine congrArg (N * ·) ?_
  rw [Finset.mul_sum]
  refine Finset.sum_congr rfl fun i _ => ?_
  simp only [shiftAt, h1, h2, if_true]
  have hm := hF.laws.mul vd (T i) (T (i + 1))
  have hp := (hF.laws.pos (T i) (T (i + 1))).ne'
  have e : Real.exp (-(shift * τ vd (T (i + 1)))) * Real.exp (shift * τ (T i) (T (i + 1))) = Real.exp (-(shift * τ vd (T i))) := by
    rw [← Real.exp_add, ← h.good.add vd (T i) (T (i + 1))]
    congr 1
    ring
  have e1 : df vd (T (i + 1)) * (1 / df (T i) (T (i + 1))) = df vd (T i) := by rw [← hm]; field_simp
  rw [← e1, ← e]
  ring

/-- C145: shifting only the curve it is discounted by shows a loss, and only the curve of its rates a gain: the two cancel
only together. -/
theorem C145_single (back : D → D → Py D) {c : IRCurve D P} {v : D → ℝ} {τ df : D → D → ℝ} {o : D}
    (h : Answers cal c v τ o) (hF : Factors cal c df o) (hc : c.cls = .zero) (hf : c.spread = none) {T : ℕ → D} {n : ℕ}
    (hn : 0 < n) (hT : ∀ i < n, T i < T (i + 1))
    (hten : ∀ i < n, cal.add (T i) (c.tenor.getD cal.threeMonths) = .ok (T (i + 1))) {dc : ProductDayCount D} {g : D → D → ℝ}
    (hg : dc.Means cal g) (hgτ : ∀ i < n, g (T i) (T (i + 1)) = τ (T i) (T (i + 1))) {sameF : D → Bool}
    (hs : ∀ d, sameF d = true → d = o) {limit : ℕ} {N : ℝ} {fa disc a b : ℕ} {dom : List D} {oo : Option D} {w : World D P}
    (hw : NoteIn cal back T n N dc 0 sameF (limit + 1) fa a b dom oo w) (hfa : w.curves fa = c.obj) (hdisc : w.curves disc = c.obj)
    (hne : fa ≠ disc) (hN : 0 < N) {same : Bool} {vd : D} (hvd : vd ≤ T 0) (hsame : same = true → vd = o) {shift : ℝ} (h0 : shift ≠ 0) :
    (∃ z < 0, basisPointValue cal disc same (.legs [.list a, .list b] dom oo) (some vd) none shift w = (.ok z, w)) ∧
      ∃ z > 0, basisPointValue cal disc same (.legs [.list a, .list b] dom oo) (some vd) (some [fa]) shift w = (.ok z, w) := by
  have ho : c.base.origin ≠ none := by simp [h.origin]
  have hm := fun i => hF.laws.mul vd (T i) (T (i + 1))
  have hp := fun i => hF.laws.pos (T i) (T (i + 1))
  have e1 : ∀ i, df vd (T (i + 1)) / df (T i) (T (i + 1)) = df vd (T i) := fun i => by
    rw [div_eq_iff (hp i).ne', hm]
  have sgn : ∀ x y : ℝ, x < y → (Real.exp (-(shift * y)) - Real.exp (-(shift * x))) / shift < 0 := by
    intro x y hxy
    rcases h0.lt_or_gt with hlt | hgt
    · refine div_neg_of_pos_of_neg (sub_pos.2 (Real.exp_lt_exp.2 ?_)) hlt
      nlinarith
    · refine div_neg_of_neg_of_pos (sub_neg.2 (Real.exp_lt_exp.2 ?_)) hgt
      nlinarith
  refine ⟨⟨_, ?_, C145_risk back h hF hc hf h hF hc hf hn hT hten hg hgτ hs hw hfa hdisc hvd hsame (delta := none)
    ⟨by simp, by simp [hdisc, IRCurve.obj, hf], by simp [hdisc, IRCurve.obj, ho]⟩ h0⟩,
    ⟨_, ?_, C145_risk back h hF hc hf h hF hc hf hn hT hten hg hgτ hs hw hfa hdisc hvd hsame (delta := some [fa])
    ⟨by simp, by simp [hfa, IRCurve.obj, hf], by simp [hfa, IRCurve.obj, ho]⟩ h0⟩⟩
  · refine mul_neg_of_neg_of_pos ?_ (by norm_num)
    rw [← mul_sub, ← Finset.sum_sub_distrib, mul_div_assoc, Finset.sum_div]
    refine mul_neg_of_pos_of_neg hN (Finset.sum_neg (fun i hi => ?_) ⟨0, by simpa using hn⟩)
    have hi' : i < n := by simpa using hi
    have key := sgn (τ vd (T i)) (τ vd (T (i + 1))) (by
      have := (h.good.pos (T i) (T (i + 1))).2 (hT i hi')
      rw [← h.good.add vd (T i) (T (i + 1))]
      linarith)
    simp only [shiftAt, Option.getD_none, List.mem_singleton, if_true, hne, if_false, zero_mul, zero_add, Real.exp_zero]
    have hpos := hF.laws.pos vd (T i)
    have := mul_neg_of_pos_of_neg hpos key
    refine lt_of_eq_of_lt ?_ this
    rw [← e1 i]
    field_simp
    ring
  · refine mul_pos ?_ (by norm_num)
    rw [← mul_sub, ← Finset.sum_sub_distrib, mul_div_assoc, Finset.sum_div]
    refine mul_pos hN (Finset.sum_pos (fun i hi => ?_) ⟨0, by simpa using hn⟩)
    have hi' : i < n := by simpa using hi
    have key := sgn (-τ (T i) (T (i + 1))) 0 (by
      have := (h.good.pos (T i) (T (i + 1))).2 (hT i hi')
      linarith)
    simp only [shiftAt, Option.getD_some, List.mem_singleton, if_true, hne.symm, if_false, zero_mul, zero_add, neg_zero,
      Real.exp_zero, mul_zero, mul_neg, neg_neg] at key ⊢
    have hpos := hF.laws.pos vd (T i)
    have := mul_neg_of_pos_of_neg hpos key
    have e2 : (df vd (T (i + 1)) * 1 * (Real.exp (shift * τ (T i) (T (i + 1))) / df (T i) (T (i + 1))) - df vd (T i) * 1 -
        (df vd (T (i + 1)) * (1 / df (T i) (T (i + 1))) - df vd (T i))) / shift =
        -(df vd (T i) * ((1 - Real.exp (shift * τ (T i) (T (i + 1)))) / shift)) := by
      rw [← e1 i]
      field_simp
      ring
    linarith

end

/-- A world with such a note: curves 0 and 1 hold the same rates, list 0 the notional flows, list 1 the coupons. -/
theorem exNote (m : ℝ) (fa : ℕ) : ∃ (w : World ℝ FloatPeriod) (dom : List ℝ) (oo : Option ℝ),
    NoteIn floatCal (fun _ _ => .error .value) (fun i => (i : ℝ)) 5 100 .none m (fun _ => false) 1 fa 0 1 dom oo w ∧
      ∀ a, w.curves a = (flatZero floatCal none .default (some (.num 1)) 0 0.03).obj := by
  set c := flatZero floatCal none .default (some (.num 1)) 0 0.03 with hc
  obtain ⟨df, hF⟩ := Factors.zero (flatZero_answers 0.03) rfl
  obtain ⟨ln, lk, dom, oo, h, -⟩ := C106_margin (fun _ _ => .error .value) (flatZero_answers 0.03) hF (by simp [flatZero, irOf])
    (T := fun i => (i : ℝ)) (n := 5) (by simp) (by simp)
    (by simp [flatZero, irOf, floatCal]) (dc := .none) rfl (fun _ _ => rfl) (sameF := fun _ => false) (by simp) 0 m 100
  obtain ⟨-, h1, h2⟩ := bond_forward _ h .none
  let w : World ℝ FloatPeriod :=
    { curves := fun _ => c.obj
      models := exWorld.models
      lists := fun a => if a = 0 then ⟨ln.origin?, ln.domain, ln.flows, .fwd fun _ => .none, ln.hasModel, false, false⟩
        else ⟨lk.origin?, lk.domain, lk.flows, .fwd (fwdRef floatCal (fun _ => false) 1 fa), lk.hasModel, true, true⟩ }
  have hw0 : w.list 0 = ln := by
    cases ln
    simp only [World.list, w, World.arg, if_true] at h1 ⊢
    rw [h1]
  have hw1 : w.list 1 = lk := by
    cases lk
    simp only [World.list, w, World.arg, if_neg one_ne_zero] at h2 ⊢
    rw [h2]
    rfl
  refine ⟨w, dom, oo, ⟨?_, by simp [w], by simp [w]⟩, fun _ => rfl⟩
  rw [hw0, hw1]
  exact h

example : ∃ (w : World ℝ FloatPeriod) (p : Product ℝ), ∀ shift ≠ 0,
    basisPointValue floatCal 0 false p (some 0) (some [0, 1]) shift w = (.ok 0, w) ∧
    (∃ z < 0, basisPointValue floatCal 0 false p (some 0) none shift w = (.ok z, w)) := by
  obtain ⟨w, dom, oo, hw, hc⟩ := exNote 0 1
  obtain ⟨df, hF⟩ := Factors.zero (flatZero_answers 0.03) rfl
  refine ⟨w, .legs [.list 0, .list 1] dom oo, fun shift h0 => ⟨?_, ?_⟩⟩
  · rw [C145_margin (fun _ _ => .error .value) (flatZero_answers 0.03) hF rfl rfl (T := fun i => (i : ℝ)) (n := 5) (by simp) (by simp)
      (by simp [flatZero, irOf, floatCal]) (dc := .none) rfl (fun _ _ => rfl) (sameF := fun _ => false) (by simp) hw (hc 1) (hc 0)
      (by simp) (by simp) (delta := some [0, 1]) ⟨by simp, by simp [hc, IRCurve.obj, flatZero, irOf],
        by simp [hc, IRCurve.obj, (flatZero_answers 0.03).origin]⟩ (by simp) (by simp) h0]
    simp
  · exact (C145_single (fun _ _ => .error .value) (flatZero_answers 0.03) hF rfl rfl (T := fun i => (i : ℝ)) (n := 5) (by simp) (by simp)
      (by simp [flatZero, irOf, floatCal]) (dc := .none) rfl (fun _ _ => rfl) (sameF := fun _ => false) (by simp) hw (hc 1) (hc 0)
      (by simp) (by norm_num) (by simp) (by simp) h0).1

/-! ### The hypotheses can be met: each theorem applied -/

/-- Such notes with a margin, valued and shifted: projected by one curve, discounted with another. -/
example : ∃ (w : World ℝ FloatPeriod) (p : Product ℝ), ∃ x, pvOn floatCal 0 false (some 0) p w = (.ok x, w) ∧ ∀ shift ≠ 0, ∃ z,
    basisPointValue floatCal 0 false p (some 0) none shift w = (.ok z, w) := by
  obtain ⟨w, dom, oo, hw, hc⟩ := exNote (1 / 100) 1
  obtain ⟨df, hF⟩ := Factors.zero (flatZero_answers 0.03) rfl
  exact ⟨w, .legs [.list 0, .list 1] dom oo, _,
    C145_value (fun _ _ => .error .value) (flatZero_answers 0.03) hF (by simp [flatZero, irOf]) hF (T := fun i => (i : ℝ)) (n := 5) (by simp) (by simp)
      (by simp [flatZero, irOf, floatCal]) (dc := .none) rfl (fun _ _ => rfl) (sameF := fun _ => false) (by simp) hw (hc 1) (hc 0)
      (by simp) (by simp),
    fun shift h0 => ⟨_, C145_risk (fun _ _ => .error .value) (flatZero_answers 0.03) hF rfl rfl (flatZero_answers 0.03) hF rfl rfl (T := fun i => (i : ℝ)) (n := 5) (by simp) (by simp)
      (by simp [flatZero, irOf, floatCal]) (dc := .none) rfl (fun _ _ => rfl) (sameF := fun _ => false) (by simp) hw (hc 1) (hc 0)
      (by simp) (by simp) ⟨by simp, by simp [hc, IRCurve.obj, flatZero, irOf],
        by simp [hc, IRCurve.obj, (flatZero_answers 0.03).origin]⟩ h0⟩⟩

end Dcf
