import Verif.Props.CurveFit
import Mathlib.Analysis.Complex.ExponentialBounds

/-! # Curve fit of zero rate curves: C64 -/

set_option linter.unusedSectionVars false
set_option linter.unusedVariables false
set_option linter.unusedSimpArgs false

namespace Dcf

open Spec

section
variable {D P : Type} [LinearOrder D] {cal : Cal D P}

/-! ## Linear interpolation on a grid -/

/-- The value at `x` of the interpolation through the values `y` at the grid dates. -/
noncomputable def lineAt (τ : D → D → ℝ) (o : D) (G : List D) (y : D → ℝ) (x : D) : ℝ :=
  flin (G.map fun d => (τ o d, y d)) (τ o x)

theorem linVal_grid {τ : D → D → ℝ} (hτ : GoodDayCount τ) (o : D) {G : List D} (hinc : G.Pairwise (· < ·)) (y : D → ℝ) (x : D) :
    linVal τ o (G.map fun d => (d, y d)) x = lineAt τ o G y x := by
  rw [linVal, lineAt, timePts, List.map_map, sortPairs_eq_self]
  · rfl
  · rw [StrictX, List.pairwise_map]
    exact hinc.imp fun h => (hτ.lt_iff o _ _).2 h

theorem lineAt_add (τ : D → D → ℝ) (o : D) (y y' : D → ℝ) (x : D) : ∀ (G : List D),
    lineAt τ o G (fun d => y d + y' d) x = lineAt τ o G y x + lineAt τ o G y' x
  | [] => by simp [lineAt, flin]
  | [d] => by simp [lineAt, flin]
  | d :: d' :: G => by
    have ih := lineAt_add τ o y y' x (d' :: G)
    simp only [lineAt, List.map_cons, flin] at ih ⊢
    split_ifs
    · rfl
    · simp only [chord]; ring
    · exact ih

theorem lineAt_local {τ : D → D → ℝ} (hτ : GoodDayCount τ) (o : D) {y y' : D → ℝ} {x c : D} (hx : x ≤ c) : ∀ {G : List D},
    G.Pairwise (· < ·) → c ∈ G → (∀ t ∈ G, t ≤ c → y t = y' t) → lineAt τ o G y x = lineAt τ o G y' x
  | [d], _, hc, h => by
    obtain rfl := List.mem_singleton.1 hc
    simp [lineAt, flin, h c]
  | d :: d' :: G, hinc, hc, h => by
    have hd : d ≤ c := by
      rcases List.mem_cons.1 hc with rfl | hc
      · exact le_rfl
      · exact ((List.pairwise_cons.1 hinc).1 c hc).le
    have hyd := h d (by simp) hd
    simp only [lineAt, List.map_cons, flin]
    by_cases h1 : x ≤ d
    · rw [if_pos ((hτ.le_iff o _ _).2 h1), if_pos ((hτ.le_iff o _ _).2 h1), hyd]
    · have hc' : c ∈ d' :: G := by
        rcases List.mem_cons.1 hc with rfl | hc
        · exact absurd hx h1
        · exact hc
      have hd' : d' ≤ c := by
        rcases List.mem_cons.1 hc' with rfl | hc
        · exact le_rfl
        · exact ((List.pairwise_cons.1 (List.pairwise_cons.1 hinc).2).1 c hc).le
      have hyd' := h d' (by simp) hd'
      have ih := lineAt_local hτ o hx (List.pairwise_cons.1 hinc).2 hc' fun t ht => h t (by simp [ht])
      simp only [lineAt, List.map_cons] at ih
      rw [ih, hyd, hyd']

/-! ## Zero rate curves -/

theorem zero_factor {c : RateCurve D P} {τ : D → D → ℝ} (hτ : GoodDayCount τ)
    (hdc : ∀ s t, c.base.dayCount cal s t = .ok (τ s t)) {o : D} (ho : c.base.origin = some o) {R : D → ℝ}
    (hR : ∀ x, c.call cal x = .ok (R x)) (same : Bool) (t : D) :
    (IRCurve.mk c .zero).factor cal same o t = .ok (Real.exp (-(R t * τ o t))) := by
  have hdc1 : ∀ a b, (IRCurve.mk c .zero).dayCount cal a b = .ok (τ a b) := hdc
  by_cases hst : o = t
  · subst hst
    simp [IRCurve.factor, hτ.self]
  · have h0 := hτ.ne_zero hst
    have hr : (IRCurve.mk c .zero).rate cal same o t = .ok (R t) := by
      simp only [IRCurve.rate, IRCurve.zeroRateOf, hst, false_and, if_false, IRCurve.call, hR]
      cases same with
      | true => rfl
      | false =>
        simp only [Bool.false_eq_true, if_false, IRCurve.zeroForward, hdc1, ho, pyDate, Py.ok_bind, IRCurve.call, hR,
          pyDiv_ok h0, hτ.self]
        congr 1
        field_simp
        ring
    simp only [IRCurve.factor, if_neg hst, hdc1, hr, Py.ok_bind, continuousCompounding]
    congr 2
    ring

/-- Fixed flows on any curve at `a`. -/
def FixedFlows (cal : Cal D P) (w : World D P) (a : ℕ) (o : D) (p : Product D) (L : List (D × ℝ)) : Prop :=
  ∀ c, Pays cal (w.setCurve a c) o p L

variable {o : D} {o? : Option D} {dc : DayCountArg D} {G : List D} {w : World D P} {a : ℕ} {same : Bool} {ps : List (Product D)}
  {L : Product D → List (D × ℝ)} {e : Product D → D} {b : D → ℝ} {tenor : Option P}

/-- Present value of the flows at zero rates `R`. -/
noncomputable def zeroValue (τ : D → D → ℝ) (o : D) (R : D → ℝ) (L : List (D × ℝ)) : ℝ :=
  (L.map fun q => Real.exp (-(R q.1 * τ o q.1)) * q.2).sum

theorem zero_pv (hτ : GoodDayCount τ) {c : RateCurve D P}
    (hdc : ∀ s t, c.base.dayCount cal s t = .ok (τ s t)) (ho : c.base.origin = some o) {R : D → ℝ}
    (hR : ∀ x, c.call cal x = .ok (R x)) {p : Product D} (hp : FixedFlows cal w a o p (L p)) :
    pvOn cal a same (some o) p (w.setCurve a ⟨c, .ir .zero⟩) =
      (.ok (zeroValue τ o R (L p)), w.setCurve a ⟨c, .ir .zero⟩) := by
  refine C54_flows (hp _) (df := fun t => Real.exp (-(R t * τ o t))) fun q hq => ?_
  simp only [World.setCurve, Function.update_self, CurveObj.discountFactor, CurveObj.ir?]
  exact zero_factor hτ hdc ho hR same q.1

/-- Grids of a zero rate curve. -/
theorem zero_grid (hd : dc.Usable) (hτ : GoodDayCount (dc.fn cal)) (ho : o?.or G.head? = some o) (hinc : G.Pairwise (· < ·)) :
    FitGrid cal o o? dc linearScheme G :=
  ⟨hd, hτ, ho, hinc.imp fun h => h.ne, by simp [linearScheme, FuncSpec.isLog, Kind.isLog], fun h => absurd h
    (by simp [linearScheme, FuncSpec.needsNonzero, Kind.isRate])⟩

theorem fitSpread_line (hd : dc.Usable) (hτ : GoodDayCount (dc.fn cal)) (ho : o?.or G.head? = some o) (hinc : G.Pairwise (· < ·))
    (hne : G ≠ []) (y : D → ℝ) (x : D) :
    (fitSpread cal o o? dc linearScheme G y).call cal x = .ok (lineAt (dc.fn cal) o G y x) := by
  have := irOf_linear cal (pts := G.map fun d => (d, y d)) (i := none) (o? := o?) (dc := dc) (o := o) (cls := .zero)
    (tenor := none) rfl (by rw [graph_fst]; exact ho) hd hτ (by rw [graph_fst]; exact hinc.imp fun h => h.ne)
    (by simpa using hne) x
  rw [linVal_grid hτ o hinc] at this
  exact this

/-- A zero rate curve with total rates, cast onto a grid. -/
theorem zero_castOn (hd : dc.Usable) (hk : dc.kwarg = dc) (hτ : GoodDayCount (dc.fn cal)) (ho : o?.or G.head? = some o)
    (hinc : G.Pairwise (· < ·)) {c : RateCurve D P} (hdc : c.base.dc = dc) (hoc : c.base.origin? = o?) {o' : D}
    (ho' : c.base.origin = some o') {R : D → ℝ} (hR : ∀ x ∈ G, c.call cal x = .ok (R x)) (scipy : Bool) (limit : ℕ) (sameD : D → Bool) :
    (CurveObj.mk c (.ir .zero)).castOn cal scipy limit sameD G = .ok (fitSpread cal o o? dc linearScheme G R) := by
  have hor : (DayCountArg.default : DayCountArg D).or c.base.dc.kwarg = dc := by rw [hdc, hk]; rfl
  have horg : cal.or none c.base.origin? = o? := hoc
  have := castOn_eq (cal := cal) (cls := .zero) (limit := limit) (same := sameD) (dom := G) (c := ⟨c, .zero⟩) (i := none)
    (origin := none) (dc := .default) (tenor := none) (o := o) (w := R)
    (fun x hx => by
      show IRCurve.zero cal ⟨c, .zero⟩ x = _
      simp only [IRCurve.zero, ho', pyDate, Py.ok_bind, IRCurve.rate, IRCurve.zeroRateOf, IRCurve.call, if_true]
      split_ifs with h
      · rw [h.1]; exact hR x hx
      · exact hR x hx) (hinc.imp fun h => h.ne)
    (by simp [IRClass.dflt, linearScheme, FuncSpec.isLog, Kind.isLog]) (by rw [horg]; exact ho)
    (by rw [hor]; exact hd) (by rw [hor]; exact hτ)
  rw [hor, horg] at this
  simp only [CurveObj.castOn, this, Py.ok_bind]
  rfl

/-- The products on a fitted zero rate curve. -/
theorem zero_priced (hd : dc.Usable) (hτ : GoodDayCount (dc.fn cal)) (ho : o?.or G.head? = some o) (hinc : G.Pairwise (· < ·))
    (hne : G ≠ []) {c : RateCurve D P} (hc : w.curves a = ⟨c, .ir .zero⟩) (hsp : c.spread = none)
    (hdc : ∀ s t, c.base.dayCount cal s t = .ok (dc.fn cal s t)) (hoc : c.base.origin = some o') {R : D → ℝ}
    (hR : ∀ x, c.call cal x = .ok (R x)) (hp : ∀ p ∈ ps, FixedFlows cal w a o' p (L p))
    (he : ∀ p ∈ ps, maxDate (w.product p).domain = .ok (e p)) :
    Priced cal o o? dc linearScheme G w a a same (some o') ps
      (fun p y => zeroValue (dc.fn cal) o' (fun t => R t + lineAt (dc.fn cal) o G y t) (L p)) e := by
  refine ⟨fun p hps y => ?_, he⟩
  have := zero_pv (cal := cal) (τ := dc.fn cal) (w := w) (a := a) (same := same) hτ
    (c := { c with spread := some ((fitSpread cal o o? dc linearScheme G y).asSpread cal) }) hdc hoc
    (R := fun t => R t + lineAt (dc.fn cal) o G y t)
    (fun x => linked_call hsp (hR x) (fitSpread_line hd hτ ho hinc hne y x)) (hp p hps)
  simp only [fitState, World.linkSpread, hc]
  exact this

theorem zero_local (hτ : GoodDayCount (dc.fn cal)) (hinc : G.Pairwise (· < ·)) {R : D → ℝ}
    (hL : ∀ p ∈ ps, ∀ q ∈ L p, q.1 ≤ e p) :
    Local G ps (fun p y => zeroValue (dc.fn cal) o' (fun t => R t + lineAt (dc.fn cal) o G y t) (L p)) e := by
  intro p hp d hd hed y y' hy
  simp only [zeroValue]
  congr 1
  apply List.map_congr_left
  intro q hq
  rw [lineAt_local hτ o ((hL p hp q hq).trans hed) hinc hd hy]

theorem zero_call (hd : dc.Usable) (hτ : GoodDayCount (dc.fn cal)) (ho : o?.or G.head? = some o) (hinc : G.Pairwise (· < ·))
    (hne : G ≠ []) (y : D → ℝ) (x : D) : (irOf cal o o? dc none .zero tenor (G.map fun d => (d, y d))).toRateCurve.call cal x =
      .ok (lineAt (dc.fn cal) o G y x) := by
  have := irOf_linear cal (pts := G.map fun d => (d, y d)) (i := none) (o? := o?) (dc := dc) (o := o) (cls := .zero)
    (tenor := tenor) rfl (by rw [graph_fst]; exact ho) hd hτ (by rw [graph_fst]; exact hinc.imp fun h => h.ne)
    (by simpa using hne) x
  rw [linVal_grid hτ o hinc] at this
  exact this

/-- A zero rate curve fitted on its own dates to products with fixed flows. -/
theorem zero_setup (hd : dc.Usable) (hk : dc.kwarg = dc) (hτ : GoodDayCount (dc.fn cal)) (ho : o?.or G.head? = some o)
    (hinc : G.Pairwise (· < ·)) (hne : G ≠ [])
    (hc : w.curves a = (irOf cal o o? dc none .zero tenor (G.map fun d => (d, b d))).obj)
    (hp : ∀ p ∈ ps, FixedFlows cal w a o p (L p)) (he : ∀ p ∈ ps, maxDate (w.product p).domain = .ok (e p)) (same : Bool)
    (limit : ℕ) (scipy : Bool) (sameD : D → Bool) :
    Priced cal o o? dc linearScheme G w a a same (some o) ps
      (fun p y => zeroValue (dc.fn cal) o (fun t => lineAt (dc.fn cal) o G b t + lineAt (dc.fn cal) o G y t) (L p)) e ∧
    (w.curves a).castOn cal scipy limit sameD ((none : Option (List D)).getD (w.curves a).base.domain) =
      .ok (fitSpread cal o o? dc linearScheme G (lineAt (dc.fn cal) o G b)) ∧
    ∀ d ∈ G, (w.curves a).toRateCurve.call cal d = .ok (b d) := by
  have hnode : ∀ d ∈ G, lineAt (dc.fn cal) o G b d = b d := by
    intro d hd'
    have h1 := fitSpread_line (o? := o?) hd hτ ho hinc hne b d
    rw [fitSpread_call (zero_grid hd hτ ho hinc) b hd'] at h1
    exact (Except.ok.inj h1).symm
  have hor : (irOf cal o o? dc none .zero tenor (G.map fun d => (d, b d))).base.origin = some o :=
    irOf_origin cal (by rw [graph_fst]; exact ho)
  have hc' : w.curves a = ⟨(irOf cal o o? dc none .zero tenor (G.map fun d => (d, b d))).toRateCurve, .ir .zero⟩ := hc
  have hdom : (w.curves a).base.domain = G := by rw [hc']; exact graph_fst G b
  refine ⟨zero_priced (o' := o) (ps := ps) (same := same) hd hτ ho hinc hne hc' rfl (fun s t => irOf_dayCount cal hd s t) hor
    (zero_call hd hτ ho hinc hne b) hp he, ?_, fun d hd' => by rw [hc', zero_call hd hτ ho hinc hne, hnode d hd']⟩
  rw [Option.getD_none, hdom, hc']
  exact zero_castOn hd hk hτ ho hinc rfl rfl hor (fun x _ => zero_call hd hτ ho hinc hne b x) scipy limit sameD

/-- C64 (zero rate curves, fixed flows): if the fit returns on the curve's own dates, then the curve is as before, and a
zero rate curve with the returned values prices the products maturing by any of its dates, in sum, within the precision. -/
theorem C64_zero (hd : dc.Usable) (hk : dc.kwarg = dc) (hτ : GoodDayCount (dc.fn cal)) (ho : o?.or G.head? = some o)
    (hinc : G.Pairwise (· < ·)) (hne : G ≠ [])
    (hc : w.curves a = (irOf cal o o? dc none .zero tenor (G.map fun d => (d, b d))).obj)
    (hp : ∀ p ∈ ps, FixedFlows cal w a o p (L p)) (he : ∀ p ∈ ps, maxDate (w.product p).domain = .ok (e p))
    (hL : ∀ p ∈ ps, ∀ q ∈ L p, q.1 ≤ e p) {limit : ℕ} {scipy : Bool} {sameD : D → Bool} {target : NumArg}
    {precision lo hi : ℝ} {data : List ℝ} {w' : World D P}
    (hr : curveFit cal limit scipy sameD ps a same (some o) none none target precision lo hi w = (.ok data, w')) :
    w' = w ∧ data.length = G.length ∧ ∃ c, IRCurve.new cal .zero G data none o? dc tenor = .ok c ∧ ∃ U : Product D → ℝ,
      (∀ p ∈ ps, pvOn cal a same (some o) p (w.setCurve a c.obj) = (.ok (U p), w.setCurve a c.obj)) ∧
      ∀ d ∈ G, |(((ps.zip (targetList target ps.length)).filter fun q => decide (e q.1 ≤ d)).map
        fun q => U q.1 - q.2).sum| < precision := by
  have hnd : G.Nodup := hinc.imp fun h => h.ne
  have hor : ∀ y : D → ℝ, (irOf cal o o? dc none .zero tenor (G.map fun d => (d, y d))).base.origin = some o := fun y =>
    irOf_origin cal (by rw [graph_fst]; exact ho)
  obtain ⟨hP, hcast, hb⟩ := zero_setup (a := a) hd hk hτ ho hinc hne hc hp he same limit scipy sameD
  have hS := C64_success (zero_grid hd hτ ho hinc) hP hinc (fitting := none) rfl hcast hb hr
  obtain ⟨z, rfl, hz⟩ := C64_reprices (zero_grid hd hτ ho hinc) hP (zero_local hτ hinc hL) hinc (fitting := none) rfl hcast hb hr
  refine ⟨hS.1, by simp, irOf cal o o? dc none .zero tenor (G.map fun d => (d, b d + z d)), ?_,
    fun p => zeroValue (dc.fn cal) o (fun t => lineAt (dc.fn cal) o G b t + lineAt (dc.fn cal) o G z t) (L p), fun p hps => ?_,
    fun d hd' => (hz d hd').2⟩
  · have := IRCurve_new_eq cal (pts := G.map fun d => (d, b d + z d)) (i := none) (o? := o?) (dc := dc) (o := o) (cls := .zero)
      (tenor := tenor) (by rw [graph_fst]; exact hnd) (fun h => absurd h not_log) (by rw [graph_fst]; exact ho) hd hτ
    rw [graph_fst, graph_snd] at this
    exact this
  · have := zero_pv (τ := dc.fn cal) (same := same) (w := w) (a := a) hτ (fun s t => irOf_dayCount cal hd s t)
      (hor fun d => b d + z d) (zero_call (tenor := tenor) hd hτ ho hinc hne fun d => b d + z d) (hp p hps)
    rw [show lineAt (dc.fn cal) o G (fun d => b d + z d) = fun x => lineAt (dc.fn cal) o G b x + lineAt (dc.fn cal) o G z x from
      funext fun x => lineAt_add _ o b z x G] at this
    exact this

/-! ## Discount factor curves -/

theorem log_set_error {xs ys : List ℝ} (hl : xs.length = ys.length) (h : 0 ∈ ys) (hn : xs.Nodup) :
    fitFunc logLinearRateScheme xs ys = .error .value := by
  have hz : (xs.zip ys).map Prod.snd = ys := by rw [List.map_snd_zip]; omega
  have hz' : (xs.zip ys).map Prod.fst = xs := by rw [List.map_fst_zip]; omega
  have hperm := sortPairs_perm (xs.zip ys)
  have h0 : (0 : ℝ) ∈ (sortPairs (xs.zip ys)).map Prod.snd := by
    rw [(hperm.map Prod.snd).mem_iff, hz]; exact h
  have hnd : ((sortPairs (xs.zip ys)).map Prod.fst).Nodup := by
    rw [(hperm.map Prod.fst).nodup_iff, hz']; exact hn
  rw [fitFunc, logLinearRateScheme, Func.new, Interp.new]
  rw [if_neg (by simp), if_neg (by simpa using hnd)]
  rw [if_pos fun hall => lt_irrefl _ (hall 0 h0)]
  rfl

/-- C64 (refuted): a discount factor curve is never fitted. Its spread curve is a discount factor curve, too, in which no
zero can be stored; the failed fit leaves it behind as spread. -/
theorem C64_discount_violated (hd : dc.Usable) (hk : dc.kwarg = dc) (hτ : GoodDayCount (dc.fn cal)) (ho : o?.or G.head? = some o)
    (hnd : G.Nodup) (hne : ∃ d ∈ G, d ≠ o) (hb : ∀ d ∈ G, 0 < b d)
    (hc : w.curves a = (irOf cal o o? dc none .discount tenor (G.map fun d => (d, b d))).obj)
    (limit : ℕ) (scipy : Bool) (sameD : D → Bool) (ps : List (Product D)) (v : Option D) (target : NumArg)
    (precision lo hi : ℝ) :
    ∃ w', curveFit cal limit scipy sameD ps a same v none none target precision lo hi w = (.error .value, w') ∧
      (w'.curves a).spread ≠ none := by
  have hnd1 : ((G.map fun d => (d, b d)).map Prod.fst).Nodup := by rw [graph_fst]; exact hnd
  have hnode : ∀ (tenor : Option P), ∀ d ∈ G,
      (irOf cal o o? dc none .discount tenor (G.map fun d => (d, b d))).call cal d = .ok (b d) := by
    intro tenor d hdG
    refine irOf_node cal (by rw [graph_fst]; exact ho) hd hτ hnd1 (fun _ p hp => ?_) (fun _ => ?_) (List.mem_map.2 ⟨d, hdG, rfl⟩)
    · obtain ⟨x, hx, rfl⟩ := List.mem_map.1 hp
      exact hb x hx
    · obtain ⟨x, hx, hxo⟩ := hne
      exact ⟨(x, b x), List.mem_map.2 ⟨x, hx, rfl⟩, hxo⟩
  have hor : ∀ tenor : Option P, (irOf cal o o? dc none .discount tenor (G.map fun d => (d, b d))).base.origin = some o := fun t =>
    irOf_origin cal (by rw [graph_fst]; exact ho)
  have hdom : (w.curves a).base.domain = G := by rw [hc]; exact graph_fst G b
  have hcast : (w.curves a).castOn cal scipy limit sameD ((none : Option (List D)).getD (w.curves a).base.domain) =
      .ok (irOf cal o o? dc none .discount none (G.map fun d => (d, b d))).toRateCurve := by
    rw [Option.getD_none, hdom, hc]
    have hdc : (DayCountArg.default : DayCountArg D).or
        (irOf cal o o? dc none .discount tenor (G.map fun d => (d, b d))).base.dc.kwarg = dc := hk
    have horg : cal.or none (irOf cal o o? dc none .discount tenor (G.map fun d => (d, b d))).base.origin? = o? := rfl
    have := castOn_eq (cal := cal) (cls := .discount) (limit := limit) (same := sameD) (dom := G)
      (c := irOf cal o o? dc none .discount tenor (G.map fun d => (d, b d))) (i := none)
      (origin := none) (dc := .default) (tenor := none) (o := o) (w := b)
      (fun x hx => by
        show IRCurve.discount cal _ x = _
        simp only [IRCurve.discount, hor, pyDate, Py.ok_bind, IRCurve.factor]
        show IRCurve.discountFactorOf cal _ true o x = _
        rw [IRCurve.discountFactorOf, if_pos rfl, hnode tenor x hx]) hnd (fun _ => hb) (by rw [horg]; exact ho) (by rw [hdc]; exact hd)
      (by rw [hdc]; exact hτ)
    rw [hdc, horg] at this
    simp only [CurveObj.castOn, IRCurve.obj]
    have h2 : (⟨(irOf cal o o? dc none .discount tenor (G.map fun d => (d, b d))).toRateCurve, .discount⟩ : IRCurve D P) =
      irOf cal o o? dc none .discount tenor (G.map fun d => (d, b d)) := rfl
    have h3 : (irOf cal o o? dc none .discount tenor (G.map fun d => (d, b d))).cls = .discount := rfl
    simp only [h3, h2, this, Py.ok_bind]
  have hsp : (w.curves a).spread = none := by rw [hc]; rfl
  obtain ⟨k, l, hkl⟩ : ∃ k l, G = k :: l := by
    cases G with
    | nil => simp at hne
    | cons k l => exact ⟨k, l, rfl⟩
  have hkG : k ∈ G := by simp [hkl]
  set sp := (irOf cal o o? dc none .discount none (G.map fun d => (d, b d))).toRateCurve with hspdef
  have hv : pyMap (sp.call cal) sp.base.domain = .ok (G.map b) := by
    rw [show sp.base.domain = G from graph_fst G b]
    exact pyMap_ok fun d hdG => hnode none d hdG
  have hput : putPt (G.map fun d => (d, b d)) k 0 = G.map fun d => (d, Function.update b k 0 d) := by
    rw [putPt, if_pos (by rw [graph_fst]; exact hkG), List.map_map]
    apply List.map_congr_left
    intro d _
    by_cases e : d = k
    · subst e; simp
    · simp [e]
  have hset : sp.setitem cal k 0 = .error .value := by
    unfold RateCurve.setitem DateCurve.setitemWith
    rw [hv, Py.ok_bind, show sp.base.domain = G from graph_fst G b]
    have hs := setPoint_eq hnd1 k 0
    rw [hput, graph_fst, graph_snd, graph_fst, graph_snd] at hs
    simp only [hs]
    unfold DateCurve.update
    rw [pyMap_ok (g := dc.fn cal o) fun x _ => time_eq cal (c := sp.base) (hor none) hd x, Py.ok_bind]
    have : fitFunc (sp.base.interp.getD sp.base.dflt) (G.map (dc.fn cal o)) (G.map (Function.update b k 0)) = .error .value := by
      refine log_set_error (by simp) (List.mem_map.2 ⟨k, hkG, by simp⟩) ?_
      exact hnd.map fun x y hxy => hτ.inj o hxy
    rw [this]
    rfl
  have hs0 : setSpreadPoint cal a k 0 (w.linkSpread cal a sp, sp) = (.error .value, (w.linkSpread cal a sp, sp)) := by
    simp only [setSpreadPoint, hset]
  refine ⟨w.linkSpread cal a sp, ?_, by simp [World.linkSpread, World.setCurve]⟩
  have hset1 : setSpread a (some (sp.asSpread cal)) w = (.ok (), w.linkSpread cal a sp) := by
    rw [setSpread_run _ _ _ (.inr hsp), link_eq]
  rw [curveFit]
  simp only [Option.getD_none] at hcast ⊢
  simp only [hcast, hset1]
  have hloop : fitLoop cal limit a same v a (ps.zip (targetList target ps.length)) precision lo hi (w.linkSpread cal a sp, sp) =
      (.error .value, (w.linkSpread cal a sp, sp)) := by
    rw [fitLoop, PyM.get_bind]
    have : PyM.forM (fun d => setSpreadPoint cal a d 0) sp.base.domain (w.linkSpread cal a sp, sp) =
        (.error .value, (w.linkSpread cal a sp, sp)) := by
      rw [show sp.base.domain = k :: l from (graph_fst G b).trans hkl, PyM.forM, PyM.bind_error hs0]
    rw [PyM.bind_error this]
  simp only [hloop]

end

/-! ## Examples -/

/-- Zero rate curves at 5% with origin 0 and points at 1 and 3, resp. 1; a list paying 1 at 1, a list paying 1 at 1 and 2
at 3. -/
noncomputable def fitWorld : World ℝ FloatPeriod where
  curves := fun
    | 0 => (irOf floatCal 0 (some 0) .default none .zero none ([1, 3].map fun d => (d, 1 / 20))).obj
    | 1 => (irOf floatCal 0 (some 0) .default none .zero none ([1].map fun d => (d, 1 / 20))).obj
    | _ => (irOf floatCal 0 (some 0) .default none .discount none ([1].map fun d => (d, 1 / 2))).obj
  models := exWorld.models
  lists := fun
    | 0 => ⟨none, [1], .ofPairs [(1, .num 1)], .fwd fun _ => .none, false, false, false⟩
    | _ => ⟨none, [1, 3], .ofPairs [(1, .num 1), (3, .num 2)], .fwd fun _ => .none, false, false, false⟩

/-- The flows of the two lists. -/
noncomputable def fitFlows : Product ℝ → List (ℝ × ℝ)
  | .list 0 => [(1, 1)]
  | _ => [(1, 1), (3, 2)]

/-- Their last dates. -/
noncomputable def fitEnds : Product ℝ → ℝ
  | .list 0 => 1
  | _ => 3

theorem fitWorld_pays (a : ℕ) (i : ℕ) : FixedFlows floatCal fitWorld a 0 (.list i) (fitFlows (.list i)) := by
  intro c
  refine ⟨[fitFlows (.list i)], ?_, by simp⟩
  rw [Product.leaves]
  rcases i with _ | i
  · refine .cons ⟨fun h' => absurd h' (by simp [fitWorld, World.setCurve]), fun d => 1, ?_, ?_⟩ .nil
    · intro d hd hv
      simp only [fitWorld, World.setCurve, List.mem_cons, List.not_mem_nil, or_false] at hd
      subst hd
      simp [World.list, World.dated, fitWorld, World.setCurve, CFList.getitem, Dict.ofPairs, Dict.get, Dict.set, PayOff.eval]
    · norm_num [fitWorld, World.setCurve, List.filter, fitFlows]
  · refine .cons ⟨fun h' => absurd h' (by simp [fitWorld, World.setCurve]), fun d => if d = 1 then 1 else 2, ?_, ?_⟩ .nil
    · intro d hd hv
      simp only [fitWorld, World.setCurve, List.mem_cons, List.not_mem_nil, or_false] at hd
      rcases hd with rfl | rfl
      · simp [World.list, World.dated, fitWorld, World.setCurve, CFList.getitem, Dict.ofPairs, Dict.get, Dict.set, PayOff.eval]
      · simp [World.list, World.dated, fitWorld, World.setCurve, CFList.getitem, Dict.ofPairs, Dict.get, Dict.set, PayOff.eval]
    · norm_num [fitWorld, World.setCurve, List.filter, fitFlows]

theorem fitWorld_last (i : ℕ) : maxDate (fitWorld.product (.list i)).domain = .ok (fitEnds (.list i)) := by
  rcases i with _ | i
  · simp [World.product, CF.domain, World.list, fitWorld, maxDate, fitEnds]
  · simp [World.product, CF.domain, World.list, fitWorld, maxDate, fitEnds]

theorem fitFlows_last (i : ℕ) : ∀ q ∈ fitFlows (.list i), q.1 ≤ fitEnds (.list i) := by
  rcases i with _ | i <;> simp [fitFlows, fitEnds]

theorem exp_lip {M x x' : ℝ} (hx : x ≤ M) (hx' : x' ≤ M) : |Real.exp x' - Real.exp x| ≤ Real.exp M * |x' - x| := by
  wlog h : x ≤ x' generalizing x x'
  · rw [abs_sub_comm, abs_sub_comm x']
    exact this hx' hx (le_of_not_ge h)
  rw [abs_of_nonneg (sub_nonneg.2 (Real.exp_le_exp.2 h)), abs_of_nonneg (sub_nonneg.2 h)]
  have h1 := Real.add_one_le_exp (x - x')
  have h2 : Real.exp (x - x') * Real.exp x' = Real.exp x := by rw [← Real.exp_add]; congr 1; ring
  have h3 : Real.exp x' - Real.exp x ≤ Real.exp x' * (x' - x) := by
    rw [← h2]
    nlinarith [Real.exp_pos x']
  exact h3.trans (mul_le_mul_of_nonneg_right (Real.exp_le_exp.2 hx') (sub_nonneg.2 h))

theorem exp_between : Real.exp (-(3 / 4)) + 1 / 5 < Real.exp (-(9 / 50)) ∧ Real.exp (-(9 / 50)) + 1 / 5 < Real.exp (3 / 20) ∧
    Real.exp (-(1 / 4)) + 1 / 10 < Real.exp (-(3 / 50)) ∧ Real.exp (-(3 / 50)) + 1 / 50 < Real.exp (1 / 20) := by
  have h1 := Real.add_one_le_exp (-(9 / 50) : ℝ)
  have h2 := Real.add_one_le_exp (9 / 50 : ℝ)
  have h3 := Real.add_one_le_exp (3 / 4 : ℝ)
  have h4 := Real.add_one_le_exp (3 / 20 : ℝ)
  have h5 := Real.add_one_le_exp (1 / 4 : ℝ)
  have h6 := Real.add_one_le_exp (-(3 / 50) : ℝ)
  have h7 := Real.add_one_le_exp (3 / 50 : ℝ)
  have h8 := Real.add_one_le_exp (1 / 20 : ℝ)
  have inv : ∀ {x c : ℝ}, 0 < c → c ≤ Real.exp x → Real.exp (-x) ≤ 1 / c := fun hc h => by
    rw [Real.exp_neg, ← one_div]; exact one_div_le_one_div_of_le hc h
  have i2 := inv (by norm_num) h2
  have i3 := inv (by norm_num) h3
  have i5 := inv (by norm_num) h5
  have i7 := inv (by norm_num) h7
  norm_num at *
  refine ⟨by linarith, by linarith, by linarith, by linarith⟩

theorem exp_small {x : ℝ} (h : x ≤ 1) : Real.exp x ≤ 3 :=
  (Real.exp_le_exp.2 h).trans (Real.exp_one_lt_d9.le.trans (by norm_num))

/-- Non-vacuity of C64: the fit of two products to prices at 6% returns. -/
theorem exZeroFit : ∃ data, curveFit floatCal 100 false (fun _ => false) [.list 0, .list 1] 0 false (some 0) none none
      (.list [Real.exp (-(3 / 50)), Real.exp (-(3 / 50)) + 2 * Real.exp (-(9 / 50))]) (1 / 10 ^ 7) (-(1 / 10)) (1 / 5)
      fitWorld = (.ok data, fitWorld) := by
  have hps : ∀ p ∈ [Product.list 0, Product.list 1], ∃ i, p = (Product.list i : Product ℝ) := by simp
  obtain ⟨hP, hcast, hb⟩ := zero_setup (cal := floatCal) (o := 0) (o? := some 0) (dc := .default) (G := [1, 3])
    (b := fun _ => 1 / 20) (tenor := none) (w := fitWorld) (a := 0) (ps := [.list 0, .list 1]) (L := fitFlows) (e := fitEnds)
    trivial rfl goodDayCount_real rfl (by norm_num) (by simp) rfl
    (fun p hp => by obtain ⟨i, rfl⟩ := hps p hp; exact fitWorld_pays 0 i)
    (fun p hp => by obtain ⟨i, rfl⟩ := hps p hp; exact fitWorld_last i) false 100 false fun _ => false
  have l1 : ∀ y : ℝ → ℝ, lineAt (DayCountArg.default.fn floatCal) 0 [1, 3] y 1 = y 1 := by
    intro y; simp [lineAt, flin]
  have t1 : (DayCountArg.default.fn floatCal) 0 1 = 1 := by simp [DayCountArg.fn, floatCal]
  have t3 : (DayCountArg.default.fn floatCal) 0 3 = 3 := by simp [DayCountArg.fn, floatCal]
  have l3 : ∀ y : ℝ → ℝ, lineAt (DayCountArg.default.fn floatCal) 0 [1, 3] y 3 = y 3 := by
    intro y; norm_num [lineAt, flin, t1, t3, chord]
  set V : Product ℝ → (ℝ → ℝ) → ℝ := fun p y => zeroValue (DayCountArg.default.fn floatCal) 0
    (fun t => lineAt (DayCountArg.default.fn floatCal) 0 [1, 3] (fun _ => 1 / 20) t +
      lineAt (DayCountArg.default.fn floatCal) 0 [1, 3] y t) (fitFlows p) with hV
  set qs : List (Product ℝ × ℝ) := [Product.list 0, Product.list 1].zip
    [Real.exp (-(3 / 50)), Real.exp (-(3 / 50)) + 2 * Real.exp (-(9 / 50))] with hqs
  have r1 : ∀ y : ℝ → ℝ, residual V fitEnds qs 1 y = Real.exp (-(1 / 20 + y 1)) - Real.exp (-(3 / 50)) := by
    intro y
    norm_num [residual, hqs, hV, fitEnds, fitFlows, zeroValue, l1, l3, t1, t3]
  have r3 : ∀ y : ℝ → ℝ, residual V fitEnds qs 3 y = 2 * (Real.exp (-(1 / 20 + y 1)) - Real.exp (-(3 / 50))) +
      2 * (Real.exp (-(3 * (1 / 20 + y 3))) - Real.exp (-(9 / 50))) := by
    intro y
    norm_num [residual, hqs, hV, fitEnds, fitFlows, zeroValue, l1, l3, t1, t3]
    ring_nf
  have h3 := exp_small (le_refl 1)
  refine C64_exists (o := 0) (o? := some 0) (dc := .default) (L := 36) (n := 28)
    (zero_grid (cal := floatCal) (o := 0) (o? := some 0) (dc := .default) trivial goodDayCount_real rfl (by norm_num)) hP
    (by norm_num) rfl rfl hcast hb (qs := qs) rfl (by norm_num) ?_ ?_ ?_ ?_ ?_
  · intro d hd y _ _ x hx x' hx'
    rw [Set.uIcc_of_le (by norm_num), Set.mem_Icc] at hx hx'
    simp only [List.mem_cons, List.not_mem_nil, or_false] at hd
    rcases hd with rfl | rfl
    · have := exp_lip (M := 1) (x := -(1 / 20 + x)) (x' := -(1 / 20 + x')) (by linarith) (by linarith)
      rw [r1, r1, Function.update_self, Function.update_self]
      rw [show -(1 / 20 + x') - -(1 / 20 + x) = -(x' - x) by ring, abs_neg] at this
      rw [sub_sub_sub_cancel_right]
      exact this.trans (mul_le_mul_of_nonneg_right (h3.trans (by norm_num)) (abs_nonneg _))
    · have := exp_lip (M := 1) (x := -(3 * (1 / 20 + x))) (x' := -(3 * (1 / 20 + x'))) (by linarith) (by linarith)
      rw [r3, r3, Function.update_self, Function.update_self, Function.update_of_ne (by norm_num), Function.update_of_ne (by norm_num)]
      rw [show -(3 * (1 / 20 + x')) - -(3 * (1 / 20 + x)) = -3 * (x' - x) by ring, abs_mul] at this
      rw [add_sub_add_left_eq_sub, ← mul_sub, sub_sub_sub_cancel_right, abs_mul]
      norm_num at this ⊢
      nlinarith [abs_nonneg (x' - x)]
  · intro d hd y hy _
    simp only [List.mem_cons, List.not_mem_nil, or_false] at hd
    obtain ⟨e1, e2, e3, e4⟩ := exp_between
    rcases hd with rfl | rfl
    · rw [r1, r1, Function.update_self, Function.update_self]
      apply mul_nonpos_of_nonneg_of_nonpos
      · norm_num at e4 ⊢; try linarith
      · norm_num at e3 ⊢; try linarith
    · have h1 := (hy 1 (by simp) (by norm_num)).2
      rw [r1] at h1
      simp only [upTo, le_refl, if_true] at h1
      rw [r3, r3, Function.update_self, Function.update_self, Function.update_of_ne (by norm_num), Function.update_of_ne (by norm_num)]
      rw [abs_lt] at h1
      apply mul_nonpos_of_nonneg_of_nonpos
      · norm_num at e2 h1 ⊢; linarith
      · norm_num at e1 h1 ⊢; linarith
  · norm_num [abs_of_pos]
  · norm_num [abs_of_pos]
  · norm_num

/-- C64 (refuted): two products with the same last date and different prices. The fit returns, and on the fitted curve
neither price is met. -/
theorem C64_violated : ∃ (p p' : ℝ) (data : List ℝ) (c : IRCurve ℝ FloatPeriod) (U : ℝ),
    curveFit floatCal 100 false (fun _ => false) [.list 0, .list 0] 1 false (some 0) none none (.list [p, p'])
      (1 / 10 ^ 7) (-(1 / 10)) (1 / 5) fitWorld = (.ok data, fitWorld) ∧
    IRCurve.new floatCal .zero [1] data none (some 0) .default none = .ok c ∧
    pvOn floatCal 1 false (some 0) (.list 0) (fitWorld.setCurve 1 c.obj) = (.ok U, fitWorld.setCurve 1 c.obj) ∧
    1 / 200 < |U - p| ∧ 1 / 200 < |U - p'| := by
  have hps : ∀ p ∈ [Product.list 0, Product.list 0], ∃ i, p = (Product.list i : Product ℝ) := by simp
  have hpays : ∀ p ∈ [Product.list 0, Product.list 0], FixedFlows floatCal fitWorld 1 0 p (fitFlows p) := fun p hp => by
    obtain ⟨i, rfl⟩ := hps p hp; exact fitWorld_pays 1 i
  have hlast : ∀ p ∈ [Product.list 0, Product.list 0], maxDate (fitWorld.product p).domain = .ok (fitEnds p) := fun p hp => by
    obtain ⟨i, rfl⟩ := hps p hp; exact fitWorld_last i
  obtain ⟨hP, hcast, hb⟩ := zero_setup (cal := floatCal) (o := 0) (o? := some 0) (dc := .default) (G := [1])
    (b := fun _ => 1 / 20) (tenor := none) (w := fitWorld) (a := 1) (ps := [.list 0, .list 0]) (L := fitFlows) (e := fitEnds)
    trivial rfl goodDayCount_real rfl (by norm_num) (by simp) rfl hpays hlast false 100 false fun _ => false
  have l1 : ∀ y : ℝ → ℝ, lineAt (DayCountArg.default.fn floatCal) 0 [1] y 1 = y 1 := by
    intro y; simp [lineAt, flin]
  have t1 : (DayCountArg.default.fn floatCal) 0 1 = 1 := by simp [DayCountArg.fn, floatCal]
  set V : Product ℝ → (ℝ → ℝ) → ℝ := fun p y => zeroValue (DayCountArg.default.fn floatCal) 0
    (fun t => lineAt (DayCountArg.default.fn floatCal) 0 [1] (fun _ => 1 / 20) t +
      lineAt (DayCountArg.default.fn floatCal) 0 [1] y t) (fitFlows p) with hV
  set qs : List (Product ℝ × ℝ) := [Product.list 0, Product.list 0].zip
    [Real.exp (-(3 / 50)) + 1 / 100, Real.exp (-(3 / 50)) - 1 / 100] with hqs
  have r1 : ∀ y : ℝ → ℝ, residual V fitEnds qs 1 y = 2 * (Real.exp (-(1 / 20 + y 1)) - Real.exp (-(3 / 50))) := by
    intro y
    norm_num [residual, hqs, hV, fitEnds, fitFlows, zeroValue, l1, t1]
    ring
  have h3 := exp_small (le_refl 1)
  obtain ⟨data, hr⟩ := C64_exists (o := 0) (o? := some 0) (dc := .default) (L := 36) (n := 28) (limit := 100) (scipy := false) (fitting := none) (grid := none)
    (sameD := fun _ => false) (target := .list [Real.exp (-(3 / 50)) + 1 / 100, Real.exp (-(3 / 50)) - 1 / 100])
    (precision := 1 / 10 ^ 7) (lo := -(1 / 10)) (hi := 1 / 5)
    (zero_grid (cal := floatCal) (o := 0) (o? := some 0) (dc := .default) (G := [1]) trivial goodDayCount_real rfl (by norm_num)) hP
    (by norm_num) rfl rfl hcast hb (qs := qs) rfl (by norm_num) (by
      intro d hd y _ _ x hx x' hx'
      rw [Set.uIcc_of_le (by norm_num), Set.mem_Icc] at hx hx'
      obtain rfl := List.mem_singleton.1 hd
      have := exp_lip (M := 1) (x := -(1 / 20 + x)) (x' := -(1 / 20 + x')) (by linarith) (by linarith)
      rw [r1, r1, Function.update_self, Function.update_self]
      rw [show -(1 / 20 + x') - -(1 / 20 + x) = -(x' - x) by ring, abs_neg] at this
      rw [← mul_sub, sub_sub_sub_cancel_right, abs_mul]
      norm_num at this ⊢
      nlinarith [abs_nonneg (x' - x)]) (by
      intro d hd y hy _
      obtain rfl := List.mem_singleton.1 hd
      obtain ⟨e1, e2, e3, e4⟩ := exp_between
      rw [r1, r1, Function.update_self, Function.update_self]
      apply mul_nonpos_of_nonneg_of_nonpos
      · norm_num at e4 ⊢; try linarith
      · norm_num at e3 ⊢; linarith) (by norm_num [abs_of_pos])
    (by norm_num [abs_of_pos]) (by norm_num)
  obtain ⟨-, -, c, hc, U, hU, hsum⟩ := C64_zero (cal := floatCal) (o := 0) (o? := some 0) (dc := .default) (G := [1])
    (b := fun _ => 1 / 20) (tenor := none) (w := fitWorld) (a := 1) (ps := [.list 0, .list 0]) (L := fitFlows) (e := fitEnds)
    trivial rfl goodDayCount_real rfl (by norm_num) (by simp) rfl hpays hlast
    (fun p hp => by obtain ⟨i, rfl⟩ := hps p hp; exact fitFlows_last i) hr
  refine ⟨_, _, data, c, U (.list 0), hr, hc, hU _ (by simp), ?_⟩
  have h1 := hsum 1 (by simp)
  norm_num [targetList, NumArg.expand, fitEnds] at h1
  rw [abs_lt] at h1
  constructor
  · rw [lt_abs]; right; linarith
  · rw [lt_abs]; left; linarith

/-- Non-vacuity of C64_discount_violated. -/
example : ∃ w', curveFit floatCal 100 false (fun _ => false) [.list 0] 2 false (some 0) none none (.scalar 1)
    (1 / 10 ^ 7) (-(1 / 10)) (1 / 5) fitWorld = (.error .value, w') ∧ (w'.curves 2).spread ≠ none :=
  C64_discount_violated (o := 0) (o? := some 0) (dc := .default) (G := [1]) (b := fun _ => 1 / 2) (tenor := none) trivial rfl
    goodDayCount_real rfl (by simp) ⟨1, by simp, by norm_num⟩ (by simp) rfl _ _ _ _ _ _ _ _ _

/-- Non-vacuity of C64_empty_violated: no product ends at the first grid date, the fit returns and sends the zero rate
there from 5% to -5%. -/
example : ∃ data x rest, curveFit floatCal 100 false (fun _ => false) [.list 1] 0 false (some 0) none none
      (.scalar (5 / 2)) (1 / 10 ^ 7) (-(1 / 10)) (1 / 5) fitWorld = (.ok data, fitWorld) ∧ data = x :: rest ∧
    |x - (-(1 / 20))| < 1 / 10 ^ 7 := by
  have hps : ∀ p ∈ [Product.list 1], ∃ i, p = (Product.list i : Product ℝ) := by simp
  obtain ⟨hP, hcast, hb⟩ := zero_setup (cal := floatCal) (o := 0) (o? := some 0) (dc := .default) (G := [1, 3])
    (b := fun _ => 1 / 20) (tenor := none) (w := fitWorld) (a := 0) (ps := [.list 1]) (L := fitFlows) (e := fitEnds)
    trivial rfl goodDayCount_real rfl (by norm_num) (by simp) rfl
    (fun p hp => by obtain ⟨i, rfl⟩ := hps p hp; exact fitWorld_pays 0 i)
    (fun p hp => by obtain ⟨i, rfl⟩ := hps p hp; exact fitWorld_last i) false 100 false fun _ => false
  have l1 : ∀ y : ℝ → ℝ, lineAt (DayCountArg.default.fn floatCal) 0 [1, 3] y 1 = y 1 := by
    intro y; simp [lineAt, flin]
  have t1 : (DayCountArg.default.fn floatCal) 0 1 = 1 := by simp [DayCountArg.fn, floatCal]
  have t3 : (DayCountArg.default.fn floatCal) 0 3 = 3 := by simp [DayCountArg.fn, floatCal]
  have l3 : ∀ y : ℝ → ℝ, lineAt (DayCountArg.default.fn floatCal) 0 [1, 3] y 3 = y 3 := by
    intro y; norm_num [lineAt, flin, t1, t3, chord]
  set V : Product ℝ → (ℝ → ℝ) → ℝ := fun p y => zeroValue (DayCountArg.default.fn floatCal) 0
    (fun t => lineAt (DayCountArg.default.fn floatCal) 0 [1, 3] (fun _ => 1 / 20) t +
      lineAt (DayCountArg.default.fn floatCal) 0 [1, 3] y t) (fitFlows p) with hV
  have r1 : ∀ y : ℝ → ℝ, residual V fitEnds [(.list 1, 5 / 2)] 1 y = 0 := by
    intro y
    norm_num [residual, hV, fitEnds, fitFlows, zeroValue, l1, l3, t1, t3]
  have r3 : ∀ y : ℝ → ℝ, residual V fitEnds [(.list 1, 5 / 2)] 3 y = Real.exp (-(1 / 20 + y 1)) +
      2 * Real.exp (-(3 * (1 / 20 + y 3))) - 5 / 2 := by
    intro y
    norm_num [residual, hV, fitEnds, fitFlows, zeroValue, l1, l3, t1, t3]
    ring_nf
  have h3 := exp_small (le_refl 1)
  have hG := zero_grid (cal := floatCal) (o := 0) (o? := some 0) (dc := .default) (G := [1, 3]) trivial goodDayCount_real rfl
    (by norm_num)
  obtain ⟨data, hr⟩ := C64_exists (o := 0) (o? := some 0) (dc := .default) (L := 36) (n := 28) (limit := 100) (scipy := false)
    (fitting := none) (grid := none) (sameD := fun _ => false) (target := .scalar (5 / 2))
    (precision := 1 / 10 ^ 7) (lo := -(1 / 10)) (hi := 1 / 5) hG hP
    (by norm_num) rfl rfl hcast hb (qs := [(.list 1, 5 / 2)]) rfl (by norm_num) (by
      intro d hd y _ _ x hx x' hx'
      rw [Set.uIcc_of_le (by norm_num), Set.mem_Icc] at hx hx'
      simp only [List.mem_cons, List.not_mem_nil, or_false] at hd
      rcases hd with rfl | rfl
      · rw [r1, r1, sub_zero, abs_zero]; positivity
      · have := exp_lip (M := 1) (x := -(3 * (1 / 20 + x))) (x' := -(3 * (1 / 20 + x'))) (by linarith) (by linarith)
        rw [r3, r3, Function.update_self, Function.update_self, Function.update_of_ne (by norm_num), Function.update_of_ne (by norm_num)]
        rw [show -(3 * (1 / 20 + x')) - -(3 * (1 / 20 + x)) = -3 * (x' - x) by ring, abs_mul] at this
        rw [sub_sub_sub_cancel_right, add_sub_add_left_eq_sub, ← mul_sub, abs_mul]
        norm_num at this ⊢
        nlinarith [abs_nonneg (x' - x)]) (by
      intro d hd y hy _
      simp only [List.mem_cons, List.not_mem_nil, or_false] at hd
      rcases hd with rfl | rfl
      · rw [r1, zero_mul]
      · have h1 := (hy 1 (by simp) (by norm_num)).1
        rw [Set.uIcc_of_le (by norm_num), Set.mem_Icc] at h1
        rw [r3, r3, Function.update_self, Function.update_self, Function.update_of_ne (by norm_num), Function.update_of_ne (by norm_num)]
        have u1 : Real.exp (-(1 / 4)) ≤ Real.exp (-(1 / 20 + y 1)) := Real.exp_le_exp.2 (by linarith)
        have u2 : Real.exp (-(1 / 20 + y 1)) ≤ Real.exp (1 / 20) := Real.exp_le_exp.2 (by linarith)
        have v1 := Real.add_one_le_exp (-(1 / 4) : ℝ)
        have v2 := Real.add_one_le_exp (3 / 20 : ℝ)
        have v3 := Real.add_one_le_exp (3 / 4 : ℝ)
        have v4 := Real.add_one_le_exp (-(1 / 20) : ℝ)
        have inv : ∀ {x c : ℝ}, 0 < c → c ≤ Real.exp x → Real.exp (-x) ≤ 1 / c := fun hc h => by
          rw [Real.exp_neg, ← one_div]; exact one_div_le_one_div_of_le hc h
        have i3 := inv (by norm_num) v3
        have i4 := inv (by norm_num) v4
        generalize Real.exp (-(1 / 20 + y 1)) = z at u1 u2 ⊢
        apply mul_nonpos_of_nonneg_of_nonpos
        · norm_num at u1 v1 v2 ⊢; linarith
        · norm_num at u2 i3 i4 ⊢; linarith) (by norm_num [abs_of_pos])
    (by norm_num [abs_of_pos]) (by norm_num)
  obtain ⟨x, rest, h1, h2⟩ := C64_empty_violated hG hP (by norm_num) rfl hcast hb rfl (by simp [fitEnds]) hr
  refine ⟨data, x, rest, hr, h1, ?_⟩
  norm_num at h2 ⊢
  exact h2

/-- Non-vacuity of C64_failing_violated: a price out of reach. -/
example : ∃ w', curveFit floatCal 100 false (fun _ => false) [.list 0] 1 false (some 0) none none (.scalar 5)
    (1 / 10 ^ 7) (-(1 / 10)) (1 / 5) fitWorld = (.error .assertion, w') ∧ (w'.curves 1).spread ≠ none := by
  have hps : ∀ p ∈ [Product.list 0], ∃ i, p = (Product.list i : Product ℝ) := by simp
  obtain ⟨hP, hcast, hb⟩ := zero_setup (cal := floatCal) (o := 0) (o? := some 0) (dc := .default) (G := [1])
    (b := fun _ => 1 / 20) (tenor := none) (w := fitWorld) (a := 1) (ps := [.list 0]) (L := fitFlows) (e := fitEnds)
    trivial rfl goodDayCount_real rfl (by norm_num) (by simp) rfl
    (fun p hp => by obtain ⟨i, rfl⟩ := hps p hp; exact fitWorld_pays 1 i)
    (fun p hp => by obtain ⟨i, rfl⟩ := hps p hp; exact fitWorld_last i) false 100 false fun _ => false
  have l1 : ∀ y : ℝ → ℝ, lineAt (DayCountArg.default.fn floatCal) 0 [1] y 1 = y 1 := by
    intro y; simp [lineAt, flin]
  have t1 : (DayCountArg.default.fn floatCal) 0 1 = 1 := by simp [DayCountArg.fn, floatCal]
  obtain ⟨w', h1, h2, -⟩ := C64_failing_violated (zero_grid (cal := floatCal) (o := 0) (o? := some 0) (dc := .default) (G := [1]) trivial
    goodDayCount_real rfl (by norm_num)) hP (fitting := none) rfl rfl hcast (d := 1) (l := []) rfl (target := .scalar 5)
    (precision := 1 / 10 ^ 7) (lo := -(1 / 10)) (hi := 1 / 5) (by norm_num) (by
      simp only [residual, targetList, NumArg.expand]
      norm_num [fitEnds, fitFlows, zeroValue, l1, t1]
      have a1 := exp_small (show (1 / 20 : ℝ) ≤ 1 by norm_num)
      have a2 := exp_small (show (-(1 / 4) : ℝ) ≤ 1 by norm_num)
      norm_num at a1 a2
      nlinarith)
  exact ⟨w', h1, h2⟩

/-! ### The hypotheses can be met: each theorem applied -/

example : True := by
  obtain ⟨data, hr⟩ := exZeroFit
  have hps : ∀ p ∈ [Product.list 0, Product.list 1], ∃ i, p = (Product.list i : Product ℝ) := by simp
  obtain ⟨hP, hcast, hb⟩ := zero_setup (cal := floatCal) (o := 0) (o? := some 0) (dc := .default) (G := [1, 3])
    (b := fun _ => 1 / 20) (tenor := none) (w := fitWorld) (a := 0) (ps := [.list 0, .list 1]) (L := fitFlows) (e := fitEnds)
    trivial rfl goodDayCount_real rfl (by norm_num) (by simp) rfl
    (fun p hp => by obtain ⟨i, rfl⟩ := hps p hp; exact fitWorld_pays 0 i)
    (fun p hp => by obtain ⟨i, rfl⟩ := hps p hp; exact fitWorld_last i) false 100 false fun _ => false
  have hG := zero_grid (cal := floatCal) (o := 0) (o? := some 0) (dc := .default) (G := [1, 3]) trivial goodDayCount_real rfl
    (by norm_num)
  have := C64_success hG hP (by norm_num) rfl hcast hb hr
  have hL : ∀ p ∈ [Product.list 0, Product.list 1], ∀ q ∈ fitFlows p, q.1 ≤ fitEnds p := by
    intro p hp q hq
    simp only [List.mem_cons, List.not_mem_nil, or_false] at hp
    rcases hp with rfl | rfl <;> simp [fitFlows] at hq <;> simp [fitEnds, hq] <;> rcases hq with rfl | rfl <;> norm_num
  have := C64_reprices hG hP (zero_local (dc := .default) goodDayCount_real (by norm_num) hL) (by norm_num) rfl hcast hb hr
  have := C64_zero (cal := floatCal) (o := 0) (o? := some 0) (dc := .default) (G := [1, 3])
    (b := fun _ => 1 / 20) (tenor := none) (w := fitWorld) (a := 0) (ps := [.list 0, .list 1]) (L := fitFlows) (e := fitEnds)
    trivial rfl goodDayCount_real rfl (by norm_num) (by simp) rfl
    (fun p hp => by obtain ⟨i, rfl⟩ := hps p hp; exact fitWorld_pays 0 i)
    (fun p hp => by obtain ⟨i, rfl⟩ := hps p hp; exact fitWorld_last i) hL hr
  trivial

example := C64_first (D := ℤ) (V := fun _ y => y 0) (e := fun p => match p with | .list n => n | _ => 0) [(.list 1, 100), (.list 2, 100)] (q := (.list 1, 100)) (d := 1)
  (z := fun _ => 100) (precision := 1 / 100) (by simp) (by simp [residual])
example := C64_only (D := ℤ) (V := fun _ y => y 0) (e := fun p => match p with | .list n => n | _ => 0) [(.list 1, 100), (.list 2, 100)] (q := (.list 2, 100)) (c := 1) (d := 2)
  (by norm_num) (z := fun _ => 100) (precision := 1 / 100) (by simp) (by simp [residual]) (by simp [residual])

end Dcf
