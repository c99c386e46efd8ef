import Verif.Props.Delta
import Verif.Props.Bracket

/-! # Curve fit: C64 -/

set_option linter.unusedSectionVars false
set_option linter.unusedVariables false
set_option linter.unusedSimpArgs false

namespace Dcf

open Spec

section
variable {D P : Type} [LinearOrder D] {cal : Cal D P}

/-! ## The spread curve while fitting -/

/-- The spread curve with the value `y d` at each grid date `d`. -/
noncomputable def fitSpread (cal : Cal D P) (o : D) (o? : Option D) (dc : DayCountArg D) (dflt : FuncSpec) (G : List D)
    (y : D → ℝ) : RateCurve D P :=
  ⟨dateCurveOf (dc.fn cal) o o? dc none dflt (G.map fun d => (d, y d)), none, none⟩

/-- Grids and interpolations on which every real value can be stored. -/
structure FitGrid (cal : Cal D P) (o : D) (o? : Option D) (dc : DayCountArg D) (dflt : FuncSpec) (G : List D) : Prop where
  usable : dc.Usable
  good : GoodDayCount (dc.fn cal)
  origin : o?.or G.head? = some o
  nodup : G.Nodup
  notLog : dflt.isLog = false
  nonzero : dflt.needsNonzero → ∃ d ∈ G, d ≠ o

variable {o : D} {o? : Option D} {dc : DayCountArg D} {dflt : FuncSpec} {G : List D}

theorem fitSpread_congr {y y' : D → ℝ} (h : ∀ d ∈ G, y d = y' d) :
    fitSpread cal o o? dc dflt G y = fitSpread cal o o? dc dflt G y' := by
  rw [fitSpread, List.map_congr_left fun d hd => by rw [h d hd]]
  rfl

theorem fitSpread_domain (y : D → ℝ) : (fitSpread cal o o? dc dflt G y).base.domain = G := by
  exact graph_fst G y

theorem fitSpread_call (h : FitGrid cal o o? dc dflt G) (y : D → ℝ) {d : D} (hd : d ∈ G) :
    (fitSpread cal o o? dc dflt G y).call cal d = .ok (y d) := by
  have : (fitSpread cal o o? dc dflt G y).base.call cal d = .ok (some (y d)) := by
    refine DateCurve_values cal (pts := G.map fun d => (d, y d)) (o := o)
      (dateCurveOf_origin (by rw [graph_fst]; exact h.origin)) h.usable h.good rfl
      (by rw [graph_fst]; exact h.nodup) rfl (fun hl => ?_) (fun hz => ?_) (List.mem_map.2 ⟨d, hd, rfl⟩)
    · exact absurd hl (by simp [fitSpread, dateCurveOf, h.notLog])
    · obtain ⟨e, he, hne⟩ := h.nonzero hz
      exact ⟨(e, y e), List.mem_map.2 ⟨e, he, rfl⟩, hne⟩
  rw [RateCurve.call, this]
  simp [fitSpread, pyNum]

theorem fitSpread_set (h : FitGrid cal o o? dc dflt G) (y : D → ℝ) {k : D} (hk : k ∈ G) (x : ℝ) :
    (fitSpread cal o o? dc dflt G y).setitem cal k x = .ok (fitSpread cal o o? dc dflt G (Function.update y k x)) := by
  have hn : ((G.map fun d => (d, y d)).map Prod.fst).Nodup := by rw [graph_fst]; exact h.nodup
  have hv : pyMap ((fitSpread cal o o? dc dflt G y).call cal) (fitSpread cal o o? dc dflt G y).base.domain = .ok (G.map y) := by
    rw [fitSpread_domain]
    exact pyMap_ok fun d hd => fitSpread_call h y hd
  have hput : putPt (G.map fun d => (d, y d)) k x = G.map fun d => (d, Function.update y k x d) := by
    rw [putPt, if_pos (by rw [graph_fst]; exact hk), List.map_map]
    apply List.map_congr_left
    intro d hd
    by_cases e : d = k
    · subst e; simp
    · simp [e]
  unfold RateCurve.setitem DateCurve.setitemWith
  rw [hv, Py.ok_bind, fitSpread_domain]
  have hs := setPoint_eq hn k x
  rw [hput, graph_fst, graph_snd] at hs
  simp only [hs]
  rw [update_eq cal (c := (fitSpread cal o o? dc dflt G y).base) (o := o)
    (dateCurveOf_origin (by rw [graph_fst]; exact h.origin)) h.usable
    (timePts_nodup h.good o (by rw [graph_fst]; exact h.nodup)) (fun hl => absurd hl (by simp [fitSpread, dateCurveOf, h.notLog]))]
  rfl

/-- World and spread curve with the values `y`. -/
noncomputable def fitState (cal : Cal D P) (o : D) (o? : Option D) (dc : DayCountArg D) (dflt : FuncSpec) (G : List D)
    (w : World D P) (a : ℕ) (y : D → ℝ) : World D P × RateCurve D P :=
  (w.linkSpread cal a (fitSpread cal o o? dc dflt G y), fitSpread cal o o? dc dflt G y)

theorem link_link (w : World D P) (a : ℕ) (s t : RateCurve D P) :
    (w.linkSpread cal a s).linkSpread cal a t = w.linkSpread cal a t := by
  simp [World.linkSpread, World.setCurve]

theorem link_eq (w : World D P) (a : ℕ) (s : RateCurve D P) :
    w.linkSpread cal a s = w.spreadOn [a] (some (s.asSpread cal)) := by
  simp only [World.linkSpread, World.setCurve, World.spreadOn]
  congr 1
  funext b
  by_cases hb : b = a
  · subst hb; simp
  · simp [hb]

variable {w : World D P} {a : ℕ}

theorem fitState_congr {y y' : D → ℝ} (h : ∀ d ∈ G, y d = y' d) :
    fitState cal o o? dc dflt G w a y = fitState cal o o? dc dflt G w a y' := by
  rw [fitState, fitSpread_congr h]
  rfl

theorem setPoint_run (h : FitGrid cal o o? dc dflt G) (y : D → ℝ) {k : D} (hk : k ∈ G) (x : ℝ) :
    setSpreadPoint cal a k x (fitState cal o o? dc dflt G w a y) =
      (.ok (), fitState cal o o? dc dflt G w a (Function.update y k x)) := by
  rw [setSpreadPoint]
  simp only [fitState, fitSpread_set h y hk, link_link]

theorem zero_run (h : FitGrid cal o o? dc dflt G) : ∀ (l : List D) (y : D → ℝ), (∀ d ∈ l, d ∈ G) →
    PyM.forM (fun d => setSpreadPoint cal a d 0) l (fitState cal o o? dc dflt G w a y) =
      (.ok (), fitState cal o o? dc dflt G w a fun t => if t ∈ l then 0 else y t)
  | [], y, _ => by simp [PyM.forM]
  | d :: l, y, hl => by
    rw [PyM.forM, PyM.bind_ok (setPoint_run h y (hl d (by simp)) 0), zero_run h l _ fun e he => hl e (by simp [he])]
    congr 2
    funext t
    by_cases h1 : t ∈ l
    · simp [h1]
    · by_cases h2 : t = d
      · subst h2; simp
      · simp [h1, h2]

/-! ## One step -/

/-- Product, target: sum over the products that end at or before `d` of present value minus target. -/
noncomputable def residual (V : Product D → (D → ℝ) → ℝ) (e : Product D → D) (qs : List (Product D × ℝ)) (d : D)
    (y : D → ℝ) : ℝ := ((qs.filter fun q => decide (e q.1 ≤ d)).map fun q => V q.1 y - q.2).sum

/-- The present values of the products as functions of the spread at the grid dates, and their last dates. -/
structure Priced (cal : Cal D P) (o : D) (o? : Option D) (dc : DayCountArg D) (dflt : FuncSpec) (G : List D)
    (w : World D P) (a disc : ℕ) (same : Bool) (v : Option D) (ps : List (Product D)) (V : Product D → (D → ℝ) → ℝ)
    (e : Product D → D) : Prop where
  value : ∀ p ∈ ps, ∀ y, pvOn cal disc same v p (fitState cal o o? dc dflt G w a y).1 =
    (.ok (V p y), (fitState cal o o? dc dflt G w a y).1)
  last : ∀ p ∈ ps, maxDate (w.product p).domain = .ok (e p)

variable {disc : ℕ} {same : Bool} {v : Option D} {ps : List (Product D)} {V : Product D → (D → ℝ) → ℝ} {e : Product D → D}

theorem link_domain (s : RateCurve D P) (p : Product D) :
    ((w.linkSpread cal a s).product p).domain = (w.product p).domain := by
  cases p <;> rfl

theorem Priced.congr (h : Priced cal o o? dc dflt G w a disc same v ps V e) {p : Product D} (hp : p ∈ ps) {y y' : D → ℝ}
    (hy : ∀ d ∈ G, y d = y' d) : V p y = V p y' := by
  have h1 := h.value p hp y
  rw [fitState_congr hy, h.value p hp y'] at h1
  exact (Except.ok.inj (Prod.mk.inj h1).1).symm

theorem residual_congr (h : Priced cal o o? dc dflt G w a disc same v ps V e) {qs : List (Product D × ℝ)}
    (hq : ∀ q ∈ qs, q.1 ∈ ps) {y y' : D → ℝ} (hy : ∀ d ∈ G, y d = y' d) (d : D) :
    residual V e qs d y = residual V e qs d y' := by
  rw [residual, residual, List.map_congr_left]
  intro q hq'
  rw [h.congr (hq q (List.mem_filter.1 hq').1) hy]

theorem filter_eq (h : Priced cal o o? dc dflt G w a disc same v ps V e) {qs : List (Product D × ℝ)}
    (hq : ∀ q ∈ qs, q.1 ∈ ps) (y : D → ℝ) (d : D) :
    filterProducts (fitState cal o o? dc dflt G w a y).1 d qs = .ok (qs.filter fun q => decide (e q.1 ≤ d)) := by
  rw [filterProducts, pyMap_ok (g := fun q : Product D × ℝ => e q.1) fun q hq' => by
    rw [fitState, link_domain]; exact h.last _ (hq q hq'), Py.ok_bind]
  congr 1
  induction qs with
  | nil => rfl
  | cons q qs ih =>
    simp only [List.map_cons, List.zip_cons_cons, List.filter_cons]
    split_ifs <;> simp [ih fun r hr => hq r (by simp [hr])]

theorem gaps_run (h : Priced cal o o? dc dflt G w a disc same v ps V e) (y : D → ℝ) : ∀ {qs : List (Product D × ℝ)}
    (hq : ∀ q ∈ qs, q.1 ∈ ps),
    PyM.mapM (pvGap cal disc same v) qs (fitState cal o o? dc dflt G w a y) =
      (.ok (qs.map fun q => V q.1 y - q.2), fitState cal o o? dc dflt G w a y)
  | [], _ => rfl
  | q :: qs, hq => by
    have h1 : pvGap cal disc same v q (fitState cal o o? dc dflt G w a y) =
        (.ok (V q.1 y - q.2), fitState cal o o? dc dflt G w a y) := by
      rw [pvGap, h.value q.1 (hq q (by simp)) y]
    rw [PyM.mapM, PyM.bind_ok h1, PyM.bind_ok (gaps_run h y fun r hr => hq r (by simp [hr]))]
    rfl

theorem err_run (hG : FitGrid cal o o? dc dflt G) (h : Priced cal o o? dc dflt G w a disc same v ps V e)
    {qs : List (Product D × ℝ)} (hq : ∀ q ∈ qs, q.1 ∈ ps) {d : D} (hd : d ∈ G) (y : D → ℝ) (x : ℝ) :
    fitErr cal disc same v a d (qs.filter fun q => decide (e q.1 ≤ d)) x (fitState cal o o? dc dflt G w a y) =
      (.ok (residual V e qs d (Function.update y d x)), fitState cal o o? dc dflt G w a (Function.update y d x)) := by
  rw [fitErr, PyM.bind_ok (setPoint_run hG y hd x),
    PyM.bind_ok (gaps_run h _ fun q hq' => hq q (List.mem_filter.1 hq').1), pySum_eq]
  rfl

theorem err_computes (hG : FitGrid cal o o? dc dflt G) (h : Priced cal o o? dc dflt G w a disc same v ps V e)
    {qs : List (Product D × ℝ)} (hq : ∀ q ∈ qs, q.1 ∈ ps) {d : D} (hd : d ∈ G) (y : D → ℝ) :
    Computes (fun s => ∃ x, s = fitState cal o o? dc dflt G w a (Function.update y d x))
      (fun x s => s = fitState cal o o? dc dflt G w a (Function.update y d x))
      (fitErr cal disc same v a d (qs.filter fun q => decide (e q.1 ≤ d)))
      (fun x => residual V e qs d (Function.update y d x)) := by
  rintro s ⟨x0, rfl⟩ x
  have := err_run hG h hq hd (Function.update y d x0) x
  rw [Function.update_idem] at this
  exact ⟨_, ⟨⟨x, rfl⟩, rfl⟩, this⟩

theorem step_run (hG : FitGrid cal o o? dc dflt G) (h : Priced cal o o? dc dflt G w a disc same v ps V e)
    {qs : List (Product D × ℝ)} (hq : ∀ q ∈ qs, q.1 ∈ ps) (y : D → ℝ) (limit : ℕ) (precision lo hi : ℝ) (d : D) :
    fitStep cal limit disc same v a qs precision lo hi d (fitState cal o o? dc dflt G w a y) =
      match bracket precision limit (fitErr cal disc same v a d (qs.filter fun q => decide (e q.1 ≤ d))) lo hi
        (fitState cal o o? dc dflt G w a y) with
      | (.ok _, s) => (.ok (), s)
      | (.error e, s) => (.error e, s) := by
  rw [fitStep, PyM.get_bind, filter_eq h hq, PyM.lift_ok_bind, PyM.bind_run]
  rcases bracket precision limit (fitErr cal disc same v a d (qs.filter fun q => decide (e q.1 ≤ d))) lo hi
    (fitState cal o o? dc dflt G w a y) with ⟨_ | _, _⟩ <;> rfl

/-- What a successful step does. -/
theorem step_ok (hG : FitGrid cal o o? dc dflt G) (h : Priced cal o o? dc dflt G w a disc same v ps V e)
    {qs : List (Product D × ℝ)} (hq : ∀ q ∈ qs, q.1 ∈ ps) {y : D → ℝ} {limit : ℕ} {precision lo hi : ℝ} {d : D}
    (hd : d ∈ G) {s : World D P × RateCurve D P}
    (hs : fitStep cal limit disc same v a qs precision lo hi d (fitState cal o o? dc dflt G w a y) = (.ok (), s)) :
    ∃ x ∈ Set.uIcc lo hi, s = fitState cal o o? dc dflt G w a (Function.update y d x) ∧
      |residual V e qs d (Function.update y d x)| < precision := by
  rw [step_run hG h hq] at hs
  have hI : ∃ x, fitState cal o o? dc dflt G w a y = fitState cal o o? dc dflt G w a (Function.update y d x) :=
    ⟨y d, by rw [Function.update_eq_self]⟩
  rcases hb : bracket precision limit (fitErr cal disc same v a d (qs.filter fun q => decide (e q.1 ≤ d))) lo hi
        (fitState cal o o? dc dflt G w a y) with ⟨_ | ⟨a', m, b'⟩, s1⟩ <;> rw [hb] at hs
  · cases hs
  · obtain ⟨-, ha, hb1, -, -, -, -, -, hsm⟩ := C56_result (err_computes hG h hq hd y) hI hb
    obtain ⟨k, -, -, -, -, -, -, hJ⟩ := bracket_ok (err_computes hG h hq hd y) hI hb
    cases hs
    exact ⟨b', hb1, hJ, hsm⟩

/-- The values `z` up to the date `d`, nothing after it. -/
noncomputable def upTo (z : D → ℝ) (d : D) : D → ℝ := fun t => if t ≤ d then z t else 0

theorem steps_ok (hG : FitGrid cal o o? dc dflt G) (h : Priced cal o o? dc dflt G w a disc same v ps V e)
    {qs : List (Product D × ℝ)} (hq : ∀ q ∈ qs, q.1 ∈ ps) {limit : ℕ} {precision lo hi : ℝ} :
    ∀ {l : List D} (hl : ∀ d ∈ l, d ∈ G) (hs : l.Pairwise (· < ·)) {y : D → ℝ} {s : World D P × RateCurve D P}
    (hr : PyM.forM (fitStep cal limit disc same v a qs precision lo hi) l (fitState cal o o? dc dflt G w a y) = (.ok (), s)),
    ∃ z, s = fitState cal o o? dc dflt G w a z ∧ (∀ t, t ∉ l → z t = y t) ∧ ∀ d ∈ l, z d ∈ Set.uIcc lo hi ∧
      |residual V e qs d fun t => if d < t ∧ t ∈ l then y t else z t| < precision
  | [], _, _, y, s, hr => by
    cases hr
    exact ⟨y, rfl, fun _ _ => rfl, by simp⟩
  | d :: l, hl, hs, y, s, hr => by
    rw [PyM.forM] at hr
    obtain ⟨u, s1, h1, h2⟩ := PyM.bind_eq_ok.1 hr
    obtain ⟨x, hx, rfl, hres⟩ := step_ok hG h hq (hl d (by simp)) h1
    rw [List.pairwise_cons] at hs
    obtain ⟨z, rfl, hz, hall⟩ := steps_ok hG h hq (fun e he => hl e (by simp [he])) hs.2 h2
    have hdl : d ∉ l := fun hd => lt_irrefl _ (hs.1 d hd)
    have hzd : z d = x := by rw [hz d hdl]; simp
    refine ⟨z, rfl, fun t ht => ?_, fun d' hd' => ?_⟩
    · simp only [List.mem_cons, not_or] at ht
      rw [hz t ht.2, Function.update_of_ne ht.1]
    rcases List.mem_cons.1 hd' with rfl | hd'
    · refine ⟨by rw [hzd]; exact hx, ?_⟩
      convert hres using 3
      funext t
      by_cases h1 : t = d'
      · subst h1; simp [hzd]
      · by_cases h2 : t ∈ l
        · simp [h1, h2, hs.1 t h2]
        · simp [h1, h2, hz t h2]
    · refine ⟨(hall d' hd').1, ?_⟩
      convert (hall d' hd').2 using 3
      funext t
      have hdd := hs.1 d' hd'
      by_cases h1 : t = d
      · subst h1; simp [hdd.not_gt]
      · simp [h1]

theorem linked_call {c s : RateCurve D P} (hf : c.spread = none) {x : D} {y u : ℝ} (h : c.call cal x = .ok y)
    (hs : s.call cal x = .ok u) : RateCurve.call cal { c with spread := some (s.asSpread cal) } x = .ok (y + u) := by
  have e : s.asSpread cal x = .ok (some u) := by rw [RateCurve.asSpread, hs]; rfl
  simp only [RateCurve.call, hf, Py.ok_bind] at h
  obtain ⟨b, hb, h⟩ := Py.bind_eq_ok.1 h
  obtain ⟨b', hb', h⟩ := Py.bind_eq_ok.1 h
  simp only [pyNum, Py.ok_bind, Except.ok.injEq, add_zero] at h
  rw [RateCurve.call]
  simp only [e, Py.ok_bind, hb, hb']
  simp [pyNum, h]

/-- What the fit returns after its steps. -/
noncomputable def fitEnd (cal : Cal D P) (a : ℕ) (s : World D P × RateCurve D P) : Py Unit → Py (List ℝ) × World D P
  | .error e => (.error e, s.1)
  | .ok _ => match pyMap ((s.1.curves a).toRateCurve.call cal) s.2.base.domain with
    | .error e => (.error e, s.1)
    | .ok data => (.ok data, s.1.spreadOn [a] none)

/-- The fit is one step for each grid date, starting with spread zero. -/
theorem fit_eq (hG : FitGrid cal o o? dc dflt G) {limit : ℕ} {scipy : Bool} {sameD : D → Bool} {fitting : Option ℕ}
    (ha : fitting.getD disc = a) (hsp : (w.curves a).spread = none) {grid : Option (List D)} {y0 : D → ℝ}
    (hcast : (w.curves a).castOn cal scipy limit sameD (grid.getD (w.curves a).base.domain) =
      .ok (fitSpread cal o o? dc dflt G y0)) {target : NumArg} {precision lo hi : ℝ} {r : Py Unit}
    {s : World D P × RateCurve D P}
    (hf : PyM.forM (fitStep cal limit disc same v a (ps.zip (targetList target ps.length)) precision lo hi) G
      (fitState cal o o? dc dflt G w a fun _ => 0) = (r, s)) :
    curveFit cal limit scipy sameD ps disc same v fitting grid target precision lo hi w =
      fitEnd cal a s r := by
  subst ha
  rw [curveFit, hcast]
  simp only [setSpread_run _ _ _ (.inr hsp)]
  rw [← link_eq]
  have hloop : fitLoop cal limit disc same v (fitting.getD disc) (ps.zip (targetList target ps.length)) precision lo hi
      (fitState cal o o? dc dflt G w (fitting.getD disc) y0) =
      (PyM.forM (fitStep cal limit disc same v (fitting.getD disc) (ps.zip (targetList target ps.length)) precision lo hi) G >>=
        fun _ => PyM.get >>= fun s => PyM.lift (pyMap ((s.1.curves (fitting.getD disc)).toRateCurve.call cal) s.2.base.domain))
        (fitState cal o o? dc dflt G w (fitting.getD disc) fun _ => 0) := by
    rw [fitLoop, PyM.get_bind]
    have : (fitState cal o o? dc dflt G w (fitting.getD disc) y0).2.base.domain = G := fitSpread_domain y0
    rw [this, PyM.bind_ok (zero_run hG G y0 fun d hd => hd), PyM.get_bind]
    have : (fitState cal o o? dc dflt G w (fitting.getD disc) fun t => if t ∈ G then 0 else y0 t).2.base.domain = G :=
      fitSpread_domain _
    rw [this, fitState_congr (y' := fun _ => 0) fun d hd => by simp [hd]]
  rw [show (w.linkSpread cal (fitting.getD disc) (fitSpread cal o o? dc dflt G y0), fitSpread cal o o? dc dflt G y0) =
    fitState cal o o? dc dflt G w (fitting.getD disc) y0 from rfl, hloop, PyM.bind_run, hf]
  cases r with
  | error e => rfl
  | ok u =>
    simp only [PyM.get_bind, PyM.lift_run, setSpread_run _ _ _ (.inl rfl), fitEnd]
    cases pyMap ((s.1.curves (fitting.getD disc)).toRateCurve.call cal) s.2.base.domain <;> rfl

theorem fit_refused {limit : ℕ} {scipy : Bool} {sameD : D → Bool} {fitting : Option ℕ} (ha : fitting.getD disc = a)
    (hsp : (w.curves a).spread ≠ none) {grid : Option (List D)} {sp : RateCurve D P}
    (hcast : (w.curves a).castOn cal scipy limit sameD (grid.getD (w.curves a).base.domain) = .ok sp)
    (target : NumArg) (precision lo hi : ℝ) :
    curveFit cal limit scipy sameD ps disc same v fitting grid target precision lo hi w = (.error .type, w) := by
  subst ha
  rw [curveFit, hcast]
  simp only [setSpread_refused _ _ _ hsp]

theorem fitted_values (hG : FitGrid cal o o? dc dflt G) (hsp : (w.curves a).spread = none) {b : D → ℝ}
    (hb : ∀ d ∈ G, (w.curves a).toRateCurve.call cal d = .ok (b d)) (z : D → ℝ) :
    pyMap (((fitState cal o o? dc dflt G w a z).1.curves a).toRateCurve.call cal)
      (fitState cal o o? dc dflt G w a z).2.base.domain = .ok (G.map fun d => b d + z d) := by
  rw [show (fitState cal o o? dc dflt G w a z).2.base.domain = G from fitSpread_domain z]
  refine pyMap_ok fun d hd => ?_
  simp only [fitState, World.linkSpread, World.setCurve, Function.update_self]
  exact linked_call hsp (hb d hd) (fitSpread_call hG z hd)

/-- C64: if the fit returns, the curve is as before, and the returned values are the curve's own plus spreads within the
bounds such that with the spreads up to each grid date (and none after it) the products maturing by then meet their prices in
sum within the precision. -/
theorem C64_success (hG : FitGrid cal o o? dc dflt G) (h : Priced cal o o? dc dflt G w a disc same v ps V e)
    (hinc : G.Pairwise (· < ·)) {limit : ℕ} {scipy : Bool} {sameD : D → Bool} {fitting : Option ℕ} (ha : fitting.getD disc = a)
    {grid : Option (List D)} {y0 : D → ℝ}
    (hcast : (w.curves a).castOn cal scipy limit sameD (grid.getD (w.curves a).base.domain) =
      .ok (fitSpread cal o o? dc dflt G y0)) {b : D → ℝ} (hb : ∀ d ∈ G, (w.curves a).toRateCurve.call cal d = .ok (b d))
    {target : NumArg} {precision lo hi : ℝ} {data : List ℝ} {w' : World D P}
    (hr : curveFit cal limit scipy sameD ps disc same v fitting grid target precision lo hi w = (.ok data, w')) :
    w' = w ∧ ∃ z : D → ℝ, data = G.map (fun d => b d + z d) ∧ ∀ d ∈ G, z d ∈ Set.uIcc lo hi ∧
      |residual V e (ps.zip (targetList target ps.length)) d (upTo z d)| < precision := by
  by_cases hsp : (w.curves a).spread = none
  swap
  · rw [fit_refused ha hsp hcast] at hr
    cases hr
  have hq : ∀ q ∈ ps.zip (targetList target ps.length), q.1 ∈ ps := fun q hq => (List.of_mem_zip hq).1
  rcases hf : PyM.forM (fitStep cal limit disc same v a (ps.zip (targetList target ps.length)) precision lo hi) G
      (fitState cal o o? dc dflt G w a fun _ => 0) with ⟨_ | u, s⟩ <;> rw [fit_eq hG ha hsp hcast hf] at hr
  · cases hr
  obtain ⟨z, rfl, -, hall⟩ := steps_ok hG h hq (fun d hd => hd) hinc hf
  have hreset : (fitState cal o o? dc dflt G w a z).1.spreadOn [a] none = w := by
    rw [fitState, link_eq, spreadOn_twice, spreadOn_self _ (by simpa using hsp)]
  simp only [fitEnd, fitted_values hG hsp hb, hreset] at hr
  cases hr
  refine ⟨rfl, z, rfl, fun d hd => ⟨(hall d hd).1, ?_⟩⟩
  convert (hall d hd).2 using 2
  refine residual_congr h hq (fun t ht => ?_) d
  by_cases hlt : d < t
  · simp [upTo, hlt, ht, hlt.not_ge]
  · simp [upTo, hlt, not_lt.1 hlt]

/-- The present values of products ending by a grid date do not depend on spreads at later grid dates. -/
def Local (G : List D) (ps : List (Product D)) (V : Product D → (D → ℝ) → ℝ) (e : Product D → D) : Prop :=
  ∀ p ∈ ps, ∀ d ∈ G, e p ≤ d → ∀ y y' : D → ℝ, (∀ t ∈ G, t ≤ d → y t = y' t) → V p y = V p y'

theorem residual_upTo (hloc : Local G ps V e) {qs : List (Product D × ℝ)} (hq : ∀ q ∈ qs, q.1 ∈ ps) {d : D} (hd : d ∈ G)
    (z : D → ℝ) : residual V e qs d (upTo z d) = residual V e qs d z := by
  rw [residual, residual, List.map_congr_left]
  intro q hq'
  obtain ⟨h1, h2⟩ := List.mem_filter.1 hq'
  rw [hloc _ (hq q h1) d hd (of_decide_eq_true h2) _ z fun t _ ht => by simp [upTo, ht]]

/-- C64: then with all spreads in place the products maturing by each grid date meet their prices in sum within the
precision. -/
theorem C64_reprices (hG : FitGrid cal o o? dc dflt G) (h : Priced cal o o? dc dflt G w a disc same v ps V e)
    (hloc : Local G ps V e)
    (hinc : G.Pairwise (· < ·)) {limit : ℕ} {scipy : Bool} {sameD : D → Bool} {fitting : Option ℕ} (ha : fitting.getD disc = a)
    {grid : Option (List D)} {y0 : D → ℝ}
    (hcast : (w.curves a).castOn cal scipy limit sameD (grid.getD (w.curves a).base.domain) =
      .ok (fitSpread cal o o? dc dflt G y0)) {b : D → ℝ} (hb : ∀ d ∈ G, (w.curves a).toRateCurve.call cal d = .ok (b d))
    {target : NumArg} {precision lo hi : ℝ} {data : List ℝ} {w' : World D P}
    (hr : curveFit cal limit scipy sameD ps disc same v fitting grid target precision lo hi w = (.ok data, w')) :
    ∃ z : D → ℝ, data = G.map (fun d => b d + z d) ∧ ∀ d ∈ G, z d ∈ Set.uIcc lo hi ∧
      |residual V e (ps.zip (targetList target ps.length)) d z| < precision := by
  obtain ⟨-, z, hz, hall⟩ := C64_success hG h hinc ha hcast hb hr
  refine ⟨z, hz, fun d hd => ⟨(hall d hd).1, ?_⟩⟩
  rw [← residual_upTo hloc (fun q hq => (List.of_mem_zip hq).1) hd]
  exact (hall d hd).2

theorem residual_split (qs : List (Product D × ℝ)) {c d : D} (hcd : c ≤ d) (z : D → ℝ) :
    residual V e qs d z = residual V e qs c z +
      ((qs.filter fun q => decide (c < e q.1 ∧ e q.1 ≤ d)).map fun q => V q.1 z - q.2).sum := by
  induction qs with
  | nil => simp [residual]
  | cons q qs ih =>
    simp only [residual, List.filter_cons] at ih ⊢
    by_cases h1 : e q.1 ≤ c
    · have h2 : e q.1 ≤ d := h1.trans hcd
      simp only [h1, h2, h1.not_gt, false_and, decide_true, decide_false, if_true, Bool.false_eq_true, if_false, List.map_cons,
        List.sum_cons, ih]
      ring
    · by_cases h2 : e q.1 ≤ d
      · simp only [h1, h2, not_le.1 h1, true_and, decide_true, decide_false, if_true, Bool.false_eq_true, if_false,
          List.map_cons, List.sum_cons, ih]
        ring
      · simp only [h1, h2, and_false, decide_false, Bool.false_eq_true, if_false, ih]

/-- C64: a product that is the only one maturing by some grid date meets its price within the precision. -/
theorem C64_first (qs : List (Product D × ℝ)) {q : Product D × ℝ} {d : D} {z : D → ℝ} {precision : ℝ}
    (hq : qs.filter (fun q => decide (e q.1 ≤ d)) = [q]) (hd : |residual V e qs d z| < precision) :
    |V q.1 z - q.2| < precision := by
  rw [residual, hq] at hd
  simpa using hd

/-- C64: a product that is the only one maturing between two grid dates meets its price within twice the precision. -/
theorem C64_only (qs : List (Product D × ℝ)) {q : Product D × ℝ} {c d : D} (hcd : c ≤ d) {z : D → ℝ} {precision : ℝ}
    (hq : qs.filter (fun q => decide (c < e q.1 ∧ e q.1 ≤ d)) = [q]) (hc : |residual V e qs c z| < precision)
    (hd : |residual V e qs d z| < precision) : |V q.1 z - q.2| < 2 * precision := by
  rw [residual_split qs hcd z, hq] at hd
  simp only [List.map_cons, List.map_nil, List.sum_cons, List.sum_nil, add_zero] at hd
  rw [abs_lt] at hc hd ⊢
  constructor <;> linarith [hc.1, hc.2, hd.1, hd.2]

/-! ## Existence -/

theorem step_exists (hG : FitGrid cal o o? dc dflt G) (h : Priced cal o o? dc dflt G w a disc same v ps V e)
    {qs : List (Product D × ℝ)} (hq : ∀ q ∈ qs, q.1 ∈ ps) {y : D → ℝ} {precision lo hi L : ℝ} (hp : 0 < precision) {d : D}
    (hd : d ∈ G)
    (hlip : ∀ x ∈ Set.uIcc lo hi, ∀ x' ∈ Set.uIcc lo hi,
      |residual V e qs d (Function.update y d x') - residual V e qs d (Function.update y d x)| ≤ L * |x' - x|)
    (hsign : residual V e qs d (Function.update y d lo) * residual V e qs d (Function.update y d hi) ≤ 0) {n : ℕ}
    (hn : |hi - lo| < precision * 2 ^ n) (hn' : L * |hi - lo| < precision * 2 ^ n) {limit : ℕ} (hl : n < limit) :
    ∃ s, fitStep cal limit disc same v a qs precision lo hi d (fitState cal o o? dc dflt G w a y) = (.ok (), s) := by
  have hI : ∃ x, fitState cal o o? dc dflt G w a y = fitState cal o o? dc dflt G w a (Function.update y d x) :=
    ⟨y d, by rw [Function.update_eq_self]⟩
  obtain ⟨a', m, b', s, hb⟩ := C57_lipschitz (err_computes hG h hq hd y) hp hI hlip hsign hn hn' hl
  exact ⟨s, by rw [step_run hG h hq, hb]⟩

/-- C64: the fit returns if the sum of the gaps of the products maturing by a grid date has no common strict sign at both
bounds of the spread at that date, whatever spreads within the bounds fit the products maturing before, and if its slope is
bounded. -/
theorem C64_exists (hG : FitGrid cal o o? dc dflt G) (h : Priced cal o o? dc dflt G w a disc same v ps V e)
    (hinc : G.Pairwise (· < ·)) {scipy : Bool} {sameD : D → Bool} {fitting : Option ℕ} (ha : fitting.getD disc = a)
    (hsp : (w.curves a).spread = none) {grid : Option (List D)} {y0 : D → ℝ} {limit : ℕ}
    (hcast : (w.curves a).castOn cal scipy limit sameD (grid.getD (w.curves a).base.domain) =
      .ok (fitSpread cal o o? dc dflt G y0)) {b : D → ℝ} (hb : ∀ d ∈ G, (w.curves a).toRateCurve.call cal d = .ok (b d))
    {target : NumArg} {qs : List (Product D × ℝ)} (hqs : ps.zip (targetList target ps.length) = qs)
    {precision lo hi L : ℝ} (hp : 0 < precision)
    (hlip : ∀ d ∈ G, ∀ y : D → ℝ, (∀ c ∈ G, c < d → y c ∈ Set.uIcc lo hi) → (∀ c ∈ G, d < c → y c = 0) →
      ∀ x ∈ Set.uIcc lo hi, ∀ x' ∈ Set.uIcc lo hi,
      |residual V e qs d (Function.update y d x') - residual V e qs d (Function.update y d x)| ≤ L * |x' - x|)
    (hsign : ∀ d ∈ G, ∀ y : D → ℝ,
      (∀ c ∈ G, c < d → y c ∈ Set.uIcc lo hi ∧ |residual V e qs c (upTo y c)| < precision) → (∀ c ∈ G, d < c → y c = 0) →
      residual V e qs d (Function.update y d lo) * residual V e qs d (Function.update y d hi) ≤ 0) {n : ℕ}
    (hn : |hi - lo| < precision * 2 ^ n) (hn' : L * |hi - lo| < precision * 2 ^ n) (hl : n < limit) :
    ∃ data, curveFit cal limit scipy sameD ps disc same v fitting grid target precision lo hi w = (.ok data, w) := by
  have hq : ∀ q ∈ qs, q.1 ∈ ps := fun q hq => (List.of_mem_zip (hqs ▸ hq)).1
  have key : ∀ (l pre : List D) (y : D → ℝ), G = pre ++ l →
      (∀ c ∈ pre, y c ∈ Set.uIcc lo hi ∧ |residual V e qs c (upTo y c)| < precision) → (∀ c ∈ l, y c = 0) →
      ∃ s, PyM.forM (fitStep cal limit disc same v a qs precision lo hi) l (fitState cal o o? dc dflt G w a y) = (.ok (), s) := by
    intro l
    induction l with
    | nil => intro pre y _ _ _; exact ⟨_, rfl⟩
    | cons d l ih =>
      intro pre y hGl hpre hlater
      have hd : d ∈ G := by simp [hGl]
      have hinc' := hinc
      rw [hGl, List.pairwise_append, List.pairwise_cons] at hinc'
      obtain ⟨hi1, ⟨hi2, hi3⟩, hi4⟩ := hinc'
      have hbefore : ∀ c ∈ G, c < d → c ∈ pre := by
        intro c hc hcd
        rw [hGl] at hc
        rcases List.mem_append.1 hc with hc | hc
        · exact hc
        · rcases List.mem_cons.1 hc with rfl | hc
          · exact absurd hcd (lt_irrefl _)
          · exact absurd hcd (hi2 c hc).not_gt
      have hafter : ∀ c ∈ G, d < c → c ∈ l := by
        intro c hc hcd
        rw [hGl] at hc
        rcases List.mem_append.1 hc with hc | hc
        · exact absurd hcd (hi4 c hc d (by simp)).not_gt
        · rcases List.mem_cons.1 hc with rfl | hc
          · exact absurd hcd (lt_irrefl _)
          · exact hc
      have hz : ∀ c ∈ G, d < c → y c = 0 := fun c hc hcd => hlater c (by simp [hafter c hc hcd])
      obtain ⟨s, hs⟩ := step_exists hG h hq hp hd
        (hlip d hd y (fun c hc hcd => (hpre c (hbefore c hc hcd)).1) hz)
        (hsign d hd y (fun c hc hcd => hpre c (hbefore c hc hcd)) hz) hn hn' hl
      obtain ⟨x, hx, rfl, hres⟩ := step_ok hG h hq hd hs
      obtain ⟨s', hs'⟩ := ih (pre ++ [d]) (Function.update y d x) (by simp [hGl]) (fun c hc => by
        rcases List.mem_append.1 hc with hc | hc
        · have hcd := hi4 c hc d (by simp)
          rw [Function.update_of_ne hcd.ne]
          refine ⟨(hpre c hc).1, ?_⟩
          convert (hpre c hc).2 using 3
          funext t
          by_cases ht : t ≤ c
          · simp [upTo, ht, (ht.trans_lt hcd).ne]
          · simp [upTo, ht]
        · obtain rfl := List.mem_singleton.1 hc
          refine ⟨by simpa using hx, ?_⟩
          convert hres using 2
          refine residual_congr h hq (fun t ht => ?_) c
          by_cases htc : t ≤ c
          · simp [upTo, htc]
          · simp [upTo, htc, (not_le.1 htc).ne', hz t ht (not_le.1 htc)]) (fun c hc => by
        rw [Function.update_of_ne (hi2 c hc).ne']
        exact hlater c (by simp [hc]))
      exact ⟨s', by rw [PyM.forM, PyM.bind_ok hs]; exact hs'⟩
  obtain ⟨s, hs⟩ := key G [] (fun _ => 0) rfl (by simp) fun _ _ => rfl
  obtain ⟨z, rfl, -, -⟩ := steps_ok hG h hq (fun d hd => hd) hinc hs
  have hreset : (fitState cal o o? dc dflt G w a z).1.spreadOn [a] none = w := by
    rw [fitState, link_eq, spreadOn_twice, spreadOn_self _ (by simpa using hsp)]
  refine ⟨G.map fun d => b d + z d, ?_⟩
  subst hqs
  rw [fit_eq hG ha hsp hcast hs]
  simp only [fitEnd, fitted_values hG hsp hb, hreset]

/-! ## Violations -/

/-- The search on the function zero goes to the first bound. -/
theorem bracket_zero {σ : Type} {I : σ → Prop} {J : ℝ → σ → Prop} (p : ℝ) (n : ℕ) : ∀ {func : ℝ → PyM σ ℝ} {g : ℝ → ℝ}
    (h : Computes I J func g) (hg : ∀ x, g x = 0) (a b : ℝ) {s s' : σ} (hs : I s) {a' m b' : ℝ}
    (hr : bracket p n func a b s = (.ok (a', m, b'), s')), a' = a := by
  induction n with
  | zero => intro func g h hg a b s s' hs a' m b' hr; cases hr
  | succ n ih =>
    intro func g h hg a b s s' hs a' m b' hr
    obtain ⟨s1, f', g', hs1, hc, ho, e⟩ := bracket_step h p n a b hs
    have hg' : ∀ x, g' x = 0 := fun x => by rcases ho.1 with h | h <;> simp [h, hg]
    rw [e] at hr
    rw [if_neg (by simp [hg])] at hr
    split_ifs at hr
    · cases hr; rfl
    · obtain ⟨s2, hs2, e2⟩ := hc s1 hs1.1 (a + (b - a) * (1 / 2))
      rw [PyM.bind_ok e2, hg'] at hr
      simp only [narrow, lt_irrefl, if_false] at hr
      exact ih hc hg' _ _ hs2.1 hr

/-- C64 (refuted): at a grid date before all maturities the values depend on nothing, and yet the returned value is the
curve's own plus, within the precision, the lower bound. -/
theorem C64_empty_violated (hG : FitGrid cal o o? dc dflt G) (h : Priced cal o o? dc dflt G w a disc same v ps V e)
    (hinc : G.Pairwise (· < ·)) {limit : ℕ} {scipy : Bool} {sameD : D → Bool} {fitting : Option ℕ} (ha : fitting.getD disc = a)
    {grid : Option (List D)} {y0 : D → ℝ}
    (hcast : (w.curves a).castOn cal scipy limit sameD (grid.getD (w.curves a).base.domain) =
      .ok (fitSpread cal o o? dc dflt G y0)) {b : D → ℝ} (hb : ∀ d ∈ G, (w.curves a).toRateCurve.call cal d = .ok (b d))
    {d : D} {l : List D} (hd : G = d :: l) (hlate : ∀ p ∈ ps, d < e p)
    {target : NumArg} {precision lo hi : ℝ} {data : List ℝ} {w' : World D P}
    (hr : curveFit cal limit scipy sameD ps disc same v fitting grid target precision lo hi w = (.ok data, w')) :
    ∃ x rest, data = x :: rest ∧ |x - (b d + lo)| < precision := by
  by_cases hsp : (w.curves a).spread = none
  swap
  · rw [fit_refused ha hsp hcast] at hr
    cases hr
  have hdG : d ∈ G := by simp [hd]
  have hq : ∀ q ∈ ps.zip (targetList target ps.length), q.1 ∈ ps := fun q hq => (List.of_mem_zip hq).1
  rcases hf : PyM.forM (fitStep cal limit disc same v a (ps.zip (targetList target ps.length)) precision lo hi) G
      (fitState cal o o? dc dflt G w a fun _ => 0) with ⟨_ | u, s⟩ <;> rw [fit_eq hG ha hsp hcast hf] at hr
  · cases hr
  have hf' := hf
  rw [hd, PyM.forM, ← hd] at hf'
  obtain ⟨u', s1, h1, h2⟩ := PyM.bind_eq_ok.1 hf'
  rw [step_run hG h hq] at h1
  have hI : ∃ x, fitState cal o o? dc dflt G w a (fun _ => 0) =
      fitState cal o o? dc dflt G w a (Function.update (fun _ => 0) d x) := ⟨0, by rw [Function.update_eq_self]⟩
  rcases hbr : bracket precision limit (fitErr cal disc same v a d ((ps.zip (targetList target ps.length)).filter
      fun q => decide (e q.1 ≤ d))) lo hi (fitState cal o o? dc dflt G w a fun _ => 0) with ⟨_ | ⟨a', m, b'⟩, s2⟩ <;>
    rw [hbr] at h1
  · cases h1
  have hC := err_computes hG h hq hdG fun _ => 0
  have ha' : a' = lo := by
    refine bracket_zero _ _ hC (fun x => ?_) _ _ hI hbr
    rw [residual, List.filter_eq_nil_iff.2]
    · rfl
    · intro q hq'
      simp [hlate q.1 (hq q hq')]
  obtain ⟨k, -, -, hsize, -, -, -, hJ⟩ := bracket_ok hC hI hbr
  cases h1
  subst hJ
  have hinc' := hinc
  rw [hd, List.pairwise_cons] at hinc'
  obtain ⟨z, rfl, hz, hall⟩ := steps_ok hG h hq (fun c hc => by simp [hd, hc]) hinc'.2 h2
  have hzd : z d = b' := by
    rw [hz d fun hc => lt_irrefl _ (hinc'.1 d hc)]
    simp
  simp only [fitEnd, fitted_values hG hsp hb] at hr
  cases hr
  refine ⟨b d + z d, l.map fun d => b d + z d, by rw [hd]; rfl, ?_⟩
  rw [hzd, ← ha', show b d + b' - (b d + a') = b' - a' by ring]
  exact hsize

/-- C64 (refuted): when a step fails the spread stays on the curve, and every later fit of the curve raises `TypeError`. -/
theorem C64_failing_violated (hG : FitGrid cal o o? dc dflt G) (h : Priced cal o o? dc dflt G w a disc same v ps V e)
    {limit : ℕ} {scipy : Bool} {sameD : D → Bool} {fitting : Option ℕ} (ha : fitting.getD disc = a)
    (hsp : (w.curves a).spread = none) {grid : Option (List D)} {y0 : D → ℝ}
    (hcast : (w.curves a).castOn cal scipy limit sameD (grid.getD (w.curves a).base.domain) =
      .ok (fitSpread cal o o? dc dflt G y0)) {d : D} {l : List D} (hd : G = d :: l)
    {target : NumArg} {precision lo hi : ℝ} (hl : limit ≠ 0)
    (hsign : 0 < residual V e (ps.zip (targetList target ps.length)) d (Function.update (fun _ => 0) d lo) *
      residual V e (ps.zip (targetList target ps.length)) d (Function.update (fun _ => 0) d hi)) :
    ∃ w', curveFit cal limit scipy sameD ps disc same v fitting grid target precision lo hi w = (.error .assertion, w') ∧
      (w'.curves a).spread ≠ none ∧
      ∀ (ps' : List (Product D)) (sp : RateCurve D P) (limit' : ℕ) (fit' : Option ℕ) (disc' : ℕ) (grid' : Option (List D))
        (target' : NumArg) (precision' lo' hi' : ℝ), fit'.getD disc' = a →
        (w'.curves a).castOn cal scipy limit' sameD (grid'.getD (w'.curves a).base.domain) = .ok sp →
        curveFit cal limit' scipy sameD ps' disc' same v fit' grid' target' precision' lo' hi' w' = (.error .type, w') := by
  have hdG : d ∈ G := by simp [hd]
  have hq : ∀ q ∈ ps.zip (targetList target ps.length), q.1 ∈ ps := fun q hq => (List.of_mem_zip hq).1
  have hC := err_computes hG h hq hdG fun _ => 0
  have hI : ∃ x, fitState cal o o? dc dflt G w a (fun _ => 0) =
      fitState cal o o? dc dflt G w a (Function.update (fun _ => 0) d x) := ⟨0, by rw [Function.update_eq_self]⟩
  obtain ⟨n, rfl⟩ := Nat.exists_eq_succ_of_ne_zero hl
  obtain ⟨s, ⟨x, rfl⟩, H⟩ := bracket_run precision n hC lo hi hI
  rcases H with ⟨-, -, hbr⟩ | ⟨hneg, -⟩ | ⟨hneg, -⟩
  · have hstep := step_run hG h hq (fun _ => 0) (n + 1) precision lo hi d
    rw [hbr] at hstep
    have hf : PyM.forM (fitStep cal (n + 1) disc same v a (ps.zip (targetList target ps.length)) precision lo hi) G
      (fitState cal o o? dc dflt G w a fun _ => 0) =
        (.error .assertion, fitState cal o o? dc dflt G w a (Function.update (fun _ => 0) d x)) := by
      nth_rewrite 1 [hd]
      rw [PyM.forM, PyM.bind_error hstep]
    have hs : ((fitState cal o o? dc dflt G w a (Function.update (fun _ => 0) d x)).1.curves a).spread ≠ none := by
      simp [fitState, World.linkSpread, World.setCurve]
    exact ⟨_, fit_eq hG ha hsp hcast hf, hs, fun ps' sp limit' fit' disc' grid' target' p' lo' hi' hf' hcast' =>
      fit_refused hf' hs hcast' target' p' lo' hi'⟩
  · exact absurd hsign hneg.not_gt
  · exact absurd hsign hneg.not_gt

end
end Dcf
