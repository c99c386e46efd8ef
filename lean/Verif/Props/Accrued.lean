import Verif.Props.PresentValue
import Verif.Props.Payoff

/-! # Accrued interest: C60 -/

set_option linter.unusedSectionVars false
set_option linter.unusedVariables false

namespace Dcf

open Spec

section
variable {D P : Type} [LinearOrder D] {cal : Cal D P}

/-- C60: what a single rate flow contributes from the start of its period on. -/
theorem accruedFlow_rate {w : World D P} {l : ListObj D P} {cf : PayOff D P} {p : RatePay D P} (hp : cf.ratePay? = some p)
    (hτ : GoodDayCount (p.dayCount.getD cal.dayCount)) (hf : l.hasForward = true) {x : ℝ}
    (hx : cf.eval cal (w.arg l.arg) = .ok x) (hse : p.start ≠ p.stop) {v : D} (hv : p.start < v) :
    accruedFlow cal w l v cf = .ok (x * ((p.dayCount.getD cal.dayCount) p.start v /
      (p.dayCount.getD cal.dayCount) p.start p.stop)) := by
  have h0 := hτ.ne_zero hse
  simp only [accruedFlow, hp, if_pos hv, RatePay.tau, World.forwardCurve, hf, if_true, Py.ok_bind, hx, pyDiv_ok h0]
  congr 1
  rw [← hτ.add p.start v p.stop] at h0 ⊢
  rw [one_sub_div h0]
  ring

theorem accruedFlow_before {w : World D P} {l : ListObj D P} {cf : PayOff D P} {p : RatePay D P} (hp : cf.ratePay? = some p)
    {v : D} (hv : v ≤ p.start) : accruedFlow cal w l v cf = .ok 0 := by
  simp only [accruedFlow, hp, if_neg hv.not_gt]

theorem accrued_list {w : World D P} {v : D} {a : ℕ} {g : D → ℝ}
    (h : ∀ d ∈ (w.lists a).domain, accruedAt cal w (w.lists a) v d = .ok (g d)) :
    accrued cal w v (.list a) = .ok ((w.lists a).domain.map g).sum := by
  rw [accrued, pyMap_ok h]
  simp

theorem sum_single {l : List D} (hn : l.Nodup) {i : ℕ} (hi : i < l.length) {g : D → ℝ}
    (h : ∀ j (hj : j < l.length), j ≠ i → g l[j] = 0) : (l.map g).sum = g l[i] := by
  rw [← List.sum_toFinset g hn]
  refine Finset.sum_eq_single _ (fun b hb hne => ?_) fun h => absurd (by simp) h
  obtain ⟨j, hj, rfl⟩ := List.getElem_of_mem (List.mem_toFinset.1 hb)
  exact h j hj fun e => hne (by subst e; rfl)

variable {back : D → D → Py D} {dates : List D} {amounts : NumArg} {o : D} {dc : Option (D → D → ℝ)} {fo : Option P} {c : ℝ}
  {f : Fwd D} {l : CFList D P} {w : World D P} {a : ℕ}

theorem minus_none (d : D) : cal.minus none d = .ok d := rfl

theorem strict_starts {dates : List D} {o : D} (hs : (o :: dates).Pairwise (· < ·)) {i j : ℕ} (hi : i < dates.length)
    (hj : j < dates.length) : (o :: dates)[j]'(by simp; omega) < dates[i] ↔ j ≤ i := by
  have e : dates[i] = (o :: dates)[i + 1]'(by simp; omega) := rfl
  rw [e]
  constructor
  · intro h
    by_contra hc
    rcases Nat.lt_or_eq_of_le (show i + 1 ≤ j by omega) with h1 | h1
    · exact absurd h (List.pairwise_iff_getElem.1 hs _ _ (by simp; omega) (by simp; omega) h1).not_gt
    · subst h1; exact lt_irrefl _ h
  · intro h
    exact List.pairwise_iff_getElem.1 hs _ _ (by simp; omega) (by simp; omega) (by omega)

/-- C60: inside the `i`-th period of a leg without pay offset the accrued interest is the coupon of this period times the
elapsed fraction of the period. -/
theorem C60_accrued (h : CFList.newRate cal back dates amounts (some o) dc fo none c f = .ok l) (hd : dates ≠ [])
    (hs : (o :: dates).Pairwise (· < ·)) (hl : (amounts.expand dates.length).length = dates.length)
    (hτ : GoodDayCount (dc.getD cal.dayCount)) (hw : w.list a = l) (hf : (w.lists a).hasForward = true) {i : ℕ}
    (hi : i < dates.length) {x : ℝ} (hx : l.getitem cal dates[i] = .ok x) {v : D}
    (hv : (o :: dates)[i]'(by simp; omega) < v) (hv' : v ≤ dates[i]) :
    accrued cal w v (.list a) = .ok (x * ((dc.getD cal.dayCount) ((o :: dates)[i]'(by simp; omega)) v /
      (dc.getD cal.dayCount) ((o :: dates)[i]'(by simp; omega)) dates[i])) := by
  have hn : dates.Nodup := ((List.pairwise_cons.1 hs).2).imp fun h => h.ne
  obtain ⟨l', h', hdom, hfl⟩ := C48_tiles (cal := cal) back (po := none) (sh := id) dc fo c f hd (fun d _ => minus_none d) hl hn
  rw [h] at h'
  cases h'
  have hdom' : (w.lists a).domain = dates := by rw [← hdom, ← hw]; rfl
  have hflows : (w.lists a).flows = l.flows := by rw [← hw]; rfl
  have harg : w.arg (w.lists a).arg = l.arg := by rw [← hw]; rfl
  set y := x * ((dc.getD cal.dayCount) ((o :: dates)[i]'(by simp; omega)) v /
      (dc.getD cal.dayCount) ((o :: dates)[i]'(by simp; omega)) dates[i])
  have hlt := fun {i j} (hi : i < dates.length) (hj : j < dates.length) => strict_starts hs hi hj
  rw [accrued_list (g := fun d => if d = dates[i] then y else 0), hdom', sum_single hn hi]
  · simp
  · intro j hj hne
    simp [hn.getElem_inj_iff, hne]
  · intro d hd'
    rw [hdom'] at hd'
    obtain ⟨j, hj, rfl⟩ := List.getElem_of_mem hd'
    obtain ⟨p, hp, h1, h2, h3, h4, h5, h6⟩ := hfl j hj
    simp only [id] at h1 h2
    simp only [accruedAt, hflows, hp]
    rcases lt_trichotomy j i with hji | rfl | hji
    · have : ¬ v ≤ dates[j] := by
        have e := List.pairwise_iff_getElem.1 hs (j + 1) i (by simp; omega) (by simp; omega)
        have e' : dates[j] ≤ (o :: dates)[i]'(by simp; omega) := by
          rcases Nat.lt_or_eq_of_le (show j + 1 ≤ i by omega) with h1 | h1
          · exact (e h1).le
          · subst h1; exact le_rfl
        exact (e'.trans_lt hv).not_ge
      rw [if_neg this, if_neg]
      rw [hn.getElem_inj_iff]; omega
    · rw [if_pos hv', if_pos rfl, accruedFlow_rate (p := p) rfl (by rw [h4]; exact hτ) hf (x := x) ?_ ?_ (by rw [h1]; exact hv)]
      · rw [h4, h1, h2]
      · rw [harg]
        simpa only [CFList.getitem, hp] using hx
      · rw [h1, h2]
        exact (hv.trans_le hv').ne
    · have h7 : v ≤ p.start := by
        rw [h1]
        have e' : dates[i] ≤ (o :: dates)[j]'(by simp; omega) := not_lt.1 fun h => by
          have := (hlt hi hj).1 h; omega
        exact hv'.trans e'
      have h8 : dates[j] ≠ dates[i] := by rw [Ne, hn.getElem_inj_iff]; omega
      rw [accruedFlow_before (p := p) rfl h7, if_neg h8]
      simp

/-- C60: a positive coupon accrues from nothing to its full amount, strictly in between. -/
theorem C60_bounds (h : CFList.newRate cal back dates amounts (some o) dc fo none c f = .ok l) (hd : dates ≠ [])
    (hs : (o :: dates).Pairwise (· < ·)) (hl : (amounts.expand dates.length).length = dates.length)
    (hτ : GoodDayCount (dc.getD cal.dayCount)) (hw : w.list a = l) (hf : (w.lists a).hasForward = true) {i : ℕ}
    (hi : i < dates.length) {x : ℝ} (hx : l.getitem cal dates[i] = .ok x) (hx0 : 0 < x) {v : D}
    (hv : (o :: dates)[i]'(by simp; omega) < v) (hv' : v < dates[i]) :
    ∃ y, accrued cal w v (.list a) = .ok y ∧ 0 < y ∧ y < x := by
  refine ⟨_, C60_accrued h hd hs hl hτ hw hf hi hx hv hv'.le, ?_, ?_⟩
  · have h1 := (hτ.pos _ _).2 hv
    have h2 := (hτ.pos _ _).2 (hv.trans hv')
    positivity
  · have h2 := (hτ.pos _ _).2 (hv.trans hv')
    have h3 := (hτ.pos _ _).2 hv'
    have h4 := hτ.add ((o :: dates)[i]'(by simp; omega)) v dates[i]
    have : (dc.getD cal.dayCount) ((o :: dates)[i]'(by simp; omega)) v /
      (dc.getD cal.dayCount) ((o :: dates)[i]'(by simp; omega)) dates[i] < 1 := by
      rw [div_lt_one h2]; linarith
    nlinarith

/-- C60: on the pay date itself the whole coupon has accrued. -/
theorem C60_full (h : CFList.newRate cal back dates amounts (some o) dc fo none c f = .ok l) (hd : dates ≠ [])
    (hs : (o :: dates).Pairwise (· < ·)) (hl : (amounts.expand dates.length).length = dates.length)
    (hτ : GoodDayCount (dc.getD cal.dayCount)) (hw : w.list a = l) (hf : (w.lists a).hasForward = true) {i : ℕ}
    (hi : i < dates.length) {x : ℝ} (hx : l.getitem cal dates[i] = .ok x) :
    accrued cal w dates[i] (.list a) = .ok x := by
  have hv := (strict_starts hs hi hi).2 le_rfl
  rw [C60_accrued h hd hs hl hτ hw hf hi hx hv le_rfl, div_self ((hτ.pos _ _).2 hv).ne', mul_one]

/-- C60: up to the origin and after the last pay date nothing has accrued. -/
theorem C60_outside (h : CFList.newRate cal back dates amounts (some o) dc fo none c f = .ok l) (hd : dates ≠ [])
    (hs : (o :: dates).Pairwise (· < ·)) (hl : (amounts.expand dates.length).length = dates.length)
    (hw : w.list a = l) {v : D} (hv : v ≤ o ∨ ∀ d ∈ dates, d < v) :
    accrued cal w v (.list a) = .ok 0 := by
  have hn : dates.Nodup := ((List.pairwise_cons.1 hs).2).imp fun h => h.ne
  obtain ⟨l', h', hdom, hfl⟩ := C48_tiles (cal := cal) back (po := none) (sh := id) dc fo c f hd (fun d _ => minus_none d) hl hn
  rw [h] at h'
  cases h'
  have hdom' : (w.lists a).domain = dates := by rw [← hdom, ← hw]; rfl
  have hflows : (w.lists a).flows = l.flows := by rw [← hw]; rfl
  rw [accrued_list (g := fun _ => 0)]
  · simp
  · intro d hd'
    rw [hdom'] at hd'
    rcases hv with hv | hv
    · obtain ⟨j, hj, rfl⟩ := List.getElem_of_mem hd'
      obtain ⟨p, hp, h1, -⟩ := hfl j hj
      have h2 : v ≤ p.start := by
        rw [h1]
        refine hv.trans ?_
        rcases Nat.eq_zero_or_pos j with rfl | h0
        · exact le_rfl
        · exact (List.pairwise_iff_getElem.1 hs 0 j (by simp) (by simp; omega) h0).le
      simp only [accruedAt, hflows, hp, accruedFlow_before (cf := .rate p) rfl h2, ite_self]
    · simp only [accruedAt, if_neg (hv d hd').not_ge]

/-- C60: the accrued interest of a product with legs is the sum over its legs, nested or not. -/
theorem C60_legs {v : D} {ps : List (Product D)} {d : List D} {o : Option D} {x : ℝ} :
    accrued cal w v (.legs ps d o) = .ok x ↔
      ∃ xs, List.Forall₂ (fun p y => accrued cal w v p = .ok y) ps xs ∧ x = xs.sum := by
  have key : ∀ (ps : List (Product D)) (xs : List ℝ),
      accruedLegs cal w v ps = .ok xs ↔ List.Forall₂ (fun p y => accrued cal w v p = .ok y) ps xs := by
    intro ps
    induction ps with
    | nil =>
      intro xs
      rw [accruedLegs, List.forall₂_nil_left_iff, Except.ok.injEq, eq_comm]
    | cons p ps ih =>
      intro xs
      rw [accruedLegs]
      cases h1 : accrued cal w v p with
      | error e =>
        simp only [Py.error_bind, reduceCtorEq, false_iff]
        intro h
        cases h with
        | cons a b => rw [h1] at a; cases a
      | ok y =>
        cases h2 : accruedLegs cal w v ps with
        | error e =>
          simp only [Py.error_bind, Py.ok_bind, reduceCtorEq, false_iff]
          intro h
          cases h with
          | cons a b => rw [← ih, h2] at b; cases b
        | ok ys =>
          simp only [Py.ok_bind, Except.ok.injEq]
          constructor
          · rintro rfl
            exact .cons h1 ((ih ys).1 h2)
          · intro h
            cases h with
            | cons a b =>
              rw [h1] at a; cases a
              rw [← ih, h2] at b; cases b
              rfl
  rw [accrued]
  cases h : accruedLegs cal w v ps with
  | error e =>
    simp only [Py.error_bind, reduceCtorEq, false_iff]
    rintro ⟨xs, h1, -⟩
    rw [← key, h] at h1
    cases h1
  | ok xs =>
    simp only [Py.ok_bind, pySum_eq, Except.ok.injEq]
    constructor
    · rintro rfl
      exact ⟨xs, (key _ _).1 h, rfl⟩
    · rintro ⟨ys, h1, rfl⟩
      rw [← key, h] at h1
      cases h1
      rfl

/-- C60: flows which are not interest flows never accrue. -/
theorem C60_fixed {v : D} (h : ∀ d ∈ (w.lists a).domain, ∀ cf, (w.lists a).flows.get d = some cf → cf.ratePay? = none) :
    accrued cal w v (.list a) = .ok 0 := by
  rw [accrued_list (g := fun _ => 0)]
  · simp
  · intro d hd
    simp only [accruedAt]
    split_ifs
    · cases h1 : (w.lists a).flows.get d with
      | none => rfl
      | some cf => simp only [accruedFlow, h d hd cf h1]
    · rfl

/-- C60 (refuted for pay offsets): between the end of the period and the later pay date more than the coupon has accrued. -/
theorem C60_offset_violated {d : D} {q : ℝ} {po : Option P} {s e : D}
    (h : CFList.newRate cal back [d] (.list [q]) (some o) dc fo po c f = .ok l) (hs : cal.minus po o = .ok s)
    (he : cal.minus po d = .ok e) (hse : s < e)
    (hτ : GoodDayCount (dc.getD cal.dayCount)) (hw : w.list a = l) (hf : (w.lists a).hasForward = true)
    {x : ℝ} (hx : l.getitem cal d = .ok x) (hx0 : 0 < x) {v : D} (hv : e < v) (hv' : v ≤ d) :
    ∃ y, accrued cal w v (.list a) = .ok y ∧ x < y := by
  have hl : ((NumArg.list [q]).expand [d].length).length = [d].length := by simp [NumArg.expand]
  obtain ⟨l', h', hdom, hfl⟩ := C48_tiles (cal := cal) back (amounts := .list [q]) (o := o) (po := po)
    (sh := fun t => if t = d then e else s) dc fo c f (dates := [d]) (by simp) (by
      intro t ht
      simp only [List.mem_cons, List.not_mem_nil, or_false] at ht
      rcases ht with rfl | rfl
      · by_cases hd : t = d
        · subst hd; rw [if_pos rfl, he]
        · rw [if_neg hd, hs]
      · rw [if_pos rfl, he]) hl (by simp)
  rw [h] at h'
  cases h'
  have hod : o ≠ d := by
    rintro rfl
    rw [hs] at he
    cases he
    exact lt_irrefl _ hse
  have hdom' : (w.lists a).domain = [d] := by rw [← hdom, ← hw]; rfl
  have hflows : (w.lists a).flows = l.flows := by rw [← hw]; rfl
  have harg : w.arg (w.lists a).arg = l.arg := by rw [← hw]; rfl
  obtain ⟨p, hp, h1, h2, h3, h4, h5, h6⟩ := hfl 0 (by simp)
  simp only [List.getElem_cons_zero, if_neg hod, if_true] at hp h1 h2
  have hsv := hse.trans hv
  have ha : accruedAt cal w (w.lists a) v d = .ok (x * ((dc.getD cal.dayCount) s v / (dc.getD cal.dayCount) s e)) := by
    simp only [accruedAt, if_pos hv', hflows, hp]
    rw [accruedFlow_rate (p := p) rfl (by rw [h4]; exact hτ) hf (x := x) ?_ ?_ (by rw [h1]; exact hsv)]
    · rw [h4, h1, h2]
    · rw [harg]
      simpa only [CFList.getitem, hp] using hx
    · rw [h1, h2]
      exact hse.ne
  refine ⟨_, accrued_list (g := fun _ => x * ((dc.getD cal.dayCount) s v / (dc.getD cal.dayCount) s e)) ?_, ?_⟩
  · intro t ht
    rw [hdom'] at ht
    simp only [List.mem_cons, List.not_mem_nil, or_false] at ht
    rw [ht, ha]
  · rw [hdom']
    simp only [List.map_cons, List.map_nil, List.sum_cons, List.sum_nil, add_zero]
    have h7 := (hτ.pos _ _).2 hse
    have h8 := (hτ.pos _ _).2 hv
    have h9 := hτ.add s e v
    have : 1 < (dc.getD cal.dayCount) s v / (dc.getD cal.dayCount) s e := by
      rw [one_lt_div h7]; linarith
    nlinarith

/-- C60 (refuted for contingent legs): once the period of a flow has started and as long as it is to be paid, the call
raises AttributeError. -/
theorem C60_contingent_violated {v d : D} {cf : PayOff D P} {p : RatePay D P} (hf : (w.lists a).hasForward = false)
    (hd : (w.lists a).domain = [d]) (hg : (w.lists a).flows.get d = some cf) (hp : cf.ratePay? = some p)
    (hv : p.start < v) (hv' : v ≤ d) : accrued cal w v (.list a) = .error .attribute := by
  rw [accrued, hd, pyMap_cons]
  simp [accruedAt, if_pos hv', hg, accruedFlow, hp, if_pos hv, World.forwardCurve, hf]

end

/-! Example: coupons of 5, paid at 1 and 2; and one coupon with a pay offset of half a year. -/

noncomputable def exCoupons : World ℝ FloatPeriod where
  curves := fun _ => (flatZero floatCal none .default none 0 (5 / 100)).obj
  models := fun _ => ⟨some 0, fun _ => .fn fun _ => .ok 0, fun _ => .none, none, false, intrinsicFormula⟩
  lists := fun
    | 0 => ⟨some 0, [1, 2], [(1, .rate ⟨0, 1, 100, none, none, some (5 / 100)⟩),
        (2, .rate ⟨1, 2, 100, none, none, some (5 / 100)⟩)], .fwd fun _ => .none, false, true, true⟩
    | _ => ⟨some (1 / 2), [3 / 2], [(3 / 2, .rate ⟨0, 1, 100, none, none, some (5 / 100)⟩)], .fwd fun _ => .none, false,
        true, true⟩

theorem exCoupons_new (back : ℝ → ℝ → Py ℝ) : CFList.newRate floatCal back [1, 2] (.scalar 100) (some 0) none none none
    (5 / 100) .none = .ok (exCoupons.list 0) := by
  rw [newRate_eq (dates := [1, 2]) (starts := [0, 1]) (sh := id) rfl rfl (fun d _ => rfl) rfl (by simp)]
  simp [NumArg.expand, rateFlow, World.list, exCoupons, World.arg, List.replicate]

theorem exCoupons_offset (back : ℝ → ℝ → Py ℝ) : CFList.newRate floatCal back [3 / 2] (.list [100]) (some (1 / 2)) none none
    (some (.num (1 / 2))) (5 / 100) .none = .ok (exCoupons.list 1) := by
  rw [newRate_eq (dates := [3 / 2]) (starts := [1 / 2]) (sh := fun x => x - 1 / 2) rfl rfl
    (fun d _ => by norm_num [Cal.minus, floatCal]) rfl (by simp)]
  simp [NumArg.expand, rateFlow, World.list, exCoupons, World.arg]
  norm_num

/-- Non-vacuity of C60: after three quarters of the second year. -/
example (back : ℝ → ℝ → Py ℝ) : accrued floatCal exCoupons (7 / 4) (.list 0) = .ok (15 / 4) := by
  have := C60_accrued (exCoupons_new back) (by simp) (by norm_num) rfl goodDayCount_real rfl rfl (i := 1) (by simp) (x := 5)
    (by simp [World.list, exCoupons, CFList.getitem, Dict.get, World.arg]
        norm_num [PayOff.eval, RatePay.details, RatePay.forwardAt, ModelArg.truthy, Fwd.truthy, RatePay.tau, floatCal]) (v := 7 / 4)
    (by norm_num) (by norm_num)
  rw [this]
  norm_num [floatCal]

/-- C60 (refuted): a coupon of 5 with pay offset has grown to 7 shortly before it is paid. -/
theorem C60_violated : accrued floatCal exCoupons (7 / 5) (.list 1) = .ok 7 ∧
    (exCoupons.list 1).getitem floatCal (3 / 2) = .ok 5 := by
  constructor
  · rw [accrued_list (g := fun _ => 7)]
    · simp [exCoupons]
    · intro d hd
      simp only [exCoupons, List.mem_cons, List.not_mem_nil, or_false] at hd
      subst hd
      rw [accruedAt, if_pos (by norm_num)]
      simp only [exCoupons, Dict.get, if_true]
      rw [accruedFlow_rate (p := ⟨0, 1, 100, none, none, some (5 / 100)⟩) rfl goodDayCount_real rfl (x := 5)
        (by norm_num [PayOff.eval, RatePay.details, RatePay.forwardAt, ModelArg.truthy, Fwd.truthy, RatePay.tau, floatCal, World.arg]) (by norm_num) (by norm_num)]
      norm_num [floatCal]
  · simp [World.list, exCoupons, CFList.getitem, Dict.get, World.arg]
    norm_num [PayOff.eval, RatePay.details, RatePay.forwardAt, ModelArg.truthy, Fwd.truthy, RatePay.tau, floatCal]

/-! ### The hypotheses can be met: each theorem applied -/

theorem exCoupons_pays : (exCoupons.list 0).getitem floatCal ([1, 2] : List ℝ)[1] = .ok 5 := by
  simp [World.list, exCoupons, CFList.getitem, Dict.get, World.arg]
  norm_num [PayOff.eval, RatePay.details, RatePay.forwardAt, ModelArg.truthy, Fwd.truthy, RatePay.tau, floatCal]

example (back : ℝ → ℝ → Py ℝ) := C60_bounds (exCoupons_new back) (by simp) (by norm_num) rfl goodDayCount_real rfl rfl (i := 1) (by simp)
  exCoupons_pays (by norm_num) (v := 7 / 4) (by norm_num) (by norm_num)

example (back : ℝ → ℝ → Py ℝ) := C60_full (exCoupons_new back) (by simp) (by norm_num) rfl goodDayCount_real rfl rfl (i := 1) (by simp) exCoupons_pays

example (back : ℝ → ℝ → Py ℝ) := C60_outside (exCoupons_new back) (by simp) (by norm_num) rfl rfl (v := 5 / 2) (.inr (by norm_num))

/-- A list of fixed amounts. -/
noncomputable def exFixedWorld : World ℝ FloatPeriod := exCoupons.setList 0 ⟨some 0, [1, 2], [(1, .fixed 5), (2, .fixed 5)], .fwd fun _ => .none, false, true, true⟩

example := C60_fixed (cal := floatCal) (w := exFixedWorld) (a := 0) (v := 1 / 2) (by
  intro d hd cf h
  simp only [exFixedWorld, World.setList, Function.update_self, Dict.get] at h
  split_ifs at h <;> (cases h; rfl))

example (back : ℝ → ℝ → Py ℝ) := C60_offset_violated (exCoupons_offset back) (s := 0) (e := 1) (by norm_num [Cal.minus, floatCal])
  (by norm_num [Cal.minus, floatCal]) (by norm_num) goodDayCount_real rfl rfl C60_violated.2 (by norm_num) (v := 7 / 5) (by norm_num) (by norm_num)

/-- A collared coupon. -/
noncomputable def exCollarWorld : World ℝ FloatPeriod := exCoupons.setList 0
  ⟨some 0, [1], [(1, .contingentRate ⟨⟨0, 1, 100, none, none, some (5 / 100)⟩, none, none⟩)], .fwd fun _ => .none, true, false, true⟩

example := C60_contingent_violated (cal := floatCal) (w := exCollarWorld) (a := 0) (v := 1 / 2) (d := 1)
  (cf := .contingentRate ⟨⟨0, 1, 100, none, none, some (5 / 100)⟩, none, none⟩) (p := ⟨0, 1, 100, none, none, some (5 / 100)⟩)
  rfl rfl (by simp [exCollarWorld, World.setList, Dict.get]) rfl (by norm_num) (by norm_num)

end Dcf
