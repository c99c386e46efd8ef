import Verif.Lemmas.RateCurve
import Verif.Props.RateCurve
import Verif.Props.RateLoops
import Verif.Props.CurveArith
import Verif.Props.Curve

/-! # Casting, assigning and fixing interest rate curves: C20, C26, C30, C36, C37 -/

set_option linter.unusedSectionVars false
set_option linter.unusedSimpArgs false
set_option linter.unusedVariables false

namespace Dcf

open Spec

section
variable {D P : Type} [LinearOrder D] {cal : Cal D P}

/-! ### Curves that answer -/

/-- Zero rate curves with default interpolation answer every date. -/
theorem zero_answers {pts : List (D × ℝ)} {o? : Option D} {dc : DayCountArg D} {o : D} {tenor : Option P}
    (hn : (pts.map Prod.fst).Nodup) (hne : pts ≠ []) (ho : o?.or (pts.map Prod.fst).head? = some o) (hd : dc.Usable)
    (hτ : GoodDayCount (dc.fn cal)) :
    Answers cal (irOf cal o o? dc none .zero tenor pts) (linVal (dc.fn cal) o pts) (dc.fn cal) o :=
  ⟨irOf_linear cal rfl ho hd hτ hn hne, irOf_dayCount cal hd, hτ, ho⟩

/-- Discount factor curves with default interpolation and a point at the origin answer every date. -/
theorem discount_answers {pts : List (D × ℝ)} {o? : Option D} {dc : DayCountArg D} {o : D} {tenor : Option P} {y : ℝ}
    (hn : (pts.map Prod.fst).Nodup) (hpos : ∀ p ∈ pts, 0 < p.2) (hy : (o, y) ∈ pts) (h0 : ∃ p ∈ pts, p.1 ≠ o)
    (ho : o?.or (pts.map Prod.fst).head? = some o) (hd : dc.Usable) (hτ : GoodDayCount (dc.fn cal)) :
    ∃ v, Answers cal (irOf cal o o? dc none .discount tenor pts) v (dc.fn cal) o ∧ v o = y ∧ ∀ x, 0 < v x := by
  classical
  refine ⟨fun x => if x = o then y else
    Real.exp (-(flin (sortPairs (ratePts (timePts (dc.fn cal) o pts))) (dc.fn cal o x) * dc.fn cal o x)),
    ⟨fun x => ?_, irOf_dayCount cal hd, hτ, ho⟩, by simp, fun x => ?_⟩
  · split_ifs with hx
    · subst hx; exact irOf_node cal ho hd hτ hn (fun _ => hpos) (fun _ => h0) hy
    · exact irOf_rate cal rfl ho hd hτ hn h0 hx
  · dsimp only
    split_ifs with hx
    · exact hpos _ hy
    · exact Real.exp_pos _

/-- C28, C29 and C31 are about non-trivial curves. -/
example : ∃ c : IRCurve ℤ ℤ, IRCurve.new dayCal .zero [0, 365] [1 / 100, 2 / 100] none none .default none = .ok c ∧
    ∃ v, Answers dayCal c v (fun s e => ((e - s : ℤ) : ℝ) / (36525 / 100)) 0 ∧ v 365 = 2 / 100 := by
  have hn : (([(0, 1 / 100), (365, 2 / 100)] : List (ℤ × ℝ)).map Prod.fst).Nodup := by simp
  refine ⟨_, IRCurve_new_eq dayCal (pts := [(0, 1 / 100), (365, 2 / 100)]) (o := 0) hn
    (by simp [IRClass.dflt, linearScheme, FuncSpec.isLog, Kind.isLog]) rfl (dc := .default) trivial goodDayCount_int,
    _, zero_answers hn (by simp) rfl (dc := .default) trivial goodDayCount_int, ?_⟩
  have h := irOf_linear dayCal (pts := [(0, 1 / 100), (365, 2 / 100)]) (o := 0) (o? := none) (dc := .default) (i := none)
    (cls := .zero) (tenor := none) rfl rfl trivial goodDayCount_int hn (by simp) 365
  have h' := irOf_node dayCal (pts := [(0, 1 / 100), (365, 2 / 100)]) (o := 0) (o? := none) (dc := .default) (i := none)
    (cls := .zero) (tenor := none) rfl trivial goodDayCount_int hn
    (by simp [IRClass.dflt, linearScheme, FuncSpec.isLog, Kind.isLog])
    (by simp [IRClass.dflt, linearScheme, FuncSpec.needsNonzero, Kind.isRate]) (x := 365) (y := 2 / 100) (by simp)
  rw [h] at h'
  exact Except.ok.inj h'

/-- A short rate and a cash rate curve to which C28 and C32 apply. -/
theorem rate_example (cls : IRClass) (i : Option FuncSpec) (hi : i.getD cls.dflt = linearScheme) :
    ∃ c : IRCurve ℤ ℤ, IRCurve.new dayCal cls [0, 365] [1 / 100, 2 / 100] i none .default none = .ok c ∧ c.cls = cls ∧
      c.tenor = none ∧ ∃ v, Answers dayCal c v (fun s e => ((e - s : ℤ) : ℝ) / (36525 / 100)) 0 := by
  have hn : (([(0, 1 / 100), (365, 2 / 100)] : List (ℤ × ℝ)).map Prod.fst).Nodup := by simp
  have hl : (i.getD cls.dflt).isLog → ∀ p ∈ ([(0, 1 / 100), (365, 2 / 100)] : List (ℤ × ℝ)), 0 < p.2 := by
    simp [hi, linearScheme, FuncSpec.isLog, Kind.isLog]
  refine ⟨_, IRCurve_new_eq dayCal (pts := [(0, 1 / 100), (365, 2 / 100)]) (o := 0) (i := i) hn hl rfl (dc := .default) trivial
    goodDayCount_int, rfl, rfl, _, ⟨irOf_linear dayCal hi rfl (dc := .default) trivial goodDayCount_int hn (by simp),
    irOf_dayCount dayCal (dc := .default) trivial, goodDayCount_int, rfl⟩⟩

theorem dayCal_steps (p s : ℤ) : Steps dayCal p s fun k => s + k * p :=
  ⟨by simp, fun k => by simp only [dayCal]; congr 1; push_cast; ring⟩

example : ∃ (c : IRCurve ℤ ℤ) (v : ℤ → ℝ), c.cls = .short ∧
    Answers dayCal c v (fun s e => ((e - s : ℤ) : ℝ) / (36525 / 100)) 0 ∧
    Steps dayCal dayCal.oneDay 0 (fun k : ℕ => (k : ℤ)) ∧ StepsTo (fun k : ℕ => (k : ℤ)) 9 10 ∧
    Increasing (fun k : ℕ => (k : ℤ)) := by
  obtain ⟨c, _, h1, _, v, h2⟩ := rate_example .short (some linearScheme) rfl
  refine ⟨c, v, h1, h2, ?_, ⟨fun k hk => ?_, le_rfl⟩, fun k => ?_⟩
  · simpa [dayCal] using dayCal_steps 1 0
  · push_cast; omega
  · dsimp only; push_cast; omega

example : ∃ (c : IRCurve ℤ ℤ) (v : ℤ → ℝ), c.cls = .cash ∧
    Answers dayCal c v (fun s e => ((e - s : ℤ) : ℝ) / (36525 / 100)) 0 ∧
    Steps dayCal (c.tenor.getD dayCal.threeMonths) 0 (fun k : ℕ => (k : ℤ) * 90) ∧ StepsTo (fun k : ℕ => (k : ℤ) * 90) 2 200 := by
  obtain ⟨c, _, h1, h3, v, h2⟩ := rate_example .cash none rfl
  refine ⟨c, v, h1, h2, ?_, ⟨fun k hk => ?_, by norm_num⟩⟩
  · simpa [dayCal, h3] using dayCal_steps 90 0
  · push_cast; omega

/-- C30 (refuted for discount factors): if the origin is not one of the given dates, the discount factor from a date
equal to the origin but not the same object raises `TypeError`, while it is defined and positive for the origin
object. -/
theorem C30_missing_origin_violated {pts : List (D × ℝ)} {o? : Option D} {dc : DayCountArg D} {o : D} {tenor : Option P}
    (hn : (pts.map Prod.fst).Nodup) (hne : pts ≠ []) (hpos : ∀ p ∈ pts, 0 < p.2) (h0 : ∀ p ∈ pts, p.1 ≠ o)
    (ho : o?.or (pts.map Prod.fst).head? = some o) (hd : dc.Usable) (hτ : GoodDayCount (dc.fn cal)) :
    ∃ c : IRCurve D P, IRCurve.new cal .discount (pts.map Prod.fst) (pts.map Prod.snd) none o? dc tenor = .ok c ∧
      ∀ t, c.factor cal false o t = .error .type ∧ (t ≠ o → ∃ y > 0, c.factor cal true o t = .ok y) := by
  obtain ⟨p, hp⟩ := List.exists_mem_of_ne_nil _ hne
  refine ⟨_, IRCurve_new_eq cal hn (fun _ => hpos) ho hd hτ, fun t => ?_⟩
  set c : IRCurve D P := irOf cal o o? dc none .discount tenor pts with hc
  have ho' : c.call cal o = .error .type := irOf_rate_origin cal rfl ho hd hτ hn hne h0
  have hcls : c.cls = .discount := rfl
  by_cases ht : t = o
  · subst ht
    exact ⟨by simp [IRCurve.factor, hcls, IRCurve.discountFactorOf, ho'], fun h => absurd rfl h⟩
  · obtain ⟨y, hy, h1⟩ : ∃ y > 0, c.call cal t = .ok y :=
      ⟨_, Real.exp_pos _, irOf_rate cal rfl ho hd hτ hn ⟨p, hp, h0 p hp⟩ ht⟩
    refine ⟨by simp [IRCurve.factor, hcls, IRCurve.discountFactorOf, ho', h1], fun _ => ⟨y, hy, ?_⟩⟩
    simpa only [IRCurve.factor, hcls, IRCurve.discountFactorOf, if_true] using h1

/-- Such curves exist: one discount factor after the origin. -/
example : ∃ c : IRCurve ℝ FloatPeriod, IRCurve.new floatCal .discount [1] [9 / 10] none (some 0) .default none = .ok c ∧
    c.factor floatCal false 0 1 = .error .type ∧ ∃ y > 0, c.factor floatCal true 0 1 = .ok y := by
  obtain ⟨c, h1, h2⟩ := C30_missing_origin_violated (cal := floatCal) (pts := [((1 : ℝ), (9 / 10 : ℝ))]) (o? := some 0)
    (o := 0) (dc := .default) (tenor := none) (by simp) (by simp) (by simp) (by simp) rfl trivial goodDayCount_real
  exact ⟨c, h1, (h2 1).1, (h2 1).2 one_ne_zero⟩

/-! ### Casting -/

theorem castOn_eq {cls : IRClass} {limit : ℕ} {same : D → Bool} {dom : List D} {c : IRCurve D P} {i : Option FuncSpec}
    {origin : Option D} {dc : DayCountArg D} {tenor : Option P} {w : D → ℝ} {o : D}
    (hw : ∀ x ∈ dom, cls.storage cal limit same c x = .ok (w x)) (hn : dom.Nodup)
    (hpos : (i.getD cls.dflt).isLog → ∀ x ∈ dom, 0 < w x)
    (ho : (cal.or origin c.base.origin?).or dom.head? = some o) (hd : (dc.or c.base.dc.kwarg).Usable)
    (hτ : GoodDayCount ((dc.or c.base.dc.kwarg).fn cal)) :
    IRCurve.castOn cal cls limit same dom c i origin dc tenor =
      .ok (irOf cal o (cal.or origin c.base.origin?) (dc.or c.base.dc.kwarg) i cls tenor (dom.map fun x => (x, w x))) := by
  simp only [IRCurve.castOn]
  rw [pyMap_ok hw, Py.ok_bind]
  have := IRCurve_new_eq cal (pts := dom.map fun x => (x, w x)) (i := i) (o? := cal.or origin c.base.origin?)
    (dc := dc.or c.base.dc.kwarg) (o := o) (cls := cls) (tenor := tenor) (by rw [graph_fst]; exact hn)
    (by
      intro h p hp
      obtain ⟨x, hx, rfl⟩ := List.mem_map.1 hp
      exact hpos h x hx) (by rw [graph_fst]; exact ho) hd hτ
  rw [graph_fst, graph_snd] at this
  exact this

theorem or_origin {o : D} {o? : Option D} (hf : cal.falsy o = true → o? = some o) : cal.or (some o) o? = some o := by
  simp only [Cal.or]
  split_ifs with h
  · exact hf h
  · rfl

/-- Zero rates implied by discount factors of a linear zero rate curve are that curve's rates, from the first positive
common date on. -/
theorem rates_of_discounts {τ : D → D → ℝ} (hτ : GoodDayCount τ) {o : D} {pts : List (D × ℝ)} (hne : pts ≠ [])
    (hn : (pts.map Prod.fst).Nodup) {dom : List D} (hdn : dom.Nodup) (hsub : ∀ p ∈ pts, p.1 ∈ dom) {u : D → ℝ}
    (hu : ∀ y ∈ dom, y ≠ o → u y = Real.exp (-(linVal τ o pts y * τ o y))) {p x : D} (hp : p ∈ dom) (hop : o < p) (hpx : p ≤ x) :
    flin (sortPairs (ratePts (timePts τ o (dom.map fun y => (y, u y))))) (τ o x) = linVal τ o pts x := by
  have hA := sortPairs_strict (timePts_nodup hτ o hn)
  have hB : StrictX (sortPairs (ratePts (timePts τ o (dom.map fun y => (y, u y))))) :=
    sortPairs_strict (ratePts_nodup (timePts_nodup hτ o (by rw [graph_fst]; exact hdn)))
  have hmem : ∀ q, q ∈ sortPairs (ratePts (timePts τ o (dom.map fun y => (y, u y)))) ↔
      ∃ y ∈ dom, y ≠ o ∧ q = (τ o y, linVal τ o pts y) := by
    intro q
    rw [(sortPairs_perm _).mem_iff, ratePts, timePts, List.map_map]
    simp only [List.mem_map, List.mem_filter, Function.comp]
    constructor
    · rintro ⟨r, ⟨⟨y, hy, rfl⟩, h0⟩, rfl⟩
      have h0' : τ o y ≠ 0 := by simpa using h0
      have hyo : y ≠ o := by rintro rfl; exact h0' (hτ.self _)
      refine ⟨y, hy, hyo, ?_⟩
      simp only [hu y hy hyo, Real.log_exp, neg_neg]
      rw [mul_div_assoc, div_self h0', mul_one]
    · rintro ⟨y, hy, hyo, rfl⟩
      have h0 : τ o y ≠ 0 := hτ.ne_zero (Ne.symm hyo)
      refine ⟨(τ o y, u y), ⟨⟨y, hy, rfl⟩, by simpa using h0⟩, ?_⟩
      simp only [hu y hy hyo, Real.log_exp, neg_neg]
      rw [mul_div_assoc, div_self h0, mul_one]
  refine flin_agree hA (sortPairs_ne_nil (by unfold timePts; simpa using hne)) hB (p := τ o p) ?_ ?_ ?_ ((hτ.le_iff o p x).2 hpx)
  · exact ⟨_, (hmem _).2 ⟨p, hp, hop.ne', rfl⟩, rfl⟩
  · intro q hq hpq
    obtain ⟨r, hr, rfl⟩ := List.mem_map.1 ((sortPairs_perm _).mem_iff.1 hq)
    have hro : r.1 ≠ o := by
      have := (hτ.le_iff o p r.1).1 hpq
      exact (hop.trans_le this).ne'
    exact ⟨_, (hmem _).2 ⟨r.1, hsub r hr, hro, rfl⟩, rfl⟩
  · intro q hq _
    obtain ⟨y, _, _, rfl⟩ := (hmem q).1 hq
    rfl

/-- The discount factor curve cast from a zero rate curve. -/
theorem cast_discount_eq {pts : List (D × ℝ)} {o? : Option D} {dc : DayCountArg D} {o a m b : D} {tenor tenor' : Option P}
    (hn : (pts.map Prod.fst).Nodup) (ho : o?.or (pts.map Prod.fst).head? = some o) (hd : dc.Usable) (hk : dc.kwarg = dc)
    (hτ : GoodDayCount (dc.fn cal)) (hf : cal.falsy o = true → o? = some o)
    (ha : cal.add o cal.oneDay = .ok a) (hm : m ∈ pts.map Prod.fst) (hmax : ∀ x ∈ pts.map Prod.fst, x ≤ m)
    (hb : cal.add m cal.oneDay = .ok b) (limit : ℕ) (same : D → Bool) :
    IRCurve.cast cal .discount limit same (irOf cal o o? dc none .zero tenor pts) none none .default tenor' =
      .ok (irOf cal o (some o) dc none .discount tenor' ((sortedSet (pts.map Prod.fst ++ [a, b])).map fun x =>
        (x, Real.exp (-(linVal (dc.fn cal) o pts x * dc.fn cal o x))))) := by
  have hne : pts ≠ [] := by rintro rfl; simp at hm
  set Z : IRCurve D P := irOf cal o o? dc none .zero tenor pts with hZ
  have hans : Answers cal Z (linVal (dc.fn cal) o pts) (dc.fn cal) o := zero_answers hn hne ho hd hτ
  obtain ⟨df, hlaw, hdf, hfac, hdisc⟩ := C28_zero hans rfl
  have hdf' : ∀ x, df o x = Real.exp (-(linVal (dc.fn cal) o pts x * dc.fn cal o x)) := by
    intro x; rw [hdf, hτ.self]; simp
  have hoo : cal.or (some o) Z.base.origin? = some o := or_origin hf
  have hor : (DayCountArg.default : DayCountArg D).or Z.base.dc.kwarg = dc := hk
  have := castOn_eq (cal := cal) (cls := .discount) (limit := limit) (same := same)
    (dom := sortedSet (pts.map Prod.fst ++ [a, b])) (c := Z) (i := none)
    (origin := some o) (dc := .default) (tenor := tenor')
    (w := fun x => Real.exp (-(linVal (dc.fn cal) o pts x * dc.fn cal o x))) (o := o)
    (fun x _ => (hdisc x).trans (by rw [hdf'])) ((sortedSet_strict _).imp (fun h => h.ne))
    (fun _ x _ => Real.exp_pos _) (by rw [hoo]; rfl) (by rw [hor]; exact hd) (by rw [hor]; exact hτ)
  rw [hor, hoo] at this
  simp only [IRCurve.cast]
  rw [show Z.base.origin = some o from ho]
  simp only [Option.none_or, pyDate, Py.ok_bind, ha, maxDate_eq (l := Z.base.domain) hm hmax, hb]
  exact this

/-- C36: the discount factor curve cast from a zero rate curve returns the same discount factors for every date from
any of its grid dates after the origin on (one of them is the day after the origin), not only on the grid; and the
factor 1 at the origin if that is a given date. -/
theorem C36_cast {pts : List (D × ℝ)} {o? : Option D} {dc : DayCountArg D} {o a m b : D} {tenor tenor' : Option P}
    (hn : (pts.map Prod.fst).Nodup) (ho : o?.or (pts.map Prod.fst).head? = some o) (hd : dc.Usable) (hk : dc.kwarg = dc)
    (hτ : GoodDayCount (dc.fn cal)) (hf : cal.falsy o = true → o? = some o)
    (ha : cal.add o cal.oneDay = .ok a) (hoa : o < a) (hm : m ∈ pts.map Prod.fst) (hmax : ∀ x ∈ pts.map Prod.fst, x ≤ m)
    (hb : cal.add m cal.oneDay = .ok b) (limit : ℕ) (same : D → Bool) :
    ∃ Z DF : IRCurve D P, IRCurve.new cal .zero (pts.map Prod.fst) (pts.map Prod.snd) none o? dc tenor = .ok Z ∧
      IRCurve.cast cal .discount limit same Z none none .default tenor' = .ok DF ∧
      a ∈ DF.base.domain ∧ (∀ x ∈ Z.base.domain, x ∈ DF.base.domain) ∧
      (∀ p ∈ DF.base.domain, o < p → ∀ x, p ≤ x →
        ∃ y, DF.discount cal x = .ok y ∧ Z.discount cal x = .ok y) ∧
      (o ∈ Z.base.domain → DF.discount cal o = .ok 1 ∧ Z.discount cal o = .ok 1) := by
  have hne : pts ≠ [] := by rintro rfl; simp at hm
  set Z : IRCurve D P := irOf cal o o? dc none .zero tenor pts with hZ
  have hans : Answers cal Z (linVal (dc.fn cal) o pts) (dc.fn cal) o := zero_answers hn hne ho hd hτ
  obtain ⟨df, hlaw, hdf, hfac, hdisc⟩ := C28_zero hans rfl
  have hdf' : ∀ x, df o x = Real.exp (-(linVal (dc.fn cal) o pts x * dc.fn cal o x)) := by
    intro x; rw [hdf, hτ.self]; simp
  have hcast := cast_discount_eq (tenor := tenor) (tenor' := tenor') hn ho hd hk hτ hf ha hm hmax hb limit same
  set dom := sortedSet (pts.map Prod.fst ++ [a, b]) with hdom
  have hdn : dom.Nodup := (sortedSet_strict _).imp (fun h => h.ne)
  have hsub : ∀ p ∈ pts, p.1 ∈ dom := fun p hp =>
    sortedSet_mem.2 (List.mem_append.2 (.inl (List.mem_map.2 ⟨p, hp, rfl⟩)))
  have ham : a ∈ dom := sortedSet_mem.2 (by simp)
  set pts' := dom.map fun x => (x, Real.exp (-(linVal (dc.fn cal) o pts x * dc.fn cal o x))) with hpts'
  have hfst : pts'.map Prod.fst = dom := graph_fst _ _
  refine ⟨Z, _, IRCurve_new_eq cal hn (by simp [IRClass.dflt, linearScheme, FuncSpec.isLog, Kind.isLog]) ho hd hτ,
    hcast, ?_, ?_, ?_, ?_⟩
  · show a ∈ pts'.map Prod.fst
    rw [hfst]; exact ham
  · intro x hx
    show x ∈ pts'.map Prod.fst
    rw [hfst]; exact sortedSet_mem.2 (List.mem_append.2 (.inl hx))
  · intro p hp hop x hpx
    have hp' : p ∈ dom := hfst ▸ hp
    refine ⟨df o x, ?_, hdisc x⟩
    have h1 := irOf_rate cal (o := o) (o? := some o) (dc := dc) (tenor := tenor') (i := none) (cls := .discount)
      (pts := pts') rfl rfl hd hτ (by rw [hfst]; exact hdn)
      ⟨_, List.mem_map.2 ⟨a, ham, rfl⟩, hoa.ne'⟩ (hop.trans_le hpx).ne'
    rw [rates_of_discounts hτ hne hn hdn hsub (fun y _ _ => rfl) hp' hop hpx, ← hdf'] at h1
    exact h1
  · intro hoz
    have h1 : df o o = 1 := hlaw.self o
    refine ⟨?_, by rw [hdisc, h1]⟩
    have hod : o ∈ dom := sortedSet_mem.2 (List.mem_append.2 (.inl hoz))
    have := irOf_node cal (o := o) (o? := some o) (dc := dc) (tenor := tenor') (i := none) (cls := .discount)
      (pts := pts') rfl hd hτ (by rw [hfst]; exact hdn)
      (fun _ p hp => by
        obtain ⟨x, hx, rfl⟩ := List.mem_map.1 hp
        exact Real.exp_pos _)
      (fun _ => ⟨_, List.mem_map.2 ⟨a, ham, rfl⟩, hoa.ne'⟩) (List.mem_map.2 ⟨o, hod, rfl⟩)
    rw [← hdf', h1] at this
    exact this

/-- A case of `C36_cast`: zero rates 1% today and 2% in a year. -/
example : ∃ Z DF : IRCurve ℤ ℤ, IRCurve.new dayCal .zero [0, 365] [1 / 100, 2 / 100] none (some 0) .default none = .ok Z ∧
    IRCurve.cast dayCal .discount 10 (fun _ => false) Z none none .default none = .ok DF ∧
    ∀ x, 1 ≤ x → ∃ y, DF.discount dayCal x = .ok y ∧ Z.discount dayCal x = .ok y := by
  obtain ⟨Z, DF, h1, h2, h3, _, h4, _⟩ := C36_cast (cal := dayCal) (pts := [(0, 1 / 100), (365, 2 / 100)]) (o? := some 0)
    (dc := .default) (o := 0) (a := 1) (m := 365) (b := 366) (tenor := none) (tenor' := none) (by simp) rfl trivial rfl
    goodDayCount_int (fun _ => rfl) rfl (by norm_num) (by simp) (by simp) rfl 10 (fun _ => false)
  exact ⟨Z, DF, h1, h2, h4 1 h3 (by norm_num)⟩

/-! ### There and back -/

/-- Zero rates of a discount factor curve. -/
theorem discount_zero {pts : List (D × ℝ)} {o? : Option D} {dc : DayCountArg D} {o x : D} {tenor : Option P} {i : Option FuncSpec}
    {v : ℝ} (ho : o?.or (pts.map Prod.fst).head? = some o) (hd : dc.Usable) (hτ : GoodDayCount (dc.fn cal)) (hx : x ≠ o)
    (hv : 0 < v) (hc : (irOf cal o o? dc i .discount tenor pts).call cal x = .ok v) :
    (irOf cal o o? dc i .discount tenor pts).zero cal x = .ok (-Real.log v / dc.fn cal o x) := by
  have h1 : ∀ s e, (irOf cal o o? dc i .discount tenor pts).dayCount cal s e = .ok (dc.fn cal s e) := irOf_dayCount cal hd
  have h2 : (irOf cal o o? dc i .discount tenor pts).base.origin = some o := ho
  set C := irOf cal o o? dc i .discount tenor pts with hC
  have h3 : C.cls = .discount := rfl
  simp only [IRCurve.zero, h2, pyDate, Py.ok_bind, IRCurve.rate, h3, IRCurve.discountRateOf, Ne.symm hx, false_and,
    if_false, IRCurve.discountFactorOf, if_true, hc, h1, continuousRate, pyLog_ok hv, pyDiv_ok (hτ.ne_zero (Ne.symm hx))]

theorem discount_zero_origin {pts : List (D × ℝ)} {o? : Option D} {dc : DayCountArg D} {o n : D} {tenor : Option P}
    {i : Option FuncSpec} {v : ℝ} (ho : o?.or (pts.map Prod.fst).head? = some o) (hd : dc.Usable)
    (hτ : GoodDayCount (dc.fn cal)) (hn : n ∈ pts.map Prod.fst) (hon : o < n) (hmin : ∀ x ∈ pts.map Prod.fst, o < x → n ≤ x)
    (hv : 0 < v) (hc : (irOf cal o o? dc i .discount tenor pts).call cal n = .ok v) :
    (irOf cal o o? dc i .discount tenor pts).zero cal o = .ok (-Real.log v / dc.fn cal o n) := by
  have h1 : ∀ s e, (irOf cal o o? dc i .discount tenor pts).dayCount cal s e = .ok (dc.fn cal s e) := irOf_dayCount cal hd
  have h2 : (irOf cal o o? dc i .discount tenor pts).base.origin = some o := ho
  set C := irOf cal o o? dc i .discount tenor pts with hC
  have h3 : C.cls = .discount := rfl
  have h4 : minDate (C.base.domain.filter (o < ·)) = .ok n :=
    minDate_eq (List.mem_filter.2 ⟨hn, by simpa using hon⟩)
      (fun x hx => hmin x (List.mem_filter.1 hx).1 (by simpa using (List.mem_filter.1 hx).2))
  simp only [IRCurve.zero, h2, pyDate, Py.ok_bind, IRCurve.rate, h3, IRCurve.discountRateOf, true_and, h4,
    if_false, IRCurve.discountFactorOf, if_true, hc, h1, continuousRate, pyLog_ok hv, pyDiv_ok (hτ.ne_zero hon.ne),
    hon.ne, and_self]

/-- The zero rate curve cast from a discount factor curve with values `u` on the grid. -/
theorem cast_zero_eq {dom : List D} {u : D → ℝ} {o? : Option D} {dc : DayCountArg D} {o n : D} {tenor tenor' : Option P}
    (hdn : dom.Nodup) (hu : ∀ x ∈ dom, 0 < u x) (ho : o?.or dom.head? = some o) (hoo : cal.or none o? = o?)
    (hd : dc.Usable) (hk : dc.kwarg = dc) (hτ : GoodDayCount (dc.fn cal)) (hnm : n ∈ dom) (hon : o < n)
    (hmin : ∀ x ∈ dom, o < x → n ≤ x) (limit : ℕ) (same : D → Bool) :
    IRCurve.cast cal .zero limit same (irOf cal o o? dc none .discount tenor (dom.map fun x => (x, u x))) none none .default
      tenor' = .ok (irOf cal o o? dc none .zero tenor' (dom.map fun x =>
        (x, if x = o then -Real.log (u n) / dc.fn cal o n else -Real.log (u x) / dc.fn cal o x))) := by
  have hfst : (dom.map fun x => (x, u x)).map Prod.fst = dom := graph_fst _ _
  have ho' : o?.or ((dom.map fun x => (x, u x)).map Prod.fst).head? = some o := by rw [hfst]; exact ho
  have hnode : ∀ x ∈ dom, (irOf cal o o? dc none .discount tenor (dom.map fun x => (x, u x)) : IRCurve D P).call cal x = .ok (u x) :=
    fun x hx => irOf_node cal ho' hd hτ (by rw [hfst]; exact hdn)
      (fun _ p hp => by
        obtain ⟨x, hx, rfl⟩ := List.mem_map.1 hp
        exact hu x hx)
      (fun _ => ⟨_, List.mem_map.2 ⟨n, hnm, rfl⟩, hon.ne'⟩) (List.mem_map.2 ⟨x, hx, rfl⟩)
  set C : IRCurve D P := irOf cal o o? dc none .discount tenor (dom.map fun x => (x, u x)) with hC
  have hor : (DayCountArg.default : DayCountArg D).or C.base.dc.kwarg = dc := hk
  have horg : cal.or none C.base.origin? = o? := hoo
  have hdomC : C.base.domain = dom := hfst
  have := castOn_eq (cal := cal) (cls := .zero) (limit := limit) (same := same) (dom := dom) (c := C) (i := none)
    (origin := none) (dc := .default) (tenor := tenor') (o := o)
    (w := fun x => if x = o then -Real.log (u n) / dc.fn cal o n else -Real.log (u x) / dc.fn cal o x)
    (fun x hx => by
      show C.zero cal x = _
      split_ifs with h
      · subst h
        exact discount_zero_origin ho' hd hτ (by rw [hfst]; exact hnm) hon (by rw [hfst]; exact hmin) (hu n hnm) (hnode n hnm)
      · exact discount_zero ho' hd hτ h (hu x hx) (hnode x hx)) hdn
    (by simp [IRClass.dflt, linearScheme, FuncSpec.isLog, Kind.isLog]) (by rw [horg]; exact ho)
    (by rw [hor]; exact hd) (by rw [hor]; exact hτ)
  rw [hor, horg] at this
  simp only [IRCurve.cast, hdomC]
  exact this

theorem exists_min_of_mem {l : List D} {a : D} (h : a ∈ l) : ∃ n ∈ l, ∀ x ∈ l, n ≤ x := by
  have h' : ∃ n, l.min? = some n := by
    cases hl : l.min? with
    | none => rw [List.min?_eq_none_iff] at hl; subst hl; simp at h
    | some n => exact ⟨n, rfl⟩
  obtain ⟨n, hn⟩ := h'
  exact ⟨n, (List.min?_eq_some_iff.1 hn).1, fun x hx => (List.min?_eq_some_iff.1 hn).2 x hx⟩

theorem exists_next {l : List D} {o a : D} (h : a ∈ l) (ho : o < a) :
    ∃ n ∈ l, o < n ∧ ∀ x ∈ l, o < x → n ≤ x := by
  obtain ⟨n, hn, hmin⟩ := exists_min_of_mem (l := l.filter (fun x => decide (o < x))) (List.mem_filter.2 ⟨h, by simpa using ho⟩)
  obtain ⟨h1, h2⟩ := List.mem_filter.1 hn
  exact ⟨n, h1, by simpa using h2, fun x hx hox => hmin x (List.mem_filter.2 ⟨hx, by simpa using hox⟩)⟩

/-- C37: zero rates cast to discount factors and back return the same rate at every grid date after the origin (and at
every grid date before it). -/
theorem C37_zero {pts : List (D × ℝ)} {o? : Option D} {dc : DayCountArg D} {o a m b : D} {tenor tenor' tenor'' : Option P}
    (hn : (pts.map Prod.fst).Nodup) (ho : o?.or (pts.map Prod.fst).head? = some o) (hd : dc.Usable) (hk : dc.kwarg = dc)
    (hτ : GoodDayCount (dc.fn cal)) (hf : cal.falsy o = true → o? = some o)
    (ha : cal.add o cal.oneDay = .ok a) (hoa : o < a) (hm : m ∈ pts.map Prod.fst) (hmax : ∀ x ∈ pts.map Prod.fst, x ≤ m)
    (hb : cal.add m cal.oneDay = .ok b) (limit : ℕ) (same : D → Bool) :
    ∃ Z DF Z' : IRCurve D P, IRCurve.new cal .zero (pts.map Prod.fst) (pts.map Prod.snd) none o? dc tenor = .ok Z ∧
      IRCurve.cast cal .discount limit same Z none none .default tenor' = .ok DF ∧
      IRCurve.cast cal .zero limit same DF none none .default tenor'' = .ok Z' ∧
      (∀ x ∈ Z.base.domain, x ∈ Z'.base.domain) ∧
      (∀ x ∈ Z'.base.domain, x ≠ o → ∃ z, Z.call cal x = .ok z ∧ Z'.call cal x = .ok z) ∧
      ∀ x y, (x, y) ∈ pts → x ≠ o → Z'.call cal x = .ok y := by
  have hne : pts ≠ [] := by rintro rfl; simp at hm
  have hcast := cast_discount_eq (tenor := tenor) (tenor' := tenor') hn ho hd hk hτ hf ha hm hmax hb limit same
  set dom := sortedSet (pts.map Prod.fst ++ [a, b]) with hdom
  have hdn : dom.Nodup := (sortedSet_strict _).imp (fun h => h.ne)
  have ham : a ∈ dom := sortedSet_mem.2 (by simp)
  obtain ⟨n, hn', hon, hmin⟩ := exists_next ham hoa
  have hcast' := cast_zero_eq (cal := cal) (dom := dom) (o? := some o)
    (u := fun x => Real.exp (-(linVal (dc.fn cal) o pts x * dc.fn cal o x)))
    (tenor := tenor') (tenor' := tenor'') hdn (fun _ _ => Real.exp_pos _) rfl rfl hd hk hτ hn' hon hmin limit same
  have hsub : ∀ x ∈ pts.map Prod.fst, x ∈ dom := fun x hx => sortedSet_mem.2 (List.mem_append.2 (.inl hx))
  have hval : ∀ x ∈ dom, x ≠ o → (irOf cal o (some o) dc none .zero tenor'' (dom.map fun x =>
      (x, if x = o then -Real.log (Real.exp (-(linVal (dc.fn cal) o pts n * dc.fn cal o n))) / dc.fn cal o n
        else -Real.log (Real.exp (-(linVal (dc.fn cal) o pts x * dc.fn cal o x))) / dc.fn cal o x)) : IRCurve D P).call cal x =
        .ok (linVal (dc.fn cal) o pts x) := by
    intro x hx hxo
    apply irOf_node cal (o? := some o) rfl hd hτ (by rw [graph_fst]; exact hdn)
      (by simp [IRClass.dflt, linearScheme, FuncSpec.isLog, Kind.isLog])
      (by simp [IRClass.dflt, linearScheme, FuncSpec.needsNonzero, Kind.isRate])
    refine List.mem_map.2 ⟨x, hx, ?_⟩
    rw [if_neg hxo, Real.log_exp, neg_neg, mul_div_assoc, div_self (hτ.ne_zero (Ne.symm hxo)), mul_one]
  have hlin : ∀ x, (irOf cal o o? dc none .zero tenor pts : IRCurve D P).call cal x = .ok (linVal (dc.fn cal) o pts x) :=
    irOf_linear cal rfl ho hd hτ hn hne
  refine ⟨irOf cal o o? dc none .zero tenor pts, _, _,
    IRCurve_new_eq cal hn (by simp [IRClass.dflt, linearScheme, FuncSpec.isLog, Kind.isLog]) ho hd hτ,
    hcast, hcast', fun x hx => ?_, fun x hx hxo => ?_, fun x y hxy hxo => ?_⟩
  · show x ∈ List.map Prod.fst _
    rw [graph_fst]; exact hsub x hx
  · have hx' : x ∈ List.map Prod.fst _ := hx
    rw [graph_fst] at hx'
    exact ⟨_, hlin x, hval x hx' hxo⟩
  · rw [hval x (hsub x (List.mem_map.2 ⟨_, hxy, rfl⟩)) hxo, ← hlin x]
    exact irOf_node cal ho hd hτ hn (by simp [IRClass.dflt, linearScheme, FuncSpec.isLog, Kind.isLog])
      (by simp [IRClass.dflt, linearScheme, FuncSpec.needsNonzero, Kind.isRate]) hxy

/-- C37: discount factors cast to zero rates and back return the same discount factor at every grid date but the
origin. -/
theorem C37_discount {pts : List (D × ℝ)} {o? : Option D} {dc : DayCountArg D} {o a m b n : D}
    {tenor tenor' tenor'' : Option P}
    (hn : (pts.map Prod.fst).Nodup) (hpos : ∀ p ∈ pts, 0 < p.2) (ho : o?.or (pts.map Prod.fst).head? = some o)
    (hd : dc.Usable) (hk : dc.kwarg = dc)
    (hτ : GoodDayCount (dc.fn cal)) (hf : cal.falsy o = true → o? = some o)
    (hnm : n ∈ pts.map Prod.fst) (hon : o < n)
    (ha : cal.add o cal.oneDay = .ok a) (hm : m ∈ pts.map Prod.fst) (hmax : ∀ x ∈ pts.map Prod.fst, x ≤ m)
    (hb : cal.add m cal.oneDay = .ok b) (limit : ℕ) (same : D → Bool) :
    ∃ DF Z DF' : IRCurve D P, IRCurve.new cal .discount (pts.map Prod.fst) (pts.map Prod.snd) none o? dc tenor = .ok DF ∧
      IRCurve.cast cal .zero limit same DF none none .default tenor' = .ok Z ∧
      IRCurve.cast cal .discount limit same Z none none .default tenor'' = .ok DF' ∧
      ∀ x y, (x, y) ∈ pts → x ≠ o → DF.discount cal x = .ok y ∧ DF'.discount cal x = .ok y := by
  classical
  obtain ⟨n, hn', hon, hmin⟩ := exists_next hnm hon
  set dom := pts.map Prod.fst with hdom
  obtain ⟨u, hu⟩ : ∃ u : D → ℝ, ∀ p ∈ pts, u p.1 = p.2 :=
    ⟨fun x => (pointMap pts x).getD 0, fun p hp => by
      have : pointMap pts p.1 = some p.2 := (pointMap_some hn).2 hp
      simp only [this, Option.getD_some]⟩
  have hpts : dom.map (fun x => (x, u x)) = pts := by
    rw [hdom, List.map_map]
    conv_rhs => rw [← List.map_id pts]
    refine List.map_congr_left fun p hp => ?_
    simp only [Function.comp, hu p hp, id]
  have hupos : ∀ x ∈ dom, 0 < u x := by
    intro x hx
    obtain ⟨p, hp, rfl⟩ := List.mem_map.1 hx
    rw [hu p hp]; exact hpos p hp
  have hcast := cast_zero_eq (cal := cal) (dom := dom) (u := u) (tenor := tenor) (tenor' := tenor') hn hupos ho rfl hd hk hτ
    hn' hon hmin limit same
  rw [hpts] at hcast
  set w : D → ℝ := fun x => if x = o then -Real.log (u n) / dc.fn cal o n else -Real.log (u x) / dc.fn cal o x with hw
  set zp := dom.map fun x => (x, w x) with hzp
  have hfst : zp.map Prod.fst = dom := graph_fst _ _
  have hcast' := cast_discount_eq (cal := cal) (pts := zp) (o? := o?) (dc := dc) (tenor := tenor') (tenor' := tenor'')
    (by rw [hfst]; exact hn) (by rw [hfst]; exact ho) hd hk hτ hf ha (by rw [hfst]; exact hm) (by rw [hfst]; exact hmax) hb
    limit same
  refine ⟨_, _, _, IRCurve_new_eq cal hn (fun _ => hpos) ho hd hτ, hcast, hcast', fun x y hxy hxo => ⟨?_, ?_⟩⟩
  · have h : (irOf cal o o? dc none .discount tenor pts).call cal x = .ok y :=
      irOf_node cal ho hd hτ hn (fun _ => hpos)
        (fun _ => by
          obtain ⟨p, hp, hp'⟩ := List.mem_map.1 hn'
          exact ⟨p, hp, by rw [hp']; exact hon.ne'⟩) hxy
    have ho' : (irOf cal o o? dc none .discount tenor pts).base.origin = some o := ho
    simp only [IRCurve.discount, ho', pyDate, Py.ok_bind]
    exact h
  · have hx : x ∈ dom := List.mem_map.2 ⟨_, hxy, rfl⟩
    have hz : linVal (dc.fn cal) o zp x = -Real.log y / dc.fn cal o x := by
      have h1 := irOf_linear cal (pts := zp) (o := o) (o? := o?) (i := none) (cls := .zero) (tenor := (none : Option P)) rfl
        (by rw [hfst]; exact ho) hd hτ (by rw [hfst]; exact hn) (by rw [hzp]; simpa using List.ne_nil_of_mem hx) x
      have h2 := irOf_node cal (pts := zp) (o := o) (o? := o?) (i := none) (cls := .zero) (tenor := (none : Option P))
        (by rw [hfst]; exact ho) hd hτ (by rw [hfst]; exact hn)
        (by simp [IRClass.dflt, linearScheme, FuncSpec.isLog, Kind.isLog])
        (by simp [IRClass.dflt, linearScheme, FuncSpec.needsNonzero, Kind.isRate]) (List.mem_map.2 ⟨x, hx, rfl⟩)
      rw [h1] at h2
      rw [Except.ok.inj h2, hw]
      simp only [if_neg hxo]
      rw [hu _ hxy]
    have hv : Real.exp (-(linVal (dc.fn cal) o zp x * dc.fn cal o x)) = y := by
      rw [hz, div_mul_cancel₀ _ (hτ.ne_zero (Ne.symm hxo)), neg_neg, Real.exp_log (hpos _ hxy)]
    rw [hfst]
    set dom' := sortedSet (dom ++ [a, b]) with hdom'
    refine (?_ : IRCurve.call cal (irOf cal o (some o) dc none .discount tenor'' _) x = _)
    refine irOf_node cal (o? := some o) rfl hd hτ (by rw [graph_fst]; exact (sortedSet_strict _).imp (fun h => h.ne))
      (fun _ p hp => by
        obtain ⟨x, hx, rfl⟩ := List.mem_map.1 hp
        exact Real.exp_pos _)
      (fun _ => ⟨_, List.mem_map.2 ⟨x, sortedSet_mem.2 (by simp [hx]), rfl⟩, hxo⟩)
      (List.mem_map.2 ⟨x, sortedSet_mem.2 (by simp [hx]), by rw [hv]⟩)

/-- A case of `C37_discount`: one discount factor in a year. -/
example : ∃ DF Z DF' : IRCurve ℤ ℤ, IRCurve.new dayCal .discount [0, 365] [1, 9 / 10] none (some 0) .default none = .ok DF ∧
    IRCurve.cast dayCal .zero 10 (fun _ => false) DF none none .default none = .ok Z ∧
    IRCurve.cast dayCal .discount 10 (fun _ => false) Z none none .default none = .ok DF' ∧
    DF'.discount dayCal 365 = .ok (9 / 10) := by
  obtain ⟨DF, Z, DF', h1, h2, h3, h4⟩ := C37_discount (cal := dayCal) (pts := [(0, 1), (365, 9 / 10)]) (o? := some 0)
    (dc := .default) (o := 0) (a := 1) (m := 365) (b := 366) (n := 365) (tenor := none) (tenor' := none) (tenor'' := none)
    (by simp) (by simp) rfl trivial rfl goodDayCount_int (fun _ => rfl) (by simp) (by norm_num) rfl (by simp) (by simp) rfl
    10 (fun _ => false)
  exact ⟨DF, Z, DF', h1, h2, h3, (h4 365 (9 / 10) (by simp) (by norm_num)).2⟩

/-! ### Assigning points -/

theorem RateCurve_setitem_none {c : RateCurve D P} (hs : c.spread = none) (k : D) (v : ℝ) :
    c.setitem cal k v = (fun b => { c with base := b }) <$> c.base.setitem cal k v := by
  have hcall : ∀ x, c.call cal x = c.base.num cal x := by
    intro x
    simp only [RateCurve.call, hs, DateCurve.num, Py.ok_bind]
    cases c.base.call cal x with
    | error e => rfl
    | ok y => cases y <;> simp [pyNum]
  simp only [RateCurve.setitem, DateCurve.setitem, funext hcall]
  cases c.base.setitemWith cal (fun x => c.base.num cal x) k v <;> rfl

/-- C20 (without spread and fixings): after any sequence of assignments an interest rate curve returns the last value
given for each of its grid dates. -/
theorem C20_partial (cls : IRClass) (i : Option FuncSpec) (o : D) (dc : DayCountArg D) (hd : dc.Usable)
    (hτ : GoodDayCount (dc.fn cal)) (tenor : Option P) (start ops : List (D × ℝ)) (hn : (start.map Prod.fst).Nodup)
    (hpos : (i.getD cls.dflt).isLog → ∀ p ∈ start ++ ops, 0 < p.2)
    (h0 : (i.getD cls.dflt).needsNonzero → ∃ p ∈ start, p.1 ≠ o) :
    ∃ c : RateCurve D P, (do
        let c ← IRCurve.new cal cls (start.map Prod.fst) (start.map Prod.snd) i (some o) dc tenor
        ops.foldlM (fun c (kv : D × ℝ) => RateCurve.setitem cal c kv.1 kv.2) c.toRateCurve) = .ok c ∧
      (∀ x, x ∈ c.base.domain ↔ (assignMap (pointMap start) ops x).isSome) ∧
      (∀ x y, assignMap (pointMap start) ops x = some y → c.call cal x = .ok y) := by
  obtain ⟨b, hb, hdom, hval⟩ := C19_assign_date cal i cls.dflt o dc hd hτ start ops hn hpos h0
  refine ⟨⟨b, tenor, none⟩, ?_, hdom, fun x y h => by simp [RateCurve.call, hval x y h, pyNum]⟩
  obtain ⟨b0, hb0, hb⟩ := Py.bind_eq_ok.1 hb
  have hfold : ∀ (ops : List (D × ℝ)) (b0 b : DateCurve D),
      ops.foldlM (fun c (kv : D × ℝ) => DateCurve.setitem cal c kv.1 kv.2) b0 = .ok b →
      ops.foldlM (fun c (kv : D × ℝ) => RateCurve.setitem cal c kv.1 kv.2) (⟨b0, tenor, none⟩ : RateCurve D P) =
        .ok ⟨b, tenor, none⟩ := by
    intro ops
    induction ops with
    | nil => intro b0 b h; obtain rfl := Except.ok.inj h; rfl
    | cons kv ops ih =>
      intro b0 b h
      rw [List.foldlM_cons] at h ⊢
      obtain ⟨b1, h1, h2⟩ := Py.bind_eq_ok.1 h
      rw [RateCurve_setitem_none rfl, h1]
      exact ih b1 b h2
  simp only [IRCurve.new, hb0, Py.ok_bind]
  exact hfold ops b0 b hb

/-- C20 (refuted with a spread): assigning `v` at `k` on a curve with spread `g` leaves `y + 2 g x` instead of
`y + g x` at every other grid date `x` and returns `v + g k` at `k`. -/
theorem C20_spread {cls : IRClass} {i : Option FuncSpec} {o : D} {dc : DayCountArg D} (hd : dc.Usable)
    (hτ : GoodDayCount (dc.fn cal)) {tenor : Option P} {pts : List (D × ℝ)} (hn : (pts.map Prod.fst).Nodup)
    {f : D → Py (Option ℝ)} {g : D → ℝ} (hf : ∀ x, f x = .ok (some (g x))) (k : D) (v : ℝ)
    (hpos : (i.getD cls.dflt).isLog → 0 < v ∧ ∀ p ∈ pts, 0 < p.2 ∧ 0 < p.2 + g p.1)
    (h0 : (i.getD cls.dflt).needsNonzero → ∃ p ∈ pts, p.1 ≠ o) :
    ∃ c c' : RateCurve D P, (do
        let c ← IRCurve.new cal cls (pts.map Prod.fst) (pts.map Prod.snd) i (some o) dc tenor
        RateCurve.setSpread c.toRateCurve (some f)) = .ok c ∧ c.setitem cal k v = .ok c' ∧
      c'.call cal k = .ok (v + g k) ∧
      ∀ x y, (x, y) ∈ pts → c.call cal x = .ok (y + g x) ∧ (x ≠ k → c'.call cal x = .ok (y + g x + g x)) := by
  set b := dateCurveOf (dc.fn cal) o (some o) dc i cls.dflt pts with hb
  have hbase : ∀ x y, (x, y) ∈ pts → b.call cal x = .ok (some y) := fun x y hm =>
    DateCurve_values cal (c := b) (o := o) rfl hd hτ rfl hn rfl (fun h p hp => ((hpos h).2 p hp).1) h0 hm
  set c : RateCurve D P := ⟨b, tenor, some f⟩ with hc
  have hcall : ∀ x y, (x, y) ∈ pts → c.call cal x = .ok (y + g x) := by
    intro x y hm
    simp [RateCurve.call, hc, hf, hbase x y hm, pyNum]
  set pts1 := pts.map fun p => (p.1, p.2 + g p.1) with hpts1
  have hfst : pts1.map Prod.fst = pts.map Prod.fst := by rw [hpts1, List.map_map]; rfl
  have hvals : pyMap (c.call cal) b.domain = .ok (pts1.map Prod.snd) := by
    have : ∀ l : List (D × ℝ), (∀ p ∈ l, p ∈ pts) →
        pyMap (c.call cal) (l.map Prod.fst) = .ok ((l.map fun p => (p.1, p.2 + g p.1)).map Prod.snd) := by
      intro l
      induction l with
      | nil => intro _; rfl
      | cons p l ih =>
        intro h
        rw [List.map_cons, pyMap_cons, hcall p.1 p.2 (h p (by simp)), Py.ok_bind, ih fun q hq => h q (by simp [hq])]; rfl
    exact this pts fun p hp => hp
  have hn1 : (pts1.map Prod.fst).Nodup := by rw [hfst]; exact hn
  have hpos1 : (i.getD cls.dflt).isLog → ∀ p ∈ putPt pts1 k v, 0 < p.2 := by
    intro hl p hp
    rcases putPt_mem.1 hp with rfl | ⟨hp, -⟩
    · exact (hpos hl).1
    · obtain ⟨q, hq, rfl⟩ := List.mem_map.1 hp
      exact ((hpos hl).2 q hq).2
  have hset : c.setitem cal k v = .ok ⟨dateCurveOf (dc.fn cal) o (some o) dc i cls.dflt (putPt pts1 k v), tenor, some f⟩ := by
    unfold RateCurve.setitem DateCurve.setitemWith
    rw [show c.base = b from rfl, hvals, Py.ok_bind]
    simp only [show b.domain = pts1.map Prod.fst from hfst.symm, setPoint_eq hn1]
    rw [update_eq cal (c := b) (o := o) rfl hd (timePts_nodup hτ o (putPt_nodup hn1 k v)) hpos1]
    rfl
  set b' := dateCurveOf (dc.fn cal) o (some o) dc i cls.dflt (putPt pts1 k v) with hb'
  have h0' : (i.getD cls.dflt).needsNonzero → ∃ p ∈ putPt pts1 k v, p.1 ≠ o := by
    intro h
    obtain ⟨p, hp, hpo⟩ := h0 h
    by_cases e : p.1 = k
    · exact ⟨(k, v), putPt_mem.2 (.inl rfl), by rw [← e]; exact hpo⟩
    · exact ⟨(p.1, p.2 + g p.1), putPt_mem.2 (.inr ⟨List.mem_map.2 ⟨p, hp, rfl⟩, e⟩), hpo⟩
  have hbase' : ∀ x y, (x, y) ∈ putPt pts1 k v → b'.call cal x = .ok (some y) := fun x y hm =>
    DateCurve_values cal (c := b') (o := o) rfl hd hτ rfl (putPt_nodup hn1 k v) rfl hpos1 h0' hm
  refine ⟨c, _, ?_, hset, ?_, fun x y hm => ⟨hcall x y hm, fun hk => ?_⟩⟩
  · rw [IRCurve_new_eq cal hn (fun h p hp => ((hpos h).2 p hp).1) rfl hd hτ]
    rfl
  · simp [RateCurve.call, hf, hbase' k v (putPt_mem.2 (.inl rfl)), pyNum]
  · simp [RateCurve.call, hf, hbase' x (y + g x) (putPt_mem.2 (.inr ⟨List.mem_map.2 ⟨_, hm, rfl⟩, hk⟩)), pyNum]

/-- C20 (refuted): a zero rate curve with a spread of 1% returns 3% instead of the 2% it returned before at a grid date
after assigning another one, and 6% where 5% was assigned. -/
theorem C20_violated : ∃ c c' : RateCurve ℤ ℤ, (do
      let c ← IRCurve.new dayCal .zero [0, 365] [1 / 100, 1 / 100] none (some 0) .default none
      RateCurve.setSpread c.toRateCurve (some fun _ => .ok (some (1 / 100)))) = .ok c ∧
    c.setitem dayCal 365 (5 / 100) = .ok c' ∧ c.call dayCal 0 = .ok (2 / 100) ∧ c'.call dayCal 0 = .ok (3 / 100) ∧
    c'.call dayCal 365 = .ok (6 / 100) := by
  obtain ⟨c, c', h1, h2, h3, h4⟩ := C20_spread (cal := dayCal) (cls := .zero) (i := none) (o := 0) (dc := .default)
    (tenor := none) trivial goodDayCount_int (pts := [(0, 1 / 100), (365, 1 / 100)]) (by simp)
    (f := fun _ => .ok (some (1 / 100))) (g := fun _ => 1 / 100) (fun _ => rfl) 365 (5 / 100)
    (by simp [IRClass.dflt, linearScheme, FuncSpec.isLog, Kind.isLog])
    (by simp [IRClass.dflt, linearScheme, FuncSpec.needsNonzero, Kind.isRate])
  obtain ⟨h5, h6⟩ := h4 0 (1 / 100) (by simp)
  refine ⟨c, c', h1, h2, by rw [h5]; norm_num, by rw [h6 (by norm_num)]; norm_num, by rw [h3]; norm_num⟩

/-- C20 (refuted with a fixing): after assigning a date which has a fixing the curve still returns the fixing. -/
theorem C20_fixing_violated {c c' : RateCurve D P} (hs : c.spread = none) {k : D} {v w : ℝ} (hfix : c.base.fixings.get k = some w)
    (h : c.setitem cal k v = .ok c') : c'.call cal k = .ok w := by
  obtain ⟨b, hb, h⟩ := Py.bind_eq_ok.1 h
  obtain rfl := Except.ok.inj h
  obtain ⟨data, -, hb⟩ := Py.bind_eq_ok.1 hb
  dsimp only at hb
  have hbf : b.fixings = c.base.fixings := by
    unfold DateCurve.update at hb
    obtain ⟨ts, -, hb⟩ := Py.bind_eq_ok.1 hb
    obtain ⟨fn, -, hb⟩ := Py.bind_eq_ok.1 hb
    obtain rfl := Except.ok.inj hb
    rfl
  have hcall : b.call cal k = .ok (some w) := by simp [DateCurve.call, hbf, hfix]
  simp [RateCurve.call, hs, hcall, pyNum]

/-! ### Fixings -/

/-- C26 (rate curves): with a spread `f` a date with a fixing returns the fixing plus the spread, every other date
returns what it returned before. -/
theorem C26_rate (c : RateCurve D P) (l : List (D × ℝ)) (x : D) :
    ({ c with base := applyFixings c.base l } : RateCurve D P).call cal x =
      match lastFixing l x with
      | some y => (do
          let s ← match c.spread with
            | some f => f x
            | none => .ok (some 0)
          let s ← pyNum s
          .ok (y + s))
      | none => c.call cal x := by
  simp only [RateCurve.call, C26_fixings]
  cases lastFixing l x with
  | none => rfl
  | some y => cases c.spread <;> simp [pyNum]

/-- C26 (rate curves without spread): fixings take precedence. -/
theorem C26_rate_no_spread (c : RateCurve D P) (hs : c.spread = none) (l : List (D × ℝ)) (x : D) :
    ({ c with base := applyFixings c.base l } : RateCurve D P).call cal x =
      match lastFixing l x with
      | some y => .ok y
      | none => c.call cal x := by
  rw [C26_rate, hs]
  cases lastFixing l x with
  | none => rfl
  | some y => simp [pyNum]

end

end Dcf
