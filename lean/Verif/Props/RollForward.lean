import Verif.Props.Par
import Verif.Props.RateCast

/-! # Present values at other dates and on other curves: C126 -/

set_option linter.unusedSectionVars false
set_option linter.unusedSimpArgs false
set_option linter.unusedVariables false

namespace Dcf

open Spec

section
variable {D P : Type} [LinearOrder D] {cal : Cal D P}

/-- No list of the product has a payoff model. -/
def Product.Plain (w : World D P) (p : Product D) : Prop := ∀ a ∈ p.leaves, (w.lists a).hasModel = false

theorem PaysList.later {w : World D P} {v v' : D} {a : ℕ} {L : List (D × ℝ)} (h : PaysList cal w v a L)
    (hm : (w.lists a).hasModel = false) (hv : v ≤ v') : PaysList cal w v' a (L.filter fun q => v' ≤ q.1) := by
  obtain ⟨hp, fl, hfl, rfl⟩ := h
  have hw : ∀ u, w.dated (some u) a = w := fun u => by simp [World.dated, hm]
  refine ⟨hp, fl, fun d hd hd' => ?_, ?_⟩
  · rw [hw]
    have := hfl d hd (hv.trans hd')
    rwa [hw] at this
  · rw [List.filter_map, List.filter_filter]
    congr 1
    refine List.filter_congr fun d _ => ?_
    simp only [Function.comp]
    by_cases hd : v' ≤ d
    · simp [hd, hv.trans hd]
    · simp [hd]

theorem forall₂_later {w : World D P} {v v' : D} (hv : v ≤ v') : ∀ {as : List ℕ} {Ls : List (List (D × ℝ))},
    List.Forall₂ (PaysList cal w v) as Ls → (∀ a ∈ as, (w.lists a).hasModel = false) →
    List.Forall₂ (PaysList cal w v') as (Ls.map fun L => L.filter fun q => v' ≤ q.1)
  | [], _, h, _ => by cases h; exact .nil
  | a :: as, _, h, hm => by
    cases h with
    | cons h1 h2 => exact .cons (h1.later (hm a (by simp)) hv) (forall₂_later hv h2 fun a ha => hm a (by simp [ha]))

/-- Without payoff models what is paid from a later date on are the later ones of the flows. -/
theorem Pays.later {w : World D P} {v v' : D} {p : Product D} {L : List (D × ℝ)} (h : Pays cal w v p L) (hp : p.Plain w)
    (hv : v ≤ v') : Pays cal w v' p (L.filter fun q => v' ≤ q.1) := by
  obtain ⟨Ls, h1, rfl⟩ := h
  exact ⟨_, forall₂_later hv h1 hp, by rw [List.filter_flatten]⟩

theorem sum_filter_split (L : List (D × ℝ)) (v' : D) (f : D × ℝ → ℝ) :
    (L.map f).sum = ((L.filter fun q => q.1 < v').map f).sum + ((L.filter fun q => v' ≤ q.1).map f).sum := by
  induction L with
  | nil => simp
  | cons q L ih =>
    by_cases h : q.1 < v'
    · simp only [List.map_cons, List.sum_cons, ih, List.filter_cons, h, decide_true, if_true, not_le.2 h, decide_false,
        Bool.false_eq_true, if_false]
      ring
    · simp only [List.map_cons, List.sum_cons, ih, List.filter_cons, h, decide_true, if_true, not_lt.1 h, decide_false,
        Bool.false_eq_true, if_false]
      ring

/-- C126: a present value is what is paid before a later date, discounted, and the discounted present value at that date. -/
theorem C126_roll {w : World D P} {v v' : D} {p : Product D} {L : List (D × ℝ)} (h : Pays cal w v p L) (hp : p.Plain w)
    (hv : v ≤ v') {c : IRCurve D P} {df : D → D → ℝ} {o : D} (hF : Factors cal c df o) {same same' : Bool}
    (hs : same = true → v = o) (hs' : same' = true → v' = o) :
    ∃ x x', pv cal c.obj same (some v) p w = (.ok x, w) ∧ pv cal c.obj same' (some v') p w = (.ok x', w) ∧
      x = ((L.filter fun q => q.1 < v').map fun q => df v q.1 * q.2).sum + df v v' * x' := by
  refine ⟨_, _, C54_flows h (df := df v) fun q _ => hF.factor same v q.1 hs,
    C54_flows (h.later hp hv) (df := df v') fun q _ => hF.factor same' v' q.1 hs', ?_⟩
  rw [sum_filter_split L v', ← List.sum_map_mul_left]
  congr 2
  refine List.map_congr_left fun q _ => ?_
  rw [← mul_assoc, hF.laws.mul]

/-- C126: between payments present values grow by the factor of the curve. -/
theorem C126_carry {w : World D P} {v v' : D} {p : Product D} {L : List (D × ℝ)} (h : Pays cal w v p L) (hp : p.Plain w)
    (hv : v ≤ v') (hL : ∀ q ∈ L, v' ≤ q.1) {c : IRCurve D P} {df : D → D → ℝ} {o : D} (hF : Factors cal c df o)
    {same same' : Bool} (hs : same = true → v = o) (hs' : same' = true → v' = o) :
    ∃ x x', pv cal c.obj same (some v) p w = (.ok x, w) ∧ pv cal c.obj same' (some v') p w = (.ok x', w) ∧
      x' = x / df v v' := by
  obtain ⟨x, x', h1, h2, h3⟩ := C126_roll h hp hv hF hs hs'
  have : (L.filter fun q => decide (q.1 < v')) = [] := List.filter_eq_nil_iff.2 fun q hq => by simp [hL q hq]
  rw [this] at h3
  refine ⟨x, x', h1, h2, ?_⟩
  rw [h3]
  simp [(hF.laws.pos v v').ne']

/-- C126: after the last payment nothing is left, on any curve, even one without discount factors. -/
theorem C126_over {w : World D P} {v v' : D} {p : Product D} {L : List (D × ℝ)} (h : Pays cal w v p L) (hp : p.Plain w)
    (hv : v ≤ v') (hL : ∀ q ∈ L, q.1 < v') (c : CurveObj D P) (same : Bool) :
    pv cal c same (some v') p w = (.ok 0, w) := by
  have : (L.filter fun q => decide (v' ≤ q.1)) = [] := List.filter_eq_nil_iff.2 fun q hq => by simp [hL q hq]
  have h2 := h.later hp hv
  rw [this] at h2
  rw [C54_flows h2 (df := fun _ => 0) (by simp)]
  simp

/-- C126: only the discount factors of a curve matter. -/
theorem C126_curves {w : World D P} {v : D} {p : Product D} {L : List (D × ℝ)} (h : Pays cal w v p L) {c c' : CurveObj D P}
    {same same' : Bool}
    (hc : ∀ q ∈ L, ∃ y, c.discountFactor cal same v q.1 = .ok y ∧ c'.discountFactor cal same' v q.1 = .ok y) :
    ∃ x, pv cal c same (some v) p w = (.ok x, w) ∧ pv cal c' same' (some v) p w = (.ok x, w) := by
  classical
  choose! f hf using fun (t : D) (ht : ∃ q ∈ L, q.1 = t) =>
    (show ∃ y, c.discountFactor cal same v t = .ok y ∧ c'.discountFactor cal same' v t = .ok y by
      obtain ⟨q, hq, rfl⟩ := ht
      exact hc q hq)
  exact ⟨_, C54_flows h (df := f) fun q hq => (hf q.1 ⟨q, hq, rfl⟩).1, C54_flows h (df := f) fun q hq => (hf q.1 ⟨q, hq, rfl⟩).2⟩

/-- C126: present values on a zero rate curve and on the discount factor curve cast from it agree, at the origin as well
as at any later grid date of the discount factor curve (the day after the origin is one), for flows from there on. -/
theorem C126_cast {pts : List (D × ℝ)} {o? : Option D} {dc : DayCountArg D} {o a m b : D} {tenor tenor' : Option P}
    (hn : (pts.map Prod.fst).Nodup) (ho : o?.or (pts.map Prod.fst).head? = some o) (hd : dc.Usable) (hk : dc.kwarg = dc)
    (hτ : GoodDayCount (dc.fn cal)) (hf : cal.falsy o = true → o? = some o)
    (ha : cal.add o cal.oneDay = .ok a) (hoa : o < a) (hm : m ∈ pts.map Prod.fst) (hmax : ∀ x ∈ pts.map Prod.fst, x ≤ m)
    (hb : cal.add m cal.oneDay = .ok b) (limit : ℕ) (same : D → Bool) :
    ∃ Z DF : IRCurve D P, IRCurve.new cal .zero (pts.map Prod.fst) (pts.map Prod.snd) none o? dc tenor = .ok Z ∧
      IRCurve.cast cal .discount limit same Z none none .default tenor' = .ok DF ∧
      (∀ (w : World D P) (p : Product D) L, Pays cal w o p L → (∀ q ∈ L, a ≤ q.1 ∨ q.1 = o ∧ o ∈ pts.map Prod.fst) →
        ∃ x, pv cal Z.obj true none p w = (.ok x, w) ∧ pv cal DF.obj true none p w = (.ok x, w)) ∧
      ∀ (w : World D P) (p : Product D) L v, a ≤ v → Pays cal w v p L →
        ∃ x, pv cal Z.obj false (some v) p w = (.ok x, w) ∧ pv cal DF.obj false (some v) p w = (.ok x, w) := by
  have hne : pts ≠ [] := by rintro rfl; simp at hm
  obtain ⟨Z, DF, hZ, hDF, hain, -, hx, hoo⟩ := C36_cast (tenor := tenor) (tenor' := tenor') hn ho hd hk hτ hf ha hoa hm hmax hb
    limit same
  have hZe := IRCurve_new_eq cal (tenor := tenor) (cls := .zero) (i := none) hn
    (by simp [IRClass.dflt, linearScheme, FuncSpec.isLog, Kind.isLog]) ho hd hτ
  have hZ' : Z = irOf cal o o? dc none .zero tenor pts := by
    rw [hZ] at hZe
    exact Except.ok.inj hZe
  subst hZ'
  have hDe := cast_discount_eq (tenor := tenor) (tenor' := tenor') hn ho hd hk hτ hf ha hm hmax hb limit same
  rw [hDF] at hDe
  have hDo : DF.base.origin = some o := by rw [Except.ok.inj hDe]; rfl
  have hDc : DF.cls = .discount := by rw [Except.ok.inj hDe]; rfl
  set Z := irOf cal o o? dc none .zero tenor pts with hZdef
  have hZo : Z.base.origin = some o := ho
  have hans : Answers cal Z (linVal (dc.fn cal) o pts) (dc.fn cal) o := zero_answers hn hne ho hd hτ
  obtain ⟨df, hlaw, -, hfac, hdisc⟩ := C28_zero hans rfl
  have hcall : ∀ x, a ≤ x → DF.call cal x = .ok (df o x) := by
    intro x hax
    obtain ⟨y, h1, h2⟩ := hx a hain hoa x hax
    rw [hdisc] at h2
    simp only [IRCurve.discount, hDo, pyDate, Py.ok_bind, IRCurve.factor, hDc, IRCurve.discountFactorOf, if_true] at h1
    rw [h1, Except.ok.inj h2]
  refine ⟨Z, DF, hZ, hDF, fun w p L h hL => ?_, fun w p L v hv h => ?_⟩
  · have hz : ∀ C : IRCurve D P, C.base.origin = some o → ∀ x y, C.discount cal x = .ok y →
        C.obj.discountFactor cal true o x = .ok y := by
      intro C hC x y hxy
      simp only [IRCurve.discount, hC, pyDate, Py.ok_bind] at hxy
      exact hxy
    have key : ∀ q ∈ L, ∃ y, Z.obj.discountFactor cal true o q.1 = .ok y ∧ DF.obj.discountFactor cal true o q.1 = .ok y := by
      intro q hq
      rcases hL q hq with haq | ⟨hqo, hop⟩
      · obtain ⟨y, h1, h2⟩ := hx a hain hoa q.1 haq
        exact ⟨y, hz Z hZo _ _ h2, hz DF hDo _ _ h1⟩
      · obtain ⟨h1, h2⟩ := hoo hop
        rw [hqo]
        exact ⟨1, hz Z hZo _ _ h2, hz DF hDo _ _ h1⟩
    obtain ⟨x, h1, h2⟩ := C126_curves h key
    have hZo' : (Z.obj).base.origin = some o := hZo
    have hDo' : (DF.obj).base.origin = some o := hDo
    refine ⟨x, ?_, ?_⟩
    · simp only [pv, hZo']
      exact h1
    · simp only [pv, hDo']
      exact h2
  · refine C126_curves h fun q hq => ?_
    have hvq : v ≤ q.1 := by
      obtain ⟨Ls, h1, rfl⟩ := h
      obtain ⟨l, hl, hql⟩ := List.mem_flatten.1 hq
      obtain ⟨i, hi, rfl⟩ := List.getElem_of_mem hl
      obtain ⟨-, fl, -, hL⟩ := (List.forall₂_iff_get.1 h1).2 i (by rw [h1.length_eq]; exact hi) hi
      simp only [List.get_eq_getElem] at hL
      rw [hL] at hql
      obtain ⟨d, hd, rfl⟩ := List.mem_map.1 hql
      simpa using (List.mem_filter.1 hd).2
    refine ⟨df v q.1, hfac false v q.1 (by simp), ?_⟩
    have : DF.obj.discountFactor cal false v q.1 = DF.factor cal false v q.1 := rfl
    rw [this]
    simp only [IRCurve.factor, hDc, IRCurve.discountFactorOf, Bool.false_eq_true, if_false, hcall _ (hv.trans hvq), hcall v hv,
      Py.ok_bind, pyDiv_ok (hlaw.pos o v).ne']
    rw [← hlaw.mul o v q.1, mul_div_cancel_left₀ _ (hlaw.pos o v).ne']

end

/-- The flows of the first list of `exWorld`. -/
theorem exRollPays : Pays floatCal exWorld 0 (.list 0) [(0, 5), (1, 7), (2, 100)] := by
  refine ⟨[[(0, 5), (1, 7), (2, 100)]], ?_, by simp⟩
  rw [Product.leaves]
  refine .cons ⟨fun h => absurd h (by simp [exWorld]), fun d => if d = 0 then 5 else if d = 1 then 7 else 100, ?_, ?_⟩ .nil
  · intro d hd hv
    simp only [exWorld, List.mem_cons, List.not_mem_nil, or_false] at hd
    rcases hd with rfl | rfl | rfl <;>
      simp [World.list, World.dated, exWorld, CFList.getitem, Dict.ofPairs, Dict.get, Dict.set, PayOff.eval]
  · simp [exWorld, List.filter]

theorem exRollPlain : Product.Plain exWorld (.list 0) := by
  intro a ha
  rw [Product.leaves] at ha
  simp only [List.mem_cons, List.not_mem_nil, or_false] at ha
  subst ha
  simp [exWorld]

/-- Non-vacuity of `C126_roll`: from the valuation date 0 to 1 the flow 5 is paid. -/
example : ∃ df x x', pv floatCal (flatZero floatCal none .default (some (.num 1)) 0 0.03).obj false (some 0) (.list 0) exWorld =
      (.ok x, exWorld) ∧
    pv floatCal (flatZero floatCal none .default (some (.num 1)) 0 0.03).obj false (some 1) (.list 0) exWorld = (.ok x', exWorld) ∧
    x = 5 + df * x' := by
  obtain ⟨df, hF⟩ := Factors.zero (flatZero_answers 0.03) rfl
  obtain ⟨x, x', h1, h2, h3⟩ := C126_roll exRollPays exRollPlain (v' := 1) (by norm_num) hF (same := false) (same' := false) (by simp)
    (by simp)
  refine ⟨df 0 1, x, x', h1, h2, h3.trans ?_⟩
  simp [List.filter, hF.laws.self]

/-- Non-vacuity of `C126_over`. -/
example (c : CurveObj ℝ FloatPeriod) : pv floatCal c false (some 3) (.list 0) exWorld = (.ok 0, exWorld) :=
  C126_over exRollPays exRollPlain (by norm_num) (by norm_num) c false

/-- Non-vacuity of `C126_carry`: between the flows 5 at 0 and 7 at 1. -/
example : ∃ df : ℝ, ∃ x x', pv floatCal (flatZero floatCal none .default (some (.num 1)) 0 0.03).obj false (some (1 / 2)) (.list 0)
      exWorld = (.ok x, exWorld) ∧
    pv floatCal (flatZero floatCal none .default (some (.num 1)) 0 0.03).obj false (some 1) (.list 0) exWorld = (.ok x', exWorld) ∧
    x' = x / df := by
  obtain ⟨df, hF⟩ := Factors.zero (flatZero_answers 0.03) rfl
  obtain ⟨x, x', h⟩ := C126_carry (exRollPays.later exRollPlain (v' := 1 / 2) (by norm_num)) exRollPlain (v := 1 / 2) (v' := 1) (by norm_num)
    (by
      intro q hq
      simp only [List.mem_filter, List.mem_cons, List.not_mem_nil, or_false] at hq
      obtain ⟨rfl | rfl | rfl, h⟩ := hq
      · norm_num at h
      · norm_num
      · norm_num) hF (same := false) (same' := false) (by simp) (by simp)
  exact ⟨_, x, x', h⟩

/-- Non-vacuity of `C126_cast`. -/
example : ∃ Z DF : IRCurve ℤ ℤ, IRCurve.new dayCal .zero [0, 365] [1 / 100, 2 / 100] none (some 0) .default none = .ok Z ∧
    IRCurve.cast dayCal .discount 10 (fun _ => false) Z none none .default none = .ok DF ∧
    ∀ (w : World ℤ ℤ) (p : Product ℤ) L, Pays dayCal w 0 p L → (∀ q ∈ L, 0 ≤ q.1) →
      ∃ x, pv dayCal Z.obj true none p w = (.ok x, w) ∧ pv dayCal DF.obj true none p w = (.ok x, w) := by
  obtain ⟨Z, DF, h1, h2, h3, _⟩ := C126_cast (cal := dayCal) (pts := [(0, 1 / 100), (365, 2 / 100)]) (o? := some 0)
    (dc := .default) (o := 0) (a := 1) (m := 365) (b := 366) (tenor := none) (tenor' := none) (by simp) rfl trivial rfl
    goodDayCount_int (fun _ => rfl) rfl (by norm_num) (by simp) (by simp) rfl 10 (fun _ => false)
  refine ⟨Z, DF, h1, h2, fun w p L h hL => h3 w p L h fun q hq => ?_⟩
  rcases (hL q hq).lt_or_eq with h | h
  · exact .inl (by omega)
  · exact .inr ⟨h.symm, by simp⟩

end Dcf
