import Verif.Model.Text
import Verif.Props.Rebuild
import Verif.Props.Derived

/-! # C151: texts of payoffs, cashflow lists and curves -/

set_option linter.unusedSectionVars false
set_option linter.unusedSimpArgs false
set_option linter.unusedVariables false

namespace Dcf

open Spec

section
variable {D P : Type} [LinearOrder D] {cal : Cal D P} {back : D → D → Py D}

theorem pyMap_then {α β γ : Type} {f : α → Py β} {g : β → Py γ} {h : α → γ} {xs : List α} {ys : List β}
    (hf : pyMap f xs = .ok ys) (hg : ∀ x ∈ xs, ∀ y, f x = .ok y → g y = .ok (h x)) : pyMap g ys = .ok (xs.map h) := by
  induction xs generalizing ys with
  | nil => obtain rfl := Except.ok.inj hf; rfl
  | cons x xs ih =>
    rw [pyMap_cons] at hf
    simp only [Py.bind_eq_ok] at hf
    obtain ⟨y, hy, ys', hys, e⟩ := hf
    obtain rfl := Except.ok.inj e
    rw [pyMap_cons, hg x (by simp) y hy, ih hys fun a ha => hg a (by simp [ha])]
    rfl

/-- C151: the text of a payoff is its amount, of a number the number. -/
theorem C151_payoff (n : ℕ) :
    (∀ x, (PayOff.num x : PayOff D P).repr (n + 1) = .ok (.num x)) ∧
    (∀ a, (PayOff.fixed a : PayOff D P).repr (n + 1) = .ok (.num a)) ∧
    (∀ p : RatePay D P, (PayOff.rate p).repr (n + 1) = .ok (.num p.amount)) ∧
    (∀ p : ContingentRatePay D P, (PayOff.contingentRate p).repr (n + 1) = .ok (.num p.amount)) ∧
    (∀ o : OptPay D, (PayOff.option o : PayOff D P).repr (n + 1) = .ok (.num o.amount)) :=
  ⟨fun _ => rfl, fun _ => rfl, fun _ => rfl, fun _ => rfl, fun _ => rfl⟩

/-- C151 fails: the text of an option strategy is a `RecursionError`, whatever the recursion limit. -/
theorem C151_strategy_violated (os : List (OptPay D)) (limit : ℕ) : (PayOff.strategy os : PayOff D P).repr limit = .error .recursion := by
  induction limit with
  | zero => rfl
  | succ n ih => exact ih

theorem repr_byName (limit : ℕ) (p : PayOff D P) : p.byName.repr limit = p.repr limit := by
  cases limit <;> cases p <;> rfl

theorem ofPayoffs_stored {dates : List D} {ps : List (PayOff D P)} {o : Option D} {arg : ModelArg D} {b : Bool} {l : CFList D P}
    (h : CFList.ofPayoffs dates ps o arg b = .ok l) (hn : dates.Nodup) :
    l.domain = dates ∧ l.origin? = o ∧ ps.length = dates.length ∧ l.stored = .ok ps ∧
      ∀ i (hi : i < dates.length) (hi' : i < ps.length), l.flows.get dates[i] = some ps[i] := by
  unfold CFList.ofPayoffs at h
  split_ifs at h with hl
  obtain rfl := Except.ok.inj h
  have hget : ∀ i (hi : i < dates.length) (hi' : i < ps.length), (Dict.ofPairs (dates.zip ps)).get dates[i] = some ps[i] := by
    intro i hi hi'
    have := Dict.get_ofPairs_idx (dates.zip ps) i (by simp; omega) fun j hj hij => by
      simp only [List.getElem_zip]
      intro e
      exact absurd ((List.Nodup.getElem_inj_iff hn).1 e) (by omega)
    simpa using this
  refine ⟨rfl, rfl, hl, ?_, hget⟩
  rw [CFList.stored, pyMap_eq_ok, List.forall₂_iff_get]
  exact ⟨hl.symm, fun i h1 h2 => by
    simp only [List.get_eq_getElem]
    rw [hget i h1 h2]; rfl⟩

/-- C151 (any class with an argument `amount_list`): `repr` shows all dates, what is shown of each payoff, and the origin. -/
theorem C151_repr {dates : List D} {ps : List (PayOff D P)} {o : Option D} {arg : ModelArg D} {b : Bool} {l : CFList D P}
    {cls : ListClass} {limit : ℕ} {ss : List Shown} (h : CFList.ofPayoffs dates ps o arg b = .ok l) (hn : dates.Nodup)
    (hne : dates ≠ []) (hc : cls.hasAmounts = true) (hs : pyMap (PayOff.repr limit) ps = .ok ss) :
    l.repr limit cls = .ok ⟨dates, ss, o⟩ := by
  obtain ⟨h1, h2, h3, h4, -⟩ := ofPayoffs_stored h hn
  have hb : pyMap (PayOff.repr limit) (ps.map PayOff.byName) = .ok ss := by
    rw [← hs, pyMap_map]
    exact pyMap_congr fun p _ => repr_byName limit p
  simp only [CFList.repr, h1, if_neg hne, CFList.amountList, hc, if_true, h4, Py.map_ok, Py.ok_bind, hb, h2]

/-- C151 (any class): `str` shows the first and the last date, what is shown of their payoffs, and the origin. -/
theorem C151_str {dates : List D} {ps : List (PayOff D P)} {o : Option D} {arg : ModelArg D} {b : Bool} {l : CFList D P}
    {cls : ListClass} {limit : ℕ} {a z : Shown} (h : CFList.ofPayoffs dates ps o arg b = .ok l) (hn : dates.Nodup)
    (hne : dates ≠ []) (hps : ps ≠ []) (ha : (ps.head hps).repr limit = .ok a) (hz : (ps.getLast hps).repr limit = .ok z) :
    l.str limit cls = .ok ⟨[dates.head hne, dates.getLast hne], [a, z], o⟩ := by
  obtain ⟨h1, h2, h3, h4, h5⟩ := ofPayoffs_stored h hn
  have hp : 0 < ps.length := List.length_pos_iff.2 hps
  have hf : l.flows.get (dates.head hne) = some (ps.head hps) := by
    rw [List.head_eq_getElem, List.head_eq_getElem]
    exact h5 0 (by omega) hp
  have hg : l.flows.get (dates.getLast hne) = some (ps.getLast hps) := by
    rw [List.getLast_eq_getElem, List.getLast_eq_getElem]
    have := h5 (dates.length - 1) (by omega) (by omega)
    rw [this]; congr 2; omega
  have hl : ∃ q, l.amountList cls = .ok q := by
    unfold CFList.amountList
    split_ifs
    · rw [h4]; exact ⟨_, rfl⟩
    · exact ⟨_, rfl⟩
  obtain ⟨q, hq⟩ := hl
  simp only [CFList.str, h1, List.head?_eq_some_head hne, List.getLast?_eq_some_getLast hne, hf, hg, pyKey, Py.ok_bind, ha, hz, hq, h2]

/-- Both texts, for payoffs shown by their amounts. -/
theorem texts_of {dates : List D} {ps : List (PayOff D P)} {o : Option D} {arg : ModelArg D} {b : Bool} {l : CFList D P}
    {cls : ListClass} {n : ℕ} {as : List ℝ} (h : CFList.ofPayoffs dates ps o arg b = .ok l) (hn : dates.Nodup)
    (hne : dates ≠ []) (ha : as ≠ []) (hc : cls.hasAmounts = true)
    (hs : pyMap (PayOff.repr (n + 1)) ps = .ok (as.map Shown.num)) :
    l.repr (n + 1) cls = .ok ⟨dates, as.map Shown.num, o⟩ ∧
    l.str (n + 1) cls = .ok ⟨[dates.head hne, dates.getLast hne], [.num (as.head ha), .num (as.getLast ha)], o⟩ := by
  have hf := pyMap_eq_ok.1 hs
  have hlen := hf.length_eq
  rw [List.length_map] at hlen
  have hps : ps ≠ [] := by
    rw [← List.length_pos_iff, hlen, List.length_pos_iff]; exact ha
  rw [List.forall₂_iff_get] at hf
  have hp : 0 < ps.length := List.length_pos_iff.2 hps
  refine ⟨C151_repr h hn hne hc hs, C151_str h hn hne hps ?_ ?_⟩
  · have := hf.2 0 hp (by simp; omega)
    simp only [List.get_eq_getElem, List.getElem_map] at this
    rw [List.head_eq_getElem, List.head_eq_getElem]; exact this
  · have := hf.2 (ps.length - 1) (by omega) (by simp; omega)
    simp only [List.get_eq_getElem, List.getElem_map] at this
    rw [List.getLast_eq_getElem, List.getLast_eq_getElem, this]
    congr 3; omega

/-- C151 (plain lists and lists of fixed flows): the texts show dates, amounts and origin as given. -/
theorem C151_fixed {dates : List D} {as : List ℝ} {o : Option D} {l : CFList D P} (n : ℕ) (hn : dates.Nodup) (hne : dates ≠ [])
    (ha : as ≠ []) :
    (CFList.new dates (.list as) o = .ok l → l.repr (n + 1) .plain = .ok ⟨dates, as.map Shown.num, o⟩ ∧
      l.str (n + 1) .plain = .ok ⟨[dates.head hne, dates.getLast hne], [.num (as.head ha), .num (as.getLast ha)], o⟩) ∧
    (CFList.newFixed dates (.list as) o = .ok l → l.repr (n + 1) .fixed = .ok ⟨dates, as.map Shown.num, o⟩ ∧
      l.str (n + 1) .fixed = .ok ⟨[dates.head hne, dates.getLast hne], [.num (as.head ha), .num (as.getLast ha)], o⟩) :=
  ⟨fun h => texts_of h hn hne ha rfl (by rw [NumArg.expand, pyMap_map]; exact pyMap_ok fun x _ => rfl),
    fun h => texts_of h hn hne ha rfl (by rw [NumArg.expand, pyMap_map]; exact pyMap_ok fun x _ => rfl)⟩

theorem ratePays_shown {starts dates : List D} {as : List ℝ} {po : Option P} {mk : D → D → ℝ → PayOff D P} {ps : List (PayOff D P)}
    {n : ℕ} (h : ratePays cal starts dates as po mk = .ok ps) (hl : ps.length = dates.length) (ha : as.length = dates.length)
    (hmk : ∀ s e a, (mk s e a).repr (n + 1) = .ok (.num a)) : pyMap (PayOff.repr (n + 1)) ps = .ok (as.map Shown.num) := by
  have hlen := (pyMap_eq_ok.1 h).length_eq
  have := pyMap_then (h := fun x => Shown.num x.2.2) h fun x _ y hy => by
    simp only [Py.bind_eq_ok] at hy
    obtain ⟨e, -, s, -, hy⟩ := hy
    rw [← Except.ok.inj hy]; exact hmk _ _ _
  rw [this]
  have e1 : (starts.zip (dates.zip as)).map (fun x => Shown.num x.2.2) = (((starts.zip (dates.zip as)).map Prod.snd).map Prod.snd).map Shown.num := by
    simp
  simp only [List.length_zip] at hlen
  rw [e1, List.map_snd_zip (by simp; omega), List.map_snd_zip (by omega)]

/-- C151 (rate lists, capped and floored ones, and option lists): the texts show dates, amounts and origin as given, not the flows. -/
theorem C151_amounts {dates : List D} {as : List ℝ} {o : Option D} {l : CFList D P} (n : ℕ) (hn : dates.Nodup) (hne : dates ≠ [])
    (ha : as ≠ []) (hl : as.length = dates.length) :
    (∀ dc fo po c f, CFList.newRate cal back dates (.list as) o dc fo po c f = .ok l →
      l.repr (n + 1) .rate = .ok ⟨dates, as.map Shown.num, o⟩ ∧
      l.str (n + 1) .rate = .ok ⟨[dates.head hne, dates.getLast hne], [.num (as.head ha), .num (as.getLast ha)], o⟩) ∧
    (∀ dc fo po c cap floor arg, CFList.newContingentRate cal back dates (.list as) o dc fo po c cap floor arg = .ok l →
      l.repr (n + 1) .contingentRate = .ok ⟨dates, as.map Shown.num, o⟩ ∧
      l.str (n + 1) .contingentRate = .ok ⟨[dates.head hne, dates.getLast hne], [.num (as.head ha), .num (as.getLast ha)], o⟩) ∧
    (∀ ks puts fo po arg, CFList.newOption cal dates (.list as) ks puts fo po o arg = .ok l →
      l.repr (n + 1) .option = .ok ⟨dates, as.map Shown.num, o⟩ ∧
      l.str (n + 1) .option = .ok ⟨[dates.head hne, dates.getLast hne], [.num (as.head ha), .num (as.getLast ha)], o⟩) := by
  refine ⟨fun dc fo po c f h => ?_, fun dc fo po c cap floor arg h => ?_, fun ks puts fo po arg h => ?_⟩
  · simp only [CFList.newRate, Py.bind_eq_ok] at h
    obtain ⟨starts, -, ps, hp, h⟩ := h
    exact texts_of h hn hne ha rfl (ratePays_shown hp (ofPayoffs_stored h hn).2.2.1 hl fun _ _ _ => rfl)
  · simp only [CFList.newContingentRate, Py.bind_eq_ok, CFList.newContingent, Option.getD_some] at h
    obtain ⟨starts, -, ps, hp, h⟩ := h
    exact texts_of h hn hne ha rfl (ratePays_shown hp (ofPayoffs_stored h hn).2.2.1 hl fun _ _ _ => rfl)
  · simp only [CFList.newOption, Py.bind_eq_ok, CFList.newContingent, Option.getD_some] at h
    obtain ⟨ps, hp, h⟩ := h
    refine texts_of h hn hne ha rfl ?_
    have hlen := (pyMap_eq_ok.1 hp).length_eq
    have hd := (ofPayoffs_stored h hn).2.2.1
    have := pyMap_then (h := fun x => Shown.num x.2.1) (g := PayOff.repr (n + 1)) hp fun x _ y hy => by
      simp only [Py.bind_eq_ok] at hy
      obtain ⟨e, -, s, -, hy⟩ := hy
      rw [← Except.ok.inj hy]; rfl
    rw [this]
    generalize hz : (NumArg.expand ks dates.length).zip (puts.expand dates.length) = zs at *
    simp only [List.length_zip] at hlen
    have hzl : dates.length ≤ zs.length := by omega
    change Except.ok ((dates.zip (as.zip zs)).map (fun x => Shown.num x.2.1)) = _
    have e1 : (dates.zip (as.zip zs)).map (fun x => Shown.num x.2.1) = (((dates.zip (as.zip zs)).map Prod.snd).map Prod.fst).map Shown.num := by
      simp
    rw [e1, List.map_snd_zip (by simp; omega), List.map_fst_zip (by omega)]

/-- C151 fails: the short text of a list of option strategies with a date is a `RecursionError`, its long text has no amounts. -/
theorem C151_strategies_violated {dates : List D} (hn : dates.Nodup) (hne : dates ≠ []) {ca pa : NumArg} {cs ps : List ℝ} {fo po : Option P} {o : Option D}
    {arg : ModelArg D} {l : CFList D P} (h : CFList.newStrategy cal dates ca cs pa ps fo po o arg = .ok l) (limit : ℕ) :
    l.str limit .strategy = .error .recursion ∧ l.repr limit .strategy = .ok ⟨dates, [], o⟩ := by
  simp only [CFList.newStrategy] at h
  split_ifs at h
  simp only [Py.bind_eq_ok, CFList.newContingent, Option.getD_some] at h
  obtain ⟨qs, hq, h⟩ := h
  obtain ⟨h1, h2, h3, h4, h5⟩ := ofPayoffs_stored h hn
  have hd : 0 < dates.length := List.length_pos_iff.2 hne
  have hf := h5 0 hd (by omega)
  have hst : ∃ os, qs[0]'(by omega) = .strategy os := by
    have := (List.forall₂_iff_get.1 (pyMap_eq_ok.1 hq)).2 0 hd (by omega)
    simp only [List.get_eq_getElem, Py.bind_eq_ok] at this
    obtain ⟨e, -, e', -, this⟩ := this
    exact ⟨_, (Except.ok.inj this).symm⟩
  obtain ⟨os, hst⟩ := hst
  rw [hst, ← List.head_eq_getElem hne] at hf
  constructor
  · simp only [CFList.str, h1, List.head?_eq_some_head hne, List.getLast?_eq_some_getLast hne, hf, pyKey, Py.ok_bind,
      C151_strategy_violated, Py.error_bind]
  · simp only [CFList.repr, h1, if_neg hne, CFList.amountList, ListClass.hasAmounts, Bool.false_eq_true, if_false, Py.ok_bind, pyMap_nil, h2]

/-- C151 fails: the long text of a list of payoffs has no amounts. -/
theorem C151_contingent_violated {l : CFList D P} (hne : l.domain ≠ []) (limit : ℕ) :
    l.repr limit .contingent = .ok ⟨l.domain, [], l.origin?⟩ := by
  simp only [CFList.repr, if_neg hne, CFList.amountList, ListClass.hasAmounts, Bool.false_eq_true, if_false, Py.ok_bind, pyMap_nil]

theorem kwText_ok {limit : ℕ} {cls : CFList D P → ListClass} {ls : List (CFList D P)} (hk : ∀ l ∈ ls, l.Keyed)
    (hs : ∀ l ∈ ls, ∀ d p, l.flows.get d = some p → ∃ s, p.repr limit = .ok s) : CF.kwTexts limit cls (ls.map CF.flat) = .ok () := by
  induction ls with
  | nil => simp [CF.kwTexts]
  | cons l ls ih =>
    have h1 : CF.kwText limit cls (CF.flat l) = .ok () := by
      obtain ⟨q, hq, hg⟩ := CFList.stored_eq (hk l (by simp))
      simp only [CF.kwText, CFList.amountList]
      split_ifs
      · have : ∀ d, ∃ s, d ∈ l.domain → (q d).repr limit = .ok s := by
          intro d
          by_cases hd : d ∈ l.domain
          · obtain ⟨s, hs⟩ := hs l (by simp) d (q d) (hg d hd); exact ⟨s, fun _ => hs⟩
          · exact ⟨.name, fun h => absurd h hd⟩
        choose s hs using this
        rw [hq, Py.map_ok, Py.ok_bind, List.map_map, pyMap_map, pyMap_ok (g := s) fun d hd => by
          simp only [Function.comp, repr_byName, hs d hd]]
        rfl
      · rfl
    simp only [List.map_cons, CF.kwTexts, h1, Py.ok_bind]
    exact ih (fun a ha => hk a (by simp [ha])) fun a ha => hs a (by simp [ha])

/-- C151 fails: the short text of a leg list with a date shows flows of 0, and its long text neither dates nor amounts, whatever its
legs pay. -/
theorem C151_legs_violated {ls : List (CFList D P)} {c : CF D P} (hc : CF.newLegs (ls.map CF.flat) = .ok c) (hne : c.domain ≠ [])
    (hk : ∀ l ∈ ls, l.Keyed) {n : ℕ} (hs : ∀ l ∈ ls, ∀ d p, l.flows.get d = some p → ∃ s, p.repr (n + 1) = .ok s)
    (cls : CFList D P → ListClass) :
    c.str (n + 1) cls = .ok ⟨[c.domain.head hne, c.domain.getLast hne], [.num 0, .num 0], none⟩ ∧
    c.repr (n + 1) cls = .ok ⟨[], [], none⟩ := by
  obtain ⟨o, rfl, -⟩ := CF.newLegs_eq hc
  simp only [CF.domain] at hne ⊢
  constructor
  · simp only [CF.str, List.head?_eq_some_head hne, List.getLast?_eq_some_getLast hne, PayOff.repr, Py.ok_bind, kwText_ok hk hs]
  · simp only [CF.repr, if_neg hne, kwText_ok hk hs, Py.ok_bind]

end

section
variable {D V : Type}

/-- C151 (curves): both texts show the points of the domain and the values of the curve there, and can be made exactly if all values on
the domain can. -/
theorem C151_curve {call : D → Py V} {domain : List D} {v : D → V} (hne : domain ≠ []) (h : ∀ d ∈ domain, call d = .ok (v d)) :
    curveStr call domain = .ok ([domain.head hne, domain.getLast hne], [v (domain.head hne), v (domain.getLast hne)]) ∧
    curveRepr call domain = .ok (domain, domain.map v) := by
  constructor
  · simp only [curveStr, List.head?_eq_some_head hne, List.getLast?_eq_some_getLast hne, h _ (List.head_mem hne),
      h _ (List.getLast_mem hne), Py.ok_bind, pyMap_ok h]
  · simp only [curveRepr, if_neg hne, pyMap_ok h, Py.ok_bind]

theorem C151_curve_error {call : D → Py V} {domain : List D} {d : D} (hd : d ∈ domain) {e : PyErr} (h : call d = .error e) :
    (∀ t, curveStr call domain ≠ .ok t) ∧ ∀ t, curveRepr call domain ≠ .ok t := by
  have key : ∀ vs, pyMap call domain ≠ .ok vs := by
    intro vs hv
    obtain ⟨i, hi, rfl⟩ := List.mem_iff_getElem.1 hd
    have hf := List.forall₂_iff_get.1 (pyMap_eq_ok.1 hv)
    have := hf.2 i hi (hf.1 ▸ hi)
    simp only [List.get_eq_getElem, h] at this
    exact absurd this (by simp)
  constructor
  · intro t ht
    have hne := List.ne_nil_of_mem hd
    simp only [curveStr, List.head?_eq_some_head hne, List.getLast?_eq_some_getLast hne, Py.bind_eq_ok] at ht
    obtain ⟨-, -, -, -, -, -, vs, hv, -⟩ := ht
    exact key vs hv
  · intro t ht
    simp only [curveRepr, if_neg (List.ne_nil_of_mem hd), Py.bind_eq_ok] at ht
    obtain ⟨vs, hv, -⟩ := ht
    exact key vs hv

end

section
variable {D P : Type} [LinearOrder D] {cal : Cal D P}

/-- C151 (curves built from points): `repr` shows the points as given. -/
theorem C151_points {cls : IRClass} {pts : List (D × ℝ)} {i : Option FuncSpec} {o? : Option D} {o : D} {dc : DayCountArg D}
    {tenor : Option P} (hn : (pts.map Prod.fst).Nodup) (hp : pts ≠ []) (ho : o?.or (pts.map Prod.fst).head? = some o) (hd : dc.Usable)
    (hτ : GoodDayCount (dc.fn cal)) (hpos : (i.getD cls.dflt).isLog → ∀ p ∈ pts, 0 < p.2)
    (h0 : (i.getD cls.dflt).needsNonzero → ∃ p ∈ pts, p.1 ≠ o) :
    ∃ c, IRCurve.new cal cls (pts.map Prod.fst) (pts.map Prod.snd) i o? dc tenor = .ok c ∧
      curveRepr (c.call cal) c.base.domain = .ok (pts.map Prod.fst, pts.map Prod.snd) := by
  refine ⟨_, IRCurve_new_eq cal (tenor := tenor) hn hpos ho hd hτ, ?_⟩
  have hvals : pyMap ((irOf cal o o? dc i cls tenor pts).call cal) (pts.map Prod.fst) = .ok (pts.map Prod.snd) := by
    rw [pyMap_map]
    exact pyMap_ok fun p hp => irOf_node cal ho hd hτ hn hpos h0 hp
  have hdom : (irOf cal o o? dc i cls tenor pts).base.domain = pts.map Prod.fst := rfl
  simp only [curveRepr, hdom, hvals, Py.ok_bind]
  rw [if_neg (by simpa using hp)]

end

example : ∃ (l : CFList ℝ FloatPeriod), CFList.newFixed [0, 1] (.list [-100, 100]) none = .ok l ∧
    l.repr 10 .fixed = .ok ⟨[0, 1], [.num (-100), .num 100], none⟩ :=
  ⟨_, rfl, ((C151_fixed (dates := [0, 1]) (as := [-100, 100]) (o := none) 9 (by simp) (by simp) (by simp)).2 rfl).1⟩

example : ∃ (l : CFList ℝ FloatPeriod), CFList.newStrategy floatCal [1, 2] (.scalar 1) [1] (.scalar 1) [2] none none (some 0) (.fwd .none) = .ok l ∧
    l.str 1000 .strategy = .error .recursion := by
  have hex : ∃ l : CFList ℝ FloatPeriod, CFList.newStrategy floatCal [1, 2] (.scalar 1) [1] (.scalar 1) [2] none none (some 0) (.fwd .none) = .ok l := by
    simp only [CFList.newStrategy, Cal.minus]
    rw [if_neg (by simp)]
    exact ⟨_, rfl⟩
  obtain ⟨l, hl⟩ := hex
  exact ⟨l, hl, (C151_strategies_violated (by simp) (by simp) hl _).1⟩

/-- A leg list paying 105 on a date, shown with flows of 0. -/
example : ∃ (a b : CFList ℝ FloatPeriod) (c : CF ℝ FloatPeriod) (s e : ℝ), CFList.newFixed [0, 1] (.list [-100, 100]) (some 0) = .ok a ∧
    CFList.newFixed [1] (.list [5]) (some 0) = .ok b ∧ CF.newLegs [.flat a, .flat b] = .ok c ∧ c.getitem floatCal 1 = .ok 105 ∧
    c.str 1000 (fun _ => .fixed) = .ok ⟨[s, e], [.num 0, .num 0], none⟩ := by
  obtain ⟨a, ha⟩ : ∃ a : CFList ℝ FloatPeriod, CFList.newFixed [0, 1] (.list [-100, 100]) (some 0) = .ok a := ⟨_, rfl⟩
  obtain ⟨b, hb⟩ : ∃ b : CFList ℝ FloatPeriod, CFList.newFixed [1] (.list [5]) (some 0) = .ok b := ⟨_, rfl⟩
  obtain ⟨c, hc⟩ : ∃ c, CF.newLegs [.flat a, .flat b] = .ok c := by
    obtain rfl := Except.ok.inj ha
    obtain rfl := Except.ok.inj hb
    exact ⟨_, rfl⟩
  have ka := CFList.keyed_ofPayoffs ha
  have kb := CFList.keyed_ofPayoffs hb
  have sa := ofPayoffs_stored ha (by simp)
  have sb := ofPayoffs_stored hb (by simp)
  have ga := sa.2.2.2.2 1 (by simp) (by simp [NumArg.expand])
  have gb := sb.2.2.2.2 0 (by simp) (by simp [NumArg.expand])
  simp [NumArg.expand] at ga gb
  have hne : c.domain ≠ [] := List.ne_nil_of_mem (((C47_domain hc).2 1).2 ⟨.flat b, by simp, by rw [CF.domain, sb.1]; simp⟩)
  have hf : ∀ l ∈ [a, b], ∀ d p, l.flows.get d = some p → ∃ s, p.repr (999 + 1) = .ok s := by
    intro l hl d p hp
    have : ∀ (dates : List ℝ) (as : List ℝ) (l : CFList ℝ FloatPeriod), CFList.newFixed dates (.list as) (some 0) = .ok l →
        l.flows.get d = some p → ∃ s, p.repr (999 + 1) = .ok s := by
      intro dates as l h hp
      unfold CFList.newFixed CFList.ofPayoffs at h
      split_ifs at h
      obtain rfl := Except.ok.inj h
      have := (List.of_mem_zip (Dict.mem_of_ofPairs (Dict.get_mem hp))).2
      obtain ⟨x, -, rfl⟩ := List.mem_map.1 this
      exact ⟨_, rfl⟩
    rcases List.mem_cons.1 hl with rfl | hl
    · exact this _ _ _ ha hp
    · rw [List.mem_singleton.1 hl] at hp; exact this _ _ _ hb hp
  refine ⟨a, b, c, _, _, ha, hb, hc, ?_, (C151_legs_violated (ls := [a, b]) hc hne (by simp [ka, kb]) hf _).1⟩
  rw [C47_flow (fun l hl => by
    rcases List.mem_cons.1 hl with rfl | hl
    · exact .flat ka
    · rw [List.mem_singleton.1 hl]; exact .flat kb) hc]
  simp only [pyMap_cons, pyMap_nil, CF.getitem, CFList.getitem, ga, gb, PayOff.eval, Py.ok_bind, Py.map_ok]
  norm_num

end Dcf
