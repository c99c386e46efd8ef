import Verif.Model.Cashflow
import Verif.Lemmas.Dict
import Verif.Lemmas.Bisect
import Verif.Spec.Dates
import Mathlib.Algebra.BigOperators.Group.List.Basic

/-! # Cashflow lists: C46-C50, C85, C86 -/

set_option linter.unusedSectionVars false
set_option linter.unusedSimpArgs false
set_option linter.unusedVariables false

namespace Dcf

open Spec

section
variable {D P : Type} [LinearOrder D] {cal : Cal D P}

/-! ## C46: a list is a map from dates to amounts -/

theorem zip_fst_lt {α β : Type} {a : List α} {b : List β} (h : b.length = a.length) : (a.zip b).map Prod.fst = a := by
  rw [List.map_fst_zip]; omega

theorem CFList.new_list {dates : List D} {amounts : List ℝ} (o : Option D) (h : amounts.length = dates.length) :
    CFList.new (P := P) dates (.list amounts) o =
      .ok ⟨o, dates, Dict.ofPairs (dates.zip (amounts.map .num)), .fwd .none, false⟩ := by
  simp [CFList.new, CFList.ofPayoffs, NumArg.expand, h]

/-- C46: a list is refused exactly for unequal lengths. -/
theorem C46_length (dates : List D) (amounts : List ℝ) (o : Option D) :
    (amounts.length ≠ dates.length → CFList.new (P := P) dates (.list amounts) o = .error .value) ∧
    (amounts.length = dates.length → ∃ l : CFList D P, CFList.new dates (.list amounts) o = .ok l ∧ l.domain = dates) := by
  constructor
  · intro h; simp [CFList.new, CFList.ofPayoffs, NumArg.expand, h]
  · intro h; exact ⟨_, CFList.new_list o h, rfl⟩

/-- C46: looking up a pay date returns the (last) amount given for it, any other date 0. -/
theorem C46_lookup {dates : List D} {amounts : List ℝ} {o : Option D} {l : CFList D P}
    (h : CFList.new dates (.list amounts) o = .ok l) :
    (∀ d, d ∉ dates → l.getitem cal d = .ok 0) ∧
    ∀ i (hi : i < dates.length) (hi' : i < amounts.length),
      (∀ j (hj : j < dates.length), i < j → dates[j] ≠ dates[i]) → l.getitem cal dates[i] = .ok amounts[i] := by
  by_cases hl : amounts.length = dates.length
  swap
  · rw [(C46_length dates amounts o).1 hl] at h; cases h
  rw [CFList.new_list o hl] at h
  obtain rfl := Except.ok.inj h
  constructor
  · intro d hd
    simp only [CFList.getitem]
    rw [Dict.get_ofPairs_none (by rwa [zip_fst_lt (by simpa using hl)])]
  · intro i hi hi' hlast
    simp only [CFList.getitem]
    have := Dict.get_ofPairs_idx (dates.zip (amounts.map (PayOff.num (D := D) (P := P)))) i (by simp; omega) (by
      intro j hj hij; simp at hj ⊢; exact hlast j (by omega) hij)
    simp only [List.getElem_zip, List.getElem_map] at this
    rw [this]; rfl

/-- C46: a single amount is repeated. -/
theorem C46_scalar (dates : List D) (x : ℝ) (o : Option D) :
    ∃ l : CFList D P, CFList.new dates (.scalar x) o = .ok l ∧ ∀ d, l.getitem cal d = .ok (if d ∈ dates then x else 0) := by
  refine ⟨⟨o, dates, Dict.ofPairs (dates.zip (List.replicate dates.length (PayOff.num x))), .fwd .none, false⟩,
    by simp [CFList.new, CFList.ofPayoffs, NumArg.expand], fun d => ?_⟩
  simp only [CFList.getitem]
  cases hg : Dict.get (Dict.ofPairs (dates.zip (List.replicate dates.length (PayOff.num (D := D) (P := P) x)))) d with
  | none =>
    rw [Dict.get_none, Dict.mem_ofPairs_keys, zip_fst_lt (by simp)] at hg
    simp [hg]
  | some v =>
    have hm := Dict.mem_of_ofPairs (Dict.get_mem hg)
    obtain ⟨h1, h2⟩ := List.of_mem_zip hm
    obtain rfl := List.eq_of_mem_replicate h2
    simp [h1, PayOff.eval]

/-- C46: the total over the domain is the total of the given amounts, for different pay dates. -/
theorem C46_total_partial {dates : List D} {amounts : List ℝ} {o : Option D} {l : CFList D P}
    (h : CFList.new dates (.list amounts) o = .ok l) (hn : dates.Nodup) :
    ∃ xs, l.getitems cal l.domain = .ok xs ∧ xs.sum = amounts.sum ∧ xs = amounts := by
  have hl : amounts.length = dates.length := by
    by_contra hl; rw [(C46_length dates amounts o).1 hl] at h; cases h
  have hlook := (C46_lookup (cal := cal) h).2
  have hdom : l.domain = dates := by
    rw [CFList.new_list o hl] at h; obtain rfl := Except.ok.inj h; rfl
  have key : l.getitems cal l.domain = .ok amounts := by
    rw [CFList.getitems, hdom]
    rw [pyMap_eq_ok]
    rw [List.forall₂_iff_get]
    refine ⟨hl.symm, fun i h1 h2 => ?_⟩
    simp only [List.get_eq_getElem]
    exact hlook i h1 h2 fun j hj hij e => by
      have := (List.Nodup.getElem_inj_iff hn).1 e; omega
  exact ⟨_, key, rfl, rfl⟩

/-- C46: with a repeated pay date the last amount counts once per repetition. -/
theorem C46_total_violated :
    ∃ l : CFList ℤ ℤ, CFList.new [0, 0] (.list [1, 2]) none = .ok l ∧ l.getitems dayCal l.domain = .ok [2, 2] ∧
      ([2, 2] : List ℝ).sum ≠ ([1, 2] : List ℝ).sum := by
  refine ⟨_, CFList.new_list none rfl, ?_, by norm_num⟩
  simp [CFList.getitems, pyMap, CFList.getitem, Dict.ofPairs, Dict.set, Dict.get, PayOff.eval]

example : ∃ l : CFList ℤ ℤ, CFList.new [3, 5] (.list [-100, 105]) none = .ok l ∧ l.getitem dayCal 5 = .ok 105 ∧
    l.getitem dayCal 4 = .ok 0 := by
  have h : CFList.new (P := ℤ) [(3 : ℤ), 5] (.list [-100, 105]) none = .ok _ := CFList.new_list none rfl
  exact ⟨_, h, (C46_lookup h).2 1 (by simp) (by simp) (by intro j hj; simp at hj; omega), (C46_lookup h).1 4 (by simp)⟩

/-! ## C48: accrual periods -/

/-- A date moved back by an offset; no offset (and an empty one) leaves the date. -/
def MovedBack (cal : Cal D P) (offset : Option P) (d e : D) : Prop :=
  match offset with
  | none => e = d
  | some p => if cal.falsyPeriod p then e = d else cal.sub d p = .ok e

/-- C48: offsets move dates back. -/
theorem C48_offset (offset : Option P) (d e : D) : cal.minus offset d = .ok e ↔ MovedBack cal offset d e := by
  cases offset with
  | none => simp [Cal.minus, MovedBack, eq_comm]
  | some p =>
    simp only [Cal.minus, MovedBack]
    split_ifs <;> simp [eq_comm]

/-- C48: an offset of a number moves a year fraction back by it. -/
theorem C48_offset_years (x d : ℝ) : floatCal.minus (some (.num x)) d = .ok (d - x) := by
  by_cases h : x = 0 <;> simp [Cal.minus, floatCal, h]

theorem ratePays_eq {sh : D → D} {po : Option P} {starts dates : List D} {as : List ℝ} (mk : D → D → ℝ → PayOff D P)
    (hs : ∀ d, d ∈ starts ∨ d ∈ dates → cal.minus po d = .ok (sh d)) :
    ratePays cal starts dates as po mk = .ok ((starts.zip (dates.zip as)).map fun x => mk (sh x.1) (sh x.2.1) x.2.2) := by
  unfold ratePays
  refine pyMap_ok fun x hx => ?_
  obtain ⟨h1, h2⟩ := List.of_mem_zip (a := x.1) (b := x.2) hx
  obtain ⟨h2, -⟩ := List.of_mem_zip (a := x.2.1) (b := x.2.2) h2
  rw [hs _ (.inr h2), hs _ (.inl h1)]; rfl

theorem zip_payoffs {α : Type} {starts dates : List D} {as : List ℝ} (g : D × D × ℝ → α) (h1 : dates.length ≤ starts.length)
    (h2 : as.length = dates.length) :
    dates.zip ((starts.zip (dates.zip as)).map g) = (starts.zip (dates.zip as)).map fun x => (x.2.1, g x) := by
  apply List.ext_getElem
  · simp [h2, h1]
  · intro i h h'; simp

/-- The flows of a list of rate payoffs on pay dates `dates` with period starts `starts`. -/
theorem ofPayoffs_flows {starts dates : List D} {as : List ℝ} (g : D × D × ℝ → PayOff D P) (o : Option D) (arg : ModelArg D)
    (b : Bool) (h1 : starts.length = dates.length) (h2 : as.length = dates.length) (hn : dates.Nodup) :
    CFList.ofPayoffs dates ((starts.zip (dates.zip as)).map g) o arg b =
      .ok ⟨o, dates, (starts.zip (dates.zip as)).map fun x => (x.2.1, g x), arg, b⟩ := by
  have hlen : ((starts.zip (dates.zip as)).map g).length = dates.length := by simp; omega
  rw [CFList.ofPayoffs, if_pos hlen, Dict.ofPairs_nodup, zip_payoffs g h1.ge h2]
  rwa [zip_fst_lt hlen]

/-- The flow of a rate leg paid at `x.2.1` for the period from `x.1`, on the amount `x.2.2`. -/
def rateFlow (sh : D → D) (dc : Option (D → D → ℝ)) (fo : Option P) (c : ℝ) (x : D × D × ℝ) : D × PayOff D P :=
  (x.2.1, .rate ⟨sh x.1, sh x.2.1, x.2.2, dc, fo, some c⟩)

theorem dropLast_cons_length (o : D) {dates : List D} (h : dates ≠ []) : (o :: dates.dropLast).length = dates.length := by
  have := List.length_pos_iff.2 h
  simp; omega

theorem newRate_eq {back : D → D → Py D} {dates starts : List D} {amounts : NumArg} {o : Option D} {dc : Option (D → D → ℝ)}
    {fo po : Option P} {c : ℝ} {f : Fwd D} {sh : D → D} (hst : accrualStarts back o dates = .ok starts)
    (hlen : starts.length = dates.length)
    (hs : ∀ d, d ∈ starts ∨ d ∈ dates → cal.minus po d = .ok (sh d))
    (hl : (amounts.expand dates.length).length = dates.length) (hn : dates.Nodup) :
    CFList.newRate cal back dates amounts o dc fo po c f =
      .ok ⟨o, dates, (starts.zip (dates.zip (amounts.expand dates.length))).map (rateFlow sh dc fo c), .fwd f, false⟩ := by
  simp only [CFList.newRate, hst, Py.ok_bind]
  rw [ratePays_eq _ hs, Py.ok_bind, ofPayoffs_flows _ _ _ _ hlen hl hn]; rfl

theorem mem_starts {o : D} {dates : List D} {d : D} (h : d ∈ o :: dates.dropLast ∨ d ∈ dates) : d ∈ o :: dates := by
  rcases h with h | h
  · rcases List.mem_cons.1 h with rfl | h
    · simp
    · exact List.mem_cons_of_mem _ (List.dropLast_subset _ h)
  · exact List.mem_cons_of_mem _ h

theorem zip_dropLast {α : Type} (o : D) (dates : List D) (as : List α) :
    (o :: dates.dropLast).zip (dates.zip as) = (o :: dates).zip (dates.zip as) := by
  apply List.ext_getElem
  · simp; omega
  · intro i h h'
    simp only [List.getElem_zip, Prod.mk.injEq, and_true]
    cases i with
    | zero => rfl
    | succ i => simp only [List.getElem_cons_succ, List.getElem_dropLast]

/-- The flow at a pay date. -/
theorem rateFlow_get {starts dates : List D} {as : List ℝ} {sh : D → D} {dc : Option (D → D → ℝ)} {fo : Option P} {c : ℝ}
    (h1 : dates.length ≤ starts.length) (h2 : as.length = dates.length) (hn : dates.Nodup) (i : ℕ) (hi : i < dates.length) :
    Dict.get ((starts.zip (dates.zip as)).map (rateFlow (P := P) sh dc fo c)) dates[i] =
      some (.rate ⟨sh starts[i], sh dates[i], as[i], dc, fo, some c⟩) := by
  have e : ((starts.zip (dates.zip as)).map (rateFlow (P := P) sh dc fo c)).map Prod.fst = dates := by
    apply List.ext_getElem
    · simp; omega
    · intro j h h'; simp [rateFlow]
  have hi' : i < ((starts.zip (dates.zip as)).map (rateFlow (P := P) sh dc fo c)).length := by simp; omega
  have := Dict.get_ofPairs_idx ((starts.zip (dates.zip as)).map (rateFlow (P := P) sh dc fo c)) i hi' (by
    intro j hj hij he
    simp [rateFlow] at he
    simp at hj
    have := (List.Nodup.getElem_inj_iff hn (hi := by omega) (hj := hi)).1 he; omega)
  rw [Dict.ofPairs_nodup (by rw [e]; exact hn)] at this
  simpa [rateFlow] using this

/-- C48: with an origin the first period starts at the origin, each next where the previous ended, and the last ends at
the last pay date, all moved by the pay offset. -/
theorem C48_tiles (back : D → D → Py D) {dates : List D} {amounts : NumArg} {o : D} (dc : Option (D → D → ℝ))
    (fo : Option P) {po : Option P} (c : ℝ) (f : Fwd D) {sh : D → D} (hd : dates ≠ [])
    (hs : ∀ d ∈ o :: dates, cal.minus po d = .ok (sh d))
    (hl : (amounts.expand dates.length).length = dates.length) (hn : dates.Nodup) :
    ∃ l, CFList.newRate cal back dates amounts (some o) dc fo po c f = .ok l ∧ l.domain = dates ∧
      ∀ i (hi : i < dates.length), ∃ p, l.flows.get dates[i] = some (.rate p) ∧
        p.start = sh ((o :: dates)[i]'(by simp; omega)) ∧ p.stop = sh dates[i] ∧
        p.amount = (amounts.expand dates.length)[i] ∧ p.dayCount = dc ∧ p.fixingOffset = fo ∧ p.fixedRate = some c := by
  refine ⟨_, newRate_eq (starts := o :: dates.dropLast) rfl (dropLast_cons_length o hd) (fun d h => hs d (mem_starts h)) hl hn,
    rfl, fun i hi => ?_⟩
  refine ⟨⟨sh ((o :: dates)[i]'(by simp; omega)), sh dates[i], (amounts.expand dates.length)[i], dc, fo, some c⟩, ?_, rfl,
    rfl, rfl, rfl, rfl, rfl⟩
  dsimp only
  rw [zip_dropLast, rateFlow_get (by simp) hl hn i hi]

/-- Sum of the year fractions of the periods of a list. -/
def CFList.totalTime (l : CFList D P) (τ : D → D → ℝ) : ℝ :=
  (l.flows.map fun x => match x.2 with
    | .rate p => τ p.start p.stop
    | .contingentRate p => τ p.start p.stop
    | _ => 0).sum

theorem sum_periods {τ : D → D → ℝ} (hτ : ∀ a b c, τ a b + τ b c = τ a c) (sh : D → D) (dc : Option (D → D → ℝ)) (fo : Option P)
    (c : ℝ) : ∀ (o : D) (dates : List D) (as : List ℝ) (hd : dates ≠ []), as.length = dates.length →
    ((((o :: dates).zip (dates.zip as)).map (rateFlow (P := P) sh dc fo c)).map fun x => match x.2 with
      | .rate p => τ p.start p.stop
      | .contingentRate p => τ p.start p.stop
      | _ => 0).sum = τ (sh o) (sh (dates.getLast hd)) := by
  intro o dates
  induction dates generalizing o with
  | nil => intro as hd; exact absurd rfl hd
  | cons d ds ih =>
    intro as _ hl
    cases as with
    | nil => simp at hl
    | cons a as =>
      have hl' : as.length = ds.length := by simpa using hl
      cases ds with
      | nil => simp [rateFlow]
      | cons d' ds =>
        have := ih d as (by simp) hl'
        simp only [List.zip_cons_cons, List.map_cons, List.sum_cons] at this ⊢
        rw [this, List.getLast_cons (List.cons_ne_nil _ _)]
        exact hτ _ _ _

/-- C48: the year fractions add up to that of the whole life. -/
theorem C48_total (back : D → D → Py D) {dates : List D} {amounts : NumArg} {o : D} (dc : Option (D → D → ℝ))
    (fo : Option P) {po : Option P} (c : ℝ) (f : Fwd D) {sh : D → D} (hd : dates ≠ [])
    (hs : ∀ d ∈ o :: dates, cal.minus po d = .ok (sh d))
    (hl : (amounts.expand dates.length).length = dates.length) (hn : dates.Nodup) {τ : D → D → ℝ} (hτ : GoodDayCount τ)
    {l : CFList D P} (h : CFList.newRate cal back dates amounts (some o) dc fo po c f = .ok l) :
    l.totalTime τ = τ (sh o) (sh (dates.getLast hd)) := by
  rw [newRate_eq (starts := o :: dates.dropLast) rfl (dropLast_cons_length o hd) (fun d h => hs d (mem_starts h)) hl hn] at h
  obtain rfl := Except.ok.inj h
  rw [CFList.totalTime]
  dsimp only
  rw [zip_dropLast]
  exact sum_periods hτ.add sh dc fo c o dates _ hd hl

/-- C48: without origin the first period goes back from the first date by the distance of the first two. -/
theorem C48_no_origin {back : D → D → Py D} {d0 d1 s : D} {ds : List D} {amounts : NumArg} (dc : Option (D → D → ℝ))
    (fo : Option P) {po : Option P} (c : ℝ) (f : Fwd D) {sh : D → D} (hb : back d0 d1 = .ok s)
    (hs : ∀ d ∈ s :: d0 :: d1 :: ds, cal.minus po d = .ok (sh d))
    (hl : (amounts.expand (ds.length + 2)).length = ds.length + 2) (hn : (d0 :: d1 :: ds).Nodup) :
    ∃ l, CFList.newRate cal back (d0 :: d1 :: ds) amounts none dc fo po c f = .ok l ∧
      CFList.newRate cal back (d0 :: d1 :: ds) amounts (some s) dc fo po c f = .ok { l with origin? := some s } ∧
      ∃ p, l.flows.get d0 = some (.rate p) ∧ p.start = sh s ∧ p.stop = sh d0 := by
  have h1 : accrualStarts back none (d0 :: d1 :: ds) = .ok (s :: (d0 :: d1 :: ds).dropLast) := by
    simp [accrualStarts, hb]
  have hs' : ∀ d, d ∈ s :: (d0 :: d1 :: ds).dropLast ∨ d ∈ d0 :: d1 :: ds → cal.minus po d = .ok (sh d) :=
    fun d h => hs d (mem_starts h)
  have e1 := newRate_eq (cal := cal) (f := f) (dc := dc) (fo := fo) (c := c) h1 (dropLast_cons_length s (by simp)) hs' hl hn
  have e2 := newRate_eq (cal := cal) (f := f) (dc := dc) (fo := fo) (c := c) (o := some s) (back := back)
    (starts := s :: (d0 :: d1 :: ds).dropLast) rfl (dropLast_cons_length s (by simp)) hs' hl hn
  have := rateFlow_get (P := P) (starts := s :: (d0 :: d1 :: ds).dropLast) (sh := sh) (dc := dc) (fo := fo) (c := c)
    (dropLast_cons_length s (by simp)).ge hl hn 0 (by simp)
  exact ⟨_, e1, e2, _, this, rfl, rfl⟩

theorem RatePay.details_cashflow {p : RatePay D P} {arg : ModelArg D} {r : RateDetails D} (h : p.details cal arg = .ok r) :
    ∃ F c, p.fixedRate = some c ∧ r.cashflow = (c + F) * p.tau cal p.start p.stop * p.amount := by
  unfold RatePay.details at h
  obtain ⟨x, -, h⟩ := Py.bind_eq_ok.1 h
  cases hc : p.fixedRate with
  | none => rw [hc] at h; cases h
  | some c =>
    rw [hc] at h
    obtain rfl := Except.ok.inj h
    exact ⟨_, c, rfl, rfl⟩

/-- C48: one pay date without origin is an empty period and no flow, whatever the rates are. -/
theorem C48_single (back : D → D → Py D) (d : D) (a : ℝ) {dc : Option (D → D → ℝ)} (fo : Option P) {po : Option P} (c : ℝ)
    (f : Fwd D) {e : D} (he : cal.minus po d = .ok e) (hτ : dc.getD cal.dayCount e e = 0) :
    ∃ l, CFList.newRate cal back [d] (.scalar a) none dc fo po c f = .ok l ∧
      ∀ x, l.getitem cal d = .ok x → x = 0 := by
  have := newRate_eq (cal := cal) (back := back) (dates := [d]) (starts := [d]) (amounts := .scalar a) (o := none) (dc := dc)
    (fo := fo) (po := po) (c := c) (f := f) (sh := fun _ => e) rfl rfl (by intro x hx; simp at hx; rw [hx, he]) rfl (by simp)
  refine ⟨_, this, fun x hx => ?_⟩
  simp only [CFList.getitem, NumArg.expand, rateFlow, List.replicate, List.length, List.zip_cons_cons, List.zip_nil_right,
    List.map_cons, List.map_nil, Dict.get, if_true, PayOff.eval, Py.bind_eq_ok] at hx
  obtain ⟨r, hr, hx⟩ := hx
  obtain ⟨F, c', -, h⟩ := RatePay.details_cashflow hr
  obtain rfl := Except.ok.inj hx
  rw [h]; simp [RatePay.tau, hτ]

/-- C48: no pay dates and no origin is refused with an unbound local variable. -/
theorem C48_empty (back : D → D → Py D) (amounts : NumArg) (dc : Option (D → D → ℝ)) (fo po : Option P) (c : ℝ) (f : Fwd D) :
    CFList.newRate cal back [] amounts none dc fo po c f = .error .unboundLocal := rfl

example : ∃ l : CFList ℤ ℤ, CFList.newRate dayCal (fun a b => .ok (a - (b - a))) [100, 200] (.scalar 1000) (some 0) none none
    (some 2) (1 / 20) (.num (1 / 100)) = .ok l ∧ l.totalTime dayCal.dayCount = dayCal.dayCount (-2) 198 := by
  obtain ⟨l, h, -⟩ := C48_tiles (cal := dayCal) (fun a b => .ok (a - (b - a))) (dates := [100, 200]) (amounts := .scalar 1000)
    (o := 0) none none (po := some 2) (1 / 20) (.num (1 / 100)) (sh := fun d => d - 2) (by simp)
    (by intro d _; simp [Cal.minus, dayCal]) (by simp [NumArg.expand]) (by simp)
  refine ⟨l, h, ?_⟩
  have := C48_total (cal := dayCal) (fun a b => .ok (a - (b - a))) (dates := [100, 200]) (amounts := .scalar 1000)
    (o := 0) none none (po := some 2) (1 / 20) (.num (1 / 100)) (sh := fun d => d - 2) (by simp)
    (by intro d _; simp [Cal.minus, dayCal]) (by simp [NumArg.expand]) (by simp) goodDayCount_int h
  exact this

/-! ## C86: the documented pay offset -/

/-- C86: the documentation says the pay offset is not applied to the start of the first period, `s_1 = t_0`; in the code
every first period starts before the origin by the pay offset. -/
theorem C86_violated (back : D → D → Py D) {dates : List D} {amounts : NumArg} {o : D} (dc : Option (D → D → ℝ))
    (fo : Option P) {po : Option P} (c : ℝ) (f : Fwd D) {sh : D → D} (hd : dates ≠ [])
    (hs : ∀ d ∈ o :: dates, cal.minus po d = .ok (sh d)) (ho : sh o ≠ o)
    (hl : (amounts.expand dates.length).length = dates.length) (hn : dates.Nodup) :
    ∃ l p, CFList.newRate cal back dates amounts (some o) dc fo po c f = .ok l ∧ l.flows.get (dates.head hd) = some (.rate p) ∧
      p.start ≠ o := by
  obtain ⟨l, h, -, h'⟩ := C48_tiles (cal := cal) back dc fo c f hd hs hl hn
  obtain ⟨p, hp, hst, -⟩ := h' 0 (List.length_pos_iff.2 hd)
  exact ⟨l, p, h, by rw [List.head_eq_getElem]; exact hp, by rw [hst]; exact ho⟩

/-- C86: without pay offset the first period starts at the origin. -/
theorem C86_partial (back : D → D → Py D) {dates : List D} {amounts : NumArg} {o : D} (dc : Option (D → D → ℝ))
    (fo : Option P) (c : ℝ) (f : Fwd D) (hd : dates ≠ [])
    (hl : (amounts.expand dates.length).length = dates.length) (hn : dates.Nodup) :
    ∃ l p, CFList.newRate cal back dates amounts (some o) dc fo none c f = .ok l ∧ l.flows.get (dates.head hd) = some (.rate p) ∧
      p.start = o := by
  obtain ⟨l, h, -, h'⟩ := C48_tiles (cal := cal) back dc fo (po := none) c f (sh := id) hd (fun _ _ => rfl) hl hn
  obtain ⟨p, hp, hst, -⟩ := h' 0 (List.length_pos_iff.2 hd)
  exact ⟨l, p, h, by rw [List.head_eq_getElem]; exact hp, by rw [hst]; rfl⟩

example : ∃ (l : CFList ℤ ℤ) (p : RatePay ℤ ℤ), CFList.newRate dayCal (fun a b => .ok (a - (b - a))) [100, 200] (.scalar 1000) (some 0) none none
    (some 2) (1 / 20) .none = .ok l ∧ l.flows.get 100 = some (.rate p) ∧ p.start ≠ 0 :=
  C86_violated (cal := dayCal) _ (sh := fun d => d - 2) none none _ _ (by simp)
    (by intro d _; simp [Cal.minus, dayCal]) (by simp) (by simp [NumArg.expand]) (by simp)

/-! ## C85: lengths of dates and amounts of a rate list -/

/-- C85: too few amounts are refused. -/
theorem C85_partial (back : D → D → Py D) {dates : List D} {as : List ℝ} {o : D} (dc : Option (D → D → ℝ))
    (fo : Option P) {po : Option P} (c : ℝ) (f : Fwd D) {sh : D → D} (hd : dates ≠ [])
    (hs : ∀ d ∈ o :: dates, cal.minus po d = .ok (sh d)) (hl : as.length < dates.length) :
    CFList.newRate cal back dates (.list as) (some o) dc fo po c f = .error .value := by
  simp only [CFList.newRate, accrualStarts, Py.ok_bind, NumArg.expand]
  rw [ratePays_eq _ (fun d h => hs d (mem_starts h)), Py.ok_bind, CFList.ofPayoffs, if_neg]
  have := List.length_pos_iff.2 hd
  simp; omega

/-- C85: surplus amounts are dropped without a message, where a plain list raises ValueError. -/
theorem C85_violated (back : D → D → Py D) {dates : List D} {as extra : List ℝ} {o : D} (dc : Option (D → D → ℝ))
    (fo : Option P) {po : Option P} (c : ℝ) (f : Fwd D) {sh : D → D} (hd : dates ≠ [])
    (hs : ∀ d ∈ o :: dates, cal.minus po d = .ok (sh d)) (hl : as.length = dates.length) (he : extra ≠ []) :
    (∃ l, CFList.newRate cal back dates (.list as) (some o) dc fo po c f = .ok l ∧
      CFList.newRate cal back dates (.list (as ++ extra)) (some o) dc fo po c f = .ok l) ∧
    CFList.new (P := P) dates (.list (as ++ extra)) (some o) = .error .value := by
  have hz : dates.zip (as ++ extra) = dates.zip as := by
    apply List.ext_getElem
    · simp; omega
    · intro i h h'
      simp only [List.getElem_zip, Prod.mk.injEq, true_and]
      exact List.getElem_append_left (by simp at h'; omega)
  have hp := List.length_pos_iff.2 he
  refine ⟨?_, ?_⟩
  · simp only [CFList.newRate, accrualStarts, Py.ok_bind, NumArg.expand]
    rw [ratePays_eq _ (fun d h => hs d (mem_starts h)), ratePays_eq _ (fun d h => hs d (mem_starts h)), hz, Py.ok_bind]
    have := List.length_pos_iff.2 hd
    exact ⟨_, by rw [CFList.ofPayoffs, if_pos]; simp; omega, by rw [CFList.ofPayoffs, if_pos]; simp; omega⟩
  · exact (C46_length dates _ _).1 (by simp; omega)

example : ∃ l : CFList ℤ ℤ,
    CFList.newRate dayCal (fun a b => .ok (a - (b - a))) [100, 200] (.list ([1, 2] ++ [3])) (some 0) none none none (1 / 20) .none = .ok l :=
  (C85_violated (cal := dayCal) (fun a b => .ok (a - (b - a))) (sh := id) none none _ _ (by simp) (fun _ _ => rfl) rfl
    (by simp : [(3 : ℝ)] ≠ [])).1.imp fun l h => h.2

/-! ## C49: contingent rate lists -/

/-- The contingent counterpart of a rate payoff. -/
def PayOff.collar (floor cap : Option ℝ) : PayOff D P → PayOff D P
  | .rate p => .contingentRate ⟨p, floor, cap⟩
  | p => p

/-- C49: for every origin that is not false, and without origin, a contingent rate list is built exactly when the rate list
is, and has the same periods, amounts and rates on the same dates. -/
theorem C49_same_partial (back : D → D → Py D) (dates : List D) (amounts : NumArg) (o : Option D) (dc : Option (D → D → ℝ))
    (fo po : Option P) (c : ℝ) (cap floor : Option ℝ) (f : Fwd D) (arg : ModelArg D)
    (ho : ∀ d, o = some d → cal.falsy d = false) :
    CFList.newContingentRate cal back dates amounts o dc fo po c cap floor arg =
      (fun l : CFList D P => { l with flows := l.flows.map fun p => (p.1, p.2.collar floor cap), arg := arg, hasModel := true }) <$>
        CFList.newRate cal back dates amounts o dc fo po c f := by
  have hst : contingentStarts cal back o dates = accrualStarts back o dates := by
    cases o with
    | none => rfl
    | some d => simp [contingentStarts, ho d rfl, accrualStarts]
  simp only [CFList.newContingentRate, CFList.newRate, hst]
  cases accrualStarts back o dates with
  | error e => rfl
  | ok starts =>
    simp only [Py.ok_bind]
    have hr : ratePays cal starts dates (amounts.expand dates.length) po (fun s e a =>
        (PayOff.contingentRate ⟨⟨s, e, a, dc, fo, some c⟩, floor, cap⟩ : PayOff D P)) =
      List.map (PayOff.collar floor cap) <$> ratePays cal starts dates (amounts.expand dates.length) po (fun s e a =>
        (PayOff.rate ⟨s, e, a, dc, fo, some c⟩ : PayOff D P)) := by
      unfold ratePays
      generalize starts.zip (dates.zip (amounts.expand dates.length)) = xs
      induction xs with
      | nil => rfl
      | cons x xs ih =>
        rw [pyMap_cons, pyMap_cons, ih]
        cases cal.minus po x.2.1 with
        | error e => rfl
        | ok e =>
          cases cal.minus po x.1 with
          | error e => rfl
          | ok s =>
            simp only [Py.ok_bind]
            cases pyMap (fun x : D × D × ℝ => (do
              let e ← cal.minus po x.2.1
              let s ← cal.minus po x.1
              Except.ok (PayOff.rate ⟨s, e, x.2.2, dc, fo, some c⟩) : Py (PayOff D P))) xs <;> rfl
    rw [hr]
    cases ratePays cal starts dates (amounts.expand dates.length) po (fun s e a =>
        (PayOff.rate ⟨s, e, a, dc, fo, some c⟩ : PayOff D P)) with
    | error e => rfl
    | ok ps =>
      simp only [Py.ok_bind, Py.map_ok, CFList.newContingent, CFList.ofPayoffs, Option.getD_some, List.length_map]
      split_ifs
      · simp only [Py.map_ok, Except.ok.injEq, CFList.mk.injEq, true_and, and_true]
        have : ∀ (l : List (D × PayOff D P)) (d : Dict D (PayOff D P)),
            (l.map fun p => (p.1, p.2.collar floor cap)).foldl (fun d p => Dict.set d p.1 p.2)
              (d.map fun p => (p.1, p.2.collar floor cap)) =
            ((l.foldl (fun d p => Dict.set d p.1 p.2) d).map fun p => (p.1, p.2.collar floor cap)) := by
          intro l
          induction l with
          | nil => intro d; rfl
          | cons x l ih =>
            intro d
            rw [List.map_cons, List.foldl_cons, List.foldl_cons, ← ih]
            congr 1
            induction d with
            | nil => rfl
            | cons y d ihd =>
              simp only [List.map_cons, Dict.set]
              split_ifs
              · rfl
              · rw [List.map_cons, ihd]
        rw [Dict.ofPairs, Dict.ofPairs, ← this]
        congr 1
        rw [List.zip_map_right]; rfl
      · rfl

theorem contingentRate_zero {l : CFList D P} {arg : ModelArg D} {p : ContingentRatePay D P} (hτ : p.tau cal p.start p.stop = 0)
    {x : ℝ} (h : p.cashflow cal arg = .ok x) : x = 0 := by
  unfold ContingentRatePay.cashflow at h
  obtain ⟨r, hr, h⟩ := Py.bind_eq_ok.1 h
  obtain ⟨F, c, -, hcf⟩ := RatePay.details_cashflow hr
  have hy : r.yearFraction = 0 := by
    rw [← hτ]
    unfold RatePay.details at hr
    obtain ⟨_, -, hr⟩ := Py.bind_eq_ok.1 hr
    cases hc : p.fixedRate with
    | none => rw [hc] at hr; cases hr
    | some c => rw [hc] at hr; obtain rfl := Except.ok.inj hr; rfl
  have hcf0 : r.cashflow = 0 := by rw [hcf, hτ]; ring
  cases arg with
  | fwd f => obtain rfl := Except.ok.inj h; exact hcf0
  | model m =>
    obtain ⟨_, -, h⟩ := Py.bind_eq_ok.1 h
    obtain ⟨a, ha, h⟩ := Py.bind_eq_ok.1 h
    obtain ⟨b, hb, h⟩ := Py.bind_eq_ok.1 h
    have key : ∀ {v : D → Option ℝ → Py ℝ} {d : D} {k : Option ℝ} {y : ℝ},
        optlet cal m v d (r.yearFraction * r.notional) k = .ok y → y = 0 := by
      intro v d k y hy'
      cases k with
      | none => exact (Except.ok.inj hy').symm
      | some k =>
        obtain ⟨_, -, hy'⟩ := Py.bind_eq_ok.1 hy'
        obtain ⟨_, -, hy'⟩ := Py.bind_eq_ok.1 hy'
        rw [hy] at hy'; have := Except.ok.inj hy'; rw [← this]; ring
    have ha' := key ha
    have hb' := key hb
    have := Except.ok.inj h
    rw [← this, hcf0, ha', hb']; ring

/-- C49: at a false origin (the year fraction 0) all periods of the contingent list are empty and every flow is 0, while the
rate list accrues from 0 to its first pay date. -/
theorem C49_violated (back : D → D → Py D) {dates : List D} {a : ℝ} {o : D} (ho : cal.falsy o = true) (fo : Option P) (c : ℝ)
    (cap floor : Option ℝ) (f : Fwd D) (arg : ModelArg D) (hd : dates ≠ []) (hn : dates.Nodup)
    (hτ : GoodDayCount cal.dayCount) :
    ∃ l l', CFList.newRate cal back dates (.scalar a) (some o) none fo none c f = .ok l ∧
      CFList.newContingentRate cal back dates (.scalar a) (some o) none fo none c cap floor arg = .ok l' ∧
      l.totalTime cal.dayCount = cal.dayCount o (dates.getLast hd) ∧ l'.totalTime cal.dayCount = 0 ∧
      ∀ d x, l'.getitem cal d = .ok x → x = 0 := by
  obtain ⟨l, h, -⟩ := C48_tiles (cal := cal) back (dates := dates) (amounts := .scalar a) (o := o) none fo (po := none) c f
    (sh := id) hd (fun _ _ => rfl) (by simp [NumArg.expand]) hn
  have h2 := C48_total (cal := cal) back (dates := dates) (amounts := .scalar a) (o := o) none fo (po := none) c f
    (sh := id) hd (fun _ _ => rfl) (by simp [NumArg.expand]) hn hτ h
  have hst : contingentStarts cal back (some o) dates = .ok dates := by
    cases dates with
    | nil => exact absurd rfl hd
    | cons d ds => simp [contingentStarts, ho]
  have e : CFList.newContingentRate cal back dates (.scalar a) (some o) none fo none c cap floor arg =
      .ok ⟨some o, dates, (dates.zip (dates.zip (List.replicate dates.length a))).map fun x =>
        (x.2.1, .contingentRate ⟨⟨x.1, x.2.1, x.2.2, none, fo, some c⟩, floor, cap⟩), arg, true⟩ := by
    simp only [CFList.newContingentRate, hst, Py.ok_bind]
    rw [ratePays_eq (sh := id) _ (fun _ _ => rfl), Py.ok_bind, CFList.newContingent, Option.getD_some,
      ofPayoffs_flows _ _ _ _ rfl (by simp [NumArg.expand]) hn]
    rfl
  have hmem : ∀ y ∈ (dates.zip (dates.zip (List.replicate dates.length a))), y.1 = y.2.1 := by
    intro y hy
    obtain ⟨i, hi, rfl⟩ := List.mem_iff_getElem.1 hy
    simp
  refine ⟨l, _, h, e, h2, ?_, ?_⟩
  · rw [CFList.totalTime]
    apply List.sum_eq_zero
    intro x hx
    obtain ⟨y, hy, rfl⟩ := List.mem_map.1 hx
    obtain ⟨z, hz, rfl⟩ := List.mem_map.1 hy
    simp only
    rw [hmem z hz, hτ.self]
  · intro d x hx
    simp only [CFList.getitem] at hx
    cases hg : Dict.get ((dates.zip (dates.zip (List.replicate dates.length a))).map fun x =>
        (x.2.1, (PayOff.contingentRate ⟨⟨x.1, x.2.1, x.2.2, none, fo, some c⟩, floor, cap⟩ : PayOff D P))) d with
    | none => rw [hg] at hx; exact (Except.ok.inj hx).symm
    | some v =>
      rw [hg] at hx
      obtain ⟨z, hz, he⟩ := List.mem_map.1 (Dict.get_mem hg)
      obtain ⟨rfl, rfl⟩ := Prod.mk.inj he
      exact contingentRate_zero (l := l) (by simp [RatePay.tau, hmem z hz, hτ.self]) hx

example : ∃ l : CFList ℝ FloatPeriod, CFList.newContingentRate floatCal (fun a b => .ok (a - (b - a))) [1, 2] (.scalar 100) (some 0)
    none none none (1 / 20) none none (.fwd (.num (1 / 50))) = .ok l ∧ ∀ d x, l.getitem floatCal d = .ok x → x = 0 := by
  obtain ⟨_, l, -, h, -, -, h'⟩ := C49_violated (cal := floatCal) (fun a b => .ok (a - (b - a))) (dates := [1, 2]) (a := 100) (o := 0)
    (by simp [floatCal]) none (1 / 20) none none .none (.fwd (.num (1 / 50))) (by simp) (by simp) goodDayCount_real
  exact ⟨l, h, h'⟩

end

/-! ### The hypotheses can be met: each theorem applied -/

/-- `d0 - (d1 - d0)` for numbers. -/
def exBack (d0 d1 : ℝ) : Py ℝ := .ok (d0 - (d1 - d0))

example := C46_total_partial (cal := floatCal) (dates := [1, 2]) (amounts := [5, 105]) (o := some 0) (l := ⟨some 0, [1, 2], [(1, .num 5), (2, .num 105)], .fwd .none, false⟩)
  (by simp [CFList.new, CFList.ofPayoffs, NumArg.expand, Dict.ofPairs, Dict.set]) (by norm_num)

example := C48_no_origin (cal := floatCal) (back := exBack) (d0 := 1) (d1 := 2) (s := 0) (ds := [3]) (amounts := .scalar 100) none none (po := some (.num (1 / 2))) (5 / 100)
  .none (sh := fun d => d - 1 / 2) (by norm_num [exBack]) (fun d _ => by norm_num [Cal.minus, floatCal]) rfl (by norm_num)

example := C48_single (cal := floatCal) exBack 1 100 (dc := none) none (po := none) (5 / 100) .none (e := 1) rfl (by simp [floatCal])

example := C86_partial (cal := floatCal) exBack (dates := [1, 2]) (amounts := .scalar 100) (o := 0) none none (5 / 100) .none (by simp) rfl (by norm_num)

example := C85_partial (cal := floatCal) exBack (dates := [1, 2]) (as := [100]) (o := 0) none none (po := none) (5 / 100) .none (sh := id) (by simp)
  (fun d _ => rfl) (by simp)

example (cap floor : Option ℝ) := C49_same_partial (cal := floatCal) exBack [2, 3] (.scalar 100) (some 1) none none none (5 / 100) cap floor .none (.fwd .none)
  (fun d h => by cases h; norm_num [floatCal])

end Dcf
