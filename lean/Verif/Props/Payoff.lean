import Verif.Props.Cashflow
import Verif.Spec.Payoffs

/-! # Payoffs: C50-C52, C83, C87, C89, C90 -/

set_option linter.unusedSectionVars false
set_option linter.unusedSimpArgs false
set_option linter.unusedVariables false

namespace Dcf

open Spec

section
variable {D P : Type} [LinearOrder D] {cal : Cal D P}

/-! ## C50: rate flows -/

theorem Spec.Quotes.rate {f : Fwd D} {d : D} {F : ℝ} (h : Quotes f d F) : f.rate d = .ok F := by
  cases h <;> simp_all [Fwd.rate]

theorem forwardAt_quotes {p : RatePay D P} {arg : ModelArg D} {fix : D} {F : ℝ} (hq : Quotes arg.curve fix F)
    (hf : cal.minus p.fixingOffset p.start = .ok fix) :
    ∃ x, p.forwardAt cal arg = .ok x ∧ x.1.getD 0 = F ∧ (arg.truthy = true → x = (some F, some fix)) := by
  cases hb : arg.truthy with
  | true =>
    refine ⟨_, by simp only [RatePay.forwardAt, hb, if_true, hf, Py.ok_bind, hq.rate], rfl, fun _ => rfl⟩
  | false =>
    refine ⟨(none, none), by simp [RatePay.forwardAt, hb], ?_, by simp⟩
    cases arg with
    | model m => simp [ModelArg.truthy] at hb
    | fwd f =>
      cases hq with
      | num x =>
        simp only [ModelArg.truthy, Fwd.truthy, ne_eq, decide_not, Bool.not_eq_false', decide_eq_true_eq] at hb
        simp [hb]
      | cash h => simp [ModelArg.truthy, Fwd.truthy] at hb
      | fn h => simp [ModelArg.truthy, Fwd.truthy] at hb
      | price h => simp [ModelArg.truthy, Fwd.truthy] at hb

/-- C50: a rate flow is (fixed + forward) * year fraction * amount, the forward read at start minus fixing offset from the
given forward curve, or from the forward curve of a given model. -/
theorem C50_formula {p : RatePay D P} {arg : ModelArg D} {f : Fwd D} {fix : D} {F c : ℝ}
    (ha : arg = .fwd f ∨ ∃ m : OptModel D, arg = .model m ∧ m.forward = f) (hq : Quotes f fix F)
    (hf : cal.minus p.fixingOffset p.start = .ok fix) (hc : p.fixedRate = some c) :
    (PayOff.rate p).eval cal arg = .ok ((c + F) * (p.dayCount.getD cal.dayCount) p.start p.stop * p.amount) := by
  have hq' : Quotes arg.curve fix F := by
    rcases ha with rfl | ⟨m, rfl, rfl⟩ <;> exact hq
  obtain ⟨x, hx, hF, -⟩ := forwardAt_quotes hq' hf
  simp only [PayOff.eval, RatePay.details, hx, Py.ok_bind, hc, hF, RatePay.tau]

/-- C50: without forward curve the flow is the fixed part. -/
theorem C50_no_curve {p : RatePay D P} {c : ℝ} (hc : p.fixedRate = some c) :
    (PayOff.rate p).eval cal (.fwd .none) = .ok (c * (p.dayCount.getD cal.dayCount) p.start p.stop * p.amount) := by
  simp [PayOff.eval, RatePay.details, RatePay.forwardAt, ModelArg.truthy, Fwd.truthy, hc, RatePay.tau]

/-- C50: flows are affine in the fixed rate (and fail or not independently of it). -/
theorem C50_affine (p : RatePay D P) (arg : ModelArg D) (c c' : ℝ) :
    (PayOff.rate { p with fixedRate := some c' }).eval cal arg =
      (fun x => x + (c' - c) * ((p.dayCount.getD cal.dayCount) p.start p.stop * p.amount)) <$>
        (PayOff.rate { p with fixedRate := some c }).eval cal arg := by
  have : ∀ c, ({ p with fixedRate := some c } : RatePay D P).forwardAt cal arg = p.forwardAt cal arg := fun _ => rfl
  simp only [PayOff.eval, RatePay.details, this, RatePay.tau]
  cases p.forwardAt cal arg with
  | error e => rfl
  | ok x => simp only [Py.ok_bind, Py.map_ok, Except.ok.injEq]; ring

/-- C50: the flows of a rate list with origin. -/
theorem C50_list (back : D → D → Py D) {dates : List D} {amounts : NumArg} {o : D} {dc : Option (D → D → ℝ)}
    {fo po : Option P} {c : ℝ} {f : Fwd D} {sh fix : D → D} {F : D → ℝ} (hd : dates ≠ [])
    (hs : ∀ d ∈ o :: dates, cal.minus po d = .ok (sh d)) (hf : ∀ d ∈ o :: dates, cal.minus fo (sh d) = .ok (fix (sh d)))
    (hq : ∀ d ∈ o :: dates, Quotes f (fix (sh d)) (F (fix (sh d))))
    (hl : (amounts.expand dates.length).length = dates.length) (hn : dates.Nodup) :
    ∃ l, CFList.newRate cal back dates amounts (some o) dc fo po c f = .ok l ∧
      ∀ i (hi : i < dates.length) (s e : D), s = sh ((o :: dates)[i]'(by simp; omega)) → e = sh dates[i] →
        l.getitem cal dates[i] = .ok ((c + F (fix s)) * (dc.getD cal.dayCount) s e * (amounts.expand dates.length)[i]) := by
  obtain ⟨l, h, hdom, hfl⟩ := C48_tiles (cal := cal) back dc fo c f hd hs hl hn
  refine ⟨l, h, fun i hi s e hse he => ?_⟩
  obtain ⟨p, hp, h1, h2, h3, h4, h5, h6⟩ := hfl i hi
  have harg : l.arg = .fwd f := by
    rw [newRate_eq (starts := o :: dates.dropLast) rfl (dropLast_cons_length o hd) (fun d h => hs d (mem_starts h)) hl hn] at h
    obtain rfl := Except.ok.inj h; rfl
  have hm : (o :: dates)[i]'(by simp; omega) ∈ o :: dates := List.getElem_mem _
  simp only [CFList.getitem, hp, harg]
  rw [C50_formula (.inl rfl) (hq _ hm) (by rw [h5, h1]; exact hf _ hm) h6, h4, h1, h2, h3, hse, he]

/-- C50: setting the fixed rate sets it on every flow and changes nothing else. -/
theorem C50_set (l : CFList D P) (v : Option ℝ) :
    (l.setFixedRate v).domain = l.domain ∧ (l.setFixedRate v).arg = l.arg ∧ (l.setFixedRate v).origin? = l.origin? ∧
    (∀ d p, l.flows.get d = some (.rate p) → (l.setFixedRate v).flows.get d = some (.rate { p with fixedRate := v })) ∧
    (∀ d p, l.flows.get d = some (.contingentRate p) →
      (l.setFixedRate v).flows.get d = some (.contingentRate { p with fixedRate := v })) ∧
    ∀ d, l.flows.get d = none → (l.setFixedRate v).flows.get d = none := by
  refine ⟨rfl, rfl, rfl, fun d p h => ?_, fun d p h => ?_, fun d h => ?_⟩ <;>
    simp only [CFList.setFixedRate, Dict.get_map, h] <;> rfl

/-- All flows of the list are rate payoffs, with the given rates. -/
def CFList.RatesAre (l : CFList D P) (rs : List (Option ℝ)) : Prop :=
  List.Forall₂ (fun (x : D × PayOff D P) r => (∃ p, x.2 = .rate p ∧ p.fixedRate = r) ∨
    ∃ p, x.2 = .contingentRate p ∧ p.fixedRate = r) l.flows rs

theorem fixedRate_eq {l : CFList D P} {rs : List (Option ℝ)} (h : l.RatesAre rs) :
    l.fixedRate = match rs.dedup with
      | [r] => .ok r
      | _ => .ok none := by
  have : pyMap (fun p : D × PayOff D P => p.2.fixedRate) l.flows = .ok rs := by
    rw [pyMap_eq_ok]
    refine List.Forall₂.imp (fun x r hx => ?_) h
    rcases hx with ⟨p, hp, rfl⟩ | ⟨p, hp, rfl⟩ <;> rw [hp] <;> rfl
  rw [CFList.fixedRate, this]; rfl

theorem dedup_const {rs : List (Option ℝ)} {r : Option ℝ} (h0 : rs ≠ []) (h : ∀ x ∈ rs, x = r) : rs.dedup = [r] := by
  have : rs = List.replicate rs.length r := List.eq_replicate_of_mem h
  rw [this, List.replicate_dedup (by simpa using h0)]

/-- C50: reading the fixed rate returns the common rate. -/
theorem C50_get {l : CFList D P} {rs : List (Option ℝ)} (h : l.RatesAre rs) {r : Option ℝ} (h0 : rs ≠ []) (hr : ∀ x ∈ rs, x = r) :
    l.fixedRate = .ok r := by
  rw [fixedRate_eq h, dedup_const h0 hr]

/-- C50: reading the fixed rate returns `None` if two flows have different rates. -/
theorem C50_get_none {l : CFList D P} {rs : List (Option ℝ)} (h : l.RatesAre rs) {a b : Option ℝ} (ha : a ∈ rs) (hb : b ∈ rs)
    (hab : a ≠ b) : l.fixedRate = .ok none := by
  rw [fixedRate_eq h]
  have ha' := List.mem_dedup.2 ha
  have hb' := List.mem_dedup.2 hb
  match hd : rs.dedup with
  | [] => rfl
  | [r] => rw [hd] at ha' hb'; simp at ha' hb'; exact absurd (ha'.trans hb'.symm) hab
  | _ :: _ :: _ => rfl

theorem RatesAre_set {l : CFList D P} {rs : List (Option ℝ)} (h : l.RatesAre rs) (v : Option ℝ) :
    (l.setFixedRate v).RatesAre (rs.map fun _ => v) := by
  unfold CFList.RatesAre at h ⊢
  simp only [CFList.setFixedRate, List.forall₂_map_left_iff, List.forall₂_map_right_iff]
  refine List.Forall₂.imp (fun x r hx => ?_) h
  rcases hx with ⟨p, hp, -⟩ | ⟨p, hp, -⟩
  · exact .inl ⟨_, by rw [hp]; rfl, rfl⟩
  · exact .inr ⟨_, by rw [hp]; rfl, rfl⟩

/-- C50: what was set is read back. -/
theorem C50_set_get {l : CFList D P} {rs : List (Option ℝ)} (h : l.RatesAre rs) (h0 : rs ≠ []) (v : Option ℝ) :
    (l.setFixedRate v).fixedRate = .ok v :=
  C50_get (RatesAre_set h v) (by simpa using h0) (by simp)

theorem newRate_rates {back : D → D → Py D} {dates : List D} {amounts : NumArg} {o : D} {dc : Option (D → D → ℝ)}
    {fo po : Option P} {c : ℝ} {f : Fwd D} {sh : D → D} (hd : dates ≠ []) (hs : ∀ d ∈ o :: dates, cal.minus po d = .ok (sh d))
    (hl : (amounts.expand dates.length).length = dates.length) (hn : dates.Nodup) :
    ∃ l, CFList.newRate cal back dates amounts (some o) dc fo po c f = .ok l ∧
      l.RatesAre (List.replicate dates.length (some c)) := by
  refine ⟨_, newRate_eq (starts := o :: dates.dropLast) rfl (dropLast_cons_length o hd) (fun d h => hs d (mem_starts h)) hl hn, ?_⟩
  unfold CFList.RatesAre
  have hp := List.length_pos_iff.2 hd
  rw [List.forall₂_iff_get]
  refine ⟨by simp; omega, fun i h1 h2 => .inl ?_⟩
  simp only [List.get_eq_getElem, List.getElem_map, rateFlow, List.getElem_replicate]
  exact ⟨_, rfl, rfl⟩

/-- C50: a rate list answers with the rate it was built with. -/
theorem C50_built {back : D → D → Py D} {dates : List D} {amounts : NumArg} {o : D} {dc : Option (D → D → ℝ)}
    {fo po : Option P} {c : ℝ} {f : Fwd D} {sh : D → D} (hd : dates ≠ []) (hs : ∀ d ∈ o :: dates, cal.minus po d = .ok (sh d))
    (hl : (amounts.expand dates.length).length = dates.length) (hn : dates.Nodup) :
    ∃ l, CFList.newRate cal back dates amounts (some o) dc fo po c f = .ok l ∧ l.fixedRate = .ok (some c) ∧
      ∀ v, (l.setFixedRate v).fixedRate = .ok v := by
  obtain ⟨l, h, hr⟩ := newRate_rates (cal := cal) (back := back) (dc := dc) (fo := fo) (c := c) (f := f) hd hs hl hn
  have h0 : List.replicate dates.length (some c) ≠ [] := by simpa using hd
  exact ⟨l, h, C50_get hr h0 (by simp), C50_set_get hr h0⟩

example : ∃ l : CFList ℤ ℤ, CFList.newRate dayCal (fun a b => .ok (a - (b - a))) [100, 200] (.scalar 1000) (some 0) none none
    (some 2) (1 / 20) (.num (1 / 100)) = .ok l ∧ l.fixedRate = .ok (some (1 / 20)) ∧
    l.getitem dayCal 200 = .ok ((1 / 20 + 1 / 100) * dayCal.dayCount 98 198 * 1000) := by
  have hs : ∀ d ∈ (0 : ℤ) :: [100, 200], dayCal.minus (some 2) d = .ok (d - 2) := by intro d _; simp [Cal.minus, dayCal]
  obtain ⟨l, h, hr, -⟩ := C50_built (cal := dayCal) (back := fun a b => .ok (a - (b - a))) (dates := [100, 200])
    (amounts := .scalar 1000) (o := 0) (dc := none) (fo := none) (c := 1 / 20) (f := .num (1 / 100)) (by simp) hs
    (by simp [NumArg.expand]) (by simp)
  obtain ⟨l', h', hv⟩ := C50_list (cal := dayCal) (fun a b => .ok (a - (b - a))) (dates := [100, 200])
    (amounts := .scalar 1000) (o := 0) (dc := none) (fo := none) (c := 1 / 20) (f := .num (1 / 100)) (fix := id)
    (F := fun _ => 1 / 100) (by simp) hs (fun _ _ => rfl) (fun _ _ => .num _ _) (by simp [NumArg.expand]) (by simp)
  rw [h] at h'
  obtain rfl := Except.ok.inj h'
  exact ⟨l, h, hr, by simpa [NumArg.expand] using hv 1 (by simp) 98 198 rfl rfl⟩

end

/-! ### The hypotheses can be met: each theorem applied -/

example := C50_formula (cal := dayCal) (p := ⟨90, 180, 1000, none, some 2, some (1 / 20)⟩) (f := .num (1 / 100)) (fix := 88) (.inl rfl) (.num _ _) (by simp [Cal.minus, dayCal]) rfl
example := C50_no_curve (cal := dayCal) (p := ⟨90, 180, 1000, none, some 2, some (1 / 20)⟩) rfl

end Dcf
