import Verif.Props.YearFractions
import Verif.Model.Native

/-! # Dates of the package `datetime` (C164) -/

set_option linter.unusedSectionVars false
set_option linter.unusedSimpArgs false
set_option linter.unusedVariables false

namespace Dcf

open Spec

section
variable {D P : Type} [LinearOrder D] {cal : Cal D P} {φ : D → ℤ}

/-- C164: zero rate and discount factor curves on `datetime` dates answer like those on the dates they stand for. -/
theorem C164_interest_rate_curves (hφ : ∀ s t, cal.dayCount s t = ((φ t - φ s : ℤ) : ℝ) / (36525 / 100)) (hm : StrictMono φ) {cls : IRClass}
    (hk : cls = .zero ∨ cls = .discount) (domain : List D) (data : List ℝ) (interp : Option FuncSpec) (origin : Option D)
    (tenor : Option P) (tenor' : Option NativePeriod) :
    (∀ err, IRCurve.new cal cls domain data interp origin .default tenor = .error err →
      IRCurve.new nativeCal cls (domain.map φ) data interp (origin.map φ) .default tenor' = .error err) ∧
    ∀ c, IRCurve.new cal cls domain data interp origin .default tenor = .ok c →
      ∃ c', IRCurve.new nativeCal cls (domain.map φ) data interp (origin.map φ) .default tenor' = .ok c' ∧
        (∀ d, c'.call nativeCal (φ d) = c.call cal d) ∧
        (∀ same s t, s ≠ t → c'.rate nativeCal same (φ s) (φ t) = c.rate cal same s t) ∧
        (∀ same s t, c'.factor nativeCal same (φ s) (φ t) = c.factor cal same s t) ∧
        ∀ t, c'.discount nativeCal (φ t) = c.discount cal t :=
  curves_alike (cal' := nativeCal) (fun s t => (hφ s t).symm) hm hk domain data interp origin tenor tenor'

/-- C164: likewise flat intensity, survival and default probability curves. -/
theorem C164_credit_curves (hφ : ∀ s t, cal.dayCount s t = ((φ t - φ s : ℤ) : ℝ) / (36525 / 100)) (hm : StrictMono φ) {cls : CRClass}
    (hk : cls = .flat ∨ cls = .survival ∨ cls = .default) (domain : List D) (data : List ℝ) (interp : Option FuncSpec)
    (origin : Option D) (tenor : Option P) (tenor' : Option NativePeriod) :
    (∀ err, CRCurve.new cal cls domain data interp origin .default tenor = .error err →
      CRCurve.new nativeCal cls (domain.map φ) data interp (origin.map φ) .default tenor' = .error err) ∧
    ∀ c, CRCurve.new cal cls domain data interp origin .default tenor = .ok c →
      ∃ c', CRCurve.new nativeCal cls (domain.map φ) data interp (origin.map φ) .default tenor' = .ok c' ∧
        (∀ d, c'.call nativeCal (φ d) = c.call cal d) ∧
        (∀ same s t, s ≠ t → c'.rate nativeCal same (φ s) (φ t) = c.rate cal same s t) ∧
        (∀ same s t, c'.factor nativeCal same (φ s) (φ t) = c.factor cal same s t) ∧
        ∀ t, c'.survivalProb nativeCal (φ t) = c.survivalProb cal t :=
  credit_alike (cal' := nativeCal) (fun s t => (hφ s t).symm) hm hk domain data interp origin tenor tenor'

/-- C164: likewise terminal volatility curves, from the origin and between different dates. -/
theorem C164_volatility_curves (hφ : ∀ s t, cal.dayCount s t = ((φ t - φ s : ℤ) : ℝ) / (36525 / 100)) (hm : StrictMono φ) (floor : Option ℝ)
    (domain : List D) (data : List ℝ) (interp : Option FuncSpec) (origin : Option D) (tenor : Option P) (tenor' : Option NativePeriod) :
    (∀ err, VolCurve.new cal .terminal floor domain data interp origin .default tenor = .error err →
      VolCurve.new nativeCal .terminal floor (domain.map φ) data interp (origin.map φ) .default tenor' = .error err) ∧
    ∀ c, VolCurve.new cal .terminal floor domain data interp origin .default tenor = .ok c →
      ∃ c', VolCurve.new nativeCal .terminal floor (domain.map φ) data interp (origin.map φ) .default tenor' = .ok c' ∧
        (∀ scipy limit s, c'.terminalVol nativeCal scipy limit (φ s) none = c.terminalVol cal scipy limit s none) ∧
        ∀ scipy limit s t, s ≠ t ∨ c.base.origin = some s →
          c'.terminalVol nativeCal scipy limit (φ s) (some (φ t)) = c.terminalVol cal scipy limit s (some t) :=
  vol_alike (cal' := nativeCal) (fun s t => (hφ s t).symm) hm floor domain data interp origin tenor tenor'

/-- C164: cash rates over the forward tenor of the curve, if it is given as a `timedelta`. -/
theorem C164_cash_rates (hφ : ∀ s t, cal.dayCount s t = ((φ t - φ s : ℤ) : ℝ) / (36525 / 100)) (hm : StrictMono φ) {cls : IRClass}
    (hk : cls = .zero ∨ cls = .discount ∨ cls = .cash) {domain : List D} {data : List ℝ} {interp : Option FuncSpec}
    {origin : Option D} {p : P} {n : ℤ} (hp : ∀ d, ∃ x, cal.add d p = .ok x ∧ φ x = φ d + n) {c : IRCurve D P}
    (hc : IRCurve.new cal cls domain data interp origin .default (some p) = .ok c) :
    ∃ c', IRCurve.new nativeCal cls (domain.map φ) data interp (origin.map φ) .default (some (.delta n)) = .ok c' ∧
      ∀ same limit d, c'.cashRate nativeCal same limit (φ d) none none = c.cashRate cal same limit d none none :=
  cash_alike (cal' := nativeCal) (fun s t => (hφ s t).symm) hm hk (fun d => by obtain ⟨x, h1, h2⟩ := hp d; rw [h1]; simp [nativeCal, h2]) hc

/-- C164: fixed and floating rate lists pay the same amounts, if the forward curves answer alike (as in C164_cash_rates). -/
theorem C164_rate_lists (hφ : ∀ s t, cal.dayCount s t = ((φ t - φ s : ℤ) : ℝ) / (36525 / 100)) (hm : StrictMono φ) (back : D → D → Py D)
    (back' : ℤ → ℤ → Py ℤ) {dates : List D} {amounts : NumArg} {o : D} {r : ℝ} {l : CFList D P}
    {F : Fwd D} {F' : Fwd ℤ} (hF : F'.truthy = F.truthy) (hr : ∀ d, F'.rate (φ d) = F.rate d)
    (h : CFList.newRate cal back dates amounts (some o) none none none r F = .ok l) :
    ∃ l', CFList.newRate nativeCal back' (dates.map φ) amounts (some (φ o)) none none none r F' = .ok l' ∧
      l'.domain = l.domain.map φ ∧ l'.origin = some (φ o) ∧ ∀ d, l'.getitem nativeCal (φ d) = l.getitem cal d :=
  rate_lists_alike (cal' := nativeCal) (fun s t => (hφ s t).symm) hm back back' hF hr h

/-- C164: present values agree. -/
theorem C164_present_values (hφ : ∀ s t, cal.dayCount s t = ((φ t - φ s : ℤ) : ℝ) / (36525 / 100)) (hm : StrictMono φ) {cls : IRClass}
    (hk : cls = .zero ∨ cls = .discount) {domain : List D} {data : List ℝ} {interp : Option FuncSpec} {origin : Option D}
    {tenor : Option P} {tenor' : Option NativePeriod} {c : IRCurve D P} {c' : IRCurve ℤ NativePeriod}
    (hc : IRCurve.new cal cls domain data interp origin .default tenor = .ok c)
    (hc' : IRCurve.new nativeCal cls (domain.map φ) data interp (origin.map φ) .default tenor' = .ok c')
    {w : World D P} {w' : World ℤ NativePeriod} {disc disc' : ℕ} (hw : w.curves disc = c.obj) (hw' : w'.curves disc' = c'.obj)
    {p : Product D} {p' : Product ℤ} {v : D} {flows : List (D × ℝ)} (hp : Pays cal w v p flows)
    (hp' : Pays nativeCal w' (φ v) p' (flows.map fun q => (φ q.1, q.2))) (same : Bool) {df : D → ℝ}
    (hdf : ∀ q ∈ flows, c.factor cal same v q.1 = .ok (df q.1)) :
    (pvOn cal disc same (some v) p w).1 = .ok ((flows.map fun q => df q.1 * q.2).sum) ∧
    (pvOn nativeCal disc' same (some (φ v)) p' w').1 = .ok ((flows.map fun q => df q.1 * q.2).sum) :=
  present_values_alike (cal' := nativeCal) (fun s t => (hφ s t).symm) hm hk hc hc' hw hw' hp hp' same hdf

end

/-- C164 (offsets): a `timedelta` is subtracted as pay and as fixing offset, zero or not: the list pays what the list on the dates and origin moved back
by the pay offset pays, with forward rates read earlier by the fixing offset. -/
theorem C164_offsets (back : ℤ → ℤ → Py ℤ) {dates : List ℤ} {amounts : NumArg} {o n m : ℤ} {r : ℝ} {l : CFList ℤ NativePeriod} {F F' : Fwd ℤ}
    (hF : F'.truthy = F.truthy) (hr : ∀ d, F'.rate d = F.rate (d - n))
    (h : CFList.newRate nativeCal back (dates.map (· - m)) amounts (some (o - m)) none none none r F' = .ok l) :
    ∃ l', CFList.newRate nativeCal back dates amounts (some o) none (some (.delta n)) (some (.delta m)) r F = .ok l' ∧
      l'.domain = dates ∧ l'.origin = some o ∧ ∀ d, l'.getitem nativeCal d = l.getitem nativeCal (d - m) := by
  have hmin : ∀ k d : ℤ, nativeCal.minus (some (.delta k)) d = .ok (d - k) := by
    intro k d
    by_cases hk : k = 0 <;> simp [Cal.minus, nativeCal, hk]
  have key : CFList.newRate nativeCal back (dates.map (· - m)) amounts (some (o - m)) none none none r F' =
        CFList.ofPayoffs (dates.map (· - m)) (((o :: dates.dropLast).zip (dates.zip (amounts.expand dates.length))).map fun x =>
          PayOff.rate ⟨x.1 - m, x.2.1 - m, x.2.2, none, none, some r⟩) (some (o - m)) (.fwd F') false := by
    unfold CFList.newRate ratePays
    have h1 : (dates.map (· - m)).zip (amounts.expand dates.length) = (dates.zip (amounts.expand dates.length)).map (Prod.map (· - m) id) :=
      List.zip_map_left ..
    simp only [accrualStarts, Py.ok_bind, Cal.minus, List.length_map]
    rw [← List.map_dropLast, ← List.map_cons (f := (· - m)), h1, List.zip_map, pyMap_map]
    exact congrArg (fun r => r >>= fun ps => CFList.ofPayoffs (dates.map (· - m)) ps (some (o - m)) (.fwd F') false)
      (pyMap_ok (g := fun x : ℤ × ℤ × ℝ => PayOff.rate (P := NativePeriod) ⟨x.1 - m, x.2.1 - m, x.2.2, none, none, some r⟩) fun _ _ => rfl)
  have key' : CFList.newRate nativeCal back dates amounts (some o) none (some (.delta n)) (some (.delta m)) r F =
        CFList.ofPayoffs dates (((o :: dates.dropLast).zip (dates.zip (amounts.expand dates.length))).map fun x =>
          PayOff.rate ⟨x.1 - m, x.2.1 - m, x.2.2, none, some (.delta n), some r⟩) (some o) (.fwd F) false := by
    unfold CFList.newRate ratePays
    simp only [accrualStarts, Py.ok_bind]
    rw [pyMap_ok (g := fun x : ℤ × ℤ × ℝ => PayOff.rate ⟨x.1 - m, x.2.1 - m, x.2.2, none, some (.delta n), some r⟩)
      fun _ _ => by simp [hmin]]
    rfl
  rw [key] at h
  rw [key']
  unfold CFList.ofPayoffs at h ⊢
  simp only [List.length_map, List.length_zip, List.length_cons, List.length_dropLast] at h ⊢
  split_ifs at h ⊢ with hl
  have h := Except.ok.inj h
  subst h
  refine ⟨_, rfl, rfl, rfl, fun d => ?_⟩
  unfold CFList.getitem
  dsimp only
  let g : PayOff ℤ NativePeriod → PayOff ℤ NativePeriod := fun p => match p with
    | .rate p => .rate ⟨p.start, p.stop, p.amount, none, none, p.fixedRate⟩
    | _ => .num 0
  have hg : (dates.map (· - m)).zip (((o :: dates.dropLast).zip (dates.zip (amounts.expand dates.length))).map fun x =>
        PayOff.rate (P := NativePeriod) ⟨x.1 - m, x.2.1 - m, x.2.2, none, none, some r⟩) =
      (dates.zip (((o :: dates.dropLast).zip (dates.zip (amounts.expand dates.length))).map fun x =>
        PayOff.rate (P := NativePeriod) ⟨x.1 - m, x.2.1 - m, x.2.2, none, some (.delta n), some r⟩)).map fun p => (p.1 - m, g p.2) := by
    rw [List.zip_map, List.zip_map_right, List.map_map]
    rfl
  have hinj : Function.Injective fun x : ℤ => x - m := sub_left_injective
  rw [hg, ofPairs_inj (φ := fun x : ℤ => x - m) hinj, get_inj (φ := fun x : ℤ => x - m) hinj]
  cases hget : Dict.get (Dict.ofPairs (dates.zip (((o :: dates.dropLast).zip (dates.zip (amounts.expand dates.length))).map fun x =>
        PayOff.rate (P := NativePeriod) ⟨x.1 - m, x.2.1 - m, x.2.2, none, some (.delta n), some r⟩))) d with
  | none => rfl
  | some p =>
    have hmem := Dict.mem_of_ofPairs (Dict.get_mem hget)
    obtain ⟨x, -, hx⟩ := List.mem_map.1 (List.of_mem_zip hmem).2
    subst hx
    simp only [g, Option.map_some, PayOff.eval, RatePay.details, RatePay.tau, RatePay.forwardAt, ModelArg.truthy, ModelArg.curve,
      Option.getD_none, hF, hmin, show ∀ d, nativeCal.minus none d = .ok d from fun _ => rfl, Py.ok_bind, hr]
    by_cases hT : F.truthy = true
    · simp only [hT, if_true]
      cases F.rate (x.1 - m - n) <;> rfl
    · simp only [hT]
      rfl

/-- C164 (end dates and periods): a zero `timedelta` besides an end date is ignored, any other one has to lead to the end date, whatever the day;
and every day can be the origin of a list of collared rates. -/
theorem C164_truth (c : IRCurve ℤ NativePeriod) (same : Bool) (limit : ℕ) (s t n : ℤ) :
    c.cashRate nativeCal same limit s (some t) (some (.delta 0)) = c.cashRate nativeCal same limit s (some t) none ∧
    (n ≠ 0 → c.cashRate nativeCal same (limit + 1) s (some t) (some (.delta n)) =
      if t = s + n then c.cashRate nativeCal same (limit + 1) s (some t) none else .error .assertion) ∧
    (∀ (back : ℤ → ℤ → Py ℤ) (dates : List ℤ) (amounts : NumArg) (o : Option ℤ) (dc : Option (ℤ → ℤ → ℝ)) (fo po : Option NativePeriod) (r : ℝ)
      (cap floor : Option ℝ) (f : Fwd ℤ) (arg : ModelArg ℤ), CFList.newContingentRate nativeCal back dates amounts o dc fo po r cap floor arg =
        (fun l : CFList ℤ NativePeriod => { l with flows := l.flows.map fun p => (p.1, p.2.collar floor cap), arg := arg, hasModel := true }) <$>
          CFList.newRate nativeCal back dates amounts o dc fo po r f) ∧
    ∀ (l : CF ℤ NativePeriod) (x : ℤ → ℝ), (∀ d ∈ l.domain, l.getitem nativeCal d = .ok (x d)) →
      ∃ l', l.fix nativeCal (some s) = .ok l' ∧ l'.origin = some s := by
  refine ⟨?_, fun hn => ?_, fun back dates amounts o dc fo po r cap floor f arg => C49_same_partial back dates amounts o dc fo po r cap floor f arg
    fun _ _ => rfl, fun l x hx => C90_origin_partial hx rfl⟩
  · cases limit <;> simp [IRCurve.cashRate, IRCurve.cashStop, nativeCal]
  · rw [IRCurve.cashRate, IRCurve.cashRate]
    have : c.cashStop nativeCal s (some t) (some (.delta n)) = if t = s + n then .ok t else .error .assertion := by
      by_cases ht : t = s + n
      · simp [IRCurve.cashStop, nativeCal, hn, ht]
      · simp [IRCurve.cashStop, nativeCal, hn, ht, Ne.symm ht, eq_comm]
    rw [this]
    split_ifs <;> simp [IRCurve.cashStop]

/-- C164 does not hold for offsets given as strings: no rate list can be built with such a pay offset, and none paid with such a fixing offset. -/
theorem C164_strings_violated (back : ℤ → ℤ → Py ℤ) {dates : List ℤ} (hd : dates ≠ []) (a : ℝ) (o : ℤ) (dc : Option (ℤ → ℤ → ℝ)) (r : ℝ) (F : Fwd ℤ) :
    (∀ fo, CFList.newRate nativeCal back dates (.scalar a) (some o) dc fo (some .str) r F = .error .type) ∧
    (F.truthy = true → ∀ l, CFList.newRate nativeCal back dates (.scalar a) (some o) dc (some .str) none r F = .ok l →
      ∀ d ∈ dates, l.getitem nativeCal d = .error .type) := by
  refine ⟨fun fo => ?_, fun hF l h d hm => ?_⟩
  · obtain ⟨d, ds, rfl⟩ := List.exists_cons_of_ne_nil hd
    simp [CFList.newRate, accrualStarts, ratePays, NumArg.expand, List.replicate_succ, pyMap, Cal.minus, nativeCal]
  · have hz : (o :: dates.dropLast).length = dates.length := by
      rw [List.length_cons, List.length_dropLast]
      have := List.length_pos_iff.2 hd
      omega
    have hp : ratePays nativeCal (o :: dates.dropLast) dates (List.replicate dates.length a) none (fun s e a =>
        (PayOff.rate ⟨s, e, a, dc, some .str, some r⟩ : PayOff ℤ NativePeriod)) =
        .ok (((o :: dates.dropLast).zip (dates.zip (List.replicate dates.length a))).map fun x => .rate ⟨x.1, x.2.1, x.2.2, dc, some .str, some r⟩) :=
      pyMap_ok fun _ _ => rfl
    have hlen : (((o :: dates.dropLast).zip (dates.zip (List.replicate dates.length a))).map fun x =>
        (PayOff.rate ⟨x.1, x.2.1, x.2.2, dc, some .str, some r⟩ : PayOff ℤ NativePeriod)).length = dates.length := by
      simp only [List.length_map, List.length_zip, hz, List.length_replicate, min_self]
    simp only [CFList.newRate, accrualStarts, Py.ok_bind, NumArg.expand, hp, CFList.ofPayoffs, hlen, if_true, Except.ok.injEq] at h
    subst h
    have hk : d ∈ (dates.zip (((o :: dates.dropLast).zip (dates.zip (List.replicate dates.length a))).map fun x =>
        (PayOff.rate ⟨x.1, x.2.1, x.2.2, dc, some .str, some r⟩ : PayOff ℤ NativePeriod))).map Prod.fst := by
      rw [List.map_fst_zip (by rw [hlen])]; exact hm
    unfold CFList.getitem
    dsimp only
    cases hget : Dict.get (Dict.ofPairs (dates.zip (((o :: dates.dropLast).zip (dates.zip (List.replicate dates.length a))).map fun x =>
        (PayOff.rate ⟨x.1, x.2.1, x.2.2, dc, some .str, some r⟩ : PayOff ℤ NativePeriod)))) d with
    | none => exact absurd ((Dict.mem_ofPairs_keys _ _).2 hk) (Dict.get_none.1 hget)
    | some p =>
      have hmem := Dict.mem_of_ofPairs (Dict.get_mem hget)
      obtain ⟨x, -, hx⟩ := List.mem_map.1 (List.of_mem_zip hmem).2
      subst hx
      simp [PayOff.eval, RatePay.details, RatePay.forwardAt, ModelArg.truthy, hF, Cal.minus, nativeCal]

/-- C164 does not hold where a default period is added: cash rates without a forward tenor, short rate and hazard rate curves,
marginal probability curves without a forward tenor, instantaneous volatilities of terminal volatility curves. -/
theorem C164_violated :
    (∀ (c : IRCurve ℤ NativePeriod) (same : Bool) (limit : ℕ) (s : ℤ), c.tenor = none →
      c.cashRate nativeCal same (limit + 1) s none none = .error .type) ∧
    (∀ (c : IRCurve ℤ NativePeriod) (same : Bool) (s t : ℤ), c.cls = .short → s ≠ t → c.factor nativeCal same s t = .error .type) ∧
    (∀ (c : CRCurve ℤ NativePeriod) (same : Bool) (s t : ℤ), c.cls = .hazard → s ≠ t → c.factor nativeCal same s t = .error .type) ∧
    (∀ (c : CRCurve ℤ NativePeriod) (same : Bool) (s t : ℤ), c.cls = .marginal ∨ c.cls = .marginalDefault → c.tenor = none → s ≠ t →
      c.factor nativeCal same s t = .error .type) ∧
    (∀ (c : VolCurve ℤ NativePeriod) (limit : ℕ) (s : ℤ), c.cls = .terminal → c.instantaneousVol nativeCal limit s = .error .type) := by
  refine ⟨fun c same limit s h => ?_, fun c same s t h hst => ?_, fun c same s t h hst => ?_, fun c same s t h h0 hst => ?_,
    fun c limit s h => ?_⟩
  · simp [IRCurve.cashRate, IRCurve.cashStop, IRCurve.forwardTenor, h, nativeCal]
  · unfold IRCurve.factor IRCurve.rate IRCurve.shortRateOf stepLoop
    simp only [h, hst, if_false]
    rw [pyWhile_step]
    simp [nativeCal]
  · unfold CRCurve.factor CRCurve.rate CRCurve.hazardRateOf stepLoop
    simp only [h, hst, if_false]
    rw [pyWhile_step]
    simp [nativeCal]
  · unfold CRCurve.factor CRCurve.marginalFactorOf stepLoop
    rcases h with h | h
    · simp only [h, hst, if_false]
      rw [pyWhile_step]
      simp [nativeCal, CRCurve.forwardTenor, h0]
    · simp only [h, hst, if_false]
      rw [pyWhile_step]
      simp [nativeCal, CRCurve.forwardTenor, h0]
  · simp [VolCurve.instantaneousVol, h, nativeCal]

theorem natives_ok : (∀ s t : ℤ, dayCal.dayCount s t = ((t - s : ℤ) : ℝ) / (36525 / 100)) ∧ StrictMono fun d : ℤ => d :=
  ⟨fun s t => rfl, strictMono_id⟩

/-- Non-vacuity of C164: the dates of `dayCal`; a zero curve with a tenor of 90 days. -/
example : ∃ (c : IRCurve ℤ ℤ) (c' : IRCurve ℤ NativePeriod) (y : ℝ),
    IRCurve.new dayCal .zero [0] [1 / 100] none none .default (some 90) = .ok c ∧
    IRCurve.new nativeCal .zero [0] [1 / 100] none none .default (some (.delta 90)) = .ok c' ∧
    c'.cashRate nativeCal false 1 5 none none = .ok y ∧ y ≠ 0 := by
  have hg : GoodDayCount ((DayCountArg.default : DayCountArg ℤ).fn dayCal) := goodDayCount_int
  have hu : (DayCountArg.default : DayCountArg ℤ).Usable := by simp [DayCountArg.Usable]
  have hn := flatZero_new dayCal (o? := none) (tenor := some 90) hu hg 0 (1 / 100)
  have hf := flatZero_factor dayCal (o? := none) (tenor := some 90) hu hg 0 (1 / 100) false 5 95 (by simp)
  have hd : (flatZero dayCal none .default (some 90) 0 (1 / 100)).dayCount dayCal 5 95 = .ok (dayCal.dayCount 5 95) :=
    irOf_dayCount dayCal hu 5 95
  have hs : (flatZero dayCal none .default (some 90) 0 (1 / 100)).cashStop dayCal 5 none none = .ok 95 := by
    simp [IRCurve.cashStop, IRCurve.forwardTenor, flatZero, irOf, dayCal]
  obtain ⟨c', h1, h2⟩ := C164_cash_rates natives_ok.1 natives_ok.2 (.inl rfl) (p := 90) (n := 90) (fun d => ⟨d + 90, rfl, rfl⟩) hn
  refine ⟨_, c', (1 / Real.exp (-(1 / 100 * dayCal.dayCount 5 95)) - 1) / dayCal.dayCount 5 95, hn, h1, ?_, ?_⟩
  · rw [h2 false 1 5, IRCurve.cashRate.eq_def]
    simp only [hs, Py.ok_bind, show (flatZero dayCal none .default (some 90) 0 (1 / 100)).cls = .zero from rfl, hf, hd, simpleRate]
    have h0 : dayCal.dayCount 5 95 ≠ 0 := by norm_num [dayCal]
    rw [pyDiv_ok (Real.exp_pos _).ne']
    exact pyDiv_ok h0
  · have h0 : 0 < dayCal.dayCount 5 95 := by norm_num [dayCal]
    rw [one_div, ← Real.exp_neg, neg_neg]
    have : 1 < Real.exp (1 / 100 * dayCal.dayCount 5 95) := Real.one_lt_exp_iff.2 (by positivity)
    exact (div_pos (by linarith) h0).ne'

/-- Non-vacuity of the offsets: a fixed rate of one on 100 over 365.25 days, paid two days later, with any fixing offset. -/
example (back : ℤ → ℤ → Py ℤ) : ∃ l, CFList.newRate nativeCal back [36527] (.scalar 100) (some 2) none (some (.delta 3)) (some (.delta 2)) 1 .none = .ok l ∧
    l.getitem nativeCal 36527 = .ok (36525 / (36525 / 100) * 100) := by
  obtain ⟨l', h1, -, -, h2⟩ := C164_offsets (n := 3) (m := 2) (o := 2) (dates := [36527]) (amounts := .scalar 100) (r := 1) (F := .none) (F' := .none)
    back rfl (fun _ => rfl) rfl
  refine ⟨l', h1, (h2 _).trans ?_⟩
  simp [CFList.getitem, Dict.ofPairs, Dict.set, Dict.get, NumArg.expand, PayOff.eval, RatePay.details, RatePay.tau, RatePay.forwardAt, ModelArg.truthy,
    Fwd.truthy, nativeCal]

example (back : ℤ → ℤ → Py ℤ) : ∃ l, CFList.newRate nativeCal back [10] (.scalar 100) (some 0) none (some .str) none 1 (.num 1) = .ok l ∧
    l.getitem nativeCal 10 = .error .type :=
  ⟨_, rfl, (C164_strings_violated back (dates := [10]) (by simp) 100 0 none 1 (.num 1)).2 (by simp [Fwd.truthy]) _ rfl 10 (by simp)⟩

/-! ### The hypotheses can be met: each theorem applied -/

theorem exDayNumbers (s t : ℤ) : dayCal.dayCount s t = ((id t - id s : ℤ) : ℝ) / (36525 / 100) := by simp [dayCal]

example := C164_interest_rate_curves (cal := dayCal) (φ := id) exDayNumbers strictMono_id (cls := .zero) (.inl rfl) [0, 365] [1 / 100, 2 / 100] none none
  (some 90) (some (.delta 90))
example := C164_credit_curves (cal := dayCal) (φ := id) exDayNumbers strictMono_id (cls := .flat) (.inl rfl) [0, 365] [1 / 100, 2 / 100] none none
  (some 90) (some (.delta 90))
example := C164_volatility_curves (cal := dayCal) (φ := id) exDayNumbers strictMono_id none [0, 365] [1 / 100, 2 / 100] none none
  (some 90) (some (.delta 90))
example : ∃ l l', CFList.newRate dayCal (fun _ _ => .error .value) [365] (.scalar 100) (some 0) none none none (1 / 100) .none = .ok l ∧
    CFList.newRate nativeCal (fun _ _ => .error .value) [365] (.scalar 100) (some 0) none none none (1 / 100) .none = .ok l' ∧
    ∀ d, l'.getitem nativeCal d = l.getitem dayCal d := by
  have hl := newRate_eq (cal := dayCal) (back := fun _ _ => .error .value) (amounts := .scalar 100) (dc := none) (fo := none) (c := 1 / 100)
      (f := .none) (starts := [0]) (o := some 0) (po := none) (sh := id) (dates := [365]) rfl rfl (fun d h => rfl) rfl (by norm_num)
  obtain ⟨l', h1, -, -, h2⟩ := C164_rate_lists (cal := dayCal) (φ := id) exDayNumbers strictMono_id (fun _ _ => .error .value) (fun _ _ => .error .value)
    (F := .none) (F' := .none) rfl (fun _ => rfl) hl
  exact ⟨_, l', hl, by simpa using h1, h2⟩

end Dcf
