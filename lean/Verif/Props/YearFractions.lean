import Verif.Props.Moving

/-! # Year fractions in place of dates (C163) -/

set_option linter.unusedSectionVars false
set_option linter.unusedSimpArgs false
set_option linter.unusedVariables false

namespace Dcf

open Spec

section
variable {D P D' P' : Type} [LinearOrder D] [LinearOrder D'] {cal : Cal D P} {cal' : Cal D' P'} {φ : D → D'}

/-- Curves on dates of two types that answer alike. -/
structure AlikeCurves (cal : Cal D P) (cal' : Cal D' P') (φ : D → D') (b : DateCurve D) (b' : DateCurve D') : Prop where
  domain : b'.domain = b.domain.map φ
  origin : b'.origin = b.origin.map φ
  dc : b.dc = .default
  dc' : b'.dc = .default
  call : ∀ d, b'.call cal' (φ d) = b.call cal d

theorem alikeTime (hφ : ∀ s t, cal'.dayCount (φ s) (φ t) = cal.dayCount s t) {b : DateCurve D} {b' : DateCurve D'}
    (ho : b'.origin = b.origin.map φ) (h1 : b.dc = .default) (h2 : b'.dc = .default) (d : D) :
    b'.time cal' (φ d) = b.time cal d := by
  unfold DateCurve.time DateCurve.dayCount
  rw [ho, h1, h2]
  cases b.origin with
  | none => rfl
  | some o => simp [pyDate, DayCountArg.eval, hφ]

theorem dateNew_alike (hφ : ∀ s t, cal'.dayCount (φ s) (φ t) = cal.dayCount s t) (domain : List D) (data : List ℝ)
    (interp : Option FuncSpec) (origin : Option D) (dflt : FuncSpec) :
    (∀ err, DateCurve.new cal domain data interp origin .default dflt = .error err →
      DateCurve.new cal' (domain.map φ) data interp (origin.map φ) .default dflt = .error err) ∧
    ∀ b, DateCurve.new cal domain data interp origin .default dflt = .ok b →
      ∃ b', DateCurve.new cal' (domain.map φ) data interp (origin.map φ) .default dflt = .ok b' ∧ AlikeCurves cal cal' φ b b' := by
  unfold DateCurve.new
  simp only [List.length_map]
  split_ifs with hl
  · unfold DateCurve.update
    rw [pyMap_map]
    have ht : ∀ f f' d, DateCurve.time cal' ⟨domain.map φ, origin.map φ, .default, interp, dflt, [], f'⟩ (φ d) =
        DateCurve.time cal ⟨domain, origin, .default, interp, dflt, [], f⟩ d := by
      intro f f' d
      refine alikeTime hφ ?_ rfl rfl d
      cases origin <;> simp [DateCurve.origin]
    rw [pyMap_congr (l := domain) fun d _ => ht (.base ⟨.no, ⟨[], []⟩, none⟩) (.base ⟨.no, ⟨[], []⟩, none⟩) d]
    cases hp : pyMap (DateCurve.time cal ⟨domain, origin, .default, interp, dflt, [], .base ⟨.no, ⟨[], []⟩, none⟩⟩) domain with
    | error err => simp
    | ok flt =>
      simp only [Py.ok_bind]
      cases hf : fitFunc (interp.getD dflt) flt data with
      | error err => simp
      | ok f =>
        simp only [Py.ok_bind]
        refine ⟨by simp, fun b hb => ?_⟩
        have hb2 := Except.ok.inj hb
        subst hb2
        refine ⟨_, rfl, ⟨rfl, ?_, rfl, rfl, fun d => ?_⟩⟩
        · cases origin <;> simp [DateCurve.origin]
        · simp only [DateCurve.call, Dict.get]
          rw [ht]
  · simp

theorem zeroFactor_alike (hφ : ∀ s t, cal'.dayCount (φ s) (φ t) = cal.dayCount s t) (hm : StrictMono φ) {c : IRCurve D P}
    {c' : IRCurve D' P'} (hb : AlikeCurves cal cal' φ c.base c'.base) (h0 : c.spread = none) (h0' : c'.spread = none)
    (hc : c'.cls = c.cls) (hk : c.cls = .zero ∨ c.cls = .discount) :
    (∀ d, c'.call cal' (φ d) = c.call cal d) ∧
    (∀ same s t, s ≠ t → c'.rate cal' same (φ s) (φ t) = c.rate cal same s t) ∧
    ∀ same s t, c'.factor cal' same (φ s) (φ t) = c.factor cal same s t := by
  have hcall : ∀ d, c'.call cal' (φ d) = c.call cal d := by
    intro d
    simp only [IRCurve.call, RateCurve.call, h0, h0', hb.call]
  have hdc : ∀ s t, c'.dayCount cal' (φ s) (φ t) = c.dayCount cal s t := by
    intro s t
    simp [IRCurve.dayCount, DateCurve.dayCount, hb.dc, hb.dc', DayCountArg.eval, hφ]
  have hinj := hm.injective
  have hdf : ∀ same s t, c'.discountFactorOf cal' same (φ s) (φ t) = c.discountFactorOf cal same s t := by
    intro same s t
    simp only [IRCurve.discountFactorOf, hcall]
  have hzf : ∀ s t, c'.zeroForward cal' (φ s) (φ t) = c.zeroForward cal s t := by
    intro s t
    unfold IRCurve.zeroForward
    rw [hb.origin]
    cases c.base.origin with
    | none => rfl
    | some o => simp only [Option.map_some, pyDate, Py.ok_bind, hcall, hdc]
  have hrate : ∀ same s t, s ≠ t → c'.rate cal' same (φ s) (φ t) = c.rate cal same s t := by
    intro same s t hst
    have hst' : φ s ≠ φ t := hinj.ne hst
    unfold IRCurve.rate
    rw [hc]
    rcases hk with hk | hk
    · simp only [hk, IRCurve.zeroRateOf, hst, hst', false_and, if_false, hcall, hzf]
    · simp only [hk, IRCurve.discountRateOf, hst, hst', false_and, if_false, Py.ok_bind, hdf, hdc]
  refine ⟨hcall, hrate, fun same s t => ?_⟩
  unfold IRCurve.factor
  rw [hc]
  rcases hk with hk | hk
  · simp only [hk, hinj.eq_iff]
    split_ifs with hst
    · rfl
    · rw [hrate same s t hst, hdc]
  · simp only [hk, hdf]

theorem curves_alike (hφ : ∀ s t, cal'.dayCount (φ s) (φ t) = cal.dayCount s t) (hm : StrictMono φ) {cls : IRClass}
    (hk : cls = .zero ∨ cls = .discount) (domain : List D) (data : List ℝ) (interp : Option FuncSpec) (origin : Option D)
    (tenor : Option P) (tenor' : Option P') :
    (∀ err, IRCurve.new cal cls domain data interp origin .default tenor = .error err →
      IRCurve.new cal' cls (domain.map φ) data interp (origin.map φ) .default tenor' = .error err) ∧
    ∀ c, IRCurve.new cal cls domain data interp origin .default tenor = .ok c →
      ∃ c', IRCurve.new cal' cls (domain.map φ) data interp (origin.map φ) .default tenor' = .ok c' ∧
        (∀ d, c'.call cal' (φ d) = c.call cal d) ∧
        (∀ same s t, s ≠ t → c'.rate cal' same (φ s) (φ t) = c.rate cal same s t) ∧
        (∀ same s t, c'.factor cal' same (φ s) (φ t) = c.factor cal same s t) ∧
        ∀ t, c'.discount cal' (φ t) = c.discount cal t := by
  obtain ⟨h1, h2⟩ := dateNew_alike hφ domain data interp origin cls.dflt
  unfold IRCurve.new
  cases hn : DateCurve.new cal domain data interp origin .default cls.dflt with
  | error err =>
    rw [h1 err hn]
    refine ⟨fun err' he => by simpa using he, fun c hc => by simp at hc⟩
  | ok b =>
    obtain ⟨b', hb', ha⟩ := h2 b hn
    rw [hb']
    simp only [Py.ok_bind]
    refine ⟨by simp, fun c hc => ?_⟩
    cases hc
    obtain ⟨g1, g2, g3⟩ := zeroFactor_alike (c := ⟨⟨b, tenor, none⟩, cls⟩) (c' := ⟨⟨b', tenor', none⟩, cls⟩) hφ hm ha rfl rfl rfl hk
    refine ⟨_, rfl, g1, g2, g3, fun t => ?_⟩
    unfold IRCurve.discount
    change (do let o ← pyDate b'.origin; _) = _
    rw [ha.origin]
    cases ho : b.origin with
    | none => simp [pyDate, ho]
    | some o => simpa [pyDate, ho] using g3 true o t

theorem creditFactor_alike (hφ : ∀ s t, cal'.dayCount (φ s) (φ t) = cal.dayCount s t) (hm : StrictMono φ) {c : CRCurve D P}
    {c' : CRCurve D' P'} (hb : AlikeCurves cal cal' φ c.base c'.base) (h0 : c.spread = none) (h0' : c'.spread = none)
    (hc : c'.cls = c.cls) (hk : c.cls = .flat ∨ c.cls = .survival ∨ c.cls = .default) :
    (∀ d, c'.call cal' (φ d) = c.call cal d) ∧
    (∀ same s t, s ≠ t → c'.rate cal' same (φ s) (φ t) = c.rate cal same s t) ∧
    (∀ same s t, c'.factor cal' same (φ s) (φ t) = c.factor cal same s t) ∧
    ∀ t, c'.survivalProb cal' (φ t) = c.survivalProb cal t := by
  have hcall : ∀ d, c'.call cal' (φ d) = c.call cal d := by
    intro d
    simp only [CRCurve.call, RateCurve.call, h0, h0', hb.call]
  have hdc : ∀ s t, c'.dayCount cal' (φ s) (φ t) = c.dayCount cal s t := by
    intro s t
    simp [CRCurve.dayCount, DateCurve.dayCount, hb.dc, hb.dc', DayCountArg.eval, hφ]
  have hinj := hm.injective
  have hdf : ∀ same s t, c'.survivalFactorOf cal' same (φ s) (φ t) = c.survivalFactorOf cal same s t := by
    intro same s t
    simp only [CRCurve.survivalFactorOf, hcall, hinj.eq_iff]
  have hrate : ∀ same s t, s ≠ t → c'.rate cal' same (φ s) (φ t) = c.rate cal same s t := by
    intro same s t hst
    have hst' : φ s ≠ φ t := hinj.ne hst
    have hrs : c.rateStop cal s t = .ok t := by simp [CRCurve.rateStop, hst]
    have hrs' : c'.rateStop cal' (φ s) (φ t) = .ok (φ t) := by simp [CRCurve.rateStop, hst']
    unfold CRCurve.rate
    rw [hc]
    rcases hk with hk | hk | hk
    · simp only [hk, CRCurve.flatRateOf, hst, hst', false_and, if_false, hcall]
      rw [hb.origin]
      cases c.base.origin with
      | none => rfl
      | some o => simp only [Option.map_some, pyDate, Py.ok_bind, hcall, hdc]
    · simp only [hk, hrs, hrs', Py.ok_bind, hdf, hdc]
    · simp only [hk, hrs, hrs', Py.ok_bind, hdf, hdc]
  have hfac : ∀ same s t, c'.factor cal' same (φ s) (φ t) = c.factor cal same s t := by
    intro same s t
    unfold CRCurve.factor
    rw [hc]
    rcases hk with hk | hk | hk
    · simp only [hk, hinj.eq_iff]
      split_ifs with hst
      · rfl
      · rw [hrate same s t hst, hdc]
    · simp only [hk, hdf]
    · simp only [hk, hdf]
  refine ⟨hcall, hrate, hfac, fun t => ?_⟩
  unfold CRCurve.survivalProb
  rw [hb.origin]
  cases c.base.origin with
  | none => rfl
  | some o => simp only [Option.map_some, pyDate, Py.ok_bind, hfac]

theorem credit_alike (hφ : ∀ s t, cal'.dayCount (φ s) (φ t) = cal.dayCount s t) (hm : StrictMono φ) {cls : CRClass}
    (hk : cls = .flat ∨ cls = .survival ∨ cls = .default) (domain : List D) (data : List ℝ) (interp : Option FuncSpec)
    (origin : Option D) (tenor : Option P) (tenor' : Option P') :
    (∀ err, CRCurve.new cal cls domain data interp origin .default tenor = .error err →
      CRCurve.new cal' cls (domain.map φ) data interp (origin.map φ) .default tenor' = .error err) ∧
    ∀ c, CRCurve.new cal cls domain data interp origin .default tenor = .ok c →
      ∃ c', CRCurve.new cal' cls (domain.map φ) data interp (origin.map φ) .default tenor' = .ok c' ∧
        (∀ d, c'.call cal' (φ d) = c.call cal d) ∧
        (∀ same s t, s ≠ t → c'.rate cal' same (φ s) (φ t) = c.rate cal same s t) ∧
        (∀ same s t, c'.factor cal' same (φ s) (φ t) = c.factor cal same s t) ∧
        ∀ t, c'.survivalProb cal' (φ t) = c.survivalProb cal t := by
  have key : ∀ data, (∀ err, CRCurve.make cal cls domain data interp origin .default tenor = .error err →
      CRCurve.make cal' cls (domain.map φ) data interp (origin.map φ) .default tenor' = .error err) ∧
    ∀ c, CRCurve.make cal cls domain data interp origin .default tenor = .ok c →
      ∃ c', CRCurve.make cal' cls (domain.map φ) data interp (origin.map φ) .default tenor' = .ok c' ∧
        (∀ d, c'.call cal' (φ d) = c.call cal d) ∧
        (∀ same s t, s ≠ t → c'.rate cal' same (φ s) (φ t) = c.rate cal same s t) ∧
        (∀ same s t, c'.factor cal' same (φ s) (φ t) = c.factor cal same s t) ∧
        ∀ t, c'.survivalProb cal' (φ t) = c.survivalProb cal t := by
    intro data
    obtain ⟨h1, h2⟩ := dateNew_alike (cal' := cal') hφ domain data interp origin cls.dflt
    unfold CRCurve.make
    cases hn : DateCurve.new cal domain data interp origin .default cls.dflt with
    | error err =>
      rw [h1 err hn]
      exact ⟨fun err' he => by simpa using he, fun c hc => by simp at hc⟩
    | ok b =>
      obtain ⟨b', hb', ha⟩ := h2 b hn
      rw [hb']
      simp only [Py.ok_bind]
      refine ⟨by simp, fun c hc => ?_⟩
      cases hc
      exact ⟨_, rfl, creditFactor_alike (c := ⟨⟨b, tenor, none⟩, cls⟩) (c' := ⟨⟨b', tenor', none⟩, cls⟩) hφ hm ha rfl rfl rfl hk⟩
  unfold CRCurve.new
  by_cases hp : cls.isProb = true
  · by_cases hz : ∀ y ∈ (cls.complement data).map clampProb, y ≠ 0
    · simp only [hp, if_true, if_neg (not_not.2 hz)]
      exact key _
    · simp only [hp, if_true, if_pos hz, Py.throw_eq, Py.error_bind]
      exact ⟨fun err h => by cases h; rfl, fun c h => by cases h⟩
  · simp only [hp, if_false]
    exact key _

theorem vol_alike (hφ : ∀ s t, cal'.dayCount (φ s) (φ t) = cal.dayCount s t) (hm : StrictMono φ) (floor : Option ℝ)
    (domain : List D) (data : List ℝ) (interp : Option FuncSpec) (origin : Option D) (tenor : Option P) (tenor' : Option P') :
    (∀ err, VolCurve.new cal .terminal floor domain data interp origin .default tenor = .error err →
      VolCurve.new cal' .terminal floor (domain.map φ) data interp (origin.map φ) .default tenor' = .error err) ∧
    ∀ c, VolCurve.new cal .terminal floor domain data interp origin .default tenor = .ok c →
      ∃ c', VolCurve.new cal' .terminal floor (domain.map φ) data interp (origin.map φ) .default tenor' = .ok c' ∧
        (∀ scipy limit s, c'.terminalVol cal' scipy limit (φ s) none = c.terminalVol cal scipy limit s none) ∧
        ∀ scipy limit s t, s ≠ t ∨ c.base.origin = some s →
          c'.terminalVol cal' scipy limit (φ s) (some (φ t)) = c.terminalVol cal scipy limit s (some t) := by
  obtain ⟨h1, h2⟩ := dateNew_alike (cal' := cal') hφ domain data interp origin VolClass.terminal.dflt
  unfold VolCurve.new
  cases hn : DateCurve.new cal domain data interp origin .default VolClass.terminal.dflt with
  | error err =>
    rw [h1 err hn]
    exact ⟨fun err' he => by simpa using he, fun c hc => by simp at hc⟩
  | ok b =>
    obtain ⟨b', hb', ha⟩ := h2 b hn
    rw [hb']
    simp only [Py.ok_bind]
    refine ⟨by simp, fun c hc => ?_⟩
    cases hc
    have hcall : ∀ d, VolCurve.call cal' ⟨⟨b', tenor', none⟩, .terminal, floor⟩ (φ d) =
        VolCurve.call cal ⟨⟨b, tenor, none⟩, .terminal, floor⟩ d := by
      intro d
      simp only [VolCurve.call, RateCurve.call, ha.call]
    have hdc : ∀ s t, VolCurve.dayCount cal' ⟨⟨b', tenor', none⟩, .terminal, floor⟩ (φ s) (φ t) =
        VolCurve.dayCount cal ⟨⟨b, tenor, none⟩, .terminal, floor⟩ s t := by
      intro s t
      simp [VolCurve.dayCount, DateCurve.dayCount, ha.dc, ha.dc', DayCountArg.eval, hφ]
    have hfv : ∀ s t, VolCurve.forwardVol cal' ⟨⟨b', tenor', none⟩, .terminal, floor⟩ (φ s) (φ t) =
        VolCurve.forwardVol cal ⟨⟨b, tenor, none⟩, .terminal, floor⟩ s t := by
      intro s t
      unfold VolCurve.forwardVol
      dsimp only
      rw [ha.origin]
      cases b.origin with
      | none => rfl
      | some o => simp only [Option.map_some, pyDate, Py.ok_bind, hcall, hdc]
    refine ⟨_, rfl, fun scipy limit s => ?_, fun scipy limit s t hst => ?_⟩
    · cases limit with
      | zero => rfl
      | succ n =>
        simp only [VolCurve.terminalVol]
        rw [VolCurve.terminalVolT.eq_def, VolCurve.terminalVolT.eq_def]
        exact hcall s
    · cases limit with
      | zero => rfl
      | succ n =>
        simp only [VolCurve.terminalVol]
        rw [VolCurve.terminalVolT.eq_def, VolCurve.terminalVolT.eq_def]
        have ho : (some (φ s) = b'.origin) ↔ (some s = b.origin) := by
          rw [ha.origin]
          cases b.origin with
          | none => simp
          | some o => simp [hm.injective.eq_iff]
        simp only [ho, hm.injective.eq_iff, gt_iff_lt, hm.lt_iff_lt, hcall, hfv]
        split_ifs with h3 h4
        · rfl
        · rcases hst with h | h
          · exact absurd h4 h
          · exact absurd h.symm h3
        · rfl
        · rfl

/-- Cash rates over the forward tenor of the curve, if dates and tenors of both types add up alike. -/
theorem cash_alike (hφ : ∀ s t, cal'.dayCount (φ s) (φ t) = cal.dayCount s t) (hm : StrictMono φ) {cls : IRClass}
    (hk : cls = .zero ∨ cls = .discount ∨ cls = .cash) {domain : List D} {data : List ℝ} {interp : Option FuncSpec}
    {origin : Option D} {p : P} {p' : P'} (hp : ∀ d, cal'.add (φ d) p' = φ <$> cal.add d p) {c : IRCurve D P}
    (hc : IRCurve.new cal cls domain data interp origin .default (some p) = .ok c) :
    ∃ c', IRCurve.new cal' cls (domain.map φ) data interp (origin.map φ) .default (some p') = .ok c' ∧
      ∀ same limit d, c'.cashRate cal' same limit (φ d) none none = c.cashRate cal same limit d none none := by
  obtain ⟨h1, h2⟩ := dateNew_alike (cal' := cal') hφ domain data interp origin cls.dflt
  unfold IRCurve.new at hc ⊢
  rw [Py.bind_eq_ok] at hc
  obtain ⟨b, hn, hc⟩ := hc
  have hc := Except.ok.inj hc
  subst hc
  obtain ⟨b', hb', ha⟩ := h2 b hn
  rw [hb']
  refine ⟨_, rfl, fun same limit d => ?_⟩
  cases limit with
  | zero => rfl
  | succ n =>
    have hcall : ∀ d, IRCurve.call cal' ⟨⟨b', some p', none⟩, cls⟩ (φ d) = IRCurve.call cal ⟨⟨b, some p, none⟩, cls⟩ d := by
      intro d
      simp only [IRCurve.call, RateCurve.call, ha.call]
    have hdc : ∀ s t, IRCurve.dayCount cal' ⟨⟨b', some p', none⟩, cls⟩ (φ s) (φ t) =
        IRCurve.dayCount cal ⟨⟨b, some p, none⟩, cls⟩ s t := by
      intro s t
      simp [IRCurve.dayCount, DateCurve.dayCount, ha.dc, ha.dc', DayCountArg.eval, hφ]
    rw [IRCurve.cashRate.eq_def, IRCurve.cashRate.eq_def]
    simp only [IRCurve.cashStop, IRCurve.forwardTenor, Option.getD_some, hp]
    cases hx : cal.add d p with
    | error e => simp
    | ok x =>
      simp only [Py.map_ok, Py.ok_bind]
      rcases hk with rfl | rfl | rfl
      · obtain ⟨-, -, g⟩ := zeroFactor_alike (c := ⟨⟨b, some p, none⟩, .zero⟩) (c' := ⟨⟨b', some p', none⟩, .zero⟩) hφ hm ha rfl rfl
          rfl (.inl rfl)
        simp only [g, hdc]
      · obtain ⟨-, -, g⟩ := zeroFactor_alike (c := ⟨⟨b, some p, none⟩, .discount⟩) (c' := ⟨⟨b', some p', none⟩, .discount⟩) hφ hm ha
          rfl rfl rfl (.inr rfl)
        simp only [g, hdc]
      · simp [hcall]

theorem present_values_alike (hφ : ∀ s t, cal'.dayCount (φ s) (φ t) = cal.dayCount s t) (hm : StrictMono φ) {cls : IRClass}
    (hk : cls = .zero ∨ cls = .discount) {domain : List D} {data : List ℝ} {interp : Option FuncSpec} {origin : Option D}
    {tenor : Option P} {tenor' : Option P'} {c : IRCurve D P} {c' : IRCurve D' P'}
    (hc : IRCurve.new cal cls domain data interp origin .default tenor = .ok c)
    (hc' : IRCurve.new cal' cls (domain.map φ) data interp (origin.map φ) .default tenor' = .ok c')
    {w : World D P} {w' : World D' P'} {disc disc' : ℕ} (hw : w.curves disc = c.obj) (hw' : w'.curves disc' = c'.obj)
    {p : Product D} {p' : Product D'} {v : D} {flows : List (D × ℝ)} (hp : Pays cal w v p flows)
    (hp' : Pays cal' w' (φ v) p' (flows.map fun q => (φ q.1, q.2))) (same : Bool) {df : D → ℝ}
    (hdf : ∀ q ∈ flows, c.factor cal same v q.1 = .ok (df q.1)) :
    (pvOn cal disc same (some v) p w).1 = .ok ((flows.map fun q => df q.1 * q.2).sum) ∧
    (pvOn cal' disc' same (some (φ v)) p' w').1 = .ok ((flows.map fun q => df q.1 * q.2).sum) := by
  obtain ⟨c2, h2, -, -, h3, -⟩ := (curves_alike hφ hm hk domain data interp origin tenor tenor').2 c hc
  have hcc : c' = c2 := Except.ok.inj (hc'.symm.trans h2)
  subst hcc
  have e1 : ∀ a s t, (c.obj).discountFactor cal a s t = c.factor cal a s t := fun a s t => rfl
  have e2 : ∀ a s t, (c'.obj).discountFactor cal' a s t = c'.factor cal' a s t := fun a s t => rfl
  constructor
  · unfold pvOn
    rw [hw, C54_flows hp (df := df) fun q hq => by rw [e1, hdf q hq]]
  · have hf : ∀ q ∈ flows, c'.factor cal' same (φ v) (φ q.1) = .ok (df q.1) := by
      intro q hq
      rw [h3, hdf q hq]
    have hne : Nonempty D := ⟨v⟩
    have hinv : ∀ d, Function.invFun φ (φ d) = d := Function.leftInverse_invFun hm.injective
    unfold pvOn
    rw [hw', C54_flows hp' (df := fun x => df (Function.invFun φ x)) ?_]
    · simp only [List.map_map, Function.comp_def, hinv]
    · intro q hq
      obtain ⟨q0, hq0, rfl⟩ := List.mem_map.1 hq
      simp only [hinv]
      rw [e2, hf q0 hq0]

theorem get_inj {β γ : Type} (hi : Function.Injective φ) (d : Dict D β) (f : β → γ) (x : D) :
    Dict.get (d.map fun p => (φ p.1, f p.2)) (φ x) = (d.get x).map f := by
  induction d with
  | nil => rfl
  | cons p d ih => simp only [List.map_cons, Dict.get, hi.eq_iff, ih]; split <;> simp

theorem set_inj {β γ : Type} (hi : Function.Injective φ) (d : Dict D β) (f : β → γ) (x : D) (y : β) :
    Dict.set (d.map fun p => (φ p.1, f p.2)) (φ x) (f y) = (d.set x y).map fun p => (φ p.1, f p.2) := by
  induction d with
  | nil => rfl
  | cons p d ih => simp only [List.map_cons, Dict.set, hi.eq_iff, ih]; split <;> simp

theorem ofPairs_inj {β γ : Type} (hi : Function.Injective φ) (l : List (D × β)) (f : β → γ) :
    Dict.ofPairs (l.map fun p => (φ p.1, f p.2)) = (Dict.ofPairs l).map fun p => (φ p.1, f p.2) := by
  have h : ∀ d : Dict D β, (l.map fun p => (φ p.1, f p.2)).foldl (fun d p => Dict.set d p.1 p.2)
      (d.map fun p => (φ p.1, f p.2)) = (l.foldl (fun d p => Dict.set d p.1 p.2) d).map fun p => (φ p.1, f p.2) := by
    induction l with
    | nil => intro d; rfl
    | cons p l ih => intro d; simp only [List.map_cons, List.foldl_cons, set_inj hi, ih]
  exact h []

theorem rate_lists_alike (hφ : ∀ s t, cal'.dayCount (φ s) (φ t) = cal.dayCount s t) (hm : StrictMono φ) (back : D → D → Py D)
    (back' : D' → D' → Py D') {dates : List D} {amounts : NumArg} {o : D} {r : ℝ} {l : CFList D P}
    {F : Fwd D} {F' : Fwd D'} (hF : F'.truthy = F.truthy) (hr : ∀ d, F'.rate (φ d) = F.rate d)
    (h : CFList.newRate cal back dates amounts (some o) none none none r F = .ok l) :
    ∃ l', CFList.newRate cal' back' (dates.map φ) amounts (some (φ o)) none none none r F' = .ok l' ∧
      l'.domain = l.domain.map φ ∧ l'.origin = some (φ o) ∧ ∀ d, l'.getitem cal' (φ d) = l.getitem cal d := by
  have key : ∀ (cal : Cal D P) (back : D → D → Py D) (dates : List D) (o : D),
      CFList.newRate cal back dates amounts (some o) none none none r F =
        CFList.ofPayoffs dates (((o :: dates.dropLast).zip (dates.zip (amounts.expand dates.length))).map fun x =>
          PayOff.rate ⟨x.1, x.2.1, x.2.2, none, none, some r⟩) (some o) (.fwd F) false := by
    intro cal back dates o
    unfold CFList.newRate ratePays
    simp only [accrualStarts, Py.ok_bind, Cal.minus]
    rw [pyMap_ok (g := fun x : D × D × ℝ => PayOff.rate ⟨x.1, x.2.1, x.2.2, none, none, some r⟩) fun _ _ => rfl]
    rfl
  have key' : ∀ (cal : Cal D' P') (back : D' → D' → Py D') (dates : List D') (o : D'),
      CFList.newRate cal back dates amounts (some o) none none none r F' =
        CFList.ofPayoffs dates (((o :: dates.dropLast).zip (dates.zip (amounts.expand dates.length))).map fun x =>
          PayOff.rate ⟨x.1, x.2.1, x.2.2, none, none, some r⟩) (some o) (.fwd F') false := by
    intro cal back dates o
    unfold CFList.newRate ratePays
    simp only [accrualStarts, Py.ok_bind, Cal.minus]
    rw [pyMap_ok (g := fun x : D' × D' × ℝ => PayOff.rate ⟨x.1, x.2.1, x.2.2, none, none, some r⟩) fun _ _ => rfl]
    rfl
  rw [key] at h
  rw [key']
  unfold CFList.ofPayoffs at h ⊢
  simp only [List.length_map, List.length_zip, List.length_cons, List.length_dropLast] at h ⊢
  split_ifs at h ⊢ with hl
  have h := Except.ok.inj h
  subst h
  have hz : (φ o :: (dates.map φ).dropLast).zip ((dates.map φ).zip (amounts.expand dates.length)) =
      ((o :: dates.dropLast).zip (dates.zip (amounts.expand dates.length))).map fun x => (φ x.1, φ x.2.1, x.2.2) := by
    have h1 : (dates.map φ).zip (amounts.expand dates.length) = (dates.zip (amounts.expand dates.length)).map (Prod.map φ id) :=
      List.zip_map_left ..
    rw [← List.map_dropLast, ← List.map_cons (f := φ), h1, List.zip_map]
    rfl
  refine ⟨_, rfl, rfl, rfl, fun d => ?_⟩
  unfold CFList.getitem
  dsimp only
  rw [hz, List.map_map]
  let g : PayOff D P → PayOff D' P' := fun p => match p with
    | .rate p => .rate ⟨φ p.start, φ p.stop, p.amount, none, none, p.fixedRate⟩
    | _ => .num 0
  have hg : (dates.map φ).zip (((o :: dates.dropLast).zip (dates.zip (amounts.expand dates.length))).map
      ((fun x : D' × D' × ℝ => PayOff.rate (P := P') ⟨x.1, x.2.1, x.2.2, none, none, some r⟩) ∘
        fun x : D × D × ℝ => (φ x.1, φ x.2.1, x.2.2))) =
      (dates.zip (((o :: dates.dropLast).zip (dates.zip (amounts.expand dates.length))).map fun x =>
        PayOff.rate (P := P) ⟨x.1, x.2.1, x.2.2, none, none, some r⟩)).map fun p => (φ p.1, g p.2) := by
    rw [List.zip_map, List.zip_map_right, List.map_map]
    rfl
  rw [hg, ofPairs_inj hm.injective, get_inj hm.injective]
  cases hget : Dict.get (Dict.ofPairs (dates.zip (((o :: dates.dropLast).zip (dates.zip (amounts.expand dates.length))).map fun x =>
        PayOff.rate (P := P) ⟨x.1, x.2.1, x.2.2, none, none, some r⟩))) d with
  | none => rfl
  | some p =>
    have hmem := Dict.mem_of_ofPairs (Dict.get_mem hget)
    obtain ⟨x, -, hx⟩ := List.mem_map.1 (List.of_mem_zip hmem).2
    subst hx
    have ht : ∀ s t, cal'.dayCount (φ s) (φ t) = cal.dayCount s t := fun s t => hφ s t
    simp only [g, Option.map_some, PayOff.eval, RatePay.details, RatePay.tau, RatePay.forwardAt, ModelArg.truthy, ModelArg.curve,
      Option.getD_none, ht, hF, Cal.minus, Py.ok_bind, hr]
    by_cases hT : F.truthy = true
    · simp only [hT, if_true]
      cases F.rate x.1 <;> rfl
    · simp only [hT]
      rfl

end

section
variable {D P : Type} [LinearOrder D] {cal : Cal D P} {φ : D → ℝ}

/-- C163: a zero rate or discount factor curve made with the year fractions `φ d` in place of the dates `d` answers alike: its
values, its discount factors between all dates, and its rates between different dates. -/
theorem C163_curves (hφ : ∀ s t, φ t - φ s = cal.dayCount s t) (hm : StrictMono φ) {cls : IRClass}
    (hk : cls = .zero ∨ cls = .discount) (domain : List D) (data : List ℝ) (interp : Option FuncSpec) (origin : Option D)
    (tenor : Option P) (tenor' : Option FloatPeriod) :
    (∀ err, IRCurve.new cal cls domain data interp origin .default tenor = .error err →
      IRCurve.new floatCal cls (domain.map φ) data interp (origin.map φ) .default tenor' = .error err) ∧
    ∀ c, IRCurve.new cal cls domain data interp origin .default tenor = .ok c →
      ∃ c', IRCurve.new floatCal cls (domain.map φ) data interp (origin.map φ) .default tenor' = .ok c' ∧
        (∀ d, c'.call floatCal (φ d) = c.call cal d) ∧
        (∀ same s t, s ≠ t → c'.rate floatCal same (φ s) (φ t) = c.rate cal same s t) ∧
        (∀ same s t, c'.factor floatCal same (φ s) (φ t) = c.factor cal same s t) ∧
        ∀ t, c'.discount floatCal (φ t) = c.discount cal t :=
  curves_alike (cal' := floatCal) (fun s t => hφ s t) hm hk domain data interp origin tenor tenor'

/-- C163: present values of fixed flows on such curves agree. -/
theorem C163_present_values (hφ : ∀ s t, φ t - φ s = cal.dayCount s t) (hm : StrictMono φ) {cls : IRClass}
    (hk : cls = .zero ∨ cls = .discount) {domain : List D} {data : List ℝ} {interp : Option FuncSpec} {origin : Option D}
    {tenor : Option P} {tenor' : Option FloatPeriod} {c : IRCurve D P} {c' : IRCurve ℝ FloatPeriod}
    (hc : IRCurve.new cal cls domain data interp origin .default tenor = .ok c)
    (hc' : IRCurve.new floatCal cls (domain.map φ) data interp (origin.map φ) .default tenor' = .ok c')
    {w : World D P} {w' : World ℝ FloatPeriod} {disc disc' : ℕ} (hw : w.curves disc = c.obj) (hw' : w'.curves disc' = c'.obj)
    {p : Product D} {p' : Product ℝ} {v : D} {flows : List (D × ℝ)} (hp : Pays cal w v p flows)
    (hp' : Pays floatCal w' (φ v) p' (flows.map fun q => (φ q.1, q.2))) (same : Bool) {df : D → ℝ}
    (hdf : ∀ q ∈ flows, c.factor cal same v q.1 = .ok (df q.1)) :
    (pvOn cal disc same (some v) p w).1 = .ok ((flows.map fun q => df q.1 * q.2).sum) ∧
    (pvOn floatCal disc' same (some (φ v)) p' w').1 = .ok ((flows.map fun q => df q.1 * q.2).sum) :=
  present_values_alike (cal' := floatCal) (fun s t => hφ s t) hm hk hc hc' hw hw' hp hp' same hdf

/-- C163 for flat intensity, survival and default probability curves. -/
theorem C163_credit_curves (hφ : ∀ s t, φ t - φ s = cal.dayCount s t) (hm : StrictMono φ) {cls : CRClass}
    (hk : cls = .flat ∨ cls = .survival ∨ cls = .default) (domain : List D) (data : List ℝ) (interp : Option FuncSpec)
    (origin : Option D) (tenor : Option P) (tenor' : Option FloatPeriod) :
    (∀ err, CRCurve.new cal cls domain data interp origin .default tenor = .error err →
      CRCurve.new floatCal cls (domain.map φ) data interp (origin.map φ) .default tenor' = .error err) ∧
    ∀ c, CRCurve.new cal cls domain data interp origin .default tenor = .ok c →
      ∃ c', CRCurve.new floatCal cls (domain.map φ) data interp (origin.map φ) .default tenor' = .ok c' ∧
        (∀ d, c'.call floatCal (φ d) = c.call cal d) ∧
        (∀ same s t, s ≠ t → c'.rate floatCal same (φ s) (φ t) = c.rate cal same s t) ∧
        (∀ same s t, c'.factor floatCal same (φ s) (φ t) = c.factor cal same s t) ∧
        ∀ t, c'.survivalProb floatCal (φ t) = c.survivalProb cal t :=
  credit_alike (cal' := floatCal) (fun s t => hφ s t) hm hk domain data interp origin tenor tenor'

/-- C163 for terminal volatility curves: volatilities from the origin and between different dates. -/
theorem C163_volatility_curves (hφ : ∀ s t, φ t - φ s = cal.dayCount s t) (hm : StrictMono φ) (floor : Option ℝ)
    (domain : List D) (data : List ℝ) (interp : Option FuncSpec) (origin : Option D) (tenor : Option P) (tenor' : Option FloatPeriod) :
    (∀ err, VolCurve.new cal .terminal floor domain data interp origin .default tenor = .error err →
      VolCurve.new floatCal .terminal floor (domain.map φ) data interp (origin.map φ) .default tenor' = .error err) ∧
    ∀ c, VolCurve.new cal .terminal floor domain data interp origin .default tenor = .ok c →
      ∃ c', VolCurve.new floatCal .terminal floor (domain.map φ) data interp (origin.map φ) .default tenor' = .ok c' ∧
        (∀ scipy limit s, c'.terminalVol floatCal scipy limit (φ s) none = c.terminalVol cal scipy limit s none) ∧
        ∀ scipy limit s t, s ≠ t ∨ c.base.origin = some s →
          c'.terminalVol floatCal scipy limit (φ s) (some (φ t)) = c.terminalVol cal scipy limit s (some t) :=
  vol_alike (cal' := floatCal) (fun s t => hφ s t) hm floor domain data interp origin tenor tenor'

/-- C163: rate lists without forward curve, made with year fractions in place of dates, pay the same amounts. -/
theorem C163_rate_lists (hφ : ∀ s t, φ t - φ s = cal.dayCount s t) (hm : StrictMono φ) (back : D → D → Py D)
    (back' : ℝ → ℝ → Py ℝ) {dates : List D} {amounts : NumArg} {o : D} {r : ℝ} {l : CFList D P}
    (h : CFList.newRate cal back dates amounts (some o) none none none r .none = .ok l) :
    ∃ l', CFList.newRate floatCal back' (dates.map φ) amounts (some (φ o)) none none none r .none = .ok l' ∧
      l'.domain = l.domain.map φ ∧ l'.origin = some (φ o) ∧ ∀ d, l'.getitem floatCal (φ d) = l.getitem cal d :=
  rate_lists_alike (cal' := floatCal) (F' := .none) (fun s t => hφ s t) hm back back' rfl (fun _ => rfl) h

end

/-- Non-vacuity of the assumptions of C163: year fractions of day numbers. -/
theorem years_ok : (∀ s t : ℤ, ((t : ℝ) / (36525 / 100) - (s : ℝ) / (36525 / 100)) = dayCal.dayCount s t) ∧
    StrictMono fun d : ℤ => (d : ℝ) / (36525 / 100) := by
  refine ⟨fun s t => by simp [dayCal]; ring, fun a b h => ?_⟩
  have : (a : ℝ) < b := by exact_mod_cast h
  simp only
  gcongr

/-- A list paying 7 at one date. -/
noncomputable def oneFlow {D P : Type} [LinearOrder D] (c : CurveObj D P) (d : D) : World D P where
  curves := fun _ => c
  models := fun _ => ⟨none, fun _ => .fn fun _ => .ok 0, fun _ => .none, none, false, intrinsicFormula⟩
  lists := fun _ => ⟨none, [d], .ofPairs [(d, .num 7)], .fwd fun _ => .none, false, false, false⟩

theorem oneFlow_pays {D P : Type} [LinearOrder D] {cal : Cal D P} (c : CurveObj D P) {v d : D} (h : v ≤ d) :
    Pays cal (oneFlow c d) v (.list 0) [(d, 7)] := by
  refine ⟨[[(d, 7)]], ?_, by simp⟩
  rw [Product.leaves]
  refine .cons ⟨fun h' => absurd h' (by simp [oneFlow]), fun _ => 7, ?_, by simp [oneFlow, h]⟩ .nil
  intro x hx _
  simp only [oneFlow, List.mem_singleton] at hx
  subst hx
  simp [World.list, World.dated, oneFlow, CFList.getitem, Dict.ofPairs, Dict.get, Dict.set, PayOff.eval]

/-- Non-vacuity of C163_present_values. -/
example : ∃ (φ : ℤ → ℝ) (c : IRCurve ℤ ℤ) (c' : IRCurve ℝ FloatPeriod) (df : ℤ → ℝ),
    (∀ s t, φ t - φ s = dayCal.dayCount s t) ∧ StrictMono φ ∧
    IRCurve.new dayCal .zero [0] [1 / 100] none none .default none = .ok c ∧
    IRCurve.new floatCal .zero ([0].map φ) [1 / 100] none none .default none = .ok c' ∧
    Pays dayCal (oneFlow c.obj 1461) 0 (.list 0) [(1461, 7)] ∧
    Pays floatCal (oneFlow c'.obj (φ 1461)) (φ 0) (.list 0) ([(1461, 7)].map fun q => (φ q.1, q.2)) ∧
    c.factor dayCal false 0 1461 = .ok (df 1461) := by
  have hu : (DayCountArg.default : DayCountArg ℤ).Usable := by simp [DayCountArg.Usable]
  exact ⟨_, _, _, fun _ => _, years_ok.1, years_ok.2, flatZero_new dayCal (o? := none) (tenor := none) hu goodDayCount_int 0 (1 / 100),
    flatZero_new floatCal (o? := none) (dc := .default) (tenor := none) trivial goodDayCount_real _ (1 / 100),
    oneFlow_pays _ (by norm_num), oneFlow_pays _ (years_ok.2.monotone (by norm_num)),
    flatZero_factor dayCal (o? := none) (tenor := none) hu goodDayCount_int 0 (1 / 100) false 0 1461 (by simp)⟩

/-- C163 does not hold for cash rates over the default period, nor for short rates and short rate curves: `'3M'` and `'1D'`
cannot be added to a float.  The same curves on calendar dates answer. -/
theorem C163_violated :
    (∀ (c : IRCurve ℝ FloatPeriod) (same : Bool) (limit : ℕ) (s : ℝ), c.tenor = none →
      c.cashRate floatCal same (limit + 1) s none none = .error .type) ∧
    (∀ (c : IRCurve ℝ FloatPeriod) (same : Bool) (s t : ℝ), c.cls = .short → s ≠ t → c.factor floatCal same s t = .error .type) ∧
    (∃ (c : IRCurve ℤ ℤ) (y : ℝ), IRCurve.new dayCal .zero [0] [1 / 100] none none .default none = .ok c ∧
      c.cashRate dayCal false 1 0 none none = .ok y) := by
  refine ⟨fun c same limit s h => ?_, fun c same s t h hst => ?_, ?_⟩
  · simp [IRCurve.cashRate, IRCurve.cashStop, IRCurve.forwardTenor, h, floatCal]
  · unfold IRCurve.factor IRCurve.rate IRCurve.shortRateOf stepLoop
    simp only [h, hst, if_false]
    rw [pyWhile_step]
    simp [floatCal]
  · have hg : GoodDayCount ((DayCountArg.default : DayCountArg ℤ).fn dayCal) := goodDayCount_int
    have hu : (DayCountArg.default : DayCountArg ℤ).Usable := by simp [DayCountArg.Usable]
    have hn := flatZero_new dayCal (o? := none) (tenor := none) hu hg 0 (1 / 100)
    have hf := flatZero_factor dayCal (o? := none) (tenor := none) hu hg 0 (1 / 100) false 0 90 (by simp)
    have hd : (flatZero dayCal none .default none 0 (1 / 100)).dayCount dayCal 0 90 = .ok (dayCal.dayCount 0 90) :=
      irOf_dayCount dayCal hu 0 90
    have hs : (flatZero dayCal none .default none 0 (1 / 100)).cashStop dayCal 0 none none = .ok 90 := by
      simp [IRCurve.cashStop, IRCurve.forwardTenor, flatZero, irOf, dayCal]
    refine ⟨_, (1 / Real.exp (-(1 / 100 * dayCal.dayCount 0 90)) - 1) / dayCal.dayCount 0 90, hn, ?_⟩
    rw [IRCurve.cashRate.eq_def]
    simp only [hs, Py.ok_bind, show (flatZero dayCal none .default none 0 (1 / 100)).cls = .zero from rfl, hf, hd, simpleRate]
    have h0 : dayCal.dayCount 0 90 ≠ 0 := by simp [dayCal]
    rw [pyDiv_ok (Real.exp_pos _).ne']
    exact pyDiv_ok h0

end Dcf
