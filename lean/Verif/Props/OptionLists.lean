import Verif.Props.Options
import Verif.Props.Cashflow

/-! # Lists of options and option strategies: C114 -/

set_option linter.unusedSectionVars false
set_option linter.unusedSimpArgs false
set_option linter.unusedVariables false

namespace Dcf

open Spec

section
variable {D P : Type} [LinearOrder D] {cal : Cal D P}

/-- Reading flow `i` of a list of payoffs. -/
theorem ofPayoffs_getitem {dates : List D} {ps : List (PayOff D P)} {o : Option D} {arg : ModelArg D} {b : Bool} (hn : dates.Nodup)
    (hl : ps.length = dates.length) :
    ∃ l, CFList.ofPayoffs dates ps o arg b = .ok l ∧ l.domain = dates ∧ l.arg = arg ∧ l.origin? = o ∧
      (∀ d, d ∉ dates → ∀ a, CFList.getitem cal { l with arg := a } d = .ok 0) ∧
      ∀ i (hi : i < dates.length) a, CFList.getitem cal { l with arg := a } dates[i] = (ps[i]'(by omega)).eval cal a := by
  refine ⟨⟨o, dates, Dict.ofPairs (dates.zip ps), arg, b⟩, by simp [CFList.ofPayoffs, hl], rfl, rfl, rfl, fun d hd a => ?_, fun i hi a => ?_⟩
  · simp only [CFList.getitem]
    rw [Dict.get_ofPairs_none (by rwa [zip_fst_lt (by simpa using hl)])]
  · simp only [CFList.getitem]
    have hi' : i < (dates.zip ps).length := by simp; omega
    have h := Dict.get_ofPairs_idx (dates.zip ps) i hi' (fun j hj hij e => by
      simp only [List.getElem_zip] at e
      have := (List.Nodup.getElem_inj_iff hn).1 e; omega)
    simp only [List.getElem_zip] at h
    rw [h]

/-- The arguments of an option list have the length of the dates (or are scalar) and offsets can be applied. -/
structure OptionArgs (cal : Cal D P) (dates : List D) (amounts strikes : NumArg) (isPut : BoolArg) (fo po : Option P) (ex : D → D) : Prop where
  nodup : dates.Nodup
  amounts : (amounts.expand dates.length).length = dates.length
  strikes : (strikes.expand dates.length).length = dates.length
  isPut : (isPut.expand dates.length).length = dates.length
  expiry : ∀ d ∈ dates, ∃ e, MovedBack cal po d e ∧ MovedBack cal fo e (ex d)

variable {dates : List D} {amounts strikes : NumArg} {isPut : BoolArg} {fo po : Option P} {ex : D → D}

theorem newOption_eq (h : OptionArgs cal dates amounts strikes isPut fo po ex) (o : Option D) (arg : ModelArg D) :
    CFList.newOption cal dates amounts strikes isPut fo po o arg =
      CFList.ofPayoffs dates ((dates.zip ((amounts.expand dates.length).zip ((strikes.expand dates.length).zip
        (isPut.expand dates.length)))).map fun x => PayOff.option ⟨ex x.1, x.2.1, some x.2.2.1, x.2.2.2⟩) o arg true := by
  simp only [CFList.newOption]
  rw [pyMap_ok (g := fun x : D × ℝ × ℝ × Bool => PayOff.option ⟨ex x.1, x.2.1, some x.2.2.1, x.2.2.2⟩) fun x hx => ?_]
  · simp only [Py.ok_bind, CFList.newContingent, Option.getD_some]
  · obtain ⟨e, h1, h2⟩ := h.expiry x.1 (List.of_mem_zip hx).1
    rw [(C48_offset _ _ _).2 h1, Py.ok_bind, (C48_offset _ _ _).2 h2, Py.ok_bind]

theorem option_eval {m : OptModel D} {o : OptPay D} {v : ℝ}
    (hv : (if o.isPut then m.putValue cal o.expiry o.strike else m.callValue cal o.expiry o.strike) = .ok v) :
    (PayOff.option o : PayOff D P).eval cal (.model m) = .ok (o.amount * v) := by
  simp only [PayOff.eval, OptPay.cashflow]
  have : ∃ d, m.details cal o.expiry o.strike = .ok d := by
    split_ifs at hv
    · simp only [OptModel.putValue, Py.bind_eq_ok] at hv
      exact ⟨_, hv.choose_spec.1⟩
    · simp only [OptModel.callValue, Py.bind_eq_ok] at hv
      exact ⟨_, hv.choose_spec.1⟩
  obtain ⟨d, hd⟩ := this
  rw [hd]
  split_ifs at hv ⊢ <;> simp [hv]

/-- C114: an option list pays on each date its amount times the model's value of the option expiring on that date, moved back
by both offsets; nothing on other dates; with another model the values of that one. -/
theorem C114_options (h : OptionArgs cal dates amounts strikes isPut fo po ex) (o : Option D) (arg : ModelArg D) :
    ∃ l, CFList.newOption cal dates amounts strikes isPut fo po o arg = .ok l ∧ l.domain = dates ∧ l.origin? = o ∧ l.arg = arg ∧
      ∀ m : OptModel D, (∀ d, d ∉ dates → CFList.getitem cal { l with arg := .model m } d = .ok 0) ∧
        ∀ i (hi : i < dates.length) (a k : ℝ) (p : Bool), (amounts.expand dates.length)[i]? = some a →
          (strikes.expand dates.length)[i]? = some k → (isPut.expand dates.length)[i]? = some p → ∀ v : ℝ,
          (p = false → m.callValue cal (ex dates[i]) (some k) = .ok v) → (p = true → m.putValue cal (ex dates[i]) (some k) = .ok v) →
          CFList.getitem cal { l with arg := .model m } dates[i] = .ok (a * v) := by
  obtain ⟨l, hl, hd, ha, ho, hout, hin⟩ := ofPayoffs_getitem (cal := cal) (o := o) (arg := arg) (b := true) h.nodup
    (ps := (dates.zip ((amounts.expand dates.length).zip ((strikes.expand dates.length).zip
        (isPut.expand dates.length)))).map fun x => PayOff.option ⟨ex x.1, x.2.1, some x.2.2.1, x.2.2.2⟩)
    (by simp [h.amounts, h.strikes, h.isPut])
  refine ⟨l, by rw [newOption_eq h, hl], hd, ho, ha, fun m => ⟨fun d hd => hout d hd _, fun i hi a k p hia hik hip v hc hp => ?_⟩⟩
  rw [hin i hi]
  simp only [List.getElem_map, List.getElem_zip]
  rw [List.getElem?_eq_some_iff] at hia hik hip
  obtain ⟨_, rfl⟩ := hia
  obtain ⟨_, rfl⟩ := hik
  obtain ⟨_, rfl⟩ := hip
  refine option_eval ?_
  split_ifs with hb
  · exact hp hb
  · exact hc (by simpa using hb)

/-- C114: with lists of notionals, strikes and flags the option of each date has the numbers at its place. -/
theorem C114_lists {ns ks : List ℝ} {fs : List Bool} (h : OptionArgs cal dates (.list ns) (.list ks) (.list fs) fo po ex) (o : Option D)
    (arg : ModelArg D) : ∃ l, CFList.newOption cal dates (.list ns) (.list ks) (.list fs) fo po o arg = .ok l ∧
      ∀ (m : OptModel D) i (hi : i < dates.length) (a k : ℝ) (p : Bool), ns[i]? = some a → ks[i]? = some k → fs[i]? = some p → ∀ v : ℝ,
        (p = false → m.callValue cal (ex dates[i]) (some k) = .ok v) → (p = true → m.putValue cal (ex dates[i]) (some k) = .ok v) →
        CFList.getitem cal { l with arg := .model m } dates[i] = .ok (a * v) := by
  obtain ⟨l, hl, -, -, -, hf⟩ := C114_options h o arg
  exact ⟨l, hl, fun m i hi a k p h1 h2 h3 => (hf m).2 i hi a k p h1 h2 h3⟩

/-- C114: a notional, a strike and a flag given once are those of all options. -/
theorem C114_scalars {a k : ℝ} {p : Bool} (hn : dates.Nodup) (hex : ∀ d ∈ dates, ∃ e, MovedBack cal po d e ∧ MovedBack cal fo e (ex d))
    (o : Option D) (arg : ModelArg D) : ∃ l, CFList.newOption cal dates (.scalar a) (.scalar k) (.scalar p) fo po o arg = .ok l ∧
      ∀ (m : OptModel D), ∀ d ∈ dates, ∀ v : ℝ, (p = false → m.callValue cal (ex d) (some k) = .ok v) →
        (p = true → m.putValue cal (ex d) (some k) = .ok v) → CFList.getitem cal { l with arg := .model m } d = .ok (a * v) := by
  obtain ⟨l, hl, -, -, -, hf⟩ := C114_options (cal := cal) (amounts := .scalar a) (strikes := .scalar k) (isPut := .scalar p)
    ⟨hn, by simp [NumArg.expand], by simp [NumArg.expand], by simp [BoolArg.expand], hex⟩ o arg
  refine ⟨l, hl, fun m d hd v h1 h2 => ?_⟩
  obtain ⟨i, hi, rfl⟩ := List.getElem_of_mem hd
  exact (hf m).2 i hi a k p (by simp [NumArg.expand, hi]) (by simp [NumArg.expand, hi]) (by simp [BoolArg.expand, hi]) v h1 h2

/-- C114: without a model all options are worth nothing. -/
theorem C114_no_model (h : OptionArgs cal dates amounts strikes isPut fo po ex) (o : Option D) :
    ∃ l, CFList.newOption cal dates amounts strikes isPut fo po o (.fwd .none) = .ok l ∧ ∀ d, l.getitem cal d = .ok 0 := by
  obtain ⟨l, hl, hd, ha, ho, hout, hin⟩ := ofPayoffs_getitem (cal := cal) (o := o) (arg := .fwd .none) (b := true) h.nodup
    (ps := (dates.zip ((amounts.expand dates.length).zip ((strikes.expand dates.length).zip
        (isPut.expand dates.length)))).map fun x => PayOff.option ⟨ex x.1, x.2.1, some x.2.2.1, x.2.2.2⟩)
    (by simp [h.amounts, h.strikes, h.isPut])
  refine ⟨l, by rw [newOption_eq h, hl], fun d => ?_⟩
  have e : l = { l with arg := .fwd .none } := by rw [← ha]
  rw [e]
  by_cases hm : d ∈ dates
  · obtain ⟨i, hi, rfl⟩ := List.getElem_of_mem hm
    rw [hin i hi]
    simp [PayOff.eval, OptPay.cashflow, Fwd.truthy]
  · exact hout d hm _

/-- C114 (what goes wrong): a forward curve (or a price) in place of a model raises `AttributeError` on every pay date, although
the payoffs of rates accept curves as well as models. -/
theorem C114_curve_violated (h : OptionArgs cal dates amounts strikes isPut fo po ex) (o : Option D) {f : Fwd D} (hf : f.truthy = true) :
    ∃ l, CFList.newOption cal dates amounts strikes isPut fo po o (.fwd f) = .ok l ∧ ∀ d ∈ dates, l.getitem cal d = .error .attribute := by
  obtain ⟨l, hl, hd, ha, ho, hout, hin⟩ := ofPayoffs_getitem (cal := cal) (o := o) (arg := .fwd f) (b := true) h.nodup
    (ps := (dates.zip ((amounts.expand dates.length).zip ((strikes.expand dates.length).zip
        (isPut.expand dates.length)))).map fun x => PayOff.option ⟨ex x.1, x.2.1, some x.2.2.1, x.2.2.2⟩)
    (by simp [h.amounts, h.strikes, h.isPut])
  refine ⟨l, by rw [newOption_eq h, hl], fun d hm => ?_⟩
  have e : l = { l with arg := .fwd f } := by rw [← ha]
  rw [e]
  obtain ⟨i, hi, rfl⟩ := List.getElem_of_mem hm
  rw [hin i hi]
  simp [PayOff.eval, OptPay.cashflow, hf]

/-- C114: a list of up to ten options per date pays on each date the sum of the values of the calls and puts, each amount with
its strike. -/
theorem C114_strategies {cs ps : List ℝ} (h10 : cs.length + ps.length ≤ 10) (hn : dates.Nodup)
    (hex : ∀ d ∈ dates, ∃ e, MovedBack cal po d e ∧ MovedBack cal fo e (ex d)) (ca pa : NumArg) (o : Option D) (arg : ModelArg D) :
    ∃ l, CFList.newStrategy cal dates ca cs pa ps fo po o arg = .ok l ∧ l.domain = dates ∧ l.origin? = o ∧ l.arg = arg ∧
      ∀ (m : OptModel D), (∀ d, d ∉ dates → CFList.getitem cal { l with arg := .model m } d = .ok 0) ∧
        ∀ d ∈ dates, ∀ C Q : ℝ → ℝ, (∀ k ∈ cs, m.callValue cal (ex d) (some k) = .ok (C k)) →
          (∀ k ∈ ps, m.putValue cal (ex d) (some k) = .ok (Q k)) →
          CFList.getitem cal { l with arg := .model m } d = .ok (
            (((ca.expand cs.length).zip cs).map fun x => x.1 * C x.2).sum + (((pa.expand ps.length).zip ps).map fun x => x.1 * Q x.2).sum) := by
  obtain ⟨l, hl, hd, ha, ho, hout, hin⟩ := ofPayoffs_getitem (cal := cal) (o := o) (arg := arg) (b := true) hn
    (ps := dates.map fun d => PayOff.strategy (strategyOptions (ex d) ca cs pa ps)) (by simp)
  refine ⟨l, ?_, hd, ho, ha, fun m => ⟨fun d hd => hout d hd _, fun d hd C Q hC hP => ?_⟩⟩
  · simp only [CFList.newStrategy]
    rw [if_neg (by omega), pyMap_ok (g := fun d => PayOff.strategy (strategyOptions (ex d) ca cs pa ps)) fun x hx => ?_, Py.ok_bind]
    · exact hl
    · obtain ⟨e, h1, h2⟩ := hex x hx
      rw [(C48_offset _ _ _).2 h1, Py.ok_bind, (C48_offset _ _ _).2 h2, Py.ok_bind]
  · obtain ⟨i, hi, rfl⟩ := List.getElem_of_mem hd
    rw [hin i hi, List.getElem_map]
    exact C52_sum hC hP

/-- C114 (what goes wrong): more than ten options raise `TypeError` instead of the documented `KeyError`, since building the message fails. -/
theorem C114_limit_violated {cs ps : List ℝ} (h10 : 10 < cs.length + ps.length) (dates : List D) (ca pa : NumArg) (fo po : Option P)
    (o : Option D) (arg : ModelArg D) : CFList.newStrategy cal dates ca cs pa ps fo po o arg = .error .type := by
  simp only [CFList.newStrategy]
  rw [if_pos (by omega)]

end

/-- Hypotheses of C114 are met: two calls, paid half a year after expiry, on a forward of 112. -/
example : ∃ l, CFList.newOption floatCal [1, 2] (.scalar 10) (.list [100, 120]) (.scalar false) none (some (.num (1 / 2))) none
    (.model (OptModel.mk (some 0) (.num 112) .none none false (logNormalFormula codeDist))) = .ok l ∧
    l.getitem floatCal 1 = .ok 120 ∧ l.getitem floatCal 2 = .ok 0 ∧ l.getitem floatCal 3 = .ok 0 := by
  set m := OptModel.mk (some (0 : ℝ)) (.num 112) .none none false (logNormalFormula codeDist) with hm
  have h : OptionArgs floatCal [1, 2] (.scalar 10) (.list [100, 120]) (.scalar false) none (some (.num (1 / 2))) (fun d => d - 1 / 2) :=
    ⟨by norm_num, by simp [NumArg.expand], by simp [NumArg.expand], by simp [BoolArg.expand],
      fun d _ => ⟨d - 1 / 2, (C48_offset _ _ _).1 (C48_offset_years _ _), rfl⟩⟩
  have hv := fun d k => C83_partial (m := m) (cal := floatCal) (x := 112) (by norm_num) rfl rfl (date := d) rfl k
  obtain ⟨l, hl, -, -, ha, hq⟩ := C114_options h none (.model m)
  have e : l = { l with arg := .model m } := by rw [← ha]
  refine ⟨l, hl, ?_, ?_, ?_⟩
  · have := (hq m).2 0 (by simp) 10 100 false rfl rfl rfl _ (fun _ => (hv _ _).1) (by simp)
    rw [e]; norm_num at this; exact this
  · have := (hq m).2 1 (by simp) 10 120 false rfl rfl rfl _ (fun _ => (hv _ _).1) (by simp)
    rw [e]; norm_num at this; exact this
  · rw [e]; exact (hq m).1 3 (by norm_num)

example : ∃ l, CFList.newOption floatCal [1, 2] (.scalar 10) (.scalar 120) (.scalar true) none none none (.fwd .none) = .ok l ∧
    ∀ d ∈ [(1 : ℝ), 2], CFList.getitem floatCal { l with arg := .model (OptModel.mk (some 0) (.num 112) .none none false
      (logNormalFormula codeDist)) } d = .ok 80 := by
  obtain ⟨l, hl, h⟩ := C114_scalars (cal := floatCal) (dates := [(1 : ℝ), 2]) (a := 10) (k := 120) (p := true) (fo := none) (po := none)
    (ex := fun d => d) (by norm_num) (fun d _ => ⟨d, rfl, rfl⟩) none (.fwd .none)
  refine ⟨l, hl, fun d hd => ?_⟩
  have := h (OptModel.mk (some 0) (.num 112) .none none false (logNormalFormula codeDist)) d hd _ (by simp)
    fun _ => (C83_partial (cal := floatCal) (x := 112) (by norm_num) rfl rfl (date := d) rfl 120).2
  norm_num at this
  exact this

/-! ### The hypotheses can be met: each theorem applied -/

example := C114_lists (cal := floatCal) (dates := [1, 2]) (ns := [10, 20]) (ks := [100, 120]) (fs := [true, false]) (fo := none) (po := none) (ex := fun d => d)
  ⟨by norm_num, by simp [NumArg.expand], by simp [NumArg.expand], by simp [BoolArg.expand], fun d _ => ⟨d, rfl, rfl⟩⟩ none (.fwd .none)
theorem exOptionArgs : OptionArgs floatCal [1, 2] (.scalar 10) (.list [100, 120]) (.scalar false) none none (fun d => d) :=
  ⟨by norm_num, by simp [NumArg.expand], by simp [NumArg.expand], by simp [BoolArg.expand], fun d _ => ⟨d, rfl, rfl⟩⟩
example := C114_no_model exOptionArgs (some 0)
example := C114_curve_violated exOptionArgs (some 0) (f := .num 5) (by simp [Fwd.truthy])
example := C114_strategies (cal := floatCal) (dates := [1, 2]) (cs := [100, 110, 120]) (ps := [90]) (fo := none) (po := none) (ex := fun d => d) (by simp) (by norm_num)
  (fun d _ => ⟨d, rfl, rfl⟩) (.list [1, -2, 1]) (.scalar 1) none (.fwd .none)
example := C114_limit_violated (cal := floatCal) (cs := List.replicate 8 100) (ps := List.replicate 3 90) (by simp) [1, 2] (.scalar 1) (.scalar 1) none none none (.fwd .none)

end Dcf
