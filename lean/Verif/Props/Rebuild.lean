import Verif.Model.Rebuild
import Verif.Props.Legs

/-! # C135: cashflow lists rebuilt from their kwargs -/

set_option linter.unusedSectionVars false
set_option linter.unusedSimpArgs false
set_option linter.unusedVariables false

namespace Dcf

open Spec

section
variable {D P : Type} [LinearOrder D] {cal : Cal D P} {back : D → D → Py D}

theorem CFList.stored_eq {l : CFList D P} (hk : l.Keyed) :
    ∃ q : D → PayOff D P, l.stored = .ok (l.domain.map q) ∧ ∀ d ∈ l.domain, l.flows.get d = some (q d) := by
  have h : ∀ d, ∃ p, d ∈ l.domain → l.flows.get d = some p := by
    intro d
    cases hg : l.flows.get d with
    | none => exact ⟨.num 0, fun hd => absurd hd ((hk d).1 hg)⟩
    | some p => exact ⟨p, fun _ => rfl⟩
  choose q hq using h
  refine ⟨q, pyMap_ok fun d hd => by rw [hq d hd]; rfl, hq⟩

theorem ofPayoffs_map (dates : List D) (q : D → PayOff D P) (o : Option D) (arg : ModelArg D) (b : Bool) :
    ∃ l, CFList.ofPayoffs dates (dates.map q) o arg b = .ok l ∧ l.domain = dates ∧ l.origin? = o ∧ l.arg = arg ∧
      (∀ d ∈ dates, l.flows.get d = some (q d)) ∧ ∀ d, d ∉ dates → l.flows.get d = none := by
  refine ⟨⟨o, dates, Dict.ofPairs (dates.zip (dates.map q)), arg, b⟩, by simp [CFList.ofPayoffs], rfl, rfl, rfl, fun d hd => ?_,
    fun d hd => ?_⟩
  · cases hg : Dict.get (Dict.ofPairs (dates.zip (dates.map q))) d with
    | none =>
      rw [Dict.get_none, Dict.mem_ofPairs_keys, List.map_fst_zip (by simp)] at hg
      exact absurd hd hg
    | some p => rw [(mem_zip_map (Dict.mem_of_ofPairs (Dict.get_mem hg))).2]
  · rw [Dict.get_none, Dict.mem_ofPairs_keys, List.map_fst_zip (by simp)]
    exact hd

/-- C135 (plain lists of numbers and payoffs): the rebuilt list has the same dates, origin and, for the same curve or model, the same
flows at every date. -/
theorem C135_plain {l : CFList D P} (hk : l.Keyed) (hf : ∀ d f, l.flows.get d ≠ some (.fn f)) :
    ∃ l', l.rebuild cal back .plain = .ok l' ∧ l'.domain = l.domain ∧ l'.origin = l.origin ∧
      ∀ d arg, CFList.getitem cal { l' with arg := arg } d = CFList.getitem cal { l with arg := arg } d := by
  obtain ⟨q, hq, hg⟩ := CFList.stored_eq hk
  obtain ⟨l', h1, h2, h3, h4, h5, h6⟩ := ofPayoffs_map l.domain (fun d => (q d).byName) l.origin? (.fwd .none) false
  refine ⟨l', ?_, h2, by simp only [CFList.origin, h2, h3], fun d arg => ?_⟩
  · simp only [CFList.rebuild, hq, Py.ok_bind, List.map_map]; exact h1
  · simp only [CFList.getitem]
    by_cases hd : d ∈ l.domain
    · rw [h5 d hd, hg d hd]
      have : (q d).byName = q d := by
        have := hf d; rw [hg d hd] at this
        cases h : q d <;> first | rfl | exact absurd (by rw [h]) (this _)
      rw [this]
    · rw [h6 d hd, (hk d).2 hd]

/-- C135 fails: functions as payoffs are replaced by their names. -/
theorem C135_function_violated {l : CFList D P} (hk : l.Keyed) :
    ∃ l', l.rebuild cal back .plain = .ok l' ∧
      ∀ d f, l.flows.get d = some (.fn f) → l'.getitem cal d = .error .type := by
  obtain ⟨q, hq, hg⟩ := CFList.stored_eq hk
  obtain ⟨l', h1, h2, h3, h4, h5, h6⟩ := ofPayoffs_map l.domain (fun d => (q d).byName) l.origin? (.fwd .none) false
  refine ⟨l', by simp only [CFList.rebuild, hq, Py.ok_bind, List.map_map]; exact h1, fun d f hd => ?_⟩
  have hm : d ∈ l.domain := by
    by_contra h; rw [(hk d).2 h] at hd; exact absurd hd (by simp)
  have := hg d hm
  rw [hd] at this
  simp only [CFList.getitem, h5 d hm, ← Option.some.inj this]
  rfl

/-- C135 fails: no flow of a rebuilt list of fixed flows is a number. -/
theorem C135_fixed_violated {l : CFList D P} (hk : l.Keyed) :
    ∃ l', l.rebuild cal back .fixed = .ok l' ∧ l'.domain = l.domain ∧ l'.origin = l.origin ∧
      ∀ d ∈ l.domain, l'.getitem cal d = .error .type := by
  obtain ⟨q, hq, hg⟩ := CFList.stored_eq hk
  obtain ⟨l', h1, h2, h3, h4, h5, h6⟩ := ofPayoffs_map (P := P) l.domain (fun d => PayOff.noNumber) l.origin? (.fwd .none) false
  refine ⟨l', ?_, h2, by simp only [CFList.origin, h2, h3], fun d hd => ?_⟩
  · simp only [CFList.rebuild, hq, Py.ok_bind, List.map_map]; exact h1
  · simp only [CFList.getitem, h5 d hd]; rfl

theorem ratePays_noNumber {starts dates : List D} (hs : dates.length ≤ starts.length) (as : List ℝ) (ha : as.length = dates.length) :
    ratePays cal starts dates as none (fun _ _ _ => PayOff.noNumber) = .ok (dates.map fun _ => PayOff.noNumber) := by
  rw [ratePays, pyMap_ok (g := fun _ => PayOff.noNumber) fun x _ => by simp [Cal.minus]]
  congr 1
  rw [List.map_const', List.map_const']
  congr 1
  simp; omega

theorem accrualStarts_length {o : Option D} {dates starts : List D} (h : accrualStarts back o dates = .ok starts) :
    dates.length ≤ starts.length := by
  unfold accrualStarts at h
  split at h
  · obtain rfl := Except.ok.inj h; simp; omega
  · split at h
    · simp only [Py.bind_eq_ok] at h
      obtain ⟨s, -, h⟩ := h
      obtain rfl := Except.ok.inj h; simp
    · obtain rfl := Except.ok.inj h; simp
    · exact absurd h (by simp)

/-- C135 fails: no flow of a rebuilt rate list (and list of collared rates) can be computed. -/
theorem C135_rate_violated {l : CFList D P} (hk : l.Keyed) (h : l.origin? ≠ none ∧ (∀ o, l.origin? = some o → cal.falsy o = false)) :
    (∃ l', l.rebuild cal back .rate = .ok l' ∧ l'.domain = l.domain ∧ ∀ d ∈ l.domain, l'.getitem cal d = .error .type) ∧
    (∃ l', l.rebuild cal back .contingentRate = .ok l' ∧ l'.domain = l.domain ∧
      ∀ d ∈ l.domain, l'.getitem cal d = .error .type) := by
  obtain ⟨q, hq, hg⟩ := CFList.stored_eq hk
  obtain ⟨ho, hf⟩ := h
  obtain ⟨o, ho⟩ := Option.ne_none_iff_exists'.1 ho
  have hlen : l.domain.length ≤ (o :: l.domain.dropLast).length := by simp; omega
  have key : ∀ b, ∃ l', CFList.ofPayoffs l.domain (l.domain.map fun _ => PayOff.noNumber) l.origin? (.fwd .none) b = .ok l' ∧
      l'.domain = l.domain ∧ ∀ d ∈ l.domain, l'.getitem cal d = .error .type := by
    intro b
    obtain ⟨l', h1, h2, h3, h4, h5, h6⟩ := ofPayoffs_map (P := P) l.domain (fun d => PayOff.noNumber) l.origin? (.fwd .none) b
    exact ⟨l', h1, h2, fun d hd => by simp only [CFList.getitem, h5 d hd]; rfl⟩
  constructor
  · obtain ⟨l', h1, h2, h3⟩ := key false
    refine ⟨l', ?_, h2, h3⟩
    simp only [CFList.rebuild, hq, Py.ok_bind, ho, accrualStarts]
    rw [ratePays_noNumber hlen _ (by simp), Py.ok_bind, ← ho]
    exact h1
  · obtain ⟨l', h1, h2, h3⟩ := key true
    refine ⟨l', ?_, h2, h3⟩
    simp only [CFList.rebuild, hq, Py.ok_bind, ho, contingentStarts, hf o ho]
    rw [if_neg (by simp), Py.ok_bind, ratePays_noNumber hlen _ (by simp), Py.ok_bind, ← ho]
    exact h1

/-- C135 fails: a rebuilt list of options with a date is a `ValueError`, since no strikes are handed on. -/
theorem C135_option_violated {l : CFList D P} (hk : l.Keyed) (hne : l.domain ≠ []) :
    l.rebuild cal back .option = .error .value := by
  obtain ⟨q, hq, hg⟩ := CFList.stored_eq hk
  simp only [CFList.rebuild, hq, Py.ok_bind, CFList.newOption, NumArg.expand, List.zip_nil_left, List.zip_nil_right, pyMap_nil,
    CFList.newContingent, Option.getD_some, CFList.ofPayoffs, List.length_nil]
  rw [if_neg (by simpa [eq_comm] using hne)]

/-- C135 fails: a rebuilt list of payoffs is a `ValueError` unless it has one date, and then its payoff is zero. -/
theorem C135_contingent_violated (l : CFList D P) :
    (l.domain.length ≠ 1 → l.rebuild cal back .contingent = .error .value) ∧
    (l.domain.length = 1 → ∃ l', l.rebuild cal back .contingent = .ok l' ∧ l'.domain = l.domain ∧
      ∀ d ∈ l.domain, l'.getitem cal d = .ok 0) := by
  constructor
  · intro h
    simp only [CFList.rebuild, CFList.newContingent, Option.getD_none, CFList.ofPayoffs, List.length_singleton]
    rw [if_neg (fun e => h e.symm)]
  · intro h
    obtain ⟨x, hx⟩ := List.length_eq_one_iff.1 h
    obtain ⟨l', h1, h2, h3, h4, h5, h6⟩ := ofPayoffs_map (P := P) l.domain (fun _ => .fn fun _ => .ok 0) l.origin? (.fwd .none) true
    refine ⟨l', ?_, h2, fun d hd => by simp only [CFList.getitem, h5 d hd]; rfl⟩
    simp only [CFList.rebuild, CFList.newContingent, Option.getD_none]
    rw [← h1, hx]; rfl

/-- C135 fails: all flows of a rebuilt list of option strategies are zero. -/
theorem C135_strategy_violated (l : CFList D P) :
    ∃ l', l.rebuild cal back .strategy = .ok l' ∧ l'.domain = l.domain ∧ ∀ d arg, CFList.getitem cal { l' with arg := arg } d = .ok 0 := by
  obtain ⟨l', h1, h2, h3, h4, h5, h6⟩ := ofPayoffs_map (P := P) l.domain (fun _ => .strategy []) l.origin? (.fwd .none) true
  refine ⟨l', ?_, h2, fun d arg => ?_⟩
  · simp only [CFList.rebuild, CFList.newStrategy, List.length_nil]
    rw [if_neg (by simp), pyMap_ok (g := fun _ => PayOff.strategy []) fun d _ => by simp [Cal.minus, strategyOptions]]
    exact h1
  · simp only [CFList.getitem]
    by_cases hd : d ∈ l.domain
    · rw [h5 d hd]
      cases arg <;> simp [PayOff.eval, strategyCashflow, pySum]
    · rw [h6 d hd]

/-- C135 fails: a leg list can not be rebuilt. -/
theorem C135_legs_violated (cls : ListClass) {ls : List (CF D P)} {c : CF D P} (hc : CF.newLegs ls = .ok c) :
    c.rebuild cal back cls = .error .value := by
  obtain ⟨o, rfl, ho⟩ := CF.newLegs_eq hc
  cases ls with
  | nil => simp [minOrigin] at ho
  | cons => rfl

end

example : ∃ l : CFList ℝ FloatPeriod, CFList.new [0, 1] (.list [-100, 100]) none = .ok l ∧ l.Keyed ∧ ∀ d f, l.flows.get d ≠ some (.fn f) := by
  refine ⟨_, rfl, CFList.keyed_ofPayoffs (dates := [0, 1]) (ps := [.num (-100), .num 100]) (o := none) (arg := .fwd .none) (b := false) rfl,
    fun d f h => ?_⟩
  have := Dict.mem_of_ofPairs (Dict.get_mem h)
  simp [NumArg.expand] at this

example : ∃ l : CFList ℝ FloatPeriod, CFList.new [1, 2] (.list [-100, 100]) (some 0.5) = .ok l ∧ l.Keyed ∧ l.domain ≠ [] ∧
    l.origin? ≠ none ∧ ∀ o, l.origin? = some o → floatCal.falsy o = false := by
  refine ⟨_, rfl, CFList.keyed_ofPayoffs (dates := [1, 2]) (ps := [.num (-100), .num 100]) (o := some 0.5) (arg := .fwd .none) (b := false) rfl,
    by simp, by simp, fun o ho => ?_⟩
  obtain rfl := Option.some.inj ho
  simp only [floatCal, decide_eq_false_iff_not]; norm_num

end Dcf
