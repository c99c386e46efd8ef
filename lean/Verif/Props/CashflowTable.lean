import Verif.Lemmas.Pricer
import Verif.Model.CashflowTable
import Verif.Props.OptionLists

/-! # Tables of cashflow lists: C119 -/

set_option linter.unusedSectionVars false
set_option linter.unusedSimpArgs false
set_option linter.unusedVariables false

namespace Dcf

/-! ### Header and rows -/

section
variable {D : Type}

theorem extendHeader_eq {cols : List Col} (hn : cols.Nodup) (d : Details D) (h : List Col) :
    extendHeader cols d h = h ++ cols.filter fun k => (d.get k).isSome ∧ k ∉ h := by
  unfold extendHeader
  induction cols generalizing h with
  | nil => simp
  | cons c cs ih =>
    rw [List.nodup_cons] at hn
    rw [List.foldl_cons]
    by_cases hc : (d.get c).isSome = true ∧ c ∉ h
    · rw [if_pos hc, ih hn.2, List.filter_cons_of_pos (by simpa using hc), List.append_assoc, List.singleton_append]
      congr 2
      refine List.filter_congr fun k hk => ?_
      have : k ≠ c := fun e => hn.1 (e ▸ hk)
      simp [this]
    · rw [if_neg hc, ih hn.2, List.filter_cons_of_neg (by simpa using hc)]

/-- If all details have the same keys, the header has the columns with these keys and so has every row. -/
theorem detailRows_uniform {cols : List Col} (hn : cols.Nodup) (q : Col → Bool) (ds : List (Details D))
    (hq : ∀ d ∈ ds, ∀ k ∈ cols, (d.get k).isSome = q k) :
    (∀ h, ds ≠ [] → h = [] ∨ h = cols.filter q → (detailRows cols ds h).1 = cols.filter q) ∧
    ∀ h, h = [] ∨ h = cols.filter q →
      (detailRows cols ds h).2 = ds.map fun d => (cols.filter q).map fun k => (d.get k).getD (.text "") := by
  have ext : ∀ d ∈ ds, ∀ h, h = [] ∨ h = cols.filter q → extendHeader cols d h = cols.filter q := by
    intro d hd h hh
    rw [extendHeader_eq hn]
    rcases hh with rfl | rfl
    · rw [List.nil_append]
      exact List.filter_congr fun k hk => by simp [hq d hd k hk]
    · refine List.append_right_eq_self.2 (List.filter_eq_nil_iff.2 ?_)
      intro k hk
      simp only [hq d hd k hk, List.mem_filter, hk, true_and, decide_eq_true_eq, not_and, not_not, imp_self]
  induction ds with
  | nil => exact ⟨fun h hne => absurd rfl hne, fun h _ => rfl⟩
  | cons d ds ih =>
    obtain ⟨ih1, ih2⟩ := ih (fun d hd => hq d (List.mem_cons_of_mem _ hd)) fun d hd => ext d (List.mem_cons_of_mem _ hd)
    constructor
    · intro h _ hh
      simp only [detailRows, ext d (by simp) h hh]
      cases ds with
      | nil => rfl
      | cons e es => exact ih1 _ (by simp) (Or.inr rfl)
    · intro h hh
      simp only [detailRows, ext d (by simp) h hh, ih2 _ (Or.inr rfl), List.map_cons]

/-- The first two columns are the cashflow and the pay date. -/
theorem detailRows_first {cols : List Col} (hn : cols.Nodup) {rest : List Col} (hc : cols = .cashflow :: .payDate :: rest)
    (ds : List (Details D)) (hds : ∀ d ∈ ds, (d.get .cashflow).isSome ∧ (d.get .payDate).isSome) (h : List Col)
    (hh : h = [] ∨ ∃ t, h = .cashflow :: .payDate :: t) :
    (ds ≠ [] → ∃ t, (detailRows cols ds h).1 = .cashflow :: .payDate :: t) ∧
    List.Forall₂ (fun d row => ∃ t, row = (d.get .cashflow).getD (.text "") :: (d.get .payDate).getD (.text "") :: t) ds
      (detailRows cols ds h).2 := by
  have ext : ∀ d ∈ ds, ∀ h, (h = [] ∨ ∃ t, h = .cashflow :: .payDate :: t) →
      ∃ t, extendHeader cols d h = .cashflow :: .payDate :: t := by
    intro d hd h hh
    obtain ⟨h1, h2⟩ := hds d hd
    rw [extendHeader_eq hn]
    rcases hh with rfl | ⟨t, rfl⟩
    · rw [hc, List.nil_append, List.filter_cons_of_pos (by simpa using h1), List.filter_cons_of_pos (by simpa using h2)]
      exact ⟨_, rfl⟩
    · exact ⟨_, rfl⟩
  induction ds generalizing h with
  | nil => exact ⟨fun hne => absurd rfl hne, .nil⟩
  | cons d ds ih =>
    obtain ⟨t, ht⟩ := ext d (by simp) h hh
    obtain ⟨ih1, ih2⟩ := ih (fun d hd => hds d (List.mem_cons_of_mem _ hd)) (.cashflow :: .payDate :: t) (Or.inr ⟨t, rfl⟩)
      fun d hd => ext d (List.mem_cons_of_mem _ hd)
    simp only [detailRows, ht]
    refine ⟨fun _ => ?_, .cons ⟨_, rfl⟩ ih2⟩
    cases ds with
    | nil => exact ⟨t, rfl⟩
    | cons e es => exact ih1 (by simp)

end

theorem ListClass.columns_eq (cls : ListClass) : cls.columns.Nodup ∧ ∃ rest, cls.columns = .cashflow :: .payDate :: rest := by
  cases cls <;> exact ⟨by decide, _, rfl⟩

/-! ### Details of payoffs -/

section
variable {D P : Type} (cal : Cal D P)

theorem Dict.get_update {α β : Type} [DecidableEq α] (d : Dict α β) (l : List (α × β)) (k : α) :
    (Dict.update d l).get k = (Dict.get l.reverse k).or (d.get k) := Dict.get_foldl_set l d k

theorem entries_cashflow (d : OptDetails D) : Dict.get d.entries.reverse Col.cashflow = none := by
  rw [Dict.get_none]
  obtain ⟨a, b, c, k, v, t⟩ := d
  cases b <;> cases c <;> cases v <;> simp [OptDetails.entries]

theorem RatePay.dict_ok (p : RatePay D P) (arg : ModelArg D) :
    (∀ e, p.details cal arg = .error e → p.dict cal arg = .error e) ∧
    ∀ d, p.details cal arg = .ok d → ∃ t, p.dict cal arg = .ok t ∧ t.get .cashflow = some (.num d.cashflow) := by
  refine ⟨fun e h => by simp [RatePay.dict, h], fun d h => ?_⟩
  simp only [RatePay.dict, h, Py.ok_bind]
  refine ⟨_, rfl, ?_⟩
  split <;> simp [Dict.get]

theorem OptPay.dict_ok (o : OptPay D) (arg : ModelArg D) :
    (∀ e, o.cashflow cal arg = .error e → o.dict cal arg = .error e) ∧
    ∀ x, o.cashflow cal arg = .ok x → ∃ t, o.dict cal arg = .ok t ∧ t.get .cashflow = some (.num x) := by
  refine ⟨fun e h => by simp [OptPay.dict, h], fun x h => ?_⟩
  cases arg with
  | fwd f => exact ⟨_, by simp only [OptPay.dict, h, Py.ok_bind]; rfl, by simp [Dict.get]⟩
  | model m =>
    have hd : ∃ d, m.details cal o.expiry o.strike = .ok d := by
      simp only [OptPay.cashflow] at h
      split at h <;> simp only [Py.bind_eq_ok] at h <;> obtain ⟨-, -, d, hd, -⟩ := h <;> exact ⟨d, hd⟩
    obtain ⟨d, hd⟩ := hd
    refine ⟨_, by simp only [OptPay.dict, h, Py.ok_bind, hd]; rfl, ?_⟩
    rw [Dict.get_update, entries_cashflow]
    simp [Dict.get]

/-- The details of a payoff exist exactly if it has a value, and contain that value. -/
theorem PayOff.dict_ok (p : PayOff D P) (hp : ∀ f, p ≠ .fn f) (arg : ModelArg D) :
    ((∃ t, p.dict cal arg = .ok t) ↔ ∃ x, p.eval cal arg = .ok x) ∧
    ∀ t, p.dict cal arg = .ok t → ∃ x, p.eval cal arg = .ok x ∧ t.get .cashflow = some (.num x) := by
  suffices h : (∀ t, p.dict cal arg = .ok t → ∃ x, p.eval cal arg = .ok x) ∧
      ∀ x, p.eval cal arg = .ok x → ∃ t, p.dict cal arg = .ok t ∧ t.get .cashflow = some (.num x) by
    obtain ⟨h1, h2⟩ := h
    have h3 : ∀ t, p.dict cal arg = .ok t → ∃ x, p.eval cal arg = .ok x ∧ t.get .cashflow = some (.num x) := fun t ht => by
      obtain ⟨x, he⟩ := h1 t ht
      obtain ⟨t', ht', hx⟩ := h2 x he
      rw [ht] at ht'
      obtain rfl := Except.ok.inj ht'
      exact ⟨x, he, hx⟩
    refine ⟨⟨fun ⟨t, ht⟩ => (h3 t ht).imp fun _ h => h.1, fun ⟨x, hx⟩ => (h2 x hx).imp fun _ h => h.1⟩, h3⟩
  cases p with
  | num x => exact ⟨fun _ _ => ⟨_, rfl⟩, fun y h => ⟨_, rfl, by obtain rfl := Except.ok.inj h; simp [Dict.get]⟩⟩
  | fixed x => exact ⟨fun _ _ => ⟨_, rfl⟩, fun y h => ⟨_, rfl, by obtain rfl := Except.ok.inj h; simp [Dict.get]⟩⟩
  | rate p =>
    obtain ⟨h1, h2⟩ := p.dict_ok cal arg
    simp only [PayOff.eval, PayOff.dict]
    cases hd : p.details cal arg with
    | error e => exact ⟨fun t h => (by rw [h1 e hd] at h; cases h), fun x h => (by cases h)⟩
    | ok d => exact ⟨fun _ _ => ⟨_, rfl⟩, fun x h => by obtain rfl := Except.ok.inj h; exact h2 d hd⟩
  | contingentRate p =>
    simp only [PayOff.eval, PayOff.dict]
    obtain ⟨h1, h2⟩ := p.toRatePay.dict_ok cal (.fwd arg.curve)
    cases hd : p.toRatePay.details cal (.fwd arg.curve) with
    | error e =>
      exact ⟨fun t h => by simp [ContingentRatePay.dict, h1 e hd] at h, fun x h => by simp [ContingentRatePay.cashflow, hd] at h⟩
    | ok d =>
      obtain ⟨t, ht, hc⟩ := h2 d hd
      cases arg with
      | fwd f =>
        refine ⟨fun _ _ => ⟨_, by simp only [ContingentRatePay.cashflow, hd, Py.ok_bind]; rfl⟩, fun x h => ⟨t, ?_, ?_⟩⟩
        · simp only [ContingentRatePay.dict, ht, Py.ok_bind, hd]
        · simp only [ContingentRatePay.cashflow, hd, Py.ok_bind] at h
          rw [hc, Except.ok.inj h]
      | model m =>
        constructor
        · intro t' h
          simp only [ContingentRatePay.dict, ht, Py.ok_bind, hd, Py.bind_eq_ok] at h
          obtain ⟨-, -, -, -, -, -, cf, hcf, -⟩ := h
          exact ⟨cf, hcf⟩
        · intro x h
          have h' := h
          simp only [ContingentRatePay.cashflow, hd, Py.ok_bind, Py.bind_eq_ok] at h
          obtain ⟨fix, hfix, fl, hfl, ca, hca, -⟩ := h
          have key : ∀ (value : D → Option ℝ → Py ℝ) (k : Option ℝ) (y : ℝ) (c1 c2 c3 : Col),
              optlet cal m value fix (d.yearFraction * d.notional) k = .ok y → ∃ l, optletEntries cal m value fix (d.yearFraction * d.notional) k c1 c2 c3 = .ok l := by
            intro value k y c1 c2 c3 hk
            cases k with
            | none => exact ⟨_, rfl⟩
            | some k =>
              simp only [optlet, Py.bind_eq_ok] at hk
              obtain ⟨d', hd', v, hv, -⟩ := hk
              exact ⟨_, by simp only [optletEntries, hd', hv, Py.ok_bind]; rfl⟩
          obtain ⟨l1, hl1⟩ := key _ _ _ .floorlet .floorletStrike .floorletVolatility hfl
          obtain ⟨l2, hl2⟩ := key _ _ _ .caplet .capletStrike .capletVolatility hca
          refine ⟨_, by simp only [ContingentRatePay.dict, ht, Py.ok_bind, hd, hfix, hl1, hl2, h']; rfl, ?_⟩
          rw [Dict.get_update]; simp [Dict.get]
  | option o =>
    obtain ⟨h1, h2⟩ := o.dict_ok cal arg
    refine ⟨fun t h => ?_, h2⟩
    cases hc : o.cashflow cal arg with
    | error e => simp [PayOff.dict, h1 e hc] at h
    | ok x => exact ⟨x, hc⟩
  | strategy os =>
    simp only [PayOff.eval, PayOff.dict]
    refine ⟨fun t h => ?_, fun x h => ?_⟩
    · simp only [strategyDict, Py.bind_eq_ok] at h
      exact h.imp fun _ h => h.1
    have hall : ∀ o ∈ os, ∃ y, o.cashflow cal arg = .ok y := by
      intro o ho
      simp only [strategyCashflow, Py.bind_eq_ok] at h
      obtain ⟨cfs, hc, -⟩ := h
      obtain ⟨g, hg, -⟩ := pyMap_fun.1 hc
      exact ⟨_, hg o ho⟩
    have hparts : ∃ parts, pyMap (fun x : OptPay D × ℕ => do
        let d ← x.1.dict cal arg
        .ok (d.map fun e => (Col.option x.2 e.1, e.2))) os.zipIdx = .ok parts ∧ ∀ l ∈ parts, Col.cashflow ∉ l.map Prod.fst := by
      have : ∀ x ∈ os.zipIdx, ∃ d, x.1.dict cal arg = .ok d := fun x hx => by
        obtain ⟨y, hy⟩ := hall x.1 (List.fst_mem_of_mem_zipIdx hx)
        exact ((x.1.dict_ok cal arg).2 y hy).imp fun _ h => h.1
      choose! g hg using this
      refine ⟨_, pyMap_ok (g := fun x => (g x).map fun e => (Col.option x.2 e.1, e.2)) fun x hx => by rw [hg x hx]; rfl, ?_⟩
      intro l hl
      obtain ⟨x, -, rfl⟩ := List.mem_map.1 hl
      simp
    obtain ⟨parts, hp1, hp2⟩ := hparts
    have hm : ∀ m o os', arg = .model m → os = o :: os' → ∃ d, m.details cal o.expiry none = .ok d := by
      intro m o os' ha ho
      subst ha ho
      simp only [strategyCashflow, Py.bind_eq_ok] at h
      obtain ⟨cfs, hc, d, hd, -⟩ := h
      exact ⟨d, hd⟩
    simp only [strategyDict, h, Py.ok_bind, hp1]
    cases arg with
    | fwd f => exact ⟨_, rfl, by simp [Dict.get]⟩
    | model m =>
      cases os with
      | nil => exact ⟨_, rfl, by simp [Dict.get]⟩
      | cons o os' =>
        obtain ⟨d, hd⟩ := hm m o os' rfl rfl
        refine ⟨_, by simp only [hd, Py.ok_bind]; rfl, ?_⟩
        rw [Dict.get_update, Dict.get_none.2]
        · simp [Dict.get]
        · have := Dict.get_none.1 (entries_cashflow d)
          intro hc
          apply this
          simp only [List.map_reverse, List.mem_reverse, List.mem_map, List.mem_filter] at hc ⊢
          obtain ⟨a, ⟨ha, -⟩, e⟩ := hc
          exact ⟨a, ha, e⟩
  | fn f => exact absurd rfl (hp f)

end

/-! ### C119 -/

section
variable {D P : Type} [LinearOrder D] {cal : Cal D P}

/-- No entry of the list is a plain function. -/
def CFList.NoFunctions (l : CFList D P) : Prop := ∀ d p, l.flows.get d = some p → ∀ f, p ≠ .fn f

theorem entry_no_fn {l : CFList D P} (hf : l.NoFunctions) (d : D) (f : ModelArg D → Py ℝ) :
    (l.flows.get d).getD (.num 0) ≠ .fn f := by
  cases h : l.flows.get d with
  | none => simp
  | some p => exact hf d p h f

theorem item_eval (l : CFList D P) (arg : ModelArg D) (d : D) :
    CFList.getitem cal { l with arg := arg } d = ((l.flows.get d).getD (.num 0)).eval cal arg := by
  simp only [CFList.getitem]
  cases l.flows.get d <;> rfl

/-- C119 (all lists): the table exists exactly if all payoffs can be valued; it has one row for each date in order, which
starts with the value of the payoff at the forward curve of the list (none, if it has no forward curve) and the date. -/
theorem C119_values (cls : ListClass) {l : CFList D P} (hf : l.NoFunctions) :
    ((∃ T, l.table cal cls = .ok T) ↔ ∀ d ∈ l.domain, ∃ x, CFList.getitem cal { l with arg := cls.tableArg l.arg } d = .ok x) ∧
    ∀ T, l.table cal cls = .ok T →
      (l.domain ≠ [] → ∃ t, T.1 = .cashflow :: .payDate :: t) ∧
      List.Forall₂ (fun d row => ∃ x t, CFList.getitem cal { l with arg := cls.tableArg l.arg } d = .ok x ∧ row = .num x :: .date d :: t) l.domain T.2 := by
  simp only [item_eval]
  have key := fun d => PayOff.dict_ok cal ((l.flows.get d).getD (.num 0)) (entry_no_fn hf d) (cls.tableArg l.arg)
  constructor
  · constructor
    · rintro ⟨T, hT⟩ d hd
      simp only [CFList.table, Py.bind_eq_ok] at hT
      obtain ⟨ds, hds, -⟩ := hT
      obtain ⟨g, hg, -⟩ := pyMap_fun.1 hds
      have := hg d hd
      rw [Py.bind_eq_ok] at this
      obtain ⟨t, ht, -⟩ := this
      exact (key d).1.1 ⟨t, ht⟩
    · intro h
      have h' : ∀ d ∈ l.domain, ∃ t, ((l.flows.get d).getD (.num 0)).dict cal (cls.tableArg l.arg) = .ok t := fun d hd =>
        (key d).1.2 (h d hd)
      choose! g hg using h'
      simp only [CFList.table]
      rw [pyMap_ok (g := fun d => Dict.set (g d) .payDate (.date d)) fun d hd => by rw [hg d hd]; rfl]
      exact ⟨_, rfl⟩
  · intro T hT
    simp only [CFList.table, Py.bind_eq_ok] at hT
    obtain ⟨ds, hds, hT⟩ := hT
    have hT := Except.ok.inj hT
    obtain ⟨hn, rest, hc⟩ := cls.columns_eq
    have h2 : List.Forall₂ (fun d e => ∃ x, ((l.flows.get d).getD (.num 0)).eval cal (cls.tableArg l.arg) = .ok x ∧ Dict.get e .cashflow = some (.num x) ∧
        Dict.get e .payDate = some (.date d)) l.domain ds := by
      refine (pyMap_eq_ok.1 hds).imp fun d e he => ?_
      rw [Py.bind_eq_ok] at he
      obtain ⟨t, ht, e'⟩ := he
      obtain rfl := Except.ok.inj e'
      obtain ⟨x, hx, hg⟩ := (key d).2 t ht
      refine ⟨x, hx, ?_, ?_⟩
      · rw [Dict.get_set, if_neg (by decide), hg]
      · rw [Dict.get_set, if_pos rfl]
    have h3 : ∀ e ∈ ds, (Dict.get e .cashflow).isSome ∧ (Dict.get e .payDate).isSome := by
      intro e he
      obtain ⟨i, hi, rfl⟩ := List.mem_iff_getElem.1 he
      obtain ⟨x, -, h1, h2⟩ := List.forall₂_iff_get.1 h2 |>.2 i (by rw [h2.length_eq]; exact hi) hi
      simp only [List.get_eq_getElem] at h1 h2
      rw [h1, h2]; simp
    obtain ⟨r1, r2⟩ := detailRows_first hn hc ds h3 [] (Or.inl rfl)
    rw [hT] at r1 r2
    refine ⟨fun hne => r1 fun e => hne (by rw [e] at h2; exact List.forall₂_nil_right_iff.1 h2), ?_⟩
    rw [List.forall₂_iff_get] at h2 r2 ⊢
    refine ⟨h2.1.trans r2.1, fun i h1 h3 => ?_⟩
    obtain ⟨x, hx, ha, hb⟩ := h2.2 i h1 (by rw [← h2.1]; exact h1)
    obtain ⟨t, ht⟩ := r2.2 i (by rw [← h2.1]; exact h1) h3
    rw [ha, hb] at ht
    exact ⟨x, t, hx, ht⟩

/-- C119 (lists of numbers, fixed and rate cashflows): the table shows the cashflows of the list and exists exactly if
they do. -/
theorem C119_shown (cls : ListClass) {l : CFList D P} (hf : l.NoFunctions) (ha : cls.tableArg l.arg = l.arg) :
    ((∃ T, l.table cal cls = .ok T) ↔ ∀ d ∈ l.domain, ∃ x, l.getitem cal d = .ok x) ∧
    ∀ T, l.table cal cls = .ok T →
      (l.domain ≠ [] → ∃ t, T.1 = .cashflow :: .payDate :: t) ∧
      List.Forall₂ (fun d row => ∃ x t, l.getitem cal d = .ok x ∧ row = .num x :: .date d :: t) l.domain T.2 := by
  have := C119_values (cal := cal) cls hf
  simpa only [ha] using this

/-- The table of a list whose details all have the same keys. -/
theorem table_eq (cls : ListClass) {l : CFList D P} {g : D → Details D} {q : Col → Bool}
    (hg : ∀ d ∈ l.domain, ((l.flows.get d).getD (.num 0)).dict cal (cls.tableArg l.arg) = .ok (g d))
    (hq : ∀ d ∈ l.domain, ∀ k ∈ cls.columns, (((g d).set .payDate (.date d)).get k).isSome = q k) (hne : l.domain ≠ []) :
    l.table cal cls = .ok (cls.columns.filter q,
      l.domain.map fun d => (cls.columns.filter q).map fun k => (((g d).set .payDate (.date d)).get k).getD (.text "")) := by
  simp only [CFList.table]
  rw [pyMap_ok (g := fun d => Dict.set (g d) .payDate (.date d)) fun d hd => by rw [hg d hd]; rfl]
  obtain ⟨h1, h2⟩ := detailRows_uniform cls.columns_eq.1 q (l.domain.map fun d => Dict.set (g d) .payDate (.date d)) (by
    intro e he
    obtain ⟨d, hd, rfl⟩ := List.mem_map.1 he
    exact hq d hd)
  rw [Py.ok_bind]
  congr 1
  refine Prod.ext (h1 [] (by simpa using hne) (Or.inl rfl)) ?_
  rw [h2 [] (Or.inl rfl), List.map_map]; rfl

theorem Cell.ofNum_eq {D : Type} (x : Option ℝ) : (Cell.ofNum x : Cell D) = x.elim .none .num := by cases x <;> rfl

theorem Cell.ofDate_eq {D : Type} (x : Option D) : Cell.ofDate x = x.elim .none .date := by cases x <;> rfl

/-- C119 (lists of numbers and fixed cashflows): the table has two columns. -/
theorem C119_plain {cls : ListClass} (hc : cls = .plain ∨ cls = .fixed) {l : CFList D P} {x : D → ℝ}
    (hl : ∀ d ∈ l.domain, l.flows.get d = some (.num (x d)) ∨ l.flows.get d = some (.fixed (x d))) (hne : l.domain ≠ []) :
    l.table cal cls = .ok ([.cashflow, .payDate], l.domain.map fun d => [.num (x d), .date d]) ∧
      ∀ d ∈ l.domain, l.getitem cal d = .ok (x d) := by
  constructor
  · rw [table_eq cls (g := fun d => [(.cashflow, .num (x d))]) (q := fun _ => true) ?_ ?_ hne]
    · rcases hc with rfl | rfl <;> simp [ListClass.columns, Dict.get, Dict.set]
    · intro d hd
      rcases hl d hd with h | h <;> simp [h, PayOff.dict]
    · intro d hd k hk
      have : k = .cashflow ∨ k = .payDate := by rcases hc with rfl | rfl <;> simpa [ListClass.columns] using hk
      rcases this with rfl | rfl <;> simp [Dict.get, Dict.set]
  · intro d hd
    rcases hl d hd with h | h <;> simp [CFList.getitem, h, PayOff.eval]

/-- C119 (rate cashflows, no forward curve): the table shows notional, period, year fraction and fixed rate, and the product
is the cashflow. -/
theorem C119_rate {l : CFList D P} {p : D → RatePay D P} {c : D → ℝ} (hl : ∀ d ∈ l.domain, l.flows.get d = some (.rate (p d)))
    (hc : ∀ d ∈ l.domain, (p d).fixedRate = some (c d)) (hf : l.arg = .fwd .none ∨ l.arg = .fwd (.num 0)) (hne : l.domain ≠ []) :
    l.table cal .rate = .ok ([.cashflow, .payDate, .notional, .startDate, .endDate, .yearFraction, .fixedRate],
      l.domain.map fun d => [.num (c d * (p d).tau cal (p d).start (p d).stop * (p d).amount), .date d, .num (p d).amount,
        .date (p d).start, .date (p d).stop, .num ((p d).tau cal (p d).start (p d).stop), .num (c d)]) := by
  have hf : l.arg.truthy = false := by rcases hf with h | h <;> simp [h, ModelArg.truthy, Fwd.truthy]
  rw [table_eq .rate (g := fun d => [(.cashflow, .num (c d * (p d).tau cal (p d).start (p d).stop * (p d).amount)), (.notional, .num (p d).amount),
      (.payRec, .text (if 0 < (p d).amount then "pay" else "rec")), (.fixedRate, .num (c d)), (.startDate, .date (p d).start),
      (.endDate, .date (p d).stop), (.yearFraction, .num ((p d).tau cal (p d).start (p d).stop))])
    (q := fun k => k ≠ .forwardRate ∧ k ≠ .fixingDate ∧ k ≠ .tenor) ?_ ?_ hne]
  · simp [ListClass.columns, Dict.get, Dict.set]
  · intro d hd
    simp [hl d hd, PayOff.dict, RatePay.dict, RatePay.details, RatePay.forwardAt, ListClass.tableArg, hf, hc d hd, Cell.ofNum]
  · intro d hd k hk
    simp only [ListClass.columns, List.mem_cons, List.not_mem_nil, or_false] at hk
    rcases hk with rfl | rfl | rfl | rfl | rfl | rfl | rfl | rfl | rfl | rfl <;> simp [Dict.get, Dict.set]

/-- Forward rates of a curve, a function, a number or a price curve (called as it is). -/
inductive Spec.RateFrom : Fwd D → (D → Py ℝ) → Prop
  | curve (r : D → Py ℝ) (t) : Spec.RateFrom (.cash r t) r
  | call (r : D → Py ℝ) : Spec.RateFrom (.fn r) r
  | price (u) (r : D → Py ℝ) (t) : Spec.RateFrom (.price u r t) r
  | number (x : ℝ) : Spec.RateFrom (.num x) fun _ => .ok x

/-- A forward curve other than `None` and zero, or a model with a forward curve other than `None`. -/
inductive Spec.ForwardFrom : ModelArg D → (D → Py ℝ) → Prop
  | fwd {f : Fwd D} {r : D → Py ℝ} (h : Spec.RateFrom f r) (h0 : f ≠ .num 0) : Spec.ForwardFrom (.fwd f) r
  | model {m : OptModel D} {r : D → Py ℝ} (h : Spec.RateFrom m.forward r) : Spec.ForwardFrom (.model m) r

theorem Spec.RateFrom.rate {f : Fwd D} {r : D → Py ℝ} (h : Spec.RateFrom f r) (d : D) : f.rate d = r d := by cases h <;> rfl

theorem Spec.ForwardFrom.truthy {a : ModelArg D} {r : D → Py ℝ} (h : Spec.ForwardFrom a r) : a.truthy = true := by
  cases h with
  | fwd h h0 => cases h <;> simp_all [ModelArg.truthy, Fwd.truthy]
  | model h => rfl

theorem Spec.ForwardFrom.rate {a : ModelArg D} {r : D → Py ℝ} (h : Spec.ForwardFrom a r) (d : D) : a.curve.rate d = r d := by
  cases h with
  | fwd h h0 => exact h.rate d
  | model h => exact h.rate d

/-- C119 (rate cashflows with forward curve or model): the table shows also forward rate and fixing date, the cashflow is
(fixed rate + forward rate) * year fraction * notional. -/
theorem C119_forward {l : CFList D P} {p : D → RatePay D P} {c f : D → ℝ} {fix : D → D} {g : D → Py ℝ}
    (hl : ∀ d ∈ l.domain, l.flows.get d = some (.rate (p d))) (hc : ∀ d ∈ l.domain, (p d).fixedRate = some (c d))
    (hg : Spec.ForwardFrom l.arg g) (hfix : ∀ d ∈ l.domain, cal.minus (p d).fixingOffset (p d).start = .ok (fix d))
    (hr : ∀ d ∈ l.domain, g (fix d) = .ok (f d)) (hne : l.domain ≠ []) :
    l.table cal .rate = .ok ([.cashflow, .payDate, .notional, .startDate, .endDate, .yearFraction, .fixedRate, .forwardRate, .fixingDate, .tenor],
      l.domain.map fun d => [.num ((c d + f d) * (p d).tau cal (p d).start (p d).stop * (p d).amount), .date d, .num (p d).amount,
        .date (p d).start, .date (p d).stop, .num ((p d).tau cal (p d).start (p d).stop), .num (c d), .num (f d), .date (fix d), .other]) := by
  have hf : l.arg.truthy = true := hg.truthy
  have hr : ∀ d ∈ l.domain, l.arg.curve.rate (fix d) = .ok (f d) := fun d hd => by rw [hg.rate, hr d hd]
  rw [table_eq .rate (g := fun d => [(.cashflow, .num ((c d + f d) * (p d).tau cal (p d).start (p d).stop * (p d).amount)), (.notional, .num (p d).amount),
      (.payRec, .text (if 0 < (p d).amount then "pay" else "rec")), (.fixedRate, .num (c d)), (.startDate, .date (p d).start),
      (.endDate, .date (p d).stop), (.yearFraction, .num ((p d).tau cal (p d).start (p d).stop)), (.forwardRate, .num (f d)),
      (.fixingDate, .date (fix d)), (.tenor, .other), (.forwardCurveId, .other)]) (q := fun _ => true) ?_ ?_ hne]
  · simp [ListClass.columns, Dict.get, Dict.set]
  · intro d hd
    simp [hl d hd, PayOff.dict, RatePay.dict, RatePay.details, RatePay.forwardAt, ListClass.tableArg, hf, hc d hd, Cell.ofNum, hfix d hd, hr d hd]
  · intro d hd k hk
    simp only [ListClass.columns, List.mem_cons, List.not_mem_nil, or_false] at hk
    rcases hk with rfl | rfl | rfl | rfl | rfl | rfl | rfl | rfl | rfl | rfl <;> simp [Dict.get, Dict.set]

/-! ### What goes wrong -/

/-- C119 is violated by lists of contingent cashflows: their tables show the cashflows without model, whatever the model. -/
theorem C119_contingent_violated {cls : ListClass} (hc : cls = .contingent ∨ cls = .option ∨ cls = .strategy ∨ cls = .contingentRate)
    {l : CFList D P} (hf : l.NoFunctions) {T : List Col × List (List (Cell D))} (hT : l.table cal cls = .ok T) :
    List.Forall₂ (fun d row => ∃ x t, CFList.getitem cal { l with arg := .fwd .none } d = .ok x ∧ row = .num x :: .date d :: t)
      l.domain T.2 := by
  have := ((C119_values (cal := cal) cls hf).2 T hT).2
  rcases hc with rfl | rfl | rfl | rfl <;> exact this

theorem ofPayoffs_entry {dates : List D} {ps : List (PayOff D P)} {o : Option D} {arg : ModelArg D} {b : Bool} {l : CFList D P}
    (h : CFList.ofPayoffs dates ps o arg b = .ok l) {d : D} {p : PayOff D P} (hp : l.flows.get d = some p) : p ∈ ps := by
  simp only [CFList.ofPayoffs] at h
  split at h
  · obtain rfl := Except.ok.inj h
    simp only [Dict.get_ofPairs] at hp
    exact (List.of_mem_zip (List.mem_reverse.1 (Dict.get_mem hp))).2
  · simp at h

/-- The table of a list of options or of strategies. -/
theorem zero_table {cls : ListClass} (hc : cls = .option ∨ cls = .strategy) {dates : List D} {ps : List (PayOff D P)} {o : Option D}
    {arg : ModelArg D} {b : Bool} (hl : ps.length = dates.length)
    (hp : ∀ p ∈ ps, (∃ q, p = .option q) ∨ ∃ q, p = .strategy q) :
    ∃ l T, CFList.ofPayoffs dates ps o arg b = .ok l ∧ l.table cal cls = .ok T ∧
      List.Forall₂ (fun d row => ∃ t, row = Cell.num 0 :: .date d :: t) dates T.2 := by
  have hl' : CFList.ofPayoffs dates ps o arg b = .ok ⟨o, dates, Dict.ofPairs (dates.zip ps), arg, b⟩ := by simp [CFList.ofPayoffs, hl]
  set l : CFList D P := ⟨o, dates, Dict.ofPairs (dates.zip ps), arg, b⟩
  have hf : l.NoFunctions := fun d p h f e => by
    rcases hp p (ofPayoffs_entry hl' h) with ⟨q, rfl⟩ | ⟨q, rfl⟩ <;> cases e
  have h0 : ∀ d, CFList.getitem cal { l with arg := .fwd .none } d = .ok 0 := by
    intro d
    rw [item_eval]
    cases h : l.flows.get d with
    | none => simp [PayOff.eval]
    | some p =>
      rcases hp p (ofPayoffs_entry hl' h) with ⟨q, rfl⟩ | ⟨q, rfl⟩
      · simp [PayOff.eval, OptPay.cashflow, Fwd.truthy]
      · exact C52_no_model q
  have ha : cls.tableArg l.arg = .fwd .none := by rcases hc with rfl | rfl <;> rfl
  have hv := C119_values (cal := cal) cls hf
  rw [ha] at hv
  obtain ⟨T, hT⟩ := hv.1.2 fun d _ => ⟨0, h0 d⟩
  refine ⟨l, T, hl', hT, (hv.2 T hT).2.imp ?_⟩
  rintro d row ⟨x, t, hx, rfl⟩
  rw [h0 d] at hx
  exact ⟨t, by rw [Except.ok.inj hx]⟩

/-- C119 is violated by option lists: whatever the model, the table shows a cashflow of zero at all dates. -/
theorem C119_option_violated {dates : List D} {amounts strikes : NumArg} {isPut : BoolArg} {fo po : Option P} {ex : D → D}
    (h : OptionArgs cal dates amounts strikes isPut fo po ex) (o : Option D) (arg : ModelArg D) :
    ∃ l T, CFList.newOption cal dates amounts strikes isPut fo po o arg = .ok l ∧ l.table cal .option = .ok T ∧
      List.Forall₂ (fun d row => ∃ t, row = Cell.num 0 :: .date d :: t) dates T.2 := by
  rw [newOption_eq h]
  refine zero_table (Or.inl rfl) (by simp [h.amounts, h.strikes, h.isPut]) fun p hp => Or.inl ?_
  obtain ⟨x, -, rfl⟩ := List.mem_map.1 hp
  exact ⟨_, rfl⟩

/-- C119 is violated by lists of option strategies in the same way. -/
theorem C119_strategy_violated {dates : List D} {fo po : Option P} {ex : D → D} {cs ps : List ℝ} (h10 : cs.length + ps.length ≤ 10)
    (hex : ∀ d ∈ dates, ∃ e, MovedBack cal po d e ∧ MovedBack cal fo e (ex d)) (ca pa : NumArg) (o : Option D) (arg : ModelArg D) :
    ∃ l T, CFList.newStrategy cal dates ca cs pa ps fo po o arg = .ok l ∧ l.table cal .strategy = .ok T ∧
      List.Forall₂ (fun d row => ∃ t, row = Cell.num 0 :: .date d :: t) dates T.2 := by
  have e : CFList.newStrategy cal dates ca cs pa ps fo po o arg =
      CFList.ofPayoffs dates (dates.map fun d => PayOff.strategy (strategyOptions (ex d) ca cs pa ps)) o arg true := by
    simp only [CFList.newStrategy]
    rw [if_neg (by omega), pyMap_ok (g := fun d => PayOff.strategy (strategyOptions (ex d) ca cs pa ps)) fun x hx => ?_, Py.ok_bind]
    · rfl
    · obtain ⟨e, h1, h2⟩ := hex x hx
      rw [(C48_offset _ _ _).2 h1, Py.ok_bind, (C48_offset _ _ _).2 h2, Py.ok_bind]
  rw [e]
  refine zero_table (Or.inr rfl) (by simp) fun p hp => Or.inr ?_
  obtain ⟨x, -, rfl⟩ := List.mem_map.1 hp
  exact ⟨_, rfl⟩

/-- C119 is violated by lists of collared rate cashflows: whatever the model, the table is that of the rate cashflows without floor, cap
and forward rate; no floorlet, caplet, strike or volatility is shown. -/
theorem C119_collar_violated {l : CFList D P} {p : D → ContingentRatePay D P} {c : D → ℝ}
    (hl : ∀ d ∈ l.domain, l.flows.get d = some (.contingentRate (p d))) (hc : ∀ d ∈ l.domain, (p d).fixedRate = some (c d)) (hne : l.domain ≠ []) :
    l.table cal .contingentRate = .ok ([.cashflow, .payDate, .notional, .startDate, .endDate, .yearFraction, .fixedRate],
      l.domain.map fun d => [.num (c d * (p d).tau cal (p d).start (p d).stop * (p d).amount), .date d, .num (p d).amount,
        .date (p d).start, .date (p d).stop, .num ((p d).tau cal (p d).start (p d).stop), .num (c d)]) := by
  rw [table_eq .contingentRate (g := fun d => [(.cashflow, .num (c d * (p d).tau cal (p d).start (p d).stop * (p d).amount)), (.notional, .num (p d).amount),
      (.payRec, .text (if 0 < (p d).amount then "pay" else "rec")), (.fixedRate, .num (c d)), (.startDate, .date (p d).start),
      (.endDate, .date (p d).stop), (.yearFraction, .num ((p d).tau cal (p d).start (p d).stop))])
    (q := fun k => k = .cashflow ∨ k = .payDate ∨ k = .notional ∨ k = .startDate ∨ k = .endDate ∨ k = .yearFraction ∨ k = .fixedRate ∨ k = .payRec) ?_ ?_ hne]
  · simp [ListClass.columns, Dict.get, Dict.set]
  · intro d hd
    simp [hl d hd, PayOff.dict, ContingentRatePay.dict, RatePay.dict, RatePay.details, RatePay.forwardAt, ListClass.tableArg, hc d hd, Cell.ofNum,
      ModelArg.curve, ModelArg.truthy, Fwd.truthy]
  · intro d hd k hk
    simp only [ListClass.columns, List.mem_cons, List.not_mem_nil, or_false] at hk
    casesm* _ ∨ _ <;> subst_vars <;> simp [Dict.get, Dict.set]

/-- C119 is violated by option lists in the same way: no forward, volatility or time to expiry is shown. -/
theorem C119_option_columns_violated {l : CFList D P} {p : D → OptPay D} (hl : ∀ d ∈ l.domain, l.flows.get d = some (.option (p d))) (hne : l.domain ≠ []) :
    l.table cal .option = .ok ([.cashflow, .payDate, .putCall, .longShort, .notional, .strike, .expiryDate],
      l.domain.map fun d => [.num 0, .date d, .text (if (p d).isPut then "put" else "call"), .text (if 0 < (p d).amount then "long" else "short"),
        .num (p d).amount, (p d).strike.elim .none .num, .date (p d).expiry]) := by
  rw [table_eq .option (g := fun d => [(.cashflow, .num 0), (.putCall, .text (if (p d).isPut then "put" else "call")),
      (.longShort, .text (if 0 < (p d).amount then "long" else "short")), (.notional, .num (p d).amount),
      (.strike, (p d).strike.elim .none .num), (.expiryDate, .date (p d).expiry)])
    (q := fun k => k = .cashflow ∨ k = .payDate ∨ k = .putCall ∨ k = .longShort ∨ k = .notional ∨ k = .strike ∨ k = .expiryDate) ?_ ?_ hne]
  · simp [ListClass.columns, Dict.get, Dict.set]
  · intro d hd
    simp [hl d hd, PayOff.dict, OptPay.dict, OptPay.cashflow, ListClass.tableArg, Fwd.truthy, Cell.ofNum_eq]
  · intro d hd k hk
    simp only [ListClass.columns, List.mem_cons, List.not_mem_nil, or_false] at hk
    casesm* _ ∨ _ <;> subst_vars <;> simp [Dict.get, Dict.set]

/-- C119 is violated by leg lists: the table shows zeros. -/
theorem C119_legs_violated (cls : ListClass) (ls : List (CF D P)) {domain : List D} (hne : domain ≠ []) (o : Option D) :
    CF.table cal cls (.legs ls domain o) = .ok ([.cashflow, .payDate], domain.map fun d => [.num 0, .date d]) := by
  simp only [CF.table]
  have hl : (List.replicate domain.length (0 : ℝ)).length = domain.length := by simp
  rw [CFList.new_list o hl, Py.ok_bind]
  refine (C119_plain (cls := .plain) (Or.inl rfl) (x := fun _ => 0) (fun d hd => Or.inl ?_) hne).1
  have hm : d ∈ domain := hd
  have hs : ((Dict.ofPairs (domain.zip ((List.replicate domain.length (0 : ℝ)).map PayOff.num)) : Dict D (PayOff D P)).get d).isSome := by
    rw [Option.isSome_iff_ne_none, Ne, Dict.get_ofPairs, Dict.get_none]
    simpa [List.map_fst_zip] using hm
  obtain ⟨p, hp⟩ := Option.isSome_iff_exists.1 hs
  have hp' := hp
  rw [Dict.get_ofPairs] at hp'
  have := List.of_mem_zip (List.mem_reverse.1 (Dict.get_mem hp'))
  simp at this
  show Dict.get _ d = _
  rw [hp, this.2.2]

/-- C119 is violated by lists of functions: the table raises, whatever the functions. -/
theorem C119_function_violated (cls : ListClass) {l : CFList D P} {d : D} (hd : d ∈ l.domain) {f : ModelArg D → Py ℝ}
    (hf : l.flows.get d = some (.fn f)) : ∀ T, l.table cal cls ≠ .ok T := by
  intro T hT
  simp only [CFList.table, Py.bind_eq_ok] at hT
  obtain ⟨ds, hds, -⟩ := hT
  obtain ⟨g, hg, -⟩ := pyMap_fun.1 hds
  have := hg d hd
  simp [hf, PayOff.dict] at this

end

/-- Hypotheses of C119 are met: a list of two numbers. -/
example : ∃ l : CFList ℤ ℤ, CFList.new [10, 20] (.list [1, -2]) none = .ok l ∧
    l.table dayCal .plain = .ok ([.cashflow, .payDate], [[.num 1, .date 10], [.num (-2), .date 20]]) :=
  ⟨⟨none, [10, 20], [(10, .num 1), (20, .num (-2))], .fwd .none, false⟩, by
    have := CFList.new_list (P := ℤ) (dates := [(10 : ℤ), 20]) (amounts := [1, -2]) none rfl
    rw [this]; rfl, by
    have := (C119_plain (cal := dayCal) (cls := .plain) (Or.inl rfl) (x := fun d => if d = 10 then 1 else -2)
      (l := ⟨none, [10, 20], [(10, .num 1), (20, .num (-2))], .fwd .none, false⟩)
      (by intro d hd; simp at hd; rcases hd with rfl | rfl <;> simp [Dict.get]) (by simp)).1
    simpa using this⟩

/-- Hypotheses of C119 are met: a coupon of 5 percent for 10 days on a notional of 100 with year fractions in days. -/
example : CFList.table dayCal .rate (⟨none, [10], [(10, .rate ⟨0, 10, 100, some (fun s t => ((t - s : ℤ) : ℝ)), none, some (1 / 20)⟩)], .fwd .none, false⟩ : CFList ℤ ℤ) =
    .ok ([.cashflow, .payDate, .notional, .startDate, .endDate, .yearFraction, .fixedRate],
      [[.num 50, .date 10, .num 100, .date 0, .date 10, .num 10, .num (1 / 20)]]) := by
  rw [C119_rate (p := fun _ => ⟨0, 10, 100, some (fun s t => ((t - s : ℤ) : ℝ)), none, some (1 / 20)⟩) (c := fun _ => 1 / 20)
    (by intro d hd; simp at hd; subst hd; simp [Dict.get]) (fun _ _ => rfl) (.inl rfl) (by simp)]
  simp [RatePay.tau]
  norm_num

/-- The same coupon with a forward curve that is 3 percent at the fixing date. -/
example : CFList.table dayCal .rate (⟨none, [10], [(10, .rate ⟨0, 10, 100, some (fun s t => ((t - s : ℤ) : ℝ)), none, some (1 / 20)⟩)],
      .fwd (.fn fun _ => .ok (3 / 100)), false⟩ : CFList ℤ ℤ) =
    .ok ([.cashflow, .payDate, .notional, .startDate, .endDate, .yearFraction, .fixedRate, .forwardRate, .fixingDate, .tenor],
      [[.num 80, .date 10, .num 100, .date 0, .date 10, .num 10, .num (1 / 20), .num (3 / 100), .date 0, .other]]) := by
  rw [C119_forward (p := fun _ => ⟨0, 10, 100, some (fun s t => ((t - s : ℤ) : ℝ)), none, some (1 / 20)⟩) (c := fun _ => 1 / 20)
    (f := fun _ => 3 / 100) (fix := fun _ => 0) (by intro d hd; simp at hd; subst hd; simp [Dict.get]) (fun _ _ => rfl)
    (.fwd (.call _) (by simp)) (fun _ _ => by simp [Cal.minus]) (fun _ _ => rfl) (by simp)]
  simp [RatePay.tau]
  norm_num

/-- The table of a collared coupon with a floor of 1 and a cap of 4 percent: neither is shown. -/
example (arg : ModelArg ℤ) : CFList.table dayCal .contingentRate (⟨none, [10], [(10, .contingentRate
      { start := 0, stop := 10, amount := 100, dayCount := some (fun s t => ((t - s : ℤ) : ℝ)), fixingOffset := none, fixedRate := some (1 / 20),
        floor := some (1 / 100), cap := some (4 / 100) })], arg, true⟩ : CFList ℤ ℤ) =
    .ok ([.cashflow, .payDate, .notional, .startDate, .endDate, .yearFraction, .fixedRate],
      [[.num 50, .date 10, .num 100, .date 0, .date 10, .num 10, .num (1 / 20)]]) := by
  rw [C119_collar_violated (p := fun _ => { start := 0, stop := 10, amount := 100, dayCount := some (fun s t => ((t - s : ℤ) : ℝ)), fixingOffset := none, fixedRate := some (1 / 20), floor := some (1 / 100), cap := some (4 / 100) }) (c := fun _ => 1 / 20)
    (by intro d hd; simp at hd; subst hd; simp [Dict.get]) (fun _ _ => rfl) (by simp)]
  simp [RatePay.tau]
  norm_num

/-- The violation is not empty: the first option of the list is worth 120, the table shows 0. -/
example : ∃ l T, CFList.newOption floatCal [1, 2] (.scalar 10) (.list [100, 120]) (.scalar false) none (some (.num (1 / 2))) none
    (.model (OptModel.mk (some 0) (.num 112) .none none false (logNormalFormula codeDist))) = .ok l ∧
    l.getitem floatCal 1 = .ok 120 ∧ l.table floatCal .option = .ok T ∧ ∃ t rows, T.2 = (Cell.num 0 :: .date 1 :: t) :: rows := by
  set m := OptModel.mk (some (0 : ℝ)) (.num 112) .none none false (logNormalFormula codeDist) with hm
  have h : OptionArgs floatCal [1, 2] (.scalar 10) (.list [100, 120]) (.scalar false) none (some (.num (1 / 2))) (fun d => d - 1 / 2) :=
    ⟨by norm_num, by simp [NumArg.expand], by simp [NumArg.expand], by simp [BoolArg.expand],
      fun d _ => ⟨d - 1 / 2, (C48_offset _ _ _).1 (C48_offset_years _ _), rfl⟩⟩
  have hv := fun d k => C83_partial (m := m) (cal := floatCal) (x := 112) (by norm_num) rfl rfl (date := d) rfl k
  obtain ⟨l, hl, -, -, ha, hq⟩ := C114_options h none (.model m)
  obtain ⟨l', T, hl', hT, hz⟩ := C119_option_violated h none (.model m)
  obtain rfl : l = l' := Except.ok.inj (hl.symm.trans hl')
  have e : l = { l with arg := .model m } := by rw [← ha]
  refine ⟨l, T, hl, ?_, hT, ?_⟩
  · have := (hq m).2 0 (by simp) 10 100 false rfl rfl rfl _ (fun _ => (hv _ _).1) (by simp)
    rw [e]; norm_num at this; exact this
  · cases hr : T.2 with
    | nil => rw [hr] at hz; cases hz
    | cons r rs =>
      rw [hr] at hz
      obtain ⟨⟨t, rfl⟩, -⟩ := List.forall₂_cons.1 hz
      exact ⟨t, rs, rfl⟩

/-! ### The hypotheses can be met: each theorem applied -/

/-- A list of two amounts, one option and a list with a function. -/
def exTwoAmounts : CFList ℤ ℤ := ⟨none, [10, 20], [(10, .num 1), (20, .num (-2))], .fwd .none, false⟩
def exOneOption : CFList ℤ ℤ := ⟨none, [10], [(10, .option ⟨10, 5, some 100, false⟩)], .fwd .none, true⟩
def exOneFunction : CFList ℤ ℤ := ⟨none, [10], [(10, .fn fun _ => .ok 1)], .fwd .none, true⟩

theorem exTwoAmounts_plain : exTwoAmounts.NoFunctions := by
  intro d p h f hf
  simp only [exTwoAmounts, Dict.get] at h
  split_ifs at h <;> cases h <;> cases hf

theorem exOneOption_plain : exOneOption.NoFunctions := by
  intro d p h f hf
  simp only [exOneOption, Dict.get] at h
  split_ifs at h
  cases h; cases hf

example := C119_values (cal := dayCal) .plain exTwoAmounts_plain
example := C119_shown (cal := dayCal) .plain exTwoAmounts_plain rfl

theorem exOneOption_calls : ∀ d ∈ exOneOption.domain, exOneOption.flows.get d = some (.option ⟨10, 5, some 100, false⟩) := by
  intro d hd
  simp only [exOneOption, List.mem_singleton] at hd
  subst hd
  simp [exOneOption, Dict.get]

example := C119_option_columns_violated (cal := dayCal) (l := exOneOption) exOneOption_calls (by simp [exOneOption])
example := C119_contingent_violated (cal := dayCal) (cls := .option) (.inr (.inl rfl)) exOneOption_plain (C119_option_columns_violated (cal := dayCal) (l := exOneOption) exOneOption_calls (by simp [exOneOption]))
example (arg : ModelArg ℤ) := C119_strategy_violated (cal := dayCal) (dates := [10, 20]) (fo := some 2) (po := none) (ex := fun d => d - 2) (cs := [100, 120]) (ps := [90])
  (by simp) (fun d _ => ⟨d, rfl, by simp [MovedBack, dayCal]⟩) (.scalar 1) (.scalar 1) none arg
example := C119_legs_violated (cal := dayCal) .plain [.flat exTwoAmounts] (domain := [10, 20]) (by simp) none
example := C119_function_violated (cal := dayCal) .plain (l := exOneFunction) (d := 10) (by simp [exOneFunction]) (f := fun _ => .ok 1) (by simp [exOneFunction, Dict.get])

end Dcf
