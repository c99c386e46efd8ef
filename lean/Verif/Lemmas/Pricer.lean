import Verif.Lemmas.PyM

/-! # Lemmas on present values -/

set_option linter.unusedSectionVars false
set_option linter.unusedVariables false

namespace Dcf

section
variable {D P : Type} [LinearOrder D] {cal : Cal D P}

/-- A list with an attribute `payoff_model` has a payoff model there (and not `None` or a curve). -/
def ListObj.Priceable (l : ListObj D P) : Prop := l.hasModel = true → ∃ m, l.arg = .model m

/-- The world after the valuation date of the model of list `a` (if it has one) was set. -/
def World.dated (w : World D P) (v : Option D) (a : ℕ) : World D P :=
  if (w.lists a).hasModel then
    match (w.lists a).arg with
    | .model m => w.setValuation m v
    | .fwd _ => w
  else w

@[simp] theorem World.setValuation_lists (w : World D P) (m : ℕ) (v : Option D) : (w.setValuation m v).lists = w.lists := rfl
@[simp] theorem World.setValuation_curves (w : World D P) (m : ℕ) (v : Option D) :
    (w.setValuation m v).curves = w.curves := rfl

theorem World.setValuation_back (w : World D P) (m : ℕ) (v : Option D) :
    (w.setValuation m v).setValuation m (w.models m).valuation = w := by
  cases w
  simp [World.setValuation, Function.update_eq_self]

theorem World.setValuation_same (w : World D P) (m : ℕ) : w.setValuation m (w.models m).valuation = w := by
  cases w
  simp [World.setValuation]

@[simp] theorem World.dated_lists (w : World D P) (v : Option D) (a : ℕ) : (w.dated v a).lists = w.lists := by
  unfold World.dated
  split_ifs
  · split <;> rfl
  · rfl

@[simp] theorem World.dated_curves (w : World D P) (v : Option D) (a : ℕ) : (w.dated v a).curves = w.curves := by
  unfold World.dated
  split_ifs
  · split <;> rfl
  · rfl

/-- Everything `get_present_value` does on a flat list. -/
theorem pvList_run (c : CurveObj D P) (same : Bool) (v : Option D) {a : ℕ} {w : World D P} (hm : (w.lists a).Priceable) :
    pvList cal c same v a w =
      match payDates v (w.lists a).domain with
      | .error e => (.error e, w.dated v a)
      | .ok ds =>
        match ((w.dated v a).list a).getitems cal ds with
        | .error e => (.error e, w.dated v a)
        | .ok fl => (discountSum cal c same v (ds.zip fl), w) := by
  unfold pvList
  rw [PyM.get_bind]
  by_cases h : (w.lists a).hasModel
  · obtain ⟨m, hm⟩ := hm h
    have hd : w.dated v a = w.setValuation m v := by simp [World.dated, h, hm]
    have he : enterModel v (w.lists a) w = (.ok (some (m, (w.models m).valuation)), w.dated v a) := by
      simp [enterModel, h, hm, hd]
    rw [PyM.bind_ok he]
    cases h1 : payDates v (w.lists a).domain with
    | error e => rfl
    | ok ds =>
      simp only [PyM.lift_ok_bind, PyM.get_bind]
      cases h2 : ((w.dated v a).list a).getitems cal ds with
      | error e => rfl
      | ok fl =>
        simp only [PyM.lift_ok_bind]
        rw [PyM.bind_ok (a := ()) (s' := w)]
        · rfl
        · simp [leaveModel, hd, World.setValuation_back]
  · have hd : w.dated v a = w := by simp [World.dated, h]
    have he : enterModel v (w.lists a) w = (.ok none, w) := by simp [enterModel, h]
    rw [PyM.bind_ok he, hd]
    cases h1 : payDates v (w.lists a).domain with
    | error e => rfl
    | ok ds =>
      simp only [PyM.lift_ok_bind, PyM.get_bind]
      cases h2 : (w.list a).getitems cal ds with
      | error e => rfl
      | ok fl =>
        simp only [PyM.lift_ok_bind]
        rw [PyM.bind_ok (a := ()) (s' := w)]
        · rfl
        · simp [leaveModel]

theorem pvList_bad (c : CurveObj D P) (same : Bool) (v : Option D) {a : ℕ} {w : World D P}
    (hm : ¬ (w.lists a).Priceable) : pvList cal c same v a w = (.error .attribute, w) := by
  unfold ListObj.Priceable at hm
  push Not at hm
  obtain ⟨h, hm⟩ := hm
  unfold pvList
  rw [PyM.get_bind]
  refine PyM.bind_error ?_
  unfold enterModel
  rw [if_pos h]
  cases ha : (w.lists a).arg with
  | model m => exact absurd ha (hm m)
  | fwd f => rfl

theorem pvList_ok {c : CurveObj D P} {same : Bool} {v : Option D} {a : ℕ} {w w' : World D P} {x : ℝ} :
    pvList cal c same v a w = (.ok x, w') ↔
      w' = w ∧ (w.lists a).Priceable ∧ ∃ ds fl, payDates v (w.lists a).domain = .ok ds ∧
        ((w.dated v a).list a).getitems cal ds = .ok fl ∧ discountSum cal c same v (ds.zip fl) = .ok x := by
  by_cases hm : (w.lists a).Priceable
  · rw [pvList_run c same v hm]
    cases h1 : payDates v (w.lists a).domain with
    | error e => simp
    | ok ds =>
      cases h2 : ((w.dated v a).list a).getitems cal ds with
      | error e => simp [h2]
      | ok fl =>
        simp only [h2, Prod.mk.injEq]
        constructor
        · rintro ⟨h, rfl⟩
          exact ⟨rfl, hm, ds, fl, rfl, h2, h⟩
        · rintro ⟨rfl, -, ds', fl', h3, h4, h5⟩
          cases h3
          rw [h2] at h4
          cases h4
          exact ⟨h5, rfl⟩
  · rw [pvList_bad c same v hm]
    simp [hm]

theorem pyMap_fun {α β : Type} [Inhabited β] {f : α → Py β} {l : List α} {bs : List β} :
    pyMap f l = .ok bs ↔ ∃ g : α → β, (∀ a ∈ l, f a = .ok (g a)) ∧ bs = l.map g := by
  constructor
  · intro h
    classical
    refine ⟨fun a => match f a with | .ok b => b | .error _ => default, ?_, ?_⟩
    · induction l generalizing bs with
      | nil => simp
      | cons x l ih =>
        simp only [pyMap_cons, Py.bind_eq_ok] at h
        obtain ⟨b, hb, bs', hbs, -⟩ := h
        intro a ha
        rcases List.mem_cons.1 ha with rfl | ha
        · simp [hb]
        · exact ih hbs a ha
    · induction l generalizing bs with
      | nil => simpa [pyMap, eq_comm] using h
      | cons x l ih =>
        simp only [pyMap_cons, Py.bind_eq_ok] at h
        obtain ⟨b, hb, bs', hbs, he⟩ := h
        rw [← Except.ok.inj he, ih hbs]
        simp [hb]
  · rintro ⟨g, hg, rfl⟩
    exact pyMap_ok hg

theorem discountSum_ok {c : CurveObj D P} {same : Bool} {v : D} {ds : List D} {fl : D → ℝ} {x : ℝ} :
    discountSum cal c same (some v) (ds.zip (ds.map fl)) = .ok x ↔
      ∃ df : D → ℝ, (∀ d ∈ ds, c.discountFactor cal same v d = .ok (df d)) ∧ x = (ds.map fun d => df d * fl d).sum := by
  have hz : ds.zip (ds.map fl) = ds.map fun d => (d, fl d) := by
    induction ds with
    | nil => rfl
    | cons d ds ih => simp [ih]
  unfold discountSum
  rw [hz, pyMap_map]
  simp only [Py.bind_eq_ok, pyDate, Py.ok_bind]
  constructor
  · rintro ⟨l, hl, hx⟩
    obtain ⟨g, hg, rfl⟩ := pyMap_fun.1 hl
    have : ∀ d ∈ ds, ∃ y, c.discountFactor cal same v d = .ok y ∧ g d = y * fl d := by
      intro d hd
      have := hg d hd
      simp only [Py.bind_eq_ok] at this
      obtain ⟨y, hy, he⟩ := this
      exact ⟨y, hy, (Except.ok.inj he).symm⟩
    refine ⟨fun d => match c.discountFactor cal same v d with | .ok y => y | .error _ => 0, ?_, ?_⟩
    · intro d hd
      obtain ⟨y, hy, -⟩ := this d hd
      simp [hy]
    · rw [← Except.ok.inj hx, pySum_eq]
      congr 1
      apply List.map_congr_left
      intro d hd
      obtain ⟨y, hy, he⟩ := this d hd
      simp [hy, he]
  · rintro ⟨df, hdf, rfl⟩
    refine ⟨_, pyMap_ok (g := fun d => df d * fl d) fun d hd => ?_, by simp⟩
    simp [hdf d hd]

/-- The present value of a flat list in terms of discount factors and flows. -/
theorem pvList_sum {c : CurveObj D P} {same : Bool} {v : D} {a : ℕ} {w w' : World D P} {x : ℝ} :
    pvList cal c same (some v) a w = (.ok x, w') ↔
      w' = w ∧ (w.lists a).Priceable ∧ ∃ df fl : D → ℝ,
        (∀ d ∈ (w.lists a).domain, v ≤ d → c.discountFactor cal same v d = .ok (df d) ∧
          ((w.dated (some v) a).list a).getitem cal d = .ok (fl d)) ∧
        x = (((w.lists a).domain.filter (v ≤ ·)).map fun d => df d * fl d).sum := by
  rw [pvList_ok]
  simp only [payDates, CFList.getitems]
  constructor
  · rintro ⟨rfl, hm, ds, fl, h1, h2, h3⟩
    obtain rfl := Except.ok.inj h1
    obtain ⟨g, hg, rfl⟩ := pyMap_fun.1 h2
    obtain ⟨df, hdf, hx⟩ := discountSum_ok.1 h3
    refine ⟨rfl, hm, df, g, fun d hd hv => ?_, hx⟩
    have : d ∈ (w'.lists a).domain.filter (v ≤ ·) := by simp [hd, hv]
    exact ⟨hdf d this, hg d this⟩
  · rintro ⟨rfl, hm, df, fl, h, hx⟩
    have h' : ∀ d ∈ (w'.lists a).domain.filter (v ≤ ·), d ∈ (w'.lists a).domain ∧ v ≤ d := by
      intro d hd
      simpa using hd
    refine ⟨rfl, hm, _, _, rfl, pyMap_ok fun d hd => (h d (h' d hd).1 (h' d hd).2).2, ?_⟩
    exact discountSum_ok.2 ⟨df, fun d hd => (h d (h' d hd).1 (h' d hd).2).1, hx⟩

end

end Dcf
