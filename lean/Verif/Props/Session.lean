import Verif.Model.Session
import Verif.Props.Portfolio
import Verif.Props.FairRate
import Verif.Props.CurveFit

/-! # Sessions of pricing calls: C161 -/

set_option linter.unusedSectionVars false
set_option linter.unusedSimpArgs false
set_option linter.unusedVariables false

namespace Dcf

open Spec

/-! ## State changes of computations -/

section
variable {σ α β : Type}

/-- Whatever the outcome, the state changes along `T`. -/
def Keeps (T : σ → σ → Prop) (m : PyM σ α) : Prop := ∀ s, T s (m s).2

/-- If it succeeds, the state changes along `T`. -/
def KeepsOk (T : σ → σ → Prop) (m : PyM σ α) : Prop := ∀ s x s', m s = (.ok x, s') → T s s'

/-- A relation of states along which computations can be composed. -/
structure Chain (T : σ → σ → Prop) : Prop where
  refl : ∀ s, T s s
  trans : ∀ {a b c}, T a b → T b c → T a c

variable {T : σ → σ → Prop}

theorem Keeps.bind (hT : Chain T) {m : PyM σ α} {f : α → PyM σ β} (h : Keeps T m) (hf : ∀ x, Keeps T (f x)) : Keeps T (m >>= f) := fun s => by
  have := h s
  rw [PyM.bind_run]
  rcases hm : m s with ⟨x | x, s'⟩ <;> rw [hm] at this
  · exact this
  · exact hT.trans this (hf x s')

theorem Keeps.still (hT : Chain T) {m : PyM σ α} (h : ∀ s, (m s).2 = s) : Keeps T m := fun s => by rw [h]; exact hT.refl s

theorem Keeps.mapM (hT : Chain T) {f : α → PyM σ β} (h : ∀ a, Keeps T (f a)) : ∀ l, Keeps T (PyM.mapM f l)
  | [] => .still hT fun _ => rfl
  | a :: l => (h a).bind hT fun _ => (Keeps.mapM hT h l).bind hT fun _ => .still hT fun _ => rfl

theorem Keeps.forM (hT : Chain T) {f : α → PyM σ Unit} : ∀ (l : List α), (∀ a ∈ l, Keeps T (f a)) → Keeps T (PyM.forM f l)
  | [], _ => .still hT fun _ => rfl
  | a :: l, h => (h a (by simp)).bind hT fun _ => Keeps.forM hT l fun a ha => h a (by simp [ha])

theorem Keeps.neg (hT : Chain T) {f : ℝ → PyM σ ℝ} (h : ∀ x, Keeps T (f x)) (x : ℝ) : Keeps T (negFunc f x) :=
  (h x).bind hT fun _ => .still hT fun _ => rfl

theorem Keeps.orient (hT : Chain T) {f : ℝ → PyM σ ℝ} (h : ∀ x, Keeps T (f x)) (fa fb : ℝ) (x : ℝ) : Keeps T ((orient f fa fb).1 x) := by
  rw [Dcf.orient]
  split_ifs
  · exact Keeps.neg hT h x
  · exact h x

theorem Keeps.bracket (hT : Chain T) (precision : ℝ) : ∀ (limit : ℕ) {f : ℝ → PyM σ ℝ} (_ : ∀ x, Keeps T (f x)) (a b : ℝ),
    Keeps T (bracket precision limit f a b)
  | 0, _, _, _, _ => .still hT fun _ => rfl
  | limit + 1, f, h, a, b => by
    rw [Dcf.bracket]
    refine (h a).bind hT fun fa => (h b).bind hT fun fb => ?_
    dsimp only
    split_ifs
    · exact .still hT fun _ => rfl
    · exact (Keeps.orient hT h fa fb _).bind hT fun fm => Keeps.bracket hT precision limit (Keeps.orient hT h fa fb) _ _
    · exact .still hT fun _ => rfl

theorem KeepsOk.bind (hT : Chain T) {m : PyM σ α} {f : α → PyM σ β} (h : KeepsOk T m) (hf : ∀ x, KeepsOk T (f x)) : KeepsOk T (m >>= f) :=
  fun s y s' e => by
    obtain ⟨x, s1, h1, h2⟩ := PyM.bind_eq_ok.1 e
    exact hT.trans (h _ _ _ h1) (hf _ _ _ _ h2)

theorem KeepsOk.still (hT : Chain T) {m : PyM σ α} (h : ∀ s, (m s).2 = s) : KeepsOk T m := fun s x s' e => by
  have := h s; rw [e] at this; simp only at this; rw [this]; exact hT.refl s

theorem KeepsOk.mapM (hT : Chain T) {f : α → PyM σ β} (h : ∀ a, KeepsOk T (f a)) : ∀ l, KeepsOk T (PyM.mapM f l)
  | [] => .still hT fun _ => rfl
  | a :: l => (h a).bind hT fun _ => (KeepsOk.mapM hT h l).bind hT fun _ => .still hT fun _ => rfl

theorem KeepsOk.forM (hT : Chain T) {f : α → PyM σ Unit} (h : ∀ a, KeepsOk T (f a)) : ∀ l, KeepsOk T (PyM.forM f l)
  | [] => .still hT fun _ => rfl
  | a :: l => (h a).bind hT fun _ => KeepsOk.forM hT h l

theorem KeepsOk.orient (hT : Chain T) {f : ℝ → PyM σ ℝ} (h : ∀ x, KeepsOk T (f x)) (fa fb : ℝ) (x : ℝ) :
    KeepsOk T ((orient f fa fb).1 x) := by
  rw [Dcf.orient]
  split_ifs
  · exact (h x).bind hT fun _ => .still hT fun _ => rfl
  · exact h x

theorem KeepsOk.bracket (hT : Chain T) (precision : ℝ) : ∀ (limit : ℕ) {f : ℝ → PyM σ ℝ} (_ : ∀ x, KeepsOk T (f x)) (a b : ℝ),
    KeepsOk T (bracket precision limit f a b)
  | 0, _, _, _, _ => .still hT fun _ => rfl
  | limit + 1, f, h, a, b => by
    rw [Dcf.bracket]
    refine (h a).bind hT fun fa => (h b).bind hT fun fb => ?_
    dsimp only
    split_ifs
    · exact .still hT fun _ => rfl
    · exact (KeepsOk.orient hT h fa fb _).bind hT fun fm => KeepsOk.bracket hT precision limit (KeepsOk.orient hT h fa fb) _ _
    · exact .still hT fun _ => rfl

/-- Both computations raise the same exception or return related values, from related states to related states. -/
def Sim (E : σ → σ → Prop) (R : α → β → Prop) (m : PyM σ α) (m' : PyM σ β) : Prop := ∀ s s', E s s' →
  E (m s).2 (m' s').2 ∧
    match (m s).1, (m' s').1 with
    | .ok x, .ok y => R x y
    | .error e, .error e' => e' = e
    | _, _ => False

variable {E : σ → σ → Prop}

theorem Sim.bind {α' β' : Type} {R : α → β → Prop} {S : α' → β' → Prop} {m : PyM σ α} {m' : PyM σ β} {f : α → PyM σ α'}
    {f' : β → PyM σ β'} (h : Sim E R m m') (hf : ∀ x y, R x y → Sim E S (f x) (f' y)) : Sim E S (m >>= f) (m' >>= f') := by
  intro s s' hs
  obtain ⟨h1, h2⟩ := h s s' hs
  rw [PyM.bind_run, PyM.bind_run]
  rcases hm : m s with ⟨x | x, t⟩ <;> rcases hm' : m' s' with ⟨y | y, t'⟩ <;> simp only [hm, hm'] at h1 h2 ⊢
  · exact ⟨h1, h2⟩
  · exact hf x y h2 t t' h1

theorem Sim.eq {R : α → β → Prop} {x : Py α} {y : Py β} (h : match x, y with
    | .ok x, .ok y => R x y
    | .error e, .error e' => e' = e
    | _, _ => False) : Sim E R (PyM.lift x) (PyM.lift y) := fun s s' hs => ⟨hs, h⟩

theorem Sim.lift (x : Py α) : Sim E (· = ·) (PyM.lift x) (PyM.lift x) := .eq (by cases x <;> simp)

theorem Sim.pure {R : α → β → Prop} {x : α} {y : β} (h : R x y) : Sim E R (Pure.pure x : PyM σ α) (Pure.pure y) := fun s s' hs => ⟨hs, h⟩

theorem Sim.get : Sim E E (PyM.get : PyM σ σ) PyM.get := fun s s' hs => ⟨hs, hs⟩

theorem Sim.mapM {f : α → PyM σ β} (h : ∀ a, Sim E (· = ·) (f a) (f a)) : ∀ l, Sim E (· = ·) (PyM.mapM f l) (PyM.mapM f l)
  | [] => .pure rfl
  | a :: l => (h a).bind fun _ _ h1 => (Sim.mapM h l).bind fun _ _ h2 => .pure (by rw [h1, h2])

theorem Sim.forM {f : α → PyM σ Unit} (h : ∀ a, Sim E (· = ·) (f a) (f a)) : ∀ l, Sim E (· = ·) (PyM.forM f l) (PyM.forM f l)
  | [] => .pure rfl
  | a :: l => (h a).bind fun _ _ _ => Sim.forM h l

theorem Sim.orient {f : ℝ → PyM σ ℝ} (h : ∀ x, Sim E (· = ·) (f x) (f x)) (fa fb : ℝ) (x : ℝ) :
    Sim E (· = ·) ((orient f fa fb).1 x) ((orient f fa fb).1 x) := by
  rw [Dcf.orient]
  split_ifs
  · exact (h x).bind fun _ _ e => .pure (by rw [e])
  · exact h x

theorem Sim.bracket (precision : ℝ) : ∀ (limit : ℕ) {f : ℝ → PyM σ ℝ} (_ : ∀ x, Sim E (· = ·) (f x) (f x)) (a b : ℝ),
    Sim E (· = ·) (bracket precision limit f a b) (bracket precision limit f a b)
  | 0, _, _, _, _ => .lift _
  | limit + 1, f, h, a, b => by
    rw [Dcf.bracket]
    refine (h a).bind fun fa _ e => ?_
    subst e
    refine (h b).bind fun fb _ e => ?_
    subst e
    dsimp only
    split_ifs
    · exact .pure rfl
    · refine (Sim.orient h fa fb _).bind fun fm _ e => ?_
      subst e
      exact Sim.bracket precision limit (Sim.orient h fa fb) _ _
    · exact .lift _

theorem Sim.result {m : PyM σ α} (h : Sim E (· = ·) m m) {s s' : σ} (hs : E s s') : (m s').1 = (m s).1 := by
  have := (h s s' hs).2
  rcases h1 : (m s).1 with e | x <;> rcases h2 : (m s').1 with e' | y <;> rw [h1, h2] at this <;> simp_all

end

/-! ## What a call may change -/

section
variable {D P : Type} [LinearOrder D] {cal : Cal D P}

/-- The curves a call shifts or fits. -/
def Spec.shifts : PriceCall D P → List ℕ
  | .basisPointValue _ disc _ _ delta _ => delta.getD [disc]
  | .bucketedDelta _ disc _ _ delta _ _ => delta.getD [disc]
  | .curveFit _ _ _ _ disc _ _ fitting _ _ _ _ _ => [fitting.getD disc]
  | _ => []

/-- The lists whose fixed rate a call searches for. -/
def Spec.searches : PriceCall D P → List ℕ
  | .fairRate _ (.list a) _ _ _ _ _ _ _ => [a]
  | _ => []

/-- The objects of `w'` are those of `w` but for the valuation dates of models, the spreads of curves in `K` and the fixed rate of lists in
`L`. -/
structure Spec.Traces (K L : List ℕ) (w w' : World D P) : Prop where
  curves : ∀ a, (∃ f, w'.curves a = { w.curves a with spread := f }) ∧ (a ∉ K → w'.curves a = w.curves a)
  models : ∀ a, ∃ v, w'.models a = { w.models a with valuation := v }
  lists : ∀ a, w'.lists a = w.lists a ∨ a ∈ L ∧ ∃ r, w'.lists a = (w.lists a).setRate r

theorem ListObj.setRate_twice (l : ListObj D P) (r s : Option ℝ) : (l.setRate r).setRate s = l.setRate s := by
  simp [ListObj.setRate, List.map_map, Function.comp_def, PayOff.setFixedRate_twice]

theorem traces_chain (K L : List ℕ) : Chain (Spec.Traces (D := D) (P := P) K L) where
  refl w := ⟨fun a => ⟨⟨(w.curves a).spread, rfl⟩, fun _ => rfl⟩, fun a => ⟨(w.models a).valuation, rfl⟩, fun a => .inl rfl⟩
  trans {a b c} h h' := by
    refine ⟨fun k => ⟨?_, fun hk => ((h'.curves k).2 hk).trans ((h.curves k).2 hk)⟩, fun k => ?_, fun k => ?_⟩
    · obtain ⟨f, hf⟩ := (h.curves k).1
      obtain ⟨g, hg⟩ := (h'.curves k).1
      exact ⟨g, by rw [hg, hf]⟩
    · obtain ⟨f, hf⟩ := h.models k
      obtain ⟨g, hg⟩ := h'.models k
      exact ⟨g, by rw [hg, hf]⟩
    · rcases h.lists k with e | ⟨hl, r, e⟩ <;> rcases h'.lists k with e' | ⟨hl', r', e'⟩
      · exact .inl (e'.trans e)
      · exact .inr ⟨hl', r', by rw [e', e]⟩
      · exact .inr ⟨hl, r, by rw [e', e]⟩
      · exact .inr ⟨hl, r', by rw [e', e, ListObj.setRate_twice]⟩

theorem Spec.Traces.mono {K L K' L' : List ℕ} {w w' : World D P} (h : Spec.Traces K L w w') (hK : K ⊆ K') (hL : L ⊆ L') :
    Spec.Traces K' L' w w' :=
  ⟨fun a => ⟨(h.curves a).1, fun ha => (h.curves a).2 fun h => ha (hK h)⟩, h.models, fun a => (h.lists a).imp id fun h => ⟨hL h.1, h.2⟩⟩

theorem traces_valuation (K L : List ℕ) (w : World D P) (m : ℕ) (v : Option D) : Spec.Traces K L w (w.setValuation m v) := by
  refine ⟨((traces_chain K L).refl w).curves, fun a => ?_, fun a => .inl rfl⟩
  by_cases h : a = m
  · subst h; exact ⟨v, by simp [World.setValuation]⟩
  · exact ⟨_, by simp [World.setValuation, Function.update_of_ne h]; rfl⟩

theorem traces_spread {K : List ℕ} (L : List ℕ) (w : World D P) {a : ℕ} (ha : a ∈ K) (f : Option (D → Py (Option ℝ))) :
    Spec.Traces K L w (w.setCurve a { w.curves a with spread := f }) := by
  refine ⟨fun b => ⟨?_, fun hb => ?_⟩, ((traces_chain K L).refl w).models, fun a => .inl rfl⟩
  · by_cases h : b = a
    · subst h; exact ⟨f, by simp [World.setCurve]⟩
    · exact ⟨_, by simp [World.setCurve, Function.update_of_ne h]; rfl⟩
  · have : b ≠ a := fun h => hb (h ▸ ha)
    simp [World.setCurve, Function.update_of_ne this]

theorem setSpread_run_any (a : ℕ) (f : Option (D → Py (Option ℝ))) (w : World D P) : setSpread a f w =
    if f.isSome ∧ (w.curves a).spread.isSome then (.error .type, w) else (.ok (), w.setCurve a { w.curves a with spread := f }) := by
  simp only [setSpread, RateCurve.setSpread]
  split_ifs <;> rfl

variable {K L : List ℕ}

theorem setSpread_keeps {a : ℕ} (ha : a ∈ K) (f : Option (D → Py (Option ℝ))) : Keeps (Spec.Traces (P := P) K L) (setSpread a f) := fun w => by
  rw [setSpread_run_any]
  split_ifs
  · exact (traces_chain K L).refl w
  · exact traces_spread L w ha f

theorem shiftCurve_keeps {a : ℕ} (ha : a ∈ K) (grid : List D) (shifts : List ℝ) :
    Keeps (Spec.Traces (P := P) K L) (shiftCurve cal a grid shifts) :=
  (Keeps.still (traces_chain K L) fun _ => rfl).bind (traces_chain K L) fun _ => setSpread_keeps ha _

theorem parallelShift_keeps {a : ℕ} (ha : a ∈ K) (shift : ℝ) : Keeps (Spec.Traces (P := P) K L) (parallelShift cal shift a) :=
  (Keeps.still (traces_chain K L) fun _ => rfl).bind (traces_chain K L) fun w =>
    (Keeps.still (traces_chain K L) fun _ => rfl).bind (traces_chain K L) fun _ => shiftCurve_keeps ha _ _

theorem pvList_keeps (c : CurveObj D P) (same : Bool) (v : Option D) (a : ℕ) : Keeps (Spec.Traces K L) (pvList cal c same v a) := by
  have hT := traces_chain (D := D) (P := P) K L
  refine (Keeps.still hT fun _ => rfl).bind hT fun w0 => Keeps.bind hT (fun w => ?_) fun saved => (Keeps.still hT fun _ => rfl).bind hT fun _ =>
    (Keeps.still hT fun _ => rfl).bind hT fun _ => (Keeps.still hT fun _ => rfl).bind hT fun _ => Keeps.bind hT (fun w => ?_) fun _ =>
      Keeps.still hT fun _ => rfl
  · rw [enterModel]
    split_ifs
    · split
      · exact traces_valuation K L w _ v
      · exact hT.refl w
    · exact hT.refl w
  · rw [leaveModel.eq_def]
    split
    · exact traces_valuation K L w _ _
    · exact hT.refl w

mutual
theorem pvAt_keeps (c : CurveObj D P) (same : Bool) (v : Option D) : ∀ p : Product D, Keeps (Spec.Traces K L) (pvAt cal c same v p)
  | .list a => by rw [pvAt]; exact pvList_keeps c same v a
  | .legs ps d o => by
    rw [pvAt]
    exact (pvLegs_keeps c same v ps).bind (traces_chain K L) fun _ => .still (traces_chain K L) fun _ => rfl

theorem pvLegs_keeps (c : CurveObj D P) (same : Bool) (v : Option D) : ∀ ps : List (Product D), Keeps (Spec.Traces K L) (pvLegs cal c same v ps)
  | [] => by rw [pvLegs]; exact .still (traces_chain K L) fun _ => rfl
  | p :: ps => by
    rw [pvLegs]
    exact (pvAt_keeps c same v p).bind (traces_chain K L) fun _ => (pvLegs_keeps c same v ps).bind (traces_chain K L) fun _ =>
      .still (traces_chain K L) fun _ => rfl
end

theorem pv_keeps (c : CurveObj D P) (same : Bool) (v : Option D) (p : Product D) : Keeps (Spec.Traces K L) (pv cal c same v p) := by
  cases v with
  | none => exact pvAt_keeps c true _ p
  | some v => exact pvAt_keeps c same _ p

theorem pvOn_keeps (disc : ℕ) (same : Bool) (v : Option D) (p : Product D) : Keeps (Spec.Traces (P := P) K L) (pvOn cal disc same v p) :=
  fun w => pv_keeps (w.curves disc) same v p w

/-- States of a world and something else. -/
theorem Chain.fst {σ τ : Type} {T : σ → σ → Prop} (h : Chain T) : Chain fun s s' : σ × τ => T s.1 s'.1 := ⟨fun s => h.refl _, fun h1 h2 => h.trans h1 h2⟩

theorem ytmErr_keeps (same : Bool) (v : D) (target : ℝ) (p : Product D) (x : ℝ) :
    Keeps (fun s s' : World D P × IRCurve D P => Spec.Traces K L s.1 s'.1) (ytmErr cal same v target p x) := fun s => by
  rw [ytmErr]
  split
  · exact (traces_chain K L).refl _
  · rename_i rc _
    have := pv_keeps (cal := cal) (K := K) (L := L) (IRCurve.obj ⟨rc, s.2.cls⟩) same (some v) p s.1
    dsimp only
    split
    · rename_i e; rw [e] at this; exact this
    · rename_i e; rw [e] at this; exact this

theorem ytm_keeps (limit : ℕ) (same : Bool) (interp : Option FuncSpec) (origin : Option D) (dc : DayCountArg D) (tenor : Option P)
    (p : Product D) (v : Option D) (target precision lo hi : ℝ) :
    Keeps (Spec.Traces (P := P) K L) (ytm cal limit same interp origin dc tenor p v target precision lo hi) := fun w => by
  rw [ytm]
  split
  · exact (traces_chain K L).refl _
  · split
    · exact (traces_chain K L).refl _
    · rename_i v' _ _ c _
      have := Keeps.bracket (traces_chain K L).fst precision limit (ytmErr_keeps (cal := cal) (K := K) (L := L) same v' target p) lo hi (w, c)
      split
      · rename_i e; rw [e] at this; exact this
      · rename_i e; rw [e] at this; exact this

theorem setRate_keeps {a : ℕ} (ha : a ∈ L) (r : Option ℝ) : Keeps (Spec.Traces (D := D) (P := P) K L) (setRate a r) := fun w => by
  refine ⟨((traces_chain K L).refl w).curves, ((traces_chain K L).refl w).models, fun b => ?_⟩
  show (w.setList a ((w.lists a).setRate r)).lists b = _ ∨ _ ∧ ∃ r', (w.setList a ((w.lists a).setRate r)).lists b = _
  by_cases h : b = a
  · subst h; exact .inr ⟨ha, r, by simp [World.setList]⟩
  · exact .inl (by simp [World.setList, Function.update_of_ne h])

theorem fairRate_keeps (limit : ℕ) (p : Product D) (disc : ℕ) (same : Bool) (v : Option D) (target precision lo hi : ℝ) (hL : ∀ a, p = .list a → a ∈ L) :
    Keeps (Spec.Traces (P := P) K L) (fairRate cal limit disc same p v target precision lo hi) := by
  have hT := traces_chain (D := D) (P := P) K L
  cases p with
  | legs ps d o => exact .still hT fun _ => rfl
  | list a =>
    have ha := hL a rfl
    refine Keeps.bind hT (Keeps.still hT fun w => ?_) fun rate => (Keeps.bracket hT precision limit (fun x => ?_) lo hi).bind hT fun r =>
      (setRate_keeps ha rate).bind hT fun _ => Keeps.still hT fun _ => rfl
    · rw [getRate]; split_ifs <;> rfl
    · exact (setRate_keeps ha _).bind hT fun _ => (pvOn_keeps disc same v _).bind hT fun _ => Keeps.still hT fun _ => rfl

theorem bpv_keeps (p : Product D) (disc : ℕ) (same : Bool) (v : Option D) (delta : Option (List ℕ)) (shift : ℝ) (hK : delta.getD [disc] ⊆ K) :
    Keeps (Spec.Traces (P := P) K L) (basisPointValue cal disc same p v delta shift) := by
  have hT := traces_chain (D := D) (P := P) K L
  exact (pvOn_keeps disc same v p).bind hT fun _ => (Keeps.forM hT _ fun a ha => parallelShift_keeps (hK ha) shift).bind hT fun _ =>
    (pvOn_keeps disc same v p).bind hT fun _ => (Keeps.forM hT _ fun a ha => setSpread_keeps (hK ha) none).bind hT fun _ =>
      (Keeps.still hT fun _ => rfl).bind hT fun _ => Keeps.still hT fun _ => rfl

theorem deltas_keeps (p : Product D) (disc : ℕ) (same : Bool) (v : Option D) (delta : Option (List ℕ)) (grid : Option (List D)) (shift : ℝ)
    (hK : delta.getD [disc] ⊆ K) : Keeps (Spec.Traces (P := P) K L) (bucketedDelta cal disc same p v delta grid shift) := by
  have hT := traces_chain (D := D) (P := P) K L
  refine (pvOn_keeps disc same v p).bind hT fun _ => (Keeps.still hT fun _ => rfl).bind hT fun w => (Keeps.still hT fun _ => rfl).bind hT fun gs =>
    Keeps.mapM hT (fun g => ?_) gs
  exact (Keeps.forM hT _ fun a ha => shiftCurve_keeps (hK ha) _ _).bind hT fun _ =>
    (pvOn_keeps disc same v p).bind hT fun _ => (Keeps.forM hT _ fun a ha => setSpread_keeps (hK ha) none).bind hT fun _ =>
      (Keeps.still hT fun _ => rfl).bind hT fun _ => Keeps.still hT fun _ => rfl

theorem setSpreadPoint_keeps {a : ℕ} (ha : a ∈ K) (d : D) (x : ℝ) :
    Keeps (fun s s' : World D P × RateCurve D P => Spec.Traces K L s.1 s'.1) (setSpreadPoint cal a d x) := fun s => by
  rw [setSpreadPoint]
  split
  · exact traces_spread L s.1 ha _
  · exact (traces_chain K L).refl _

theorem pvGap_keeps (disc : ℕ) (same : Bool) (v : Option D) (q : Product D × ℝ) :
    Keeps (fun s s' : World D P × RateCurve D P => Spec.Traces K L s.1 s'.1) (pvGap cal disc same v q) := fun s => by
  have := pvOn_keeps (cal := cal) (K := K) (L := L) disc same v q.1 s.1
  rw [pvGap]
  split
  · rename_i e; rw [e] at this; exact this
  · rename_i e; rw [e] at this; exact this

theorem fitLoop_keeps {a : ℕ} (ha : a ∈ K) (limit : ℕ) (disc : ℕ) (same : Bool) (v : Option D) (ps : List (Product D × ℝ)) (precision lo hi : ℝ) :
    Keeps (fun s s' : World D P × RateCurve D P => Spec.Traces K L s.1 s'.1) (fitLoop cal limit disc same v a ps precision lo hi) := by
  have hT := (traces_chain (D := D) (P := P) K L).fst (τ := RateCurve D P)
  refine (Keeps.still hT fun _ => rfl).bind hT fun s => (Keeps.forM hT _ fun d _ => setSpreadPoint_keeps ha d 0).bind hT fun _ =>
    (Keeps.still hT fun _ => rfl).bind hT fun s => (Keeps.forM hT _ fun d _ => ?_).bind hT fun _ => (Keeps.still hT fun _ => rfl).bind hT fun _ =>
      Keeps.still hT fun _ => rfl
  refine (Keeps.still hT fun _ => rfl).bind hT fun s => (Keeps.still hT fun _ => rfl).bind hT fun qs =>
    (Keeps.bracket hT precision limit (fun x => ?_) lo hi).bind hT fun _ => Keeps.still hT fun _ => rfl
  exact (setSpreadPoint_keeps ha d x).bind hT fun _ => (Keeps.mapM hT (fun q => pvGap_keeps disc same v q) qs).bind hT fun _ =>
    Keeps.still hT fun _ => rfl

theorem curveFit_keeps (limit : ℕ) (scipy : Bool) (sameD : D → Bool) (ps : List (Product D)) (disc : ℕ) (same : Bool) (v : Option D)
    (fitting : Option ℕ) (grid : Option (List D)) (target : NumArg) (precision lo hi : ℝ) (hK : fitting.getD disc ∈ K) :
    Keeps (Spec.Traces (P := P) K L) (curveFit cal limit scipy sameD ps disc same v fitting grid target precision lo hi) := fun w => by
  have hT := traces_chain (D := D) (P := P) K L
  rw [curveFit]
  split
  · exact hT.refl w
  · rename_i sp _
    have h1 := setSpread_keeps (L := L) hK (some (sp.asSpread cal)) w
    split
    · rename_i e; rw [e] at h1; exact h1
    · rename_i w1 e
      rw [e] at h1
      have h2 := fitLoop_keeps (cal := cal) (L := L) hK limit disc same v (ps.zip (targetList target ps.length)) precision lo hi (w1, sp)
      split
      · rename_i e; rw [e] at h2; exact hT.trans h1 h2
      · rename_i s e
        rw [e] at h2
        exact hT.trans (hT.trans h1 h2) (setSpread_keeps hK none s.1)

/-- C161 (answers): a call gives what the function gives on the objects as they are, whether it returns or raises. -/
theorem C161_answers (w : World D P) :
    (∀ p disc same v, ((PriceCall.presentValue p disc same v).run cal w).1 = (fun x => [x]) <$> (pvOn cal disc same v p w).1) ∧
    (∀ limit same interp origin dc tenor p v target precision lo hi,
      ((PriceCall.yieldToMaturity limit same interp origin dc tenor p v target precision lo hi).run cal w).1 =
        (fun x => [x]) <$> (ytm cal limit same interp origin dc tenor p v target precision lo hi w).1) ∧
    (∀ p v, ((PriceCall.interestAccrued p v).run cal w).1 = (fun x => [x]) <$> accrued cal w v p) ∧
    (∀ limit p disc same v target precision lo hi, ((PriceCall.fairRate limit p disc same v target precision lo hi).run cal w).1 =
      (fun x => [x]) <$> (fairRate cal limit disc same p v target precision lo hi w).1) ∧
    (∀ p disc same v delta shift, ((PriceCall.basisPointValue p disc same v delta shift).run cal w).1 =
      (fun x => [x]) <$> (basisPointValue cal disc same p v delta shift w).1) ∧
    (∀ p disc same v delta grid shift, ((PriceCall.bucketedDelta p disc same v delta grid shift).run cal w).1 =
      (bucketedDelta cal disc same p v delta grid shift w).1) ∧
    ∀ limit scipy sameD ps disc same v fitting grid target precision lo hi,
      ((PriceCall.curveFit limit scipy sameD ps disc same v fitting grid target precision lo hi).run cal w).1 =
        (curveFit cal limit scipy sameD ps disc same v fitting grid target precision lo hi w).1 := by
  have key : ∀ m : PyM (World D P) ℝ, ((do pure [← m]) : PyM (World D P) (List ℝ)) w = ((fun x => [x]) <$> (m w).1, (m w).2) := by
    intro m
    rcases h : m w with ⟨_ | x, w'⟩
    · rw [PyM.bind_error h]; rfl
    · rw [PyM.bind_ok h]; rfl
  refine ⟨?_, ?_, ?_, ?_, ?_, ?_, ?_⟩ <;> intros <;> first | exact congrArg Prod.fst (key _) | rfl

/-- C161 (traces): whatever a pricing call does and whether or not it raises, afterwards all objects are as before but for valuation dates of
models, spreads of the curves it shifts and the fixed rate of the list it searches. -/
theorem C161_traces (c : PriceCall D P) (w : World D P) : Spec.Traces (Spec.shifts c) (Spec.searches c) w (c.run cal w).2 := by
  have hT := traces_chain (D := D) (P := P) (Spec.shifts c) (Spec.searches c)
  cases c with
  | presentValue p disc same v => exact (pvOn_keeps disc same v p).bind hT (fun _ => Keeps.still hT fun _ => rfl) w
  | yieldToMaturity => exact (ytm_keeps _ _ _ _ _ _ _ _ _ _ _ _).bind hT (fun _ => Keeps.still hT fun _ => rfl) w
  | interestAccrued p v => exact hT.refl w
  | fairRate limit p disc same v target precision lo hi =>
    exact (fairRate_keeps _ _ _ _ _ _ _ _ _ fun a h => by subst h; simp [Spec.searches]).bind hT (fun _ => Keeps.still hT fun _ => rfl) w
  | basisPointValue => exact (bpv_keeps _ _ _ _ _ _ fun a h => h).bind hT (fun _ => Keeps.still hT fun _ => rfl) w
  | bucketedDelta => exact deltas_keeps _ _ _ _ _ _ _ (fun a h => h) w
  | curveFit => exact curveFit_keeps _ _ _ _ _ _ _ _ _ _ _ _ _ (by simp [Spec.shifts]) w

/-- C161 (traces of sessions): in all sessions, with all exceptions caught. -/
theorem C161_session_traces : ∀ (cs : List (PriceCall D P)) (w : World D P),
    Spec.Traces (cs.flatMap Spec.shifts) (cs.flatMap Spec.searches) w (session cal cs w).2
  | [], w => (traces_chain _ _).refl w
  | c :: cs, w => by
    rw [session]
    refine (traces_chain _ _).trans ((C161_traces c w).mono ?_ ?_) ((C161_session_traces cs _).mono ?_ ?_) <;> intro a ha <;>
      simp only [List.flatMap_cons, List.mem_append] <;> tauto

/-! ## Calls that succeed -/

theorem eq_chain {σ : Type} : Chain (fun s s' : σ => s' = s) := ⟨fun _ => rfl, fun h h' => h'.trans h⟩

theorem pv_still {c : CurveObj D P} {same : Bool} {v : Option D} {p : Product D} {w w' : World D P} {x : ℝ}
    (h : pv cal c same v p w = (.ok x, w')) : w' = w := by
  cases v <;> exact pvAt_state h

theorem ytmErr_still (same : Bool) (v : D) (target : ℝ) (p : Product D) (x : ℝ) :
    KeepsOk (fun s s' : World D P × IRCurve D P => s'.1 = s.1) (ytmErr cal same v target p x) := fun s y s' h => by
  rw [ytmErr] at h
  split at h
  · cases h
  · dsimp only at h
    split at h
    · rename_i e
      cases h
      exact pv_still e
    · cases h

theorem ytm_still {limit : ℕ} {same : Bool} {interp : Option FuncSpec} {origin : Option D} {dc : DayCountArg D} {tenor : Option P}
    {p : Product D} {v : Option D} {target precision lo hi x : ℝ} {w w' : World D P}
    (h : ytm cal limit same interp origin dc tenor p v target precision lo hi w = (.ok x, w')) : w' = w := by
  rw [ytm] at h
  split at h
  · cases h
  · split at h
    · cases h
    · rename_i v' _ _ c _
      split at h
      · rename_i r s e
        cases h
        exact KeepsOk.bracket eq_chain.fst precision limit (ytmErr_still (cal := cal) same v' target p) lo hi _ _ _ e
      · cases h

/-- All flows of the list are rate payoffs with one and the same fixed rate. -/
def Spec.OneRate (l : ListObj D P) : Prop := ∃ r, ∀ x ∈ l.flows, ∃ q, x.2.ratePay? = some q ∧ q.fixedRate = r

theorem rate_chain (a : ℕ) : Chain fun w w' : World D P => w' = w ∨ ∃ r, w' = w.withRate a r where
  refl w := .inl rfl
  trans {x y z} h h' := by
    rcases h with rfl | ⟨r, rfl⟩
    · exact h'
    · rcases h' with rfl | ⟨s, rfl⟩
      · exact .inr ⟨r, rfl⟩
      · exact .inr ⟨s, World.withRate_twice _ _ _ _⟩

theorem withRate_self {w : World D P} {a : ℕ} {rate s : Option ℝ}
    (hr : ∀ x ∈ (w.lists a).flows, ∃ q, x.2.ratePay? = some q ∧ q.fixedRate = rate) (hs : (w.lists a).flows ≠ [] → s = rate) :
    w.withRate a s = w := by
  have hfl : ((w.lists a).flows.map fun p => (p.1, p.2.setFixedRate s)) = (w.lists a).flows := by
    conv_rhs => rw [← List.map_id (w.lists a).flows]
    apply List.map_congr_left
    intro x hx
    obtain ⟨q, h1, h2⟩ := hr x hx
    rw [hs (List.ne_nil_of_mem hx)]
    obtain ⟨d, p⟩ := x
    cases p with
    | rate p => simp only [PayOff.ratePay?, Option.some.injEq] at h1; subst h1; simp [PayOff.setFixedRate, ← h2]
    | contingentRate p =>
      simp only [PayOff.ratePay?, Option.some.injEq] at h1; subst h1; simp [PayOff.setFixedRate, ← h2]
    | _ => simp [PayOff.ratePay?] at h1
  simp only [World.withRate, ListObj.setRate, hfl]
  cases w
  simp [World.setList]

theorem oneRate_get {w : World D P} {a : ℕ} {rate : Option ℝ}
    (hr : ∀ x ∈ (w.lists a).flows, ∃ q, x.2.ratePay? = some q ∧ q.fixedRate = rate) {s : Option ℝ} (hs : (w.list a).fixedRate = .ok s)
    (hne : (w.lists a).flows ≠ []) : s = rate := by
  have hrs : (w.list a).RatesAre ((w.list a).flows.map fun _ => rate) := by
    rw [CFList.RatesAre, List.forall₂_map_right_iff, List.forall₂_same]
    intro x hx
    obtain ⟨q, h1, h2⟩ := hr x hx
    obtain ⟨d, p⟩ := x
    cases p with
    | rate p => simp only [PayOff.ratePay?, Option.some.injEq] at h1; subst h1; exact .inl ⟨_, rfl, h2⟩
    | contingentRate p => simp only [PayOff.ratePay?, Option.some.injEq] at h1; subst h1; exact .inr ⟨_, rfl, h2⟩
    | _ => simp [PayOff.ratePay?] at h1
  rw [C50_get (r := rate) hrs (by simpa [World.list] using hne) (by simp)] at hs
  cases hs
  rfl

theorem fairRate_still {limit : ℕ} {p : Product D} {disc : ℕ} {same : Bool} {v : Option D} {target precision lo hi x : ℝ} {w w' : World D P}
    (hr : ∀ a, p = .list a → Spec.OneRate (w.lists a))
    (h : fairRate cal limit disc same p v target precision lo hi w = (.ok x, w')) : w' = w := by
  cases p with
  | legs ps d o => cases h
  | list a =>
    obtain ⟨rate, hr⟩ := hr a rfl
    obtain ⟨s, w1, h1, k⟩ := PyM.bind_eq_ok.1 h
    obtain ⟨r, w2, h2, k'⟩ := PyM.bind_eq_ok.1 k
    cases k'
    have hs : w1 = w ∧ (w.list a).fixedRate = .ok s := by
      rw [getRate] at h1
      split_ifs at h1
      · simp only [Prod.mk.injEq] at h1; exact ⟨h1.2.symm, h1.1⟩
      · cases h1
    obtain ⟨rfl, hs⟩ := hs
    have hT := rate_chain (D := D) (P := P) a
    have := KeepsOk.bracket hT precision limit (fun x => KeepsOk.bind hT (m := setRate a (some x)) (fun w _ _ e => by cases e; exact .inr ⟨_, rfl⟩)
      fun _ => KeepsOk.bind hT (m := pvOn cal disc same v (.list a)) (fun w x w' e => .inl (pvOn_state e)) fun x =>
        (KeepsOk.still hT fun _ => rfl : KeepsOk _ (pure (x - target)))) lo hi _ _ _ h2
    have hself := withRate_self hr (oneRate_get hr hs)
    rcases this with rfl | ⟨r, rfl⟩
    · exact hself
    · show (w1.withRate a r).withRate a s = w1
      rw [World.withRate_twice, hself]

theorem spread_chain (a : ℕ) : Chain fun w w' : World D P => w' = w ∨ ∃ f, w' = w.spreadOn [a] f where
  refl w := .inl rfl
  trans {x y z} h h' := by
    rcases h with rfl | ⟨r, rfl⟩
    · exact h'
    · rcases h' with rfl | ⟨s, rfl⟩
      · exact .inr ⟨r, rfl⟩
      · exact .inr ⟨s, spreadOn_twice _ _ _ _⟩

theorem setCurve_spreadOn (w : World D P) (a : ℕ) (f : Option (D → Py (Option ℝ))) :
    w.setCurve a { w.curves a with spread := f } = w.spreadOn [a] f := by
  simp only [World.setCurve, World.spreadOn]
  congr 1
  funext b
  by_cases h : b = a
  · subst h; simp
  · simp [Function.update_of_ne h, h]

theorem setSpreadPoint_still (a : ℕ) (d : D) (x : ℝ) :
    KeepsOk (fun s s' : World D P × RateCurve D P => s'.1 = s.1 ∨ ∃ f, s'.1 = s.1.spreadOn [a] f) (setSpreadPoint cal a d x) := fun s y s' h => by
  rw [setSpreadPoint] at h
  split at h
  · cases h; exact .inr ⟨_, setCurve_spreadOn _ _ _⟩
  · cases h

theorem pvGap_still (a disc : ℕ) (same : Bool) (v : Option D) (q : Product D × ℝ) :
    KeepsOk (fun s s' : World D P × RateCurve D P => s'.1 = s.1 ∨ ∃ f, s'.1 = s.1.spreadOn [a] f) (pvGap cal disc same v q) := fun s y s' h => by
  rw [pvGap] at h
  split at h
  · rename_i e; cases h; exact .inl (pvOn_state e)
  · cases h

theorem curveFit_still {limit : ℕ} {scipy : Bool} {sameD : D → Bool} {ps : List (Product D)} {disc : ℕ} {same : Bool} {v : Option D}
    {fitting : Option ℕ} {grid : Option (List D)} {target : NumArg} {precision lo hi : ℝ} {w w' : World D P} {l : List ℝ}
    (h : curveFit cal limit scipy sameD ps disc same v fitting grid target precision lo hi w = (.ok l, w')) : w' = w := by
  rw [curveFit] at h
  split at h
  · cases h
  · rename_i sp _
    split at h
    · cases h
    · rename_i w1 e
      rw [setSpread_run_any] at e
      split_ifs at e with h0
      · cases (Prod.mk.inj e).1
      rw [setCurve_spreadOn] at e
      obtain rfl := (Prod.mk.inj e).2
      set a := fitting.getD disc
      have hn : (w.curves a).spread = none := by
        by_contra hn; exact h0 ⟨rfl, by simpa [Option.isSome_iff_ne_none] using hn⟩
      split at h
      · cases h
      · rename_i s e
        rw [setSpread_run_any, if_neg (by simp)] at h
        cases h
        have hT := (spread_chain (D := D) (P := P) a).fst (τ := RateCurve D P)
        have : KeepsOk (fun s s' : World D P × RateCurve D P => s'.1 = s.1 ∨ ∃ f, s'.1 = s.1.spreadOn [a] f)
            (fitLoop cal limit disc same v a (ps.zip (targetList target ps.length)) precision lo hi) := by
          refine (KeepsOk.still hT fun _ => rfl).bind hT fun s => (KeepsOk.forM hT (fun d => setSpreadPoint_still a d 0) _).bind hT fun _ =>
            (KeepsOk.still hT fun _ => rfl).bind hT fun s => (KeepsOk.forM hT (fun d => ?_) _).bind hT fun _ =>
              (KeepsOk.still hT fun _ => rfl).bind hT fun _ => KeepsOk.still hT fun _ => rfl
          refine (KeepsOk.still hT fun _ => rfl).bind hT fun s => (KeepsOk.still hT fun _ => rfl).bind hT fun qs =>
            (KeepsOk.bracket hT precision limit (fun x => ?_) lo hi).bind hT fun _ => KeepsOk.still hT fun _ => rfl
          exact (setSpreadPoint_still a d x).bind hT fun _ => (KeepsOk.mapM hT (fun q => pvGap_still a disc same v q) qs).bind hT fun _ =>
            KeepsOk.still hT fun _ => rfl
        have hw : s.1.spreadOn [a] none = w := by
          have h2 := this _ _ _ e
          simp only at h2
          rcases h2 with h2 | ⟨f, h2⟩ <;> rw [h2] <;> simp only [spreadOn_twice] <;> exact spreadOn_self _ (by simpa using hn)
        rw [setCurve_spreadOn, hw]

/-- C161 (success): a pricing call that returns leaves all curves, models and lists as they were, provided a list it searches the fair rate
of has one fixed rate. -/
theorem C161_success {c : PriceCall D P} {w w' : World D P} {x : List ℝ} (hr : ∀ a ∈ Spec.searches c, Spec.OneRate (w.lists a))
    (h : c.run cal w = (.ok x, w')) : w' = w := by
  cases c with
  | presentValue => obtain ⟨y, s, h1, h2⟩ := PyM.bind_eq_ok.1 h; cases h2; exact pvOn_state h1
  | yieldToMaturity => obtain ⟨y, s, h1, h2⟩ := PyM.bind_eq_ok.1 h; cases h2; exact ytm_still h1
  | interestAccrued p v => simp only [PriceCall.run, Prod.mk.injEq] at h; exact h.2.symm
  | fairRate =>
    obtain ⟨y, s, h1, h2⟩ := PyM.bind_eq_ok.1 h
    cases h2
    exact fairRate_still (fun a h => hr a (by subst h; simp [Spec.searches])) h1
  | basisPointValue => obtain ⟨y, s, h1, h2⟩ := PyM.bind_eq_ok.1 h; cases h2; exact (C61_value.1 h1).1
  | bucketedDelta => exact (bucketedDelta_ok.1 h).1
  | curveFit => exact curveFit_still h

/-- C161 (sessions): calls that return on their own return the same one after the other, in any order and any number of times, and leave
everything as it was. -/
theorem C161_session {w : World D P} (x : PriceCall D P → List ℝ) : ∀ {cs : List (PriceCall D P)},
    (∀ c ∈ cs, (∀ a ∈ Spec.searches c, Spec.OneRate (w.lists a)) ∧ (c.run cal w).1 = .ok (x c)) →
    session cal cs w = (cs.map fun c => .ok (x c), w)
  | [], _ => rfl
  | c :: cs, h => by
    obtain ⟨hr, h1⟩ := h c (by simp)
    have hw : c.run cal w = (.ok (x c), w) := by
      have := C161_success hr (Prod.ext h1 rfl)
      exact Prod.ext h1 this
    rw [session]
    simp only [hw, C161_session x (cs := cs) fun c hc => h c (by simp [hc]), List.map_cons]

/-! ## Valuation dates of models -/

/-- Lists with a payoff model have the attribute `payoff_model` and no forward curve, as those of class `ContingentCashFlowList`. -/
def Spec.Settled (w : World D P) : Prop := ∀ a m, (w.lists a).arg = .model m → (w.lists a).hasModel = true ∧ (w.lists a).hasForward = false

/-- The worlds differ in valuation dates of models only. -/
structure Stale (w w' : World D P) : Prop where
  curves : w'.curves = w.curves
  lists : w'.lists = w.lists
  models : ∀ a, ∃ v, w'.models a = { w.models a with valuation := v }
  settled : Spec.Settled w

variable {w w' : World D P}

theorem Stale.fwd (h : Stale w w') {a : ℕ} {f : Curves D P → Fwd D} (ha : (w.lists a).arg = .fwd f) : w'.list a = w.list a := by
  simp [World.list, h.lists, ha, World.arg, h.curves]

theorem Stale.set (h : Stale w w') (m : ℕ) (v v' : Option D) : Stale (w.setValuation m v) (w'.setValuation m v') where
  curves := h.curves
  lists := h.lists
  models a := by
    obtain ⟨u, hu⟩ := h.models a
    by_cases e : a = m
    · subst e; exact ⟨v', by simp [World.setValuation, hu]⟩
    · exact ⟨u, by simp [World.setValuation, Function.update_of_ne e, hu]⟩
  settled := h.settled

theorem Stale.model (h : Stale w w') {a m : ℕ} (ha : (w.lists a).arg = .model m) (v : Option D) :
    (w'.setValuation m v).list a = (w.setValuation m v).list a := by
  obtain ⟨u, hu⟩ := h.models m
  simp [World.list, World.setValuation, h.lists, ha, World.arg, World.model, h.curves, hu]

/-- Same exception or same value, and states that differ in valuation dates only. -/
def SameOut {α : Type} (x y : Py α × World D P) : Prop := Stale x.2 y.2 ∧ y.1 = x.1

theorem sim_of_same {α : Type} {m m' : PyM (World D P) α} (h : ∀ w w', Stale w w' → SameOut (m w) (m' w')) : Sim Stale (· = ·) m m' :=
  fun w w' hw => ⟨(h w w' hw).1, by rw [(h w w' hw).2]; cases (m w).1 <;> rfl⟩

theorem same_of_sim {α : Type} {m : PyM (World D P) α} (h : Sim Stale (· = ·) m m) (hw : Stale w w') : SameOut (m w) (m w') :=
  ⟨(h w w' hw).1, h.result hw⟩

theorem pvTail_same (c : CurveObj D P) (same : Bool) (v : Option D) (a : ℕ) (dom : List D) {saved saved' : Option (ℕ × Option D)}
    (hs : saved'.map Prod.fst = saved.map Prod.fst) (h : Stale w w') (hl : w'.list a = w.list a) :
    let tail (saved : Option (ℕ × Option D)) : PyM (World D P) ℝ := do
      let dates ← PyM.lift (payDates v dom)
      let w ← PyM.get
      let flows ← PyM.lift ((w.list a).getitems cal dates)
      leaveModel saved
      PyM.lift (discountSum cal c same v (dates.zip flows))
    SameOut (tail saved w) (tail saved' w') := by
  dsimp only
  rcases payDates v dom with e | dates
  · exact ⟨h, rfl⟩
  · simp only [PyM.lift_ok_bind, PyM.get_bind, hl]
    rcases (w.list a).getitems cal dates with e | flows
    · exact ⟨h, rfl⟩
    · simp only [PyM.lift_ok_bind]
      rcases saved with _ | ⟨m, u⟩ <;> rcases saved' with _ | ⟨m', u'⟩ <;> simp at hs
      · exact ⟨h, rfl⟩
      · subst hs
        exact ⟨h.set m' u u', rfl⟩

theorem pvList_sim (c : CurveObj D P) (same : Bool) (v : Option D) (a : ℕ) : Sim Stale (· = ·) (pvList cal c same v a) (pvList cal c same v a) := by
  refine sim_of_same fun w w' h => ?_
  have hl : w'.lists a = w.lists a := by rw [h.lists]
  simp only [pvList, PyM.get_bind]
  rw [hl]
  rcases ha : (w.lists a).arg with f | m
  · rcases hm : (w.lists a).hasModel with _ | _
    · have e (u : World D P) : enterModel v (w.lists a) u = (.ok none, u) := by simp [enterModel, hm]
      rw [PyM.bind_ok (e w), PyM.bind_ok (e w')]
      exact pvTail_same c same v a _ rfl h (h.fwd ha)
    · have e (u : World D P) : enterModel v (w.lists a) u = (.error .attribute, u) := by simp [enterModel, hm, ha]
      rw [PyM.bind_error (e w), PyM.bind_error (e w')]
      exact ⟨h, rfl⟩
  · have e (u : World D P) : enterModel v (w.lists a) u = (.ok (some (m, (u.models m).valuation)), u.setValuation m v) := by
      simp [enterModel, (h.settled a m ha).1, ha]
    rw [PyM.bind_ok (e w), PyM.bind_ok (e w')]
    exact pvTail_same c same v a _ rfl (h.set m v v) (h.model ha v)

mutual
theorem pvAt_sim (c : CurveObj D P) (same : Bool) (v : Option D) : ∀ p : Product D, Sim Stale (· = ·) (pvAt cal c same v p) (pvAt cal c same v p)
  | .list a => by rw [pvAt]; exact pvList_sim c same v a
  | .legs ps d o => by
    rw [pvAt]
    exact (pvLegs_sim c same v ps).bind fun _ _ e => .pure (by rw [e])

theorem pvLegs_sim (c : CurveObj D P) (same : Bool) (v : Option D) : ∀ ps : List (Product D),
    Sim Stale (· = ·) (pvLegs cal c same v ps) (pvLegs cal c same v ps)
  | [] => by rw [pvLegs]; exact .pure rfl
  | p :: ps => by
    rw [pvLegs]
    exact (pvAt_sim c same v p).bind fun _ _ e => (pvLegs_sim c same v ps).bind fun _ _ e' => .pure (by rw [e, e'])
end

theorem pv_sim (c : CurveObj D P) (same : Bool) (v : Option D) (p : Product D) : Sim Stale (· = ·) (pv cal c same v p) (pv cal c same v p) := by
  cases v with
  | none => exact pvAt_sim c true _ p
  | some v => exact pvAt_sim c same _ p

theorem pvOn_sim (disc : ℕ) (same : Bool) (v : Option D) (p : Product D) :
    Sim (Stale (P := P)) (· = ·) (pvOn cal disc same v p) (pvOn cal disc same v p) := fun w w' h => by
  have := pv_sim (cal := cal) (w.curves disc) same v p w w' h
  have hc : w'.curves disc = w.curves disc := by rw [h.curves]
  simp only [pvOn] at this ⊢
  rw [hc]
  exact this

/-- The worlds differ in valuation dates only, the curves are equal. -/
def StaleWith {τ : Type} (s s' : World D P × τ) : Prop := Stale s.1 s'.1 ∧ s'.2 = s.2

theorem ytmErr_sim (same : Bool) (v : D) (target : ℝ) (p : Product D) (x : ℝ) :
    Sim (StaleWith (D := D) (P := P)) (· = ·) (ytmErr cal same v target p x) (ytmErr cal same v target p x) := fun s s' h => by
  obtain ⟨w, c⟩ := s
  obtain ⟨w', c'⟩ := s'
  obtain ⟨h, rfl⟩ := h
  rw [ytmErr, ytmErr]
  dsimp only
  rcases c'.toRateCurve.setitem cal v x with e | rc
  · exact ⟨⟨h, rfl⟩, rfl⟩
  · have := same_of_sim (pv_sim (cal := cal) (IRCurve.obj ⟨rc, c'.cls⟩) same (some v) p) h
    dsimp only
    rcases h1 : pv cal (IRCurve.obj ⟨rc, c'.cls⟩) same (some v) p w with ⟨x | x, u⟩ <;>
      rcases h2 : pv cal (IRCurve.obj ⟨rc, c'.cls⟩) same (some v) p w' with ⟨y | y, u'⟩ <;> rw [h1, h2] at this <;>
      obtain ⟨k1, k2⟩ := this <;> cases k2
    · exact ⟨⟨k1, rfl⟩, rfl⟩
    · exact ⟨⟨k1, rfl⟩, rfl⟩

theorem origin_stale (h : Stale w w') (p : Product D) : (w'.product p).origin = (w.product p).origin := by
  cases p with
  | list a => simp [World.product, CF.origin, World.list, h.lists, CFList.origin]
  | legs ps d o => simp [World.product, CF.origin]

theorem domain_stale (h : Stale w w') (p : Product D) : (w'.product p).domain = (w.product p).domain := by
  cases p with
  | list a => simp [World.product, CF.domain, World.list, h.lists]
  | legs ps d o => simp [World.product, CF.domain]

theorem ytm_sim (limit : ℕ) (same : Bool) (interp : Option FuncSpec) (origin : Option D) (dc : DayCountArg D) (tenor : Option P)
    (p : Product D) (v : Option D) (target precision lo hi : ℝ) :
    Sim Stale (· = ·) (ytm cal limit same interp origin dc tenor p v target precision lo hi)
      (ytm cal limit same interp origin dc tenor p v target precision lo hi) := by
  refine sim_of_same fun w w' h => ?_
  rw [ytm, ytm, Product.origin, Product.origin, origin_stale h]
  rcases v.or (w.product p).origin with _ | v
  · exact ⟨h, rfl⟩
  · dsimp only
    rcases IRCurve.new cal .zero [v] [0] interp origin dc tenor with e | c
    · exact ⟨h, rfl⟩
    · have := Sim.bracket precision limit (ytmErr_sim (cal := cal) same v target p) lo hi (w, c) (w', c) ⟨h, rfl⟩
      dsimp only
      rcases h1 : bracket precision limit (ytmErr cal same v target p) lo hi (w, c) with ⟨x | x, u⟩ <;>
        rcases h2 : bracket precision limit (ytmErr cal same v target p) lo hi (w', c) with ⟨y | y, u'⟩ <;> rw [h1, h2] at this <;>
        obtain ⟨k1, k2⟩ := this <;> cases k2
      · exact ⟨k1.1, rfl⟩
      · exact ⟨k1.1, rfl⟩

theorem accruedAt_stale (h : Stale w w') (a : ℕ) (v d : D) : accruedAt cal w' (w.lists a) v d = accruedAt cal w (w.lists a) v d := by
  have : w'.forwardCurve (w.lists a) = w.forwardCurve (w.lists a) := by
    rw [World.forwardCurve, World.forwardCurve]
    rcases ha : (w.lists a).arg with f | m
    · simp [World.arg, h.curves]
    · simp [(h.settled a m ha).2]
  simp only [accruedAt, accruedFlow, this]

theorem accruedAt_stale' (h : Stale w w') (a : ℕ) (v : D) : accruedAt cal w' (w.lists a) v = accruedAt cal w (w.lists a) v :=
  funext fun d => accruedAt_stale h a v d

mutual
theorem accrued_stale (h : Stale w w') (v : D) : ∀ p : Product D, accrued cal w' v p = accrued cal w v p
  | .list a => by
    rw [accrued, accrued, h.lists, accruedAt_stale' h]
  | .legs ps d o => by rw [accrued, accrued, accruedLegs_stale h v ps]

theorem accruedLegs_stale (h : Stale w w') (v : D) : ∀ ps : List (Product D), accruedLegs cal w' v ps = accruedLegs cal w v ps
  | [] => by rw [accruedLegs, accruedLegs]
  | p :: ps => by rw [accruedLegs, accruedLegs, accrued_stale h v p, accruedLegs_stale h v ps]
end

theorem setRate_sim (a : ℕ) (r : Option ℝ) : Sim (Stale (D := D) (P := P)) (· = ·) (setRate a r) (setRate a r) := by
  refine sim_of_same fun w w' h => ⟨⟨h.curves, ?_, h.models, ?_⟩, rfl⟩
  · show Function.update w'.lists a ((w'.lists a).setRate r) = Function.update w.lists a ((w.lists a).setRate r)
    rw [h.lists]
  · intro b m hb
    by_cases e : b = a
    · subst e
      simp only [setRate, PyM.modify_run, World.setList, Function.update_self, ListObj.setRate] at hb ⊢
      exact h.settled b m hb
    · simp only [setRate, PyM.modify_run, World.setList, Function.update_of_ne e] at hb ⊢
      exact h.settled b m hb

theorem getRate_sim (a : ℕ) : Sim (Stale (D := D) (P := P)) (· = ·) (getRate a) (getRate a) := by
  refine sim_of_same fun w w' h => ?_
  have : (w'.list a).fixedRate = (w.list a).fixedRate := by simp [CFList.fixedRate, World.list, h.lists]
  rw [getRate, getRate, h.lists, this]
  split_ifs <;> exact ⟨h, rfl⟩

theorem fairRate_sim (limit disc : ℕ) (same : Bool) (p : Product D) (v : Option D) (target precision lo hi : ℝ) :
    Sim (Stale (P := P)) (· = ·) (fairRate cal limit disc same p v target precision lo hi)
      (fairRate cal limit disc same p v target precision lo hi) := by
  cases p with
  | legs ps d o => exact .lift _
  | list a =>
    refine (getRate_sim a).bind fun r _ e => ?_
    subst e
    refine (Sim.bracket precision limit (fun x => ?_) lo hi).bind fun y _ e => ?_
    · exact (setRate_sim a _).bind fun _ _ _ => (pvOn_sim disc same v _).bind fun _ _ e => .pure (by rw [e])
    · subst e
      exact (setRate_sim a _).bind fun _ _ _ => .pure rfl

theorem setSpread_sim (a : ℕ) (f : Option (D → Py (Option ℝ))) : Sim (Stale (D := D) (P := P)) (· = ·) (setSpread a f) (setSpread a f) := by
  refine sim_of_same fun w w' h => ?_
  rw [setSpread_run_any, setSpread_run_any, h.curves]
  split_ifs
  · exact ⟨h, rfl⟩
  · exact ⟨⟨by simp [World.setCurve, h.curves], h.lists, h.models, h.settled⟩, rfl⟩

theorem shiftCurve_sim (a : ℕ) (grid : List D) (shifts : List ℝ) :
    Sim (Stale (P := P)) (· = ·) (shiftCurve cal a grid shifts) (shiftCurve cal a grid shifts) :=
  (Sim.lift _).bind fun _ _ e => by subst e; exact setSpread_sim a _

theorem parallelShift_sim (a : ℕ) (shift : ℝ) : Sim (Stale (P := P)) (· = ·) (parallelShift cal shift a) (parallelShift cal shift a) :=
  Sim.get.bind fun w w' h => by
    rw [h.curves]
    exact (Sim.lift _).bind fun _ _ e => by subst e; exact shiftCurve_sim a _ _

theorem bpv_sim (disc : ℕ) (same : Bool) (p : Product D) (v : Option D) (delta : Option (List ℕ)) (shift : ℝ) :
    Sim (Stale (P := P)) (· = ·) (basisPointValue cal disc same p v delta shift) (basisPointValue cal disc same p v delta shift) :=
  (pvOn_sim disc same v p).bind fun _ _ e => (Sim.forM (fun a => parallelShift_sim a shift) _).bind fun _ _ _ =>
    (pvOn_sim disc same v p).bind fun _ _ e' => (Sim.forM (fun a => setSpread_sim a none) _).bind fun _ _ _ => by
      subst e e'
      exact (Sim.lift _).bind fun _ _ e => .pure (by rw [e])

theorem deltas_sim (disc : ℕ) (same : Bool) (p : Product D) (v : Option D) (delta : Option (List ℕ)) (grid : Option (List D)) (shift : ℝ) :
    Sim (Stale (P := P)) (· = ·) (bucketedDelta cal disc same p v delta grid shift) (bucketedDelta cal disc same p v delta grid shift) :=
  (pvOn_sim disc same v p).bind fun _ _ e => Sim.get.bind fun w w' h => by
    subst e
    rw [h.curves]
    refine (Sim.lift _).bind fun gs _ e => ?_
    subst e
    refine Sim.mapM (fun g => ?_) gs
    exact (Sim.forM (fun a => shiftCurve_sim a _ _) _).bind fun _ _ _ =>
      (pvOn_sim disc same v p).bind fun _ _ e' => (Sim.forM (fun a => setSpread_sim a none) _).bind fun _ _ _ => by
        subst e'
        exact (Sim.lift _).bind fun _ _ e => .pure (by rw [e])

theorem setSpreadPoint_sim (a : ℕ) (d : D) (x : ℝ) :
    Sim (StaleWith (D := D) (P := P)) (· = ·) (setSpreadPoint cal a d x) (setSpreadPoint cal a d x) := fun s s' h => by
  obtain ⟨w, c⟩ := s
  obtain ⟨w', c'⟩ := s'
  obtain ⟨h, rfl⟩ := h
  rw [setSpreadPoint, setSpreadPoint]
  dsimp only at h ⊢
  rcases c'.setitem cal d x with e | sp
  · exact ⟨⟨h, rfl⟩, rfl⟩
  · exact ⟨⟨⟨by simp [World.linkSpread, World.setCurve, h.curves], h.lists, h.models, h.settled⟩, rfl⟩, rfl⟩

theorem pvGap_sim (disc : ℕ) (same : Bool) (v : Option D) (q : Product D × ℝ) :
    Sim (StaleWith (τ := RateCurve D P) (P := P)) (· = ·) (pvGap cal disc same v q) (pvGap cal disc same v q) := fun s s' h => by
  obtain ⟨w, c⟩ := s
  obtain ⟨w', c'⟩ := s'
  obtain ⟨h, rfl⟩ := h
  have := same_of_sim (pvOn_sim (cal := cal) disc same v q.1) h
  rw [pvGap, pvGap]
  dsimp only
  rcases h1 : pvOn cal disc same v q.1 w with ⟨x | x, u⟩ <;>
    rcases h2 : pvOn cal disc same v q.1 w' with ⟨y | y, u'⟩ <;> rw [h1, h2] at this <;> obtain ⟨k1, k2⟩ := this <;> cases k2
  · exact ⟨⟨k1, rfl⟩, rfl⟩
  · exact ⟨⟨k1, rfl⟩, rfl⟩

theorem filterProducts_stale (h : Stale w w') (d : D) (ps : List (Product D × ℝ)) : filterProducts w' d ps = filterProducts w d ps := by
  simp only [filterProducts, domain_stale h]

theorem fitLoop_sim (a limit disc : ℕ) (same : Bool) (v : Option D) (ps : List (Product D × ℝ)) (precision lo hi : ℝ) :
    Sim (StaleWith (D := D) (P := P)) (· = ·) (fitLoop cal limit disc same v a ps precision lo hi) (fitLoop cal limit disc same v a ps precision lo hi) := by
  refine Sim.get.bind fun s s' h => ?_
  rw [h.2]
  refine (Sim.forM (fun d => setSpreadPoint_sim a d 0) _).bind fun _ _ _ => Sim.get.bind fun s s' h => ?_
  rw [h.2]
  refine (Sim.forM (fun d => ?_) _).bind fun _ _ _ => Sim.get.bind fun s s' h => ?_
  · refine Sim.get.bind fun s s' h => ?_
    rw [filterProducts_stale h.1]
    refine (Sim.lift _).bind fun qs _ e => ?_
    subst e
    refine (Sim.bracket precision limit (fun x => ?_) lo hi).bind fun _ _ e => .pure rfl
    exact (setSpreadPoint_sim a d x).bind fun _ _ _ => (Sim.mapM (fun q => pvGap_sim disc same v q) qs).bind fun _ _ e => .pure (by rw [e])
  · rw [h.2, h.1.curves]
    exact .lift _

theorem curveFit_sim (limit : ℕ) (scipy : Bool) (sameD : D → Bool) (ps : List (Product D)) (disc : ℕ) (same : Bool) (v : Option D)
    (fitting : Option ℕ) (grid : Option (List D)) (target : NumArg) (precision lo hi : ℝ) :
    Sim (Stale (P := P)) (· = ·) (curveFit cal limit scipy sameD ps disc same v fitting grid target precision lo hi)
      (curveFit cal limit scipy sameD ps disc same v fitting grid target precision lo hi) := by
  refine sim_of_same fun w w' h => ?_
  rw [curveFit, curveFit, h.curves]
  set a := fitting.getD disc
  rcases (w.curves a).castOn cal scipy limit sameD (grid.getD (w.curves a).base.domain) with e | sp
  · exact ⟨h, rfl⟩
  · have := same_of_sim (setSpread_sim a (some (sp.asSpread cal))) h
    dsimp only
    rcases h1 : setSpread a (some (sp.asSpread cal)) w with ⟨x | x, u⟩ <;>
      rcases h2 : setSpread a (some (sp.asSpread cal)) w' with ⟨y | y, u'⟩ <;> rw [h1, h2] at this <;> obtain ⟨k1, k2⟩ := this <;> cases k2
    · exact ⟨k1, rfl⟩
    · dsimp only
      have := fitLoop_sim (cal := cal) a limit disc same v (ps.zip (targetList target ps.length)) precision lo hi (u, sp) (u', sp) ⟨k1, rfl⟩
      rcases h1 : fitLoop cal limit disc same v a (ps.zip (targetList target ps.length)) precision lo hi (u, sp) with ⟨x | x, s⟩ <;>
        rcases h2 : fitLoop cal limit disc same v a (ps.zip (targetList target ps.length)) precision lo hi (u', sp) with ⟨y | y, s'⟩ <;>
        rw [h1, h2] at this <;> obtain ⟨k1, k2⟩ := this <;> cases k2
      · exact ⟨k1.1, rfl⟩
      · dsimp only
        have := same_of_sim (setSpread_sim a none) k1.1
        exact ⟨this.1, by rw [this.2]⟩

theorem run_sim (c : PriceCall D P) : Sim Stale (· = ·) (c.run cal) (c.run cal) := by
  cases c with
  | presentValue => exact (pvOn_sim _ _ _ _).bind fun _ _ e => .pure (by rw [e])
  | yieldToMaturity => exact (ytm_sim _ _ _ _ _ _ _ _ _ _ _ _).bind fun _ _ e => .pure (by rw [e])
  | interestAccrued p v => exact sim_of_same fun w w' h => ⟨h, by simp [PriceCall.run, accrued_stale h]⟩
  | fairRate => exact (fairRate_sim _ _ _ _ _ _ _ _ _).bind fun _ _ e => .pure (by rw [e])
  | basisPointValue => exact (bpv_sim _ _ _ _ _ _).bind fun _ _ e => .pure (by rw [e])
  | bucketedDelta => exact deltas_sim _ _ _ _ _ _ _
  | curveFit => exact curveFit_sim _ _ _ _ _ _ _ _ _ _ _ _ _

/-- C161 (valuation dates of models): what a pricing call does is independent of the valuation dates stored with models. -/
theorem C161_valuations (hs : Spec.Settled w) (hc : w'.curves = w.curves) (hl : w'.lists = w.lists)
    (hm : ∀ a, ∃ v, w'.models a = { w.models a with valuation := v }) (c : PriceCall D P) : (c.run cal w').1 = (c.run cal w).1 :=
  (run_sim c).result ⟨hc, hl, hm, hs⟩

/-- A call that returns on its own, or one of present value, yield to maturity or accrued interest, whether it returns or not. -/
def Spec.Harmless (cal : Cal D P) (w : World D P) (c : PriceCall D P) : Prop :=
  ((∀ a ∈ Spec.searches c, Spec.OneRate (w.lists a)) ∧ ∃ x, (c.run cal w).1 = .ok x) ∨ Spec.shifts c = [] ∧ Spec.searches c = []

theorem harmless_stale {c : PriceCall D P} (hc : Spec.Harmless cal w c) (h : Stale w w') : Stale w (c.run cal w').2 := by
  have hr : (c.run cal w').1 = (c.run cal w).1 := (run_sim c).result h
  rcases hc with ⟨ho, x, hx⟩ | ⟨h1, h2⟩
  · have := C161_success (cal := cal) (c := c) (w := w') (x := x) (by rw [h.lists]; exact ho) (Prod.ext (hr.trans hx) rfl)
    exact (congrArg (Stale w) this).mpr h
  · have := C161_traces (cal := cal) c w'
    rw [h1, h2] at this
    refine ⟨?_, ?_, fun a => ?_, h.settled⟩
    · rw [← h.curves]; funext a; exact (this.curves a).2 (by simp)
    · rw [← h.lists]; funext a; rcases this.lists a with e | ⟨e, -⟩ <;> simp_all
    · obtain ⟨u, hu⟩ := h.models a
      obtain ⟨u', hu'⟩ := this.models a
      exact ⟨u', by rw [hu', hu]⟩

theorem session_stale : ∀ {cs : List (PriceCall D P)} {w' : World D P}, (∀ c ∈ cs, Spec.Harmless cal w c) → Stale w w' →
    (session cal cs w').1 = (cs.map fun c => (c.run cal w).1) ∧ Stale w (session cal cs w').2
  | [], w', _, h => ⟨rfl, h⟩
  | c :: cs, w', hc, h => by
    obtain ⟨h1, h2⟩ := session_stale (cs := cs) (fun c hx => hc c (by simp [hx])) (harmless_stale (hc c (by simp)) h)
    rw [session]
    exact ⟨by simp only [List.map_cons, h1, (run_sim c).result h], h2⟩

/-- C161 (sessions with exceptions): in a session of calls that return on their own and of calls of present value, yield to maturity and
accrued interest that may raise, each gives what it gives on its own. -/
theorem C161_caught (hs : Spec.Settled w) {cs : List (PriceCall D P)} (hc : ∀ c ∈ cs, Spec.Harmless cal w c) :
    (session cal cs w).1 = (cs.map fun c => (c.run cal w).1) ∧ Spec.Traces [] [] w (session cal cs w).2 := by
  obtain ⟨h1, h2⟩ := session_stale hc (w' := w) ⟨rfl, rfl, fun a => ⟨_, rfl⟩, hs⟩
  exact ⟨h1, fun a => ⟨⟨_, by rw [h2.curves]⟩, fun _ => by rw [h2.curves]⟩, h2.models, fun a => .inl (by rw [h2.lists])⟩

end

/-! ### Examples -/

theorem exBpv : ∃ z, basisPointValue floatCal 0 false (.list 1) (some 0) none (1 / 100) exWorld = (.ok z, exWorld) ∧ z < 0 := by
  refine C61_sign (c := (flatZero floatCal none .default none 0 (5 / 100)).toRateCurve) goodDayCount_real rfl
    (fun s t => rfl) rfl (by simp [flatZero, irOf, dateCurveOf, DateCurve.origin]) (exPays rfl) (exPays rfl)
    (df := fun t => Real.exp (-(5 / 100 * (t - 0)))) (fun q _ => exDf 0 q.1) (by norm_num) ?_ ⟨(1, 1), by simp, by norm_num⟩
  simp

theorem exPv : ∃ x, pvOn floatCal 0 false (some 0) (.list 1) exWorld = (.ok x, exWorld) :=
  ⟨_, C54_flows (exPays rfl) (df := fun t => Real.exp (-(5 / 100 * (t - 0)))) fun q _ => exDf 0 q.1⟩

theorem exSettled : Spec.Settled exWorld := by
  rintro (_ | _ | _ | a) m h <;> simp [exWorld] at h ⊢

/-- Non-vacuity of C161_session: value, sensitivity, value, sensitivity. -/
example : ∃ x z, session floatCal [.presentValue (.list 1) 0 false (some 0), .basisPointValue (.list 1) 0 false (some 0) none (1 / 100),
    .presentValue (.list 1) 0 false (some 0), .basisPointValue (.list 1) 0 false (some 0) none (1 / 100)] exWorld =
      ([.ok [x], .ok [z], .ok [x], .ok [z]], exWorld) := by
  obtain ⟨z, hz, -⟩ := exBpv
  obtain ⟨x, hx⟩ := exPv
  refine ⟨x, z, ?_⟩
  have h1 : (PriceCall.presentValue (.list 1) 0 false (some 0)).run floatCal exWorld = (.ok [x], exWorld) := by
    rw [PriceCall.run, PyM.bind_ok hx]; rfl
  have h2 : (PriceCall.basisPointValue (.list 1) 0 false (some 0) none (1 / 100)).run floatCal exWorld = (.ok [z], exWorld) := by
    rw [PriceCall.run, PyM.bind_ok hz]; rfl
  refine C161_session (cal := floatCal) (w := exWorld) (fun c => match c with
    | .presentValue _ _ _ _ => [x]
    | _ => [z]) ?_
  intro c hc
  simp only [List.mem_cons, List.not_mem_nil, or_false] at hc
  rcases hc with rfl | rfl | rfl | rfl <;> refine ⟨by simp [Spec.searches], ?_⟩
  · rw [h1]
  · rw [h2]
  · rw [h1]
  · rw [h2]

/-- Non-vacuity of C161_caught: the present value of the list 2 raises and leaves a valuation date; the next calls are not affected. -/
example : ∃ e x, (session floatCal [.presentValue (.list 2) 0 false (some 1), .presentValue (.list 1) 0 false (some 0)] exWorld).1 =
    [.error e, .ok [x]] := by
  obtain ⟨e, he, -⟩ := C55_violated
  have he' : pvOn floatCal 0 false (some 1) (.list 2) exWorld = _ := he
  obtain ⟨x, hx⟩ := exPv
  refine ⟨e, x, ?_⟩
  rw [(C161_caught (cal := floatCal) exSettled fun c hc => ?_).1]
  · simp only [List.map_cons, List.map_nil, PriceCall.run]
    rw [PyM.bind_error he', PyM.bind_ok hx]; rfl
  · simp only [List.mem_cons, List.not_mem_nil, or_false] at hc
    rcases hc with rfl | rfl <;> exact .inr ⟨rfl, rfl⟩

/-- C161 (refuted for failed calls): after a basis point value that raised for a curve given twice, one that returns on its own raises. -/
theorem C161_violated : ∃ z e, ((PriceCall.basisPointValue (.list 1) 0 false (some 0) (some [0]) (1 / 100)).run floatCal exWorld).1 = .ok [z] ∧
    (session floatCal [.basisPointValue (.list 1) 0 false (some 0) (some [0, 0]) (1 / 100),
      .basisPointValue (.list 1) 0 false (some 0) (some [0]) (1 / 100)] exWorld).1 = [.error e, .error .type] := by
  obtain ⟨z, hz, -⟩ := exBpv
  have hz' : basisPointValue floatCal 0 false (.list 1) (some 0) (some [0]) (1 / 100) exWorld = (.ok z, exWorld) := hz
  obtain ⟨-, -, -, x, y, -, hy, -⟩ := C61_value.1 hz'
  have h1 : (PriceCall.basisPointValue (.list 1) 0 false (some 0) (some [0]) (1 / 100)).run floatCal exWorld = (.ok [z], exWorld) := by
    rw [PriceCall.run, PyM.bind_ok hz']; rfl
  obtain ⟨x0, hx⟩ := exPv
  have h2 : basisPointValue floatCal 0 false (.list 1) (some 0) (some [0, 0]) (1 / 100) exWorld = (.error .type, exWorld.bumped [0] (1 / 100)) :=
    C61_spread_violated (l := [0]) (a := 0) (m := []) (shift := 1 / 100) hx exBump (.inl (by simp))
  have h3 : basisPointValue floatCal 0 false (.list 1) (some 0) (some [0]) (1 / 100) (exWorld.bumped [0] (1 / 100)) = (.error .type, _) := C61_spread_violated (l := []) (a := 0) (m := []) (shift := 1 / 100) hy ⟨by simp, by simp, by simp⟩
    (.inr (by simp [World.bumped, World.spreadOn]))
  refine ⟨z, .type, by rw [h1], ?_⟩
  simp only [session, PriceCall.run]
  rw [PyM.bind_error h2]
  simp only
  rw [PyM.bind_error h3]

/-- C161 (refuted for lists with several rates): after a fair rate that returned, a list that had a value has none. -/
theorem C161_rates_violated : ∃ n, ∀ limit, n < limit → ∃ x r e,
    ((PriceCall.presentValue (.list 0) 0 false (some 0)).run floatCal (exRates (some (1 / 100)) (some (2 / 100)))).1 = .ok [x] ∧
    (session floatCal [.fairRate limit (.list 0) 0 false (some 0) 5 (1 / 10000000) (-1 / 10) (2 / 10),
      .presentValue (.list 0) 0 false (some 0)] (exRates (some (1 / 100)) (some (2 / 100)))).1 = [.ok [r], .error e] := by
  obtain ⟨n, hn⟩ := C59_violated
  refine ⟨n, fun limit hl => ?_⟩
  obtain ⟨r, w', e, h1, h2, h3⟩ := hn limit hl
  obtain ⟨x, h0⟩ : ∃ x, pvOn floatCal 0 false (some 0) (.list 0) (exRates (some (1 / 100)) (some (2 / 100))) =
      (.ok x, exRates (some (1 / 100)) (some (2 / 100))) := by
    unfold pvOn
    refine ⟨_, C54_sum.2 ⟨rfl, fun h => absurd h (by simp [exRates]), fun t => Real.exp (-(5 / 100 * (t - 0))), fun t => if t = 1 then 1 else 2, ?_, rfl⟩⟩
    intro d hd _
    refine ⟨exDf 0 d, ?_⟩
    have hd' : d = 1 ∨ d = 2 := by simpa [exRates] using hd
    rcases hd' with rfl | rfl <;>
      simp [CFList.getitem, World.dated, World.list, exRates, Dict.ofPairs, Dict.set, Dict.get,
        PayOff.eval, RatePay.details, RatePay.forwardAt, World.arg, ModelArg.truthy, Fwd.truthy, RatePay.tau, floatCal]; norm_num
  refine ⟨x, r, e, ?_, ?_⟩
  · rw [PriceCall.run, PyM.bind_ok h0]; rfl
  · simp only [session, PriceCall.run]
    rw [PyM.bind_ok h1]
    simp only [PyM.pure_run]
    rcases h4 : pvOn floatCal 0 false (some 0) (.list 0) w' with ⟨x | x, s⟩
    · rw [h4] at h3; cases h3
      rw [PyM.bind_error h4]
    · rw [h4] at h3; cases h3

end Dcf
