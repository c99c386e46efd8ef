import Verif.Model.Sharing
import Verif.Props.Portfolio

/-! # Lists handed over to curves and leg lists: C159 -/

set_option linter.unusedSectionVars false
set_option linter.unusedSimpArgs false
set_option linter.unusedVariables false

namespace Dcf

open Spec

/-! ## Curves and lists -/

section
variable {D P : Type} [AddCommGroup D] [LinearOrder D] {cal : Cal D P}

theorem Heap.alloc_cell {α : Type} (h : Heap α) (l : List α) {a : ℕ} (ha : a < h.next) : (h.alloc l).cell a = h.cell a := by
  simp [Heap.alloc, Function.update_of_ne ha.ne]

theorem Heap.alloc_new {α : Type} (h : Heap α) (l : List α) : (h.alloc l).cell h.next = l := by simp [Heap.alloc]

/-- The list of a sequence object exists. -/
def Spec.Exists {α : Type} (h : Heap α) (q : Seq α) : Prop := ∀ a, q = .list a → a < h.next

theorem Seq.read_alloc {α : Type} {h : Heap α} {q : Seq α} (hq : Spec.Exists h q) (l : List α) : q.read (h.alloc l) = q.read h := by
  cases q with
  | tuple l => rfl
  | list a => exact h.alloc_cell l (hq a rfl)

theorem SharedCurve.view_alloc {h : Heap D} {c : SharedCurve D} (hc : Spec.Exists h c.dates) (l : List D) :
    c.view (h.alloc l) = c.view h := by
  simp only [SharedCurve.view, Seq.read_alloc hc]

theorem DateCurve_new_domain {c : DateCurve D} {ds : List D} {ys : List ℝ} {i o dc dflt}
    (e : DateCurve.new cal ds ys i o dc dflt = .ok c) : c.domain = ds := (DateCurve_new_fields cal e).1

theorem view_self {h : Heap D} {q : Seq D} {c : DateCurve D} (e : c.domain = q.read h) : (⟨q, c⟩ : SharedCurve D).view h = c := by
  obtain ⟨d, _⟩ := c
  simp only at e
  simp [SharedCurve.view, e]

/-- C159 (new curves): a curve built on a list or tuple is the curve of its present contents. -/
theorem C159_build (h : Heap D) (dates : Seq D) (data : List ℝ) (i : Option FuncSpec) (o : Option D) (dc : DayCountArg D)
    (dflt : FuncSpec) :
    (fun c => c.view h) <$> SharedCurve.new cal h dates data i o dc dflt = DateCurve.new cal (dates.read h) data i o dc dflt := by
  cases e : DateCurve.new cal (dates.read h) data i o dc dflt with
  | error e' => simp [SharedCurve.new, e]
  | ok c => simp [SharedCurve.new, e, view_self (DateCurve_new_domain e)]

/-- C159 (assignment): assigning changes the curve as if nothing was shared, and its dates are a new list afterwards. -/
theorem C159_assign (h : Heap D) (c : SharedCurve D) (key : D) (value : ℝ) :
    (fun r => r.1.view r.2) <$> c.setitem cal h key value = (c.view h).setitem cal key value ∧
    ∀ c' h', c.setitem cal h key value = .ok (c', h') → c'.dates = .list h.next ∧ h'.next = h.next + 1 ∧ ∀ a < h.next, h'.cell a = h.cell a := by
  constructor
  · cases e : (c.view h).setitem cal key value with
    | error e' => simp [SharedCurve.setitem, e]
    | ok c' =>
      simp only [SharedCurve.setitem, e, Py.ok_bind, Py.map_ok]
      rw [view_self]
      exact (h.alloc_new _).symm
  · intro c' h' e
    obtain ⟨x, -, e⟩ := Py.bind_eq_ok.1 e
    obtain ⟨rfl, rfl⟩ := Prod.mk.inj (Except.ok.inj e)
    exact ⟨rfl, rfl, fun a ha => h.alloc_cell _ ha⟩

theorem shifted_domain {c c' : DateCurve D} {delta : D} (e : c.shifted cal delta = .ok c') :
    c'.domain = if delta ≠ 0 then c.domain.map (· + delta) else c.domain := by
  simp only [DateCurve.shifted, DateCurve.resample] at e
  obtain ⟨_, _, e⟩ := Py.bind_eq_ok.1 e
  obtain ⟨_, _, e⟩ := Py.bind_eq_ok.1 e
  exact DateCurve_new_domain e

/-- C159 (shifted curves): the shifted curve is the same as if nothing was shared; it has a list of its own unless it is shifted by nothing. -/
theorem C159_shift (h : Heap D) (c : SharedCurve D) (delta : D) :
    (fun r => r.1.view r.2) <$> c.shifted cal h delta = (c.view h).shifted cal delta ∧
    ∀ c' h', c.shifted cal h delta = .ok (c', h') → (c'.dates = if delta = 0 then c.dates else .list h.next) ∧ ∀ a < h.next, h'.cell a = h.cell a := by
  constructor
  · cases e : (c.view h).shifted cal delta with
    | error e' => simp [SharedCurve.shifted, e]
    | ok c' =>
      simp only [SharedCurve.shifted, e, Py.ok_bind]
      by_cases hd : delta = 0
      · simp only [hd, ne_eq, not_true_eq_false, if_false, Py.map_ok]
        rw [view_self]
        have := shifted_domain e
        simpa [hd, SharedCurve.view] using this
      · simp only [hd, ne_eq, not_false_eq_true, if_true, Py.map_ok]
        rw [view_self]
        exact (h.alloc_new _).symm
  · intro c' h' e
    obtain ⟨x, -, e⟩ := Py.bind_eq_ok.1 e
    by_cases hd : delta = 0
    · simp only [hd, ne_eq, not_true_eq_false, if_false] at e
      obtain ⟨rfl, rfl⟩ := Prod.mk.inj (Except.ok.inj e)
      exact ⟨by simp [hd], fun _ _ => rfl⟩
    · simp only [hd, ne_eq, not_false_eq_true, if_true] at e
      obtain ⟨rfl, rfl⟩ := Prod.mk.inj (Except.ok.inj e)
      exact ⟨by simp [hd], fun a ha => h.alloc_cell _ ha⟩

/-- C159 (casts): a curve cast or rebuilt from its `kwargs` is the same as if nothing was shared, and shares the dates. -/
theorem C159_cast (h : Heap D) (c : SharedCurve D) (dates : Seq D) (i : Option FuncSpec) (o : Option D) (dc : DayCountArg D) :
    (fun c' => c'.view h) <$> SharedCurve.resample cal h dates c i o dc = DateCurve.resample cal (dates.read h) (c.view h) i o dc ∧
    (∀ c', SharedCurve.resample cal h dates c i o dc = .ok c' → c'.dates = dates) ∧
    (fun c' => c'.view h) <$> c.rebuild cal h = (c.view h).rebuild cal ∧ ∀ c', c.rebuild cal h = .ok c' → c'.dates = c.dates := by
  refine ⟨?_, fun c' e => ?_, ?_, fun c' e => ?_⟩
  · cases e : DateCurve.resample cal (dates.read h) (c.view h) i o dc with
    | error e' => simp [SharedCurve.resample, e]
    | ok c' =>
      simp only [SharedCurve.resample, e, Py.ok_bind, Py.map_ok]
      rw [view_self]
      simp only [DateCurve.resample] at e
      obtain ⟨_, _, e⟩ := Py.bind_eq_ok.1 e
      obtain ⟨_, _, e⟩ := Py.bind_eq_ok.1 e
      exact DateCurve_new_domain e
  · obtain ⟨x, -, e⟩ := Py.bind_eq_ok.1 e
    obtain rfl := Except.ok.inj e; rfl
  · cases e : (c.view h).rebuild cal with
    | error e' => simp [SharedCurve.rebuild, e]
    | ok c' =>
      simp only [SharedCurve.rebuild, e, Py.ok_bind, Py.map_ok]
      rw [view_self]
      simp only [DateCurve.rebuild] at e
      obtain ⟨_, _, e⟩ := Py.bind_eq_ok.1 e
      obtain ⟨_, _, e⟩ := Py.bind_eq_ok.1 e
      exact DateCurve_new_domain e
  · obtain ⟨x, -, e⟩ := Py.bind_eq_ok.1 e
    obtain rfl := Except.ok.inj e; rfl

/-- C159 (sums, differences and products): if the dates of both are lists, or both are tuples and the origins agree, the result is the same as
if nothing was shared. -/
theorem C159_combine (op : ℝ → ℝ → ℝ) {h : Heap D} {f g : SharedCurve D} (hf : Spec.Exists h f.dates) (hg : Spec.Exists h g.dates)
    {delta : D} (hd : originDiff (f.view h) (g.view h) = .ok delta)
    (hk : f.dates.isTuple = false ∧ (delta = 0 → g.dates.isTuple = false) ∨ f.dates.isTuple = true ∧ delta = 0 ∧ g.dates.isTuple = true) :
    (fun r => r.1.view r.2) <$> SharedCurve.binop cal op h f g = DateCurve.binop cal op (f.view h) (g.view h) := by
  simp only [SharedCurve.binop, DateCurve.binop, hd, Py.ok_bind]
  cases e : (g.view h).shifted cal delta with
  | error e' => simp [SharedCurve.shifted, e]
  | ok g' =>
    obtain ⟨gs, h', e1, e2, e3, e4⟩ : ∃ gs h', g.shifted cal h delta = .ok (gs, h') ∧ gs.view h' = g' ∧ f.view h' = f.view h ∧
        f.dates.isTuple = gs.dates.isTuple := by
      by_cases h0 : delta = 0
      · refine ⟨⟨g.dates, g'⟩, h, by rw [SharedCurve.shifted, e]; simp [h0], view_self ?_, rfl, ?_⟩
        · have := shifted_domain e
          simpa [h0, SharedCurve.view] using this
        · rcases hk with ⟨h1, h2⟩ | ⟨h1, -, h2⟩
          · rw [h1]; exact (h2 h0).symm
          · rw [h1]; exact h2.symm
      · refine ⟨⟨.list h.next, g'⟩, h.alloc g'.domain, by rw [SharedCurve.shifted, e]; simp [h0], view_self (h.alloc_new _).symm,
          SharedCurve.view_alloc hf _, ?_⟩
        rcases hk with ⟨h1, -⟩ | ⟨-, h2, -⟩
        · rw [h1]; rfl
        · exact absurd h2 h0
    have e5 : f.dates.read h' = (f.view h).domain := by rw [← e3]; rfl
    have e6 : gs.dates.read h' = g'.domain := by rw [← e2]; rfl
    simp only [e1, Py.ok_bind, e4, ne_eq, not_true_eq_false, if_false, e3, e2, e5, e6, Py.pure_eq]
    simp only [map_bind_py]
    refine congrArg _ (funext fun ys => ?_)
    refine bind_congr fun new => ?_
    refine bind_congr fun data => ?_
    refine bind_congr fun _ => ?_
    simp only [Py.map_ok]
    rw [view_self (Heap.alloc_new _ _).symm]

/-- C159 (refuted, tuples and lists): two curves with tuples of dates and different origins cannot be added, nor can a curve with a list and
one with a tuple of dates and the same origin. -/
theorem C159_combine_violated (op : ℝ → ℝ → ℝ) {h : Heap D} {f g : SharedCurve D} {delta : D}
    (hd : originDiff (f.view h) (g.view h) = .ok delta) {g' : DateCurve D} (hs : (g.view h).shifted cal delta = .ok g')
    (hk : f.dates.isTuple = true ∧ delta ≠ 0 ∨ delta = 0 ∧ f.dates.isTuple ≠ g.dates.isTuple) :
    SharedCurve.binop cal op h f g = .error .type := by
  simp only [SharedCurve.binop, hd, Py.ok_bind, SharedCurve.shifted, hs]
  rcases hk with ⟨h1, h2⟩ | ⟨h1, h2⟩
  · simp only [h2, ne_eq, not_false_eq_true, if_true, Py.ok_bind, h1]
    rw [if_pos (by simp [Seq.isTuple])]
    rfl
  · simp only [h1, ne_eq, not_true_eq_false, if_false, Py.ok_bind]
    rw [if_pos h2]
    rfl

/-! ### Frames -/

/-- The actions that change curve `k` itself. -/
def Spec.Touches (k : ℕ) : Act D → Prop
  | .assign j _ _ => j = k
  | .fix j _ _ => j = k
  | _ => False

/-- The actions by which the caller changes the list `a`. -/
def Spec.Writes (a : ℕ) : Act D → Prop
  | .write b _ => b = a
  | _ => False

theorem act_frame (s : Store D) (act : Act D) :
    s.heap.next ≤ (s.act cal act).heap.next ∧
    (∀ a < s.heap.next, ¬ Spec.Writes a act → (s.act cal act).heap.cell a = s.heap.cell a) ∧
    (∀ k c, s.curves[k]? = some c → ¬ Spec.Touches k act → (s.act cal act).curves[k]? = some c) := by
  have app : ∀ (l : List (SharedCurve D)) c' k c, l[k]? = some c → (l ++ [c'])[k]? = some c := fun l c' k c hk => by
    rw [List.getElem?_append_left (List.getElem?_eq_some_iff.1 hk).1, hk]
  have al : ∀ (h : Heap D) l, h.next ≤ (h.alloc l).next := fun h l => Nat.le_succ _
  cases act with
  | newList l => exact ⟨al _ _, fun a ha _ => Heap.alloc_cell _ _ ha, fun k c hk _ => hk⟩
  | write b l =>
    refine ⟨le_rfl, fun a ha hw => ?_, fun k c hk _ => hk⟩
    exact Function.update_of_ne (fun h => hw h.symm) _ _
  | build dates data i o dc dflt =>
    simp only [Store.act]
    split
    · exact ⟨le_rfl, fun _ _ _ => rfl, fun k c hk _ => app _ _ _ _ hk⟩
    · exact ⟨le_rfl, fun _ _ _ => rfl, fun k c hk _ => hk⟩
  | assign j key value =>
    simp only [Store.act]
    split
    · split
      · rename_i c0 _ _ c' h' e
        obtain ⟨-, h1, h2⟩ := (C159_assign s.heap c0 key value).2 c' h' e
        refine ⟨by rw [h1]; exact Nat.le_succ _, fun a ha _ => h2 a ha, fun k c hk hj => ?_⟩
        rw [List.getElem?_set_ne (fun h => hj h), hk]
      · exact ⟨le_rfl, fun _ _ _ => rfl, fun k c hk _ => hk⟩
    · exact ⟨le_rfl, fun _ _ _ => rfl, fun k c hk _ => hk⟩
  | fix j x y =>
    simp only [Store.act]
    split
    · refine ⟨le_rfl, fun _ _ _ => rfl, fun k c hk hj => ?_⟩
      rw [List.getElem?_set_ne (fun h => hj h), hk]
    · exact ⟨le_rfl, fun _ _ _ => rfl, fun k c hk _ => hk⟩
  | resample dates j i o dc =>
    simp only [Store.act]
    split
    · split
      · exact ⟨le_rfl, fun _ _ _ => rfl, fun k c hk _ => app _ _ _ _ hk⟩
      · exact ⟨le_rfl, fun _ _ _ => rfl, fun k c hk _ => hk⟩
    · exact ⟨le_rfl, fun _ _ _ => rfl, fun k c hk _ => hk⟩
  | rebuild j =>
    simp only [Store.act]
    split
    · split
      · exact ⟨le_rfl, fun _ _ _ => rfl, fun k c hk _ => app _ _ _ _ hk⟩
      · exact ⟨le_rfl, fun _ _ _ => rfl, fun k c hk _ => hk⟩
    · exact ⟨le_rfl, fun _ _ _ => rfl, fun k c hk _ => hk⟩
  | shift j delta =>
    simp only [Store.act]
    split
    · split
      · rename_i c0 _ _ c' h' e
        refine ⟨?_, fun a ha _ => ((C159_shift s.heap c0 delta).2 c' h' e).2 a ha, fun k c hk _ => app _ _ _ _ hk⟩
        obtain ⟨x, -, e⟩ := Py.bind_eq_ok.1 e
        split_ifs at e
        · obtain ⟨-, rfl⟩ := Prod.mk.inj (Except.ok.inj e); exact al _ _
        · obtain ⟨-, rfl⟩ := Prod.mk.inj (Except.ok.inj e); exact le_rfl
      · exact ⟨le_rfl, fun _ _ _ => rfl, fun k c hk _ => hk⟩
    · exact ⟨le_rfl, fun _ _ _ => rfl, fun k c hk _ => hk⟩
  | combine op j j' =>
    simp only [Store.act]
    split
    · split
      · rename_i f g _ _ _ c' h' e
        simp only [SharedCurve.binop] at e
        obtain ⟨delta, -, e⟩ := Py.bind_eq_ok.1 e
        obtain ⟨⟨g', h1⟩, e1, e⟩ := Py.bind_eq_ok.1 e
        have k1 := ((C159_shift s.heap g delta).2 g' h1 e1).2
        have k2 : s.heap.next ≤ h1.next := by
          obtain ⟨x, -, e1⟩ := Py.bind_eq_ok.1 e1
          split_ifs at e1
          · obtain ⟨-, rfl⟩ := Prod.mk.inj (Except.ok.inj e1); exact al _ _
          · obtain ⟨-, rfl⟩ := Prod.mk.inj (Except.ok.inj e1); exact le_rfl
        dsimp only at e
        rw [ite_eq_iff] at e
        rcases e with ⟨-, e⟩ | ⟨-, e⟩
        · simp at e
        obtain ⟨_, _, e⟩ := Py.bind_eq_ok.1 e
        obtain ⟨new, _, e⟩ := Py.bind_eq_ok.1 e
        obtain ⟨_, _, e⟩ := Py.bind_eq_ok.1 e
        obtain ⟨_, _, e⟩ := Py.bind_eq_ok.1 e
        obtain ⟨-, rfl⟩ := Prod.mk.inj (Except.ok.inj e)
        refine ⟨k2.trans (al _ _), fun a ha _ => ?_, fun k c hk _ => app _ _ _ _ hk⟩
        simp only
        rw [Heap.alloc_cell _ _ (ha.trans_le k2), k1 a ha]
      · exact ⟨le_rfl, fun _ _ _ => rfl, fun k c hk _ => hk⟩
    · exact ⟨le_rfl, fun _ _ _ => rfl, fun k c hk _ => hk⟩

theorem run_frame (acts : List (Act D)) : ∀ s : Store D,
    s.heap.next ≤ (s.run cal acts).heap.next ∧
    (∀ a < s.heap.next, (∀ act ∈ acts, ¬ Spec.Writes a act) → (s.run cal acts).heap.cell a = s.heap.cell a) ∧
    (∀ k c, s.curves[k]? = some c → (∀ act ∈ acts, ¬ Spec.Touches k act) → (s.run cal acts).curves[k]? = some c) := by
  induction acts with
  | nil => exact fun s => ⟨le_rfl, fun _ _ _ => rfl, fun _ _ h _ => h⟩
  | cons act acts ih =>
    intro s
    obtain ⟨h1, h2, h3⟩ := act_frame (cal := cal) s act
    obtain ⟨k1, k2, k3⟩ := ih (s.act cal act)
    refine ⟨h1.trans k1, fun a ha hw => ?_, fun k c hk hw => ?_⟩
    · rw [← h2 a ha (hw act (by simp))]
      exact k2 a (ha.trans_le h1) fun x hx => hw x (List.mem_cons_of_mem _ hx)
    · exact k3 k c (h3 k c hk (hw act (by simp))) fun x hx => hw x (List.mem_cons_of_mem _ hx)

/-- C159 (the caller's lists): no use of the library changes a list of the caller. -/
theorem C159_lists (s : Store D) (acts : List (Act D)) {a : ℕ} (ha : a < s.heap.next) (hw : ∀ act ∈ acts, ¬ Spec.Writes a act) :
    (s.run cal acts).heap.cell a = s.heap.cell a :=
  (run_frame acts s).2.1 a ha hw

/-- C159 (curves left alone): whatever is done with other curves and lists, a curve that is not assigned to and whose own list of dates is not
changed by the caller is the same curve afterwards. -/
theorem C159_others (s : Store D) (acts : List (Act D)) {k : ℕ} {c : SharedCurve D} (hk : s.curves[k]? = some c)
    (ht : ∀ act ∈ acts, ¬ Spec.Touches k act) (hc : Spec.Exists s.heap c.dates)
    (hw : ∀ a, c.dates = .list a → ∀ act ∈ acts, ¬ Spec.Writes a act) :
    (s.run cal acts).curves[k]? = some c ∧ c.view (s.run cal acts).heap = c.view s.heap := by
  refine ⟨(run_frame acts s).2.2 k c hk ht, ?_⟩
  have : c.dates.read (s.run cal acts).heap = c.dates.read s.heap := by
    cases e : c.dates with
    | tuple l => rfl
    | list a => exact (run_frame acts s).2.1 a (hc a e) (hw a e)
  simp only [SharedCurve.view, this]

/-- C159 (after an assignment): then the caller's old lists have no effect on the curve. -/
theorem C159_assigned (s : Store D) {k : ℕ} {c : SharedCurve D} {key : D} {value : ℝ} {c' : DateCurve D} (hk : s.curves[k]? = some c)
    (hc' : (c.view s.heap).setitem cal key value = .ok c') (acts : List (Act D)) (ht : ∀ act ∈ acts, ¬ Spec.Touches k act)
    (hw : ∀ a, ∀ act ∈ acts, Spec.Writes a act → a < s.heap.next) :
    ∃ c'', (s.run cal (.assign k key value :: acts)).curves[k]? = some c'' ∧
      c''.view (s.run cal (.assign k key value :: acts)).heap = c' := by
  have e : c.setitem cal s.heap key value = .ok (⟨.list s.heap.next, c'⟩, s.heap.alloc c'.domain) := by
    simp [SharedCurve.setitem, hc']
  have es : s.act cal (.assign k key value) = ⟨s.heap.alloc c'.domain, s.curves.set k ⟨.list s.heap.next, c'⟩⟩ := by
    simp only [Store.act, hk, e]
  have h1 : (s.act cal (.assign k key value)).curves[k]? = some ⟨.list s.heap.next, c'⟩ := by
    rw [es]; simp [List.getElem?_set_self (List.getElem?_eq_some_iff.1 hk).1]
  obtain ⟨h2, h3⟩ := C159_others (cal := cal) (s.act cal (.assign k key value)) acts h1 ht
    (fun a ha => by rw [es]; cases ha; exact Nat.lt_succ_self _)
    (fun a ha act hact hwr => by cases ha; exact absurd (hw _ act hact hwr) (lt_irrefl _))
  refine ⟨_, h2, h3.trans ?_⟩
  rw [es]
  exact view_self (Heap.alloc_new _ _).symm

/-- C159 (what the actions do): a list the caller changes has the new contents, for its reader and for the curves built on it; a value fixed on
a curve is the value of this curve on that date; the others are not changed. -/
theorem C159_actions (s : Store D) :
    (∀ a l, ((s.act cal (.write a l)).heap.cell a = l ∧ ∀ b ≠ a, (s.act cal (.write a l)).heap.cell b = s.heap.cell b) ∧
      (s.act cal (.write a l)).curves = s.curves ∧
      ∀ c : SharedCurve D, c.dates = .list a → (c.view (s.act cal (.write a l)).heap).domain = l) ∧
    ∀ k c x y, s.curves[k]? = some c → ∃ c', (s.act cal (.fix k x y)).curves[k]? = some c' ∧ (s.act cal (.fix k x y)).heap = s.heap ∧
      (∀ h, (c'.view h).call cal x = .ok (some y) ∧ ∀ x' ≠ x, (c'.view h).call cal x' = (c.view h).call cal x') ∧
      ∀ j ≠ k, (s.act cal (.fix k x y)).curves[j]? = s.curves[j]? := by
  refine ⟨fun a l => ⟨⟨?_, fun b hb => ?_⟩, rfl, fun c hc => ?_⟩, fun k c x y hk => ⟨c.fix x y, ?_, ?_, fun h => ⟨?_, fun x' hx => ?_⟩, fun j hj => ?_⟩⟩
  · simp [Store.act, Heap.write]
  · simp [Store.act, Heap.write, Function.update_of_ne hb]
  · simp [SharedCurve.view, hc, Seq.read, Store.act, Heap.write]
  · simp [Store.act, hk, List.getElem?_set_self (List.getElem?_eq_some_iff.1 hk).1]
  · simp [Store.act, hk]
  · simp [SharedCurve.view, SharedCurve.fix, DateCurve.fix, DateCurve.call, Dict.get_set]
  · simp [SharedCurve.view, SharedCurve.fix, DateCurve.fix, DateCurve.call, Dict.get_set, hx.symm, DateCurve.time, DateCurve.origin, DateCurve.dayCount]
  · simp [Store.act, hk, List.getElem?_set_ne hj.symm]

end

/-! ### What the dates of a curve are used for -/

section
variable {D P : Type} [LinearOrder D] {cal : Cal D P}

/-- The curve after its list of dates has been changed from outside. -/
def Spec.redated (c : IRCurve D P) (ds : List D) : IRCurve D P := { c with base := { c.base with domain := ds } }

/-- C159 (date curves with origin): the values of a curve with given origin do not depend on what the caller does to its list of dates. -/
theorem C159_values {h h' : Heap D} {c : SharedCurve D} (ho : c.rest.origin?.isSome) (x : D) :
    (c.view h').call cal x = (c.view h).call cal x ∧ (c.view h').origin = (c.view h).origin := by
  obtain ⟨o, ho⟩ := Option.isSome_iff_exists.1 ho
  simp [SharedCurve.view, DateCurve.call, DateCurve.time, DateCurve.origin, DateCurve.dayCount, ho]

theorem redated_call {c : IRCurve D P} (ds : List D) (ho : (Spec.redated c ds).base.origin = c.base.origin) (x : D) :
    (Spec.redated c ds).call cal x = c.call cal x := by
  have e : (Spec.redated c ds).base.call cal x = c.base.call cal x := by
    simp only [DateCurve.call, DateCurve.time, ho]
    rfl
  simp only [IRCurve.call, RateCurve.call, e]
  rfl

/-- C159 (interest rate curves): rates and discount factors use the dates only for the origin. -/
theorem C159_rates {c : IRCurve D P} (ds : List D) (ho : c.base.origin?.isSome ∨ ds.head? = c.base.domain.head?) :
    (∀ x, (Spec.redated c ds).call cal x = c.call cal x) ∧
    (∀ same s t, s ≠ t → (Spec.redated c ds).rate cal same s t = c.rate cal same s t) ∧
    (∀ same s t, (Spec.redated c ds).factor cal same s t = c.factor cal same s t) ∧
    (∀ t, (Spec.redated c ds).discount cal t = c.discount cal t) ∧ (∀ t, c.base.origin ≠ some t → (Spec.redated c ds).zero cal t = c.zero cal t) ∧
    (∀ same limit s e p, (Spec.redated c ds).cashRate cal same limit s e p = c.cashRate cal same limit s e p) ∧
    ∀ l, (Spec.redated c ds).swapAnnuity cal l = c.swapAnnuity cal l := by
  have ho' : (Spec.redated c ds).base.origin = c.base.origin := by
    simp only [Spec.redated, DateCurve.origin]
    rcases ho with ho | ho
    · obtain ⟨o, ho⟩ := Option.isSome_iff_exists.1 ho
      simp [ho]
    · rw [ho]
  have hcall : ∀ x, (Spec.redated c ds).call cal x = c.call cal x := redated_call ds ho'
  have hdc : ∀ s t, (Spec.redated c ds).dayCount cal s t = c.dayCount cal s t := fun s t => rfl
  have hcls : (Spec.redated c ds).cls = c.cls := rfl
  have hten : (Spec.redated c ds).tenor = c.tenor := rfl
  have hft : (Spec.redated c ds).forwardTenor cal = c.forwardTenor cal := rfl
  have hrate : ∀ same s t, s ≠ t → (Spec.redated c ds).rate cal same s t = c.rate cal same s t := by
    intro same s t hst
    simp only [IRCurve.rate, hcls]
    cases c.cls <;> simp only [IRCurve.discountRateOf, IRCurve.zeroRateOf, IRCurve.zeroForward, IRCurve.shortRateOf, IRCurve.cashRateOf,
      hcall, hdc, ho', hft, IRCurve.discountFactorOf, hst, false_and, if_false]
  have hfac : ∀ same s t, (Spec.redated c ds).factor cal same s t = c.factor cal same s t := by
    intro same s t
    by_cases hst : s = t
    · simp only [IRCurve.factor, hcls, hst, if_true]
      cases c.cls <;> simp only [IRCurve.discountFactorOf, hcall, hdc]
    · simp only [IRCurve.factor, hcls, hrate same s t hst, hst, if_false]
      cases c.cls <;> simp only [IRCurve.discountFactorOf, hcall, hdc]
  refine ⟨hcall, hrate, hfac, fun t => by simp only [IRCurve.discount, ho', hfac], fun t ht => ?_, ?_, ?_⟩
  · simp only [IRCurve.zero, ho']
    cases e : c.base.origin with
    | none => rfl
    | some o => exact hrate true o t fun h => ht (h ▸ e)
  · intro same limit
    induction limit with
    | zero => intro s e p; simp [IRCurve.cashRate]
    | succ n ih =>
      intro s e p
      simp only [IRCurve.cashRate, IRCurve.cashStop, hcls, hcall, hfac, hdc, hft, ih]
  · intro l
    simp only [IRCurve.swapAnnuity, IRCurve.discount, ho', hfac, hdc]

end

/-! ### What goes wrong -/

section
variable {D P : Type} [LinearOrder D] {cal : Cal D P}

/-- C159 (lists of dates, without origin): when the caller changes the first date of the list, all values of the curve move to other dates: the
value at `x` is now the one `x'` had, where `x'` is as far from the old first date as `x` is from the new one. -/
theorem C159_moved {h h' : Heap D} {c : SharedCurve D} (ho : c.rest.origin? = none) {o o' : D} (hh : (c.dates.read h).head? = some o)
    (hh' : (c.dates.read h').head? = some o') {x x' : D} (hf : c.rest.fixings.get x = none) (hf' : c.rest.fixings.get x' = none)
    (hx : c.rest.dayCount cal o' x = c.rest.dayCount cal o x') :
    (c.view h').call cal x = (c.view h).call cal x' := by
  have e : ∀ (h : Heap D) o x, (c.dates.read h).head? = some o → c.rest.fixings.get x = none →
      (c.view h).call cal x = (do c.rest.func.call (← c.rest.dayCount cal o x)) := fun h o x hh hf => by
    simp only [SharedCurve.view, DateCurve.call, hf, DateCurve.time, DateCurve.origin, ho, hh, Option.none_or, pyDate, Py.ok_bind]
    rfl
  rw [e h' o' x hh' hf, e h o x' hh hf', hx]

end

/-- Three dates in the list object 0. -/
def exHeap : Heap ℝ := ⟨fun a => if a = 0 then [0, 1, 2] else [], 1⟩

/-- C159 (refuted, lists of dates): a curve without origin built on a list; when the caller drops the first date from the list, the values
of the curve change. -/
theorem C159_values_violated : ∃ c : SharedCurve ℝ,
    SharedCurve.new floatCal exHeap (.list 0) [1, 2, 4] none none .default linearScheme = .ok c ∧
    (c.view exHeap).call floatCal 1 = .ok (some 2) ∧
    (c.view (exHeap.write 0 [1, 2])).call floatCal 1 = .ok (some 1) := by
  have hτ : GoodDayCount (DayCountArg.fn floatCal .default) := goodDayCount_real
  have hn : (([((0 : ℝ), (1 : ℝ)), (1, 2), (2, 4)]).map Prod.fst).Nodup := by simp
  have hτn := timePts_nodup hτ 0 hn
  have hnew := DateCurve_new_eq floatCal none none .default linearScheme (pts := [((0 : ℝ), (1 : ℝ)), (1, 2), (2, 4)]) (o := 0) rfl trivial
    hτn (by simp [linearScheme, FuncSpec.isLog, Kind.isLog])
  set C := dateCurveOf (DayCountArg.fn floatCal .default) 0 none .default none linearScheme [((0 : ℝ), (1 : ℝ)), (1, 2), (2, 4)] with hC
  have hv : (⟨.list 0, C⟩ : SharedCurve ℝ).view exHeap = C := view_self rfl
  have node : ∀ p ∈ [((0 : ℝ), (1 : ℝ)), (1, 2), (2, 4)], C.call floatCal p.1 = .ok (some p.2) := fun p hp => by
    rw [hC, dateCurveOf_call floatCal (o := 0) (o? := none) (dc := .default) rfl trivial]
    exact funcOf_node _ hτn (by simp [linearScheme, FuncSpec.isLog, Kind.isLog]) (by simp [linearScheme, FuncSpec.needsNonzero, Kind.isRate])
      (List.mem_map.2 ⟨p, hp, rfl⟩)
  refine ⟨⟨.list 0, C⟩, ?_, ?_, ?_⟩
  · rw [SharedCurve.new, show (Seq.list 0).read exHeap = ([((0 : ℝ), (1 : ℝ)), (1, 2), (2, 4)]).map Prod.fst from rfl,
      show ([1, 2, 4] : List ℝ) = ([((0 : ℝ), (1 : ℝ)), (1, 2), (2, 4)]).map Prod.snd from rfl, hnew]
    rfl
  · rw [hv]; exact node (1, 2) (by simp)
  · rw [C159_moved (h := exHeap) (o := 0) (o' := 1) (x := 1) (x' := 0) rfl rfl (by simp [exHeap, Seq.read, Heap.write]) rfl rfl
      (by simp [DateCurve.dayCount, hC, dateCurveOf, DayCountArg.eval, floatCal]), hv]
    exact node (0, 1) (by simp)

/-- Non-vacuity of C159 (curves left alone) and of the values of curves with origin. -/
example : ∃ c : SharedCurve ℝ, c.rest.origin?.isSome ∧ Spec.Exists exHeap c.dates ∧ (⟨exHeap, [c]⟩ : Store ℝ).curves[0]? = some c :=
  ⟨⟨.list 0, dateCurveOf (DayCountArg.fn floatCal .default) 0 (some 0) .default none linearScheme [((0 : ℝ), (1 : ℝ))]⟩, rfl,
    fun a h => by cases h; exact one_pos, rfl⟩

/-- Non-vacuity of C159 (sums): a curve with a list of dates and one with a tuple, both with the origin 0. -/
example : ∃ (f g : SharedCurve ℝ) (g' : DateCurve ℝ), Spec.Exists exHeap f.dates ∧ Spec.Exists exHeap g.dates ∧
    originDiff (f.view exHeap) (g.view exHeap) = .ok 0 ∧ (g.view exHeap).shifted floatCal 0 = .ok g' ∧ f.dates.isTuple ≠ g.dates.isTuple := by
  have hτ : GoodDayCount (DayCountArg.fn floatCal .default) := goodDayCount_real
  have hn : (([((0 : ℝ), (1 : ℝ))]).map Prod.fst).Nodup := by simp
  have hτn := timePts_nodup hτ 0 hn
  have hnew := DateCurve_new_eq floatCal none none .default linearScheme (pts := [((0 : ℝ), (1 : ℝ))]) (o := 0) rfl trivial
    hτn (by simp [linearScheme, FuncSpec.isLog, Kind.isLog])
  set C := dateCurveOf (DayCountArg.fn floatCal .default) 0 none .default none linearScheme [((0 : ℝ), (1 : ℝ))] with hC
  have node : C.call floatCal 0 = .ok (some 1) := by
    rw [hC, dateCurveOf_call floatCal (o := 0) (o? := none) (dc := .default) rfl trivial]
    exact funcOf_node _ hτn (by simp [linearScheme, FuncSpec.isLog, Kind.isLog]) (by simp [linearScheme, FuncSpec.needsNonzero, Kind.isRate])
      (List.mem_map.2 ⟨(0, 1), by simp, rfl⟩)
  have hv : (⟨.tuple [0], C⟩ : SharedCurve ℝ).view exHeap = C := view_self rfl
  refine ⟨⟨.list 0, C⟩, ⟨.tuple [0], C⟩, C, (fun a h => by cases h; exact one_pos), (fun a h => by cases h), ?_, ?_, by simp [Seq.isTuple]⟩
  · rw [hv]
    simp [originDiff, SharedCurve.view, hC, dateCurveOf, DateCurve.origin, exHeap, Seq.read, pyDate]
  · rw [hv]
    have e : C.shifted floatCal 0 = DateCurve.new floatCal [0] [1] none none .default linearScheme := by
      have hd : C.domain = [0] := rfl
      have hi : keepInterp none C.interp = .ok none := rfl
      have hor : floatCal.or none C.origin? = none := rfl
      have hdc : (DayCountArg.default : DayCountArg ℝ).or C.dc.kwarg = .default := rfl
      have hys : pyMap (DateCurve.num floatCal C) [0] = .ok [1] := by simp [pyMap, DateCurve.num, node, pyNum]
      simp only [DateCurve.shifted, DateCurve.resample, ne_eq, not_true_eq_false, if_false, hd, hi, hor, hdc, hys, Py.ok_bind]
      rfl
    rw [e]; exact hnew

/-! ## Leg lists -/

section
variable {D P : Type} [LinearOrder D] {cal : Cal D P}

/-- C159 (leg lists given as tuples): nothing the caller does to lists changes them. -/
theorem C159_legs {h h' : Heap (Product D)} {c : SharedLegs D} (hc : c.legs.isTuple = true) : c.view h' = c.view h := by
  obtain ⟨q, d, o⟩ := c
  cases q with
  | tuple l => rfl
  | list a => simp [Seq.isTuple] at hc

/-- C159 (new leg lists): a leg list made of a list or tuple is the one of its present contents, or the constructor raises alike. -/
theorem C159_new_legs (w : World D P) (h : Heap (Product D)) (legs : Seq (Product D)) :
    (fun c => w.product (c.view h)) <$> SharedLegs.new w h legs = CF.newLegs (w.products (legs.read h)) := by
  unfold SharedLegs.new CF.newLegs
  cases minOrigin ((w.products (legs.read h)).map CF.origin) with
  | error e => rfl
  | ok o => rfl

/-- C159 (refuted, lists of legs): when the caller appends a leg to the list a leg list was made of, the present value changes by that of the
leg, but the pay dates are the same as before. -/
theorem C159_legs_violated {w : World D P} {h : Heap (Product D)} {a : ℕ} {c : SharedLegs D} (hc : SharedLegs.new w h (.list a) = .ok c)
    (p : Product D) {dc : CurveObj D P} {same : Bool} {v : D} {x y : ℝ} (hx : pv cal dc same (some v) (c.view h) w = (.ok x, w))
    (hy : pv cal dc same (some v) p w = (.ok y, w)) :
    pv cal dc same (some v) (c.view (h.write a (h.cell a ++ [p]))) w = (.ok (x + y), w) ∧
      (w.product (c.view (h.write a (h.cell a ++ [p])))).domain = (w.product (c.view h)).domain := by
  obtain ⟨c0, h0, e⟩ := Py.bind_eq_ok.1 hc
  obtain rfl := Except.ok.inj e
  constructor
  · simp only [SharedLegs.view, Seq.read, Heap.write, Function.update_self] at hx ⊢
    obtain ⟨-, xs, h1, rfl⟩ := C54_legs.1 hx
    refine C54_legs.2 ⟨rfl, xs ++ [y], List.rel_append h1 (.cons hy .nil), by simp⟩
  · simp only [SharedLegs.view, World.product, CF.domain]

end

/-- Non-vacuity of C159 (lists of legs): appending the only leg once more doubles the value. -/
example : ∃ (c : SharedLegs ℝ) (x : ℝ), let h : Heap (Product ℝ) := ⟨fun _ => [.list 1], 1⟩
    SharedLegs.new exWorld h (.list 0) = .ok c ∧ pv floatCal (exWorld.curves 0) false (some 0) (c.view h) exWorld = (.ok x, exWorld) ∧
      pv floatCal (exWorld.curves 0) false (some 0) (c.view (h.write 0 (h.cell 0 ++ [.list 1]))) exWorld = (.ok (x + x), exWorld) := by
  have hx : pv floatCal (exWorld.curves 0) false (some 0) (.list 1) exWorld = (.ok _, exWorld) := C54_flows (exPays rfl)
    (df := fun t => Real.exp (-(5 / 100 * (t - 0)))) fun q _ => exDf 0 q.1
  have hn : SharedLegs.new exWorld ⟨fun _ => [.list 1], 1⟩ (.list 0) = .ok ⟨.list 0, _, _⟩ := rfl
  refine ⟨_, _, hn, ?_, (C159_legs_violated hn (.list 1) (x := _) ?_ hx).1⟩ <;>
  · rw [SharedLegs.view]
    exact C54_legs.2 ⟨rfl, [_], .cons hx .nil, by simp⟩

end Dcf
