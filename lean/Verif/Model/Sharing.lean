import Verif.Model.Pricer

/-!
# Date curves and the list objects they share with the caller

`DateCurve` keeps the sequence object it was given as `_domain` (`dcf/curves/curve.py` lines 432 and 455) and so do the curves made from it
without new dates.  Here the dates of a curve are a tuple or the address of a list object; lists live on a heap that the caller may write to.
The numbers of a curve are copied on construction (`zip(*sorted(...))`, line 262) and are not shared.

Simplification: a call that raises allocates nothing (the lists it made are unreachable).
-/

namespace Dcf

/-- The list objects of a running program. -/
structure Heap (α : Type) where
  cell : ℕ → List α
  /-- the first unused address -/
  next : ℕ

/-- A new list object. -/
def Heap.alloc {α : Type} (h : Heap α) (l : List α) : Heap α := ⟨Function.update h.cell h.next l, h.next + 1⟩

/-- The caller changes a list in place (`l[:] = ...`, `l.append(...)`, `l.pop()`, ...). -/
def Heap.write {α : Type} (h : Heap α) (a : ℕ) (l : List α) : Heap α := { h with cell := Function.update h.cell a l }

/-- A sequence object: tuples cannot be changed, lists are objects. -/
inductive Seq (α : Type)
  | tuple (l : List α)
  | list (a : ℕ)

def Seq.read {α : Type} (h : Heap α) : Seq α → List α
  | .tuple l => l
  | .list a => h.cell a

def Seq.isTuple {α : Type} : Seq α → Bool
  | .tuple _ => true
  | .list _ => false

/-- A `DateCurve` object: the sequence object `_domain` and all other attributes (`rest.domain` is not used). -/
structure SharedCurve (D : Type) where
  dates : Seq D
  rest : DateCurve D

/-- The curve as its methods see it now. -/
def SharedCurve.view {D : Type} (h : Heap D) (c : SharedCurve D) : DateCurve D := { c.rest with domain := c.dates.read h }

section
variable {D P : Type} [AddCommGroup D] [LinearOrder D] (cal : Cal D P)

/-- `DateCurve(domain, data, ...)`, `dcf/curves/curve.py` lines 432-436 and 452-455. -/
noncomputable def SharedCurve.new (h : Heap D) (dates : Seq D) (data : List ℝ) (interp : Option FuncSpec) (origin : Option D)
    (dc : DayCountArg D) (dflt : FuncSpec) : Py (SharedCurve D) := do
  .ok ⟨dates, ← DateCurve.new cal (dates.read h) data interp origin dc dflt⟩

/-- `curve[key] = value`, lines 278-286: `list(self.domain)` is a new list, which becomes `_domain`. -/
noncomputable def SharedCurve.setitem (h : Heap D) (c : SharedCurve D) (key : D) (value : ℝ) : Py (SharedCurve D × Heap D) := do
  let c' ← (c.view h).setitem cal key value
  .ok (⟨.list h.next, c'⟩, h.alloc c'.domain)

/-- `curve.fixings[x] = y` -/
def SharedCurve.fix (c : SharedCurve D) (x : D) (y : ℝ) : SharedCurve D := { c with rest := c.rest.fix x y }

/-- `DateCurve(domain, curve, ...)`, lines 426-436. -/
noncomputable def SharedCurve.resample (h : Heap D) (dates : Seq D) (c : SharedCurve D) (interp : Option FuncSpec) (origin : Option D)
    (dc : DayCountArg D) : Py (SharedCurve D) := do
  .ok ⟨dates, ← DateCurve.resample cal (dates.read h) (c.view h) interp origin dc⟩

/-- `DateCurve(**curve.kwargs)`, lines 153-164 and 432: `kwargs` has the sequence object itself. -/
noncomputable def SharedCurve.rebuild (h : Heap D) (c : SharedCurve D) : Py (SharedCurve D) := do
  .ok ⟨c.dates, ← (c.view h).rebuild cal⟩

/-- `curve.shifted(delta)`, lines 341-353: a new list of dates, or the same sequence object. -/
noncomputable def SharedCurve.shifted (h : Heap D) (c : SharedCurve D) (delta : D) : Py (SharedCurve D × Heap D) := do
  let c' ← (c.view h).shifted cal delta
  if delta ≠ 0 then .ok (⟨.list h.next, c'⟩, h.alloc c'.domain) else .ok (⟨c.dates, c'⟩, h)

/-- `f + g`, `f - g`, `f * g`, lines 293-306 and 464-483: `self.domain + other.domain` concatenates tuples or lists and raises for a tuple and
a list. -/
noncomputable def SharedCurve.binop (op : ℝ → ℝ → ℝ) (h : Heap D) (f g : SharedCurve D) : Py (SharedCurve D × Heap D) := do
  let delta ← originDiff (f.view h) (g.view h)
  let (g', h') ← g.shifted cal h delta
  if f.dates.isTuple ≠ g'.dates.isTuple then throw .type
  let x_list := sortedSet (f.dates.read h' ++ g'.dates.read h')
  let y_list ← pyMap (fun x => do .ok (op (← (f.view h').num cal x) (← (g'.view h').num cal x))) x_list
  let new ← DateCurve.new cal x_list y_list f.rest.interp none .default f.rest.dflt
  let data ← pyMap (new.num cal) new.domain
  let _ ← DateCurve.new cal new.domain data new.interp (f.view h').origin f.rest.dc f.rest.dflt
  .ok (⟨.list h'.next, new⟩, h'.alloc new.domain)

/-! ## Programs -/

/-- Lists and date curves of a running program. -/
structure Store (D : Type) where
  heap : Heap D
  curves : List (SharedCurve D)

/-- What a caller can do: make and change lists, and use the library on curves (given by their numbers). -/
inductive Act (D : Type)
  | newList (l : List D)
  | write (a : ℕ) (l : List D)
  | build (dates : Seq D) (data : List ℝ) (interp : Option FuncSpec) (origin : Option D) (dc : DayCountArg D) (dflt : FuncSpec)
  | assign (k : ℕ) (key : D) (value : ℝ)
  | fix (k : ℕ) (x : D) (y : ℝ)
  | resample (dates : Seq D) (k : ℕ) (interp : Option FuncSpec) (origin : Option D) (dc : DayCountArg D)
  | rebuild (k : ℕ)
  | shift (k : ℕ) (delta : D)
  | combine (op : ℝ → ℝ → ℝ) (k k' : ℕ)

/-- The state after an action; a call that raises (or a curve that does not exist) changes nothing. -/
noncomputable def Store.act (s : Store D) : Act D → Store D
  | .newList l => { s with heap := s.heap.alloc l }
  | .write a l => { s with heap := s.heap.write a l }
  | .build dates data interp origin dc dflt =>
    match SharedCurve.new cal s.heap dates data interp origin dc dflt with
    | .ok c => { s with curves := s.curves ++ [c] }
    | .error _ => s
  | .assign k key value =>
    match s.curves[k]? with
    | some c =>
      match c.setitem cal s.heap key value with
      | .ok (c', h) => ⟨h, s.curves.set k c'⟩
      | .error _ => s
    | none => s
  | .fix k x y =>
    match s.curves[k]? with
    | some c => { s with curves := s.curves.set k (c.fix x y) }
    | none => s
  | .resample dates k interp origin dc =>
    match s.curves[k]? with
    | some c =>
      match SharedCurve.resample cal s.heap dates c interp origin dc with
      | .ok c' => { s with curves := s.curves ++ [c'] }
      | .error _ => s
    | none => s
  | .rebuild k =>
    match s.curves[k]? with
    | some c =>
      match c.rebuild cal s.heap with
      | .ok c' => { s with curves := s.curves ++ [c'] }
      | .error _ => s
    | none => s
  | .shift k delta =>
    match s.curves[k]? with
    | some c =>
      match c.shifted cal s.heap delta with
      | .ok (c', h) => ⟨h, s.curves ++ [c']⟩
      | .error _ => s
    | none => s
  | .combine op k k' =>
    match s.curves[k]?, s.curves[k']? with
    | some f, some g =>
      match SharedCurve.binop cal op s.heap f g with
      | .ok (c', h) => ⟨h, s.curves ++ [c']⟩
      | .error _ => s
    | _, _ => s

noncomputable def Store.run (s : Store D) (as : List (Act D)) : Store D := as.foldl (fun s a => s.act cal a) s

end

/-! ## Leg lists -/

/-- A `CashFlowLegList` object: `self._legs = legs` keeps the sequence object it was given, the dates and the origin are computed once
(`dcf/cashflows/cashflow.py` lines 208-223). -/
structure SharedLegs (D : Type) where
  legs : Seq (Product D)
  domain : List D
  origin : Option D

/-- The leg list as its methods see it now. -/
def SharedLegs.view {D : Type} (h : Heap (Product D)) (c : SharedLegs D) : Product D := .legs (c.legs.read h) c.domain c.origin

/-- `CashFlowLegList(legs)`. -/
def SharedLegs.new {D P : Type} [LinearOrder D] (w : World D P) (h : Heap (Product D)) (legs : Seq (Product D)) : Py (SharedLegs D) := do
  let c ← CF.newLegs (w.products (legs.read h))
  .ok ⟨legs, c.domain, c.origin?⟩

end Dcf
