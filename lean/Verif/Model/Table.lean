import Verif.Model.Curve

/-!
# Model of `rate_table`, `Curve.table`, `Curve.__iter__`, `DateCurve.derivative` (`dcf/curves/curve.py`)

Simplifications:
* dates and periods of tables are elements of one additive group (year fractions, or day numbers with numbers of days);
* the first column (row labels) and the header are kept apart from the entries.
-/

namespace Dcf

section Table
variable {G V : Type} [AddCommGroup G] [LinearOrder G]

/-- One row of differences, `dcf/curves/curve.py` lines 83-85. -/
noncomputable def tableLine (step span : G) : Py (List G) :=
  pyWhile (fun line => do
      let l ← pyLast line
      .ok (decide (l + step < span)))
    (fun line => do
      let l ← pyLast line
      .ok (line ++ [l + step])) [step]

/-- The loop over the differences, `dcf/curves/curve.py` lines 82-87. -/
noncomputable def tableTicks : G → List G → List G → Py (List G)
  | _, y_grid, [] => .ok y_grid
  | step, y_grid, span :: diff => do
    let line ← tableLine step span
    tableTicks span (y_grid ++ line) diff

/-- The default columns, `dcf/curves/curve.py` lines 78-88. -/
noncomputable def tableColumns (x_grid : List G) : Py (List G) := do
  let diff := List.zipWith (fun s e => e - s) x_grid.dropLast x_grid.tail
  let step ← pyIndex diff 0
  let y_grid ← tableTicks step [0] diff
  .ok (sortedSet y_grid)

/-- The rows, `dcf/curves/curve.py` lines 93-96. -/
def tableRows (f : G → Py V) (y_grid : List G) : List G → Py (List (G × List V))
  | [] => .ok []
  | [x] => do
    let y ← pyLast y_grid
    let row ← pyMap (fun y => f (x + y)) (y_grid.filter fun z => decide (x + z < x + y + y))
    .ok [(x, row)]
  | x :: x' :: l => do
    let row ← pyMap (fun y => f (x + y)) (y_grid.filter fun y => decide (x + y < x'))
    let rows ← tableRows f y_grid (x' :: l)
    .ok ((x, row) :: rows)

/-- `rate_table(curve, x_grid, y_grid)` for given `x_grid`, `dcf/curves/curve.py` lines 78-98: the columns and the rows. -/
noncomputable def rateTable (f : G → Py V) (x_grid : List G) (y_grid : Option (List G)) : Py (List G × List (G × List V)) := do
  let y_grid ← match y_grid with
    | some l => .ok l
    | none => tableColumns x_grid
  let rows ← tableRows f y_grid x_grid
  .ok (y_grid, rows)

/-- `DateCurve.table`, `dcf/curves/curve.py` lines 171-178, 74-77: the origin is put in front if it is no date of the
curve.  The table of a curve without points and origin (`x_grid = [None]`) has no differences: `IndexError`. -/
noncomputable def DateCurve.table {P : Type} (cal : Cal G P) (c : DateCurve G) : Py (List G × List (G × List (Option ℝ))) :=
  match c.origin with
  | some o => rateTable (c.call cal) (if o ∈ c.domain then c.domain else o :: c.domain) none
  | none => .error .index

/-- `Curve.table`, `dcf/curves/curve.py` lines 171-178, 74-77: plain curves have no attribute `origin`. -/
def Curve.table (_ : Curve) : Py (List ℝ × List (ℝ × List (Option ℝ))) := .error .attribute

end Table

/-! ## Iteration -/

/-- What a method `__iter__` returns: an iterator over `l`, or the container `l` itself. -/
inductive IterResult (α : Type)
  | iterator (l : List α)
  | container (l : List α)

/-- `iter(x)`: "iter() returned non-iterator" is a `TypeError`. -/
def pyIter {α : Type} : IterResult α → Py (List α)
  | .iterator l => .ok l
  | .container _ => .error .type

/-- `list(curve)`, `for x in curve`: `Curve.__iter__` returns the list of points, `dcf/curves/curve.py` lines 270-271. -/
def Curve.list (c : Curve) : Py (List ℝ) := pyIter (.container c.domain)

/-- `list(date_curve)`. -/
def DateCurve.list {D : Type} (c : DateCurve D) : Py (List D) := pyIter (.container c.domain)

/-- `x in curve`, `dcf/curves/curve.py` lines 267-268. -/
noncomputable def Curve.contains (c : Curve) (x : ℝ) : Bool := decide (x ∈ c.domain)

/-- `x in date_curve`. -/
def DateCurve.contains {D : Type} [DecidableEq D] (c : DateCurve D) (x : D) : Bool := decide (x ∈ c.domain)

/-- `date_curve[x]`, `dcf/curves/curve.py` lines 273-276. -/
noncomputable def DateCurve.getitem {D P : Type} [DecidableEq D] (cal : Cal D P) (c : DateCurve D) (x : D) : Py (Option ℝ) :=
  if x ∈ c.domain then c.call cal x else .error .key

/-! ## Derivatives -/

/-- `scipy.misc.derivative(f, x0, dx)` with its default `n=1, order=3` (external): the central difference.  The value at
`x0` is computed as well. -/
noncomputable def scipyDerivative (f : ℝ → Py ℝ) (x0 dx : ℝ) : Py ℝ := do
  let a ← f (x0 - dx)
  let _ ← f x0
  let b ← f (x0 + dx)
  pyDiv ((b - a) / 2) dx

section Derivative
variable {D P : Type} [DecidableEq D] (cal : Cal D P)

/-- `DateCurve.derivative`, `dcf/curves/curve.py` lines 553-578.  `scipy` says whether `scipy.misc.derivative` can be
imported.  With it the function is `Curve.__call__` (no fixings, no spread), without it the curve itself, whose values
are `call`. -/
noncomputable def DateCurve.derivativeWith (scipy : Bool) (c : DateCurve D) (call : D → Py ℝ) (start : D) : Py ℝ :=
  if scipy then do
    let s ← c.time cal start
    let next ← cal.add start cal.oneDay
    let dx ← c.dayCount cal start next
    scipyDerivative (fun x => do pyNum (← c.func.call x)) s dx
  else do
    let stop ← cal.add start cal.oneDay
    let b ← call stop
    let a ← call start
    let t ← c.dayCount cal start stop
    pyDiv (b - a) t

/-- `derivative` of a plain date curve. -/
noncomputable def DateCurve.derivative (scipy : Bool) (c : DateCurve D) (start : D) : Py ℝ :=
  c.derivativeWith cal scipy (c.num cal) start

end Derivative

end Dcf
