import Verif.Model.Curve

/-!
# Model of the grid of `dcf/curves/plot.py`

Simplifications:
* dates and steps are elements of one additive group (year fractions, or day numbers with numbers of days);
* the drawing itself (`matplotlib`) is not modelled, only the grid and the values drawn.
-/

namespace Dcf

section
variable {G : Type} [AddCommGroup G] [LinearOrder G]

/-- `while grid[-1] < stop: grid.append(grid[-1] + s)`, `dcf/curves/plot.py` lines 83-85. -/
noncomputable def gridLine (stop s : G) (grid : List G) : Py (List G) :=
  pyWhile (fun grid => do
      let l ← pyLast grid
      .ok (decide (l < stop)))
    (fun grid => do
      let l ← pyLast grid
      .ok (grid ++ [l + s])) grid

/-- The loop over neighbouring dates, `dcf/curves/plot.py` lines 72-85; `stepFor` is lines 74-82. -/
noncomputable def gridLoop (stepFor : G → G → Py G) : List G → List G → Py (List G)
  | grid, start :: stop :: l => do
    let s ← stepFor start stop
    let grid ← if s = 0 then .ok (grid ++ [start]) else gridLine stop s (grid ++ [start])
    gridLoop stepFor grid (stop :: l)
  | grid, _ => .ok grid

/-- `make_grid` for the domain of a curve, `dcf/curves/plot.py` lines 69-87. -/
noncomputable def makeGrid (stepFor : G → G → Py G) (domain : List G) : Py (List G) := do
  let grid ← gridLoop stepFor [] domain
  let l ← pyLast domain
  .ok (grid ++ [l])

/-- The step for given `step`, `dcf/curves/plot.py` lines 74-75. -/
def givenStep (s : G) : G → G → Py G := fun _ _ => .ok s

/-- The step for numbers as dates, `dcf/curves/plot.py` lines 74-79; a step of zero counts as no step. -/
noncomputable def numberStep (step : Option ℝ) (nums : ℝ) (start stop : ℝ) : Py ℝ :=
  match step with
  | some s => if s ≠ 0 then .ok s else pyDiv (stop - start) nums
  | none => pyDiv (stop - start) nums

/-- The values drawn for one function of the curve, `dcf/curves/plot.py` lines 99-103; names of functions the curve does
not have are left out. -/
def drawn {V : Type} (f : Option (G → Py V)) (grid : List G) : Py (Option (List (G × V))) :=
  match f with
  | some f => do
    let vals ← pyMap f grid
    .ok (some (grid.zip vals))
  | none => .ok none

end

end Dcf
