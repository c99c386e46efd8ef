import Verif.Model.Rounded
import Verif.Model.Rating

/-!
# Rating weights in floating point arithmetic

As in `Verif.Model.Rounded` with a rounding after every operation; `round(x, 7)` is correctly rounded (python), to the float nearest to the rounded decimal number.
-/

namespace Dcf.Rating

section
variable (rnd : ℝ → ℝ)

/-- `round(x, 7)` -/
noncomputable def floatRound7 (x : ℝ) : ℝ := rnd (round7 x)

/-- `list(rating)`, `dcf/ratingclass.py` lines 129-165. -/
noncomputable def floatVector (sloppy : Bool) (scale : List ℝ) (v : ℝ) : Py (List ℝ) := do
  let value := floatRound7 rnd v
  let value_list := (scaleValues scale).map (floatRound7 rnd)
  let lo ← pyMin value_list
  let hi ← pyMax value_list
  if ¬ (lo ≤ value ∧ value ≤ hi) ∧ ¬ sloppy then throw .value
  if value < lo then
    pyMap (fun p : ℝ × ℕ => if p.2 = 0 then do let q ← Rounded.div rnd value p.1; .ok (floatRound7 rnd q) else .ok 0) value_list.zipIdx
  else if hi < value then
    pyMap (fun p : ℝ × ℕ => if p.2 = value_list.length - 1
      then do let q ← Rounded.div rnd value p.1; .ok (floatRound7 rnd q) else .ok 0) value_list.zipIdx
  else
    let ceiling_index ← firstNotLess value value_list
    let floor_index : ℤ := (ceiling_index : ℤ) - 1
    let pd_cap ← pyIndex value_list ceiling_index
    let pd_floor ← pyIndexInt value_list floor_index
    let alpha ← Rounded.div rnd (rnd (value - pd_cap)) (rnd (pd_floor - pd_cap))
    .ok (value_list.zipIdx.map fun p =>
      if (p.2 : ℤ) = floor_index then max 0 (min (floatRound7 rnd alpha) 1)
      else if p.2 = ceiling_index then max 0 (min (floatRound7 rnd (rnd (1 - alpha))) 1)
      else 0)

/-- `log(x)` -/
noncomputable def floatLog (log : ℝ → ℝ) (x : ℝ) : Py ℝ := if 0 < x then .ok (log x) else .error .value

/-- The first value of a scale of `n` names, `dcf/ratingclass.py` lines 39-40. -/
noncomputable def floatFirst (exp log : ℝ → ℝ) (n : ℕ) (value : Option ℝ) : ℝ :=
  match value with
  | none => exp (rnd (-((n : ℝ) - 1) * log 10))
  | some v => v

/-- `master_scale.fromkeys(iterable, value)` for `n = len(iterable)` names as in `fromkeysValues`, `dcf/ratingclass.py` lines 38-45; `exp` and `log` are those of the
C library, numbers of names are exact as floats. -/
noncomputable def floatFromkeys (exp log : ℝ → ℝ) (n : ℕ) (value : Option ℝ) : Py (List ℝ) :=
  pyMap (fun i : ℕ => do
    let l ← floatLog log (floatFirst rnd exp log n value)
    let q ← Rounded.div rnd (rnd (l * i)) ((n : ℝ) - 1)
    .ok (exp (rnd (l - q)))) (List.range n)

end

end Dcf.Rating
