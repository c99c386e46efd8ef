import Verif.Model.Rounded

/-!
# Log interpolation in floating point arithmetic

As in `Verif.Model.Rounded` with a rounding after every operation; `exp` and `log` are those of the C library.  Construction and
call in one function.
-/

namespace Dcf.Rounded

section
variable (rnd exp log : ℝ → ℝ)

/-- `loglinear(x_list, y_list)(x)`, `dcf/interpolation.py` lines 391-400. -/
noncomputable def logLinear (x_list y_list : List ℝ) (x : ℝ) : Py ℝ := do
  if ¬ ∀ y ∈ y_list, 0 < y then throw .value
  let log_y ← linearCall rnd (Pts.new x_list (y_list.map log)) x
  .ok (exp log_y)

/-- `loglinearrate(x_list, y_list)(x)`, `dcf/interpolation.py` lines 438-454; `none` is `None`. -/
noncomputable def logLinearRate (x_list y_list : List ℝ) (x : ℝ) : Py (Option ℝ) := do
  if ¬ ∀ y ∈ y_list, 0 < y then throw .value
  let z ← yAtZeroOf x_list y_list
  let log_y_list ← rateList x_list y_list fun x y => div rnd (log y) x
  if x = 0 then .ok z
  else do
    let log_y ← linearCall rnd (Pts.new (x_list.filter (· ≠ 0)) log_y_list) x
    .ok (some (exp (rnd (log_y * x))))

/-- `logconstantrate(x_list, y_list)(x)`, `dcf/interpolation.py` lines 490-502. -/
noncomputable def logConstantRate (x_list y_list : List ℝ) (x : ℝ) : Py (Option ℝ) := do
  if ¬ ∀ y ∈ y_list, 0 < y then throw .value
  let z ← yAtZeroOf x_list y_list
  let log_y_list ← rateList x_list y_list fun x y => div rnd (-log y) x
  if x = 0 then .ok z
  else do
    let log_y ← leftCall (Pts.new (x_list.filter (· ≠ 0)) log_y_list) x
    .ok (some (exp (rnd (-log_y * x))))

end

end Dcf.Rounded
