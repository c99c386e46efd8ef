import Verif.Py
import Mathlib.Data.List.Range
import Mathlib.Algebra.Order.Floor.Ring

/-! # Model of `dcf/plans.py`

The number of payments is an integer, or any number in the versions named `...Num` below (a float is truncated in some
places only).  A negative repetition count gives the empty list as in python. -/

namespace Dcf.Plans

variable {K : Type} [Field K] [LinearOrder K]

/-- `same`, `dcf/plans.py` lines 17-27. -/
def same (num : ℤ) (amount : K) : Py (List K) := .ok (List.replicate num.toNat amount)

/-- `bullet`, `dcf/plans.py` lines 30-40. -/
def bullet (num : ℤ) (amount : K) : Py (List K) :=
  .ok (List.replicate (num - 1).toNat 0 ++ [amount])

/-- `amortize`, `dcf/plans.py` lines 43-53. -/
def amortize (num : ℤ) (amount : K) : Py (List K) := do
  let x ← pyDiv amount (num : K)
  .ok (List.replicate num.toNat x)

/-- `q ** n` for an integer `n`: a zero base with negative exponent is a `ZeroDivisionError`. -/
def pyIntPow (q : K) (n : ℤ) : Py K :=
  if q = 0 ∧ n < 0 then .error .zeroDivision else .ok (q ^ n)

/-- `annuity`, `dcf/plans.py` lines 56-69. -/
def annuity (num : ℤ) (amount fixed_rate : K) : Py (List K) := do
  let q := 1 + fixed_rate
  let qn ← pyIntPow q num
  let a ← pyDiv (amount * (q - 1)) (qn - 1)
  .ok ((List.range num.toNat).map fun i => a * q ^ i)

/-- `consumer`, `dcf/plans.py` lines 72-84. -/
def consumer (num : ℤ) (amount fixed_rate : K) : Py (List K) := do
  let total := amount * (1 + (num : K) * fixed_rate)
  let x ← pyDiv total (num : K)
  .ok (List.replicate num.toNat x)

/-- The loop of `outstanding`, `dcf/plans.py` lines 101-103. -/
def outstandingLoop (sgn : K) : K → List K → List K
  | _, [] => []
  | amount, p :: l => (amount + sgn * p) :: outstandingLoop sgn (amount + sgn * p) l

/-- `outstanding`, `dcf/plans.py` lines 87-104. -/
def outstanding (plan : List K) (amount : K) (sign : Bool) : List K :=
  amount :: outstandingLoop (if sign then 1 else -1) amount plan.dropLast

/-! ### Any number as number of payments -/

section
variable [FloorRing K]

/-- `int(x)`: truncation towards zero. -/
def pyInt (x : K) : ℤ := if 0 ≤ x then ⌊x⌋ else ⌈x⌉

/-- `same(num, amount)`, `dcf/plans.py` lines 17-27. -/
def sameNum (num amount : K) : Py (List K) := same (pyInt num) amount

/-- `bullet(num, amount)`, `dcf/plans.py` lines 30-40. -/
def bulletNum (num amount : K) : Py (List K) := bullet (pyInt num) amount

/-- `amortize(num, amount)`, `dcf/plans.py` lines 43-53: the division is by `num` itself. -/
def amortizeNum (num amount : K) : Py (List K) := do
  let x ← pyDiv amount num
  .ok (List.replicate (pyInt num).toNat x)

/-- `annuity(num, amount, fixed_rate)`, `dcf/plans.py` lines 56-69. -/
def annuityNum (num amount fixed_rate : K) : Py (List K) := annuity (pyInt num) amount fixed_rate

/-- `consumer(num, amount, fixed_rate)`, `dcf/plans.py` lines 72-84: `num` itself is used in the formula. -/
def consumerNum (num amount fixed_rate : K) : Py (List K) := do
  let total := amount * (1 + num * fixed_rate)
  let x ← pyDiv total num
  .ok (List.replicate (pyInt num).toNat x)

end

end Dcf.Plans
