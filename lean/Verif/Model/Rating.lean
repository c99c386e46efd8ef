import Verif.Py
import Mathlib.Algebra.Order.Floor.Ring
import Mathlib.Data.List.Range
import Mathlib.Data.Int.Log

/-! # Model of `dcf/ratingclass.py`

Class names are an arbitrary type; of the text output only the names shown are modelled. -/

namespace Dcf.Rating

/-- `master_scale.fromkeys(iterable, value)` for `n = len(iterable)` names: the list of values
attached to the names in the given order.  `dcf/ratingclass.py` lines 38-45.  For `n = 0` the
generator is empty; for `n = 1` the division by `n - 1` raises. -/
noncomputable def fromkeysValues (n : ℕ) (value : Option ℝ) : Py (List ℝ) := do
  let x ← match value with
    | none => Except.ok (Real.exp (-((n : ℝ) - 1) * Real.log 10))
    | some v => .ok v
  pyMap (fun i : ℕ => do
    let l ← pyLog x
    let q ← pyDiv (l * i) ((n : ℝ) - 1)
    .ok (Real.exp (l - q))) (List.range n)

section
variable {K : Type} [Field K] [LinearOrder K] [FloorRing K]

/-- Nearest integer, ties to even (python's rule for `round`). -/
def roundHalfEven (x : K) : ℤ :=
  if Int.fract x < 1 / 2 then ⌊x⌋
  else if 1 / 2 < Int.fract x then ⌊x⌋ + 1
  else if ⌊x⌋ % 2 = 0 then ⌊x⌋ else ⌊x⌋ + 1

/-- `round(x, 7)` on exact numbers. -/
def round7 (x : K) : K := (roundHalfEven (x * 10000000) : K) / 10000000

/-- `[x < value for x in value_list].index(False)`: `ValueError` if there is no `False`. -/
def firstNotLess (value : K) : List K → Py ℕ
  | [] => .error .value
  | x :: l => if x < value then (· + 1) <$> firstNotLess value l else .ok 0

/-- `value_list[i]` for a possibly negative python index. -/
def pyIndexInt {α} (l : List α) (i : ℤ) : Py α :=
  if 0 ≤ i then pyIndex l i.toNat
  else if 0 ≤ (l.length : ℤ) + i then pyIndex l ((l.length : ℤ) + i).toNat
  else .error .index

/-- `min(l)`: `ValueError` on the empty list. -/
def pyMin : List K → Py K
  | [] => .error .value
  | x :: l => .ok (l.foldl min x)

/-- `max(l)`. -/
def pyMax : List K → Py K
  | [] => .error .value
  | x :: l => .ok (l.foldl max x)

/-- `master_scale.values()`: the values in increasing order, `dcf/ratingclass.py` lines 53-59. -/
def scaleValues (scale : List K) : List K := scale.insertionSort (· ≤ ·)

/-- `list(rating)` for a rating of value `v` with a non-empty master scale with values `scale`
(insertion order); `dcf/ratingclass.py` lines 129-165.  `sloppy` is the class flag `SLOPPY`.
The parameters `rnd` is `round(·, 7)`. -/
def vectorWith (rnd : K → K) (sloppy : Bool) (scale : List K) (v : K) : Py (List K) := do
  let value := rnd v
  let value_list := (scaleValues scale).map rnd
  let lo ← pyMin value_list
  let hi ← pyMax value_list
  if ¬ (lo ≤ value ∧ value ≤ hi) ∧ ¬ sloppy then throw .value
  if value < lo then
    pyMap (fun p : K × ℕ => if p.2 = 0 then do let q ← pyDiv value p.1; .ok (rnd q) else .ok 0)
      value_list.zipIdx
  else if hi < value then
    pyMap (fun p : K × ℕ => if p.2 = value_list.length - 1
      then do let q ← pyDiv value p.1; .ok (rnd q) else .ok 0) value_list.zipIdx
  else
    let ceiling_index ← firstNotLess value value_list
    let floor_index : ℤ := (ceiling_index : ℤ) - 1
    let pd_cap ← pyIndex value_list ceiling_index
    let pd_floor ← pyIndexInt value_list floor_index
    let alpha ← pyDiv (value - pd_cap) (pd_floor - pd_cap)
    .ok (value_list.zipIdx.map fun p =>
      if (p.2 : ℤ) = floor_index then max 0 (min (rnd alpha) 1)
      else if p.2 = ceiling_index then max 0 (min (rnd (1 - alpha)) 1)
      else 0)

/-- `list(rating)`, `dcf/ratingclass.py` lines 129-165. -/
def vector (sloppy : Bool) (scale : List K) (v : K) : Py (List K) :=
  vectorWith round7 sloppy scale v

end

/-! ### Rating objects

Class names are keys of an arbitrary type, numbers are floats or whole numbers (`int`), which the code tells apart. -/

/-- A python number: `float` or `int`. -/
inductive ScaleNum
  | float (x : ℝ)
  | int (n : ℤ)

/-- `float(x)`. -/
noncomputable def ScaleNum.val : ScaleNum → ℝ
  | .float x => x
  | .int n => n

/-- The argument `value` of `RatingClass`: a class name or a number. -/
inductive RatingArg (κ : Type)
  | key (k : κ)
  | num (x : ScaleNum)

/-- The argument `masterscale` of `RatingClass`: nothing, a dictionary (`master_scale` or `dict`), or names. -/
inductive ScaleArg (κ : Type)
  | none
  | scale (d : Dict κ ScaleNum)
  | names (l : List κ)

/-- `RatingClass` objects; a master scale that is given but empty is kept. -/
structure RatingClass (κ : Type) where
  value : ℝ
  masterscale : Option (Dict κ ScaleNum)

/-- What `str(rating)` shows: a class name, a combination of names, or the plain number. -/
inductive RatingName (κ : Type)
  | base (k : κ)
  | combination (l : List (ℝ × κ))
  | plain (v : ℝ)

section
variable {κ : Type} [DecidableEq κ]

/-- `master_scale.items()`: sorted by value (python's sort is stable), `dcf/ratingclass.py` lines 56-59. -/
noncomputable def scaleItems (d : Dict κ ScaleNum) : List (κ × ℝ) :=
  (d.map fun p => (p.1, p.2.val)).insertionSort fun p q => p.2 ≤ q.2

/-- `master_scale.keys()`, `dcf/ratingclass.py` lines 50-51. -/
noncomputable def scaleKeys (d : Dict κ ScaleNum) : List κ := (scaleItems d).map Prod.fst

/-- `RatingClass(value, masterscale)`, `dcf/ratingclass.py` lines 86-103.  Names are no numbers, so a number is never
found in the scale. -/
noncomputable def RatingClass.new (a : RatingArg κ) (s : ScaleArg κ) : Py (RatingClass κ) := do
  let scale ← match s with
    | .none => .ok Option.none
    | .scale d => .ok (some d)
    | .names l => do
      let v ← fromkeysValues l.length Option.none
      .ok (some (Dict.ofPairs (l.zip (v.map .float))))
  let value := match scale, a with
    | some (p :: d), .key k => match Dict.get (p :: d) k with
      | some x => RatingArg.num x
      | Option.none => a
    | _, _ => a
  match value with
  | .num (.float x) => .ok ⟨x, scale⟩
  | _ => .error .type

/-- `list(rating)` with a master scale, `dcf/ratingclass.py` lines 83-84, 129-165; without (or with an empty) one nothing. -/
noncomputable def RatingClass.vector (sloppy : Bool) (r : RatingClass κ) : Py (List ℝ) :=
  match r.masterscale with
  | some (p :: d) => Rating.vector sloppy ((p :: d).map fun q => q.2.val) r.value
  | _ => .ok []

/-- `str(rating)`, `dcf/ratingclass.py` lines 112-124.  `for k in self.masterscale` walks in insertion order, `keys()` in
order of the values. -/
noncomputable def RatingClass.str (sloppy : Bool) (r : RatingClass κ) : Py (RatingName κ) :=
  match r.masterscale with
  | some (p :: d) => match (p :: d).find? fun q => decide (round7 r.value = round7 q.2.val) with
    | some q => .ok (.base q.1)
    | none => do
      let w ← r.vector sloppy
      .ok (.combination ((((scaleKeys (p :: d)).zip w).filter fun q => decide (q.2 ≠ 0)).map fun q => (q.2, q.1)))
  | _ => .ok (.plain r.value)

/-- `master_scale.get(k, d)`, `dcf/ratingclass.py` lines 61-62; the default `d` is `None`. -/
noncomputable def scaleGet (d : Dict κ ScaleNum) (k : κ) : Py (Option (RatingClass κ)) :=
  match d.get k with
  | some x => some <$> RatingClass.new (.num x) (.scale d)
  | none => .ok none

/-- `master_scale.rating_classes()`, `dcf/ratingclass.py` lines 47-48. -/
noncomputable def ratingClasses (d : Dict κ ScaleNum) : Py (List (RatingClass κ)) :=
  pyMap (fun p => RatingClass.new (.num (.float p.2)) (.scale d)) (scaleItems d)

end

end Dcf.Rating
