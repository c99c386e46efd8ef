import Verif.Py

/-!
# Model of `dcf/interpolation.py`

`float(x)` is the identity on model numbers.  The call functions of the algebraic interpolations
are defined over any linearly ordered field, the log variants over `ℝ`.
-/

set_option linter.constructorNameAsVariable false

namespace Dcf

section Base
variable {K : Type} [Field K] [LinearOrder K]

/-- `self.x_list`, `self.y_list` of a `base_interpolation`. -/
structure Pts (K : Type) where
  xs : List K
  ys : List K
  deriving DecidableEq, Repr

/-- One step of the removal loop, `dcf/interpolation.py` lines 45-49.
Simplification: `y_list.pop(i)` cannot fail since both lists always have equal length. -/
def Pts.removeOne (p : Pts K) (x : K) : Pts K :=
  if x ∈ p.xs then ⟨p.xs.eraseIdx (p.xs.idxOf x), p.ys.eraseIdx (p.xs.idxOf x)⟩ else p

/-- `base_interpolation._update`, `dcf/interpolation.py` lines 39-58. -/
def Pts.update (p : Pts K) (x_list y_list : List K) : Pts K :=
  if y_list = [] then x_list.foldl Pts.removeOne p
  else
    let data := (p.xs.zip p.ys).filter (fun q => q.1 ∉ x_list) ++ x_list.zip y_list
    let data := sortPairs data
    ⟨data.map Prod.fst, data.map Prod.snd⟩

/-- `base_interpolation.__init__`, `dcf/interpolation.py` lines 22-31. -/
def Pts.new (x_list y_list : List K) : Pts K := Pts.update ⟨[], []⟩ x_list y_list

/-- `default_value_interpolation.__call__`, `dcf/interpolation.py` lines 124-127. -/
def defaultCall (p : Pts K) (default : Option K) (x : K) : Py (Option K) :=
  if x ∈ p.xs then some <$> pyIndex p.ys (p.xs.idxOf x) else .ok default

/-- `left.__call__`, `dcf/interpolation.py` lines 210-218. -/
def leftCall (p : Pts K) (x : K) : Py K := do
  if p.ys.length = 0 then throw .overflow
  let i ← if x ∈ p.xs then Except.ok (p.xs.idxOf x)
    else (fun i => i - 1) <$> bisectLeft p.xs x 1 p.xs.length
  pyIndex p.ys i

/-- `right.__call__`, `dcf/interpolation.py` lines 261-269. -/
def rightCall (p : Pts K) (x : K) : Py K := do
  if p.ys.length = 0 then throw .overflow
  let i ← if x ∈ p.xs then Except.ok (p.xs.idxOf x)
    else bisectRight p.xs x 0 (p.xs.length - 1)
  pyIndex p.ys i

/-- `nearest.__call__`, `dcf/interpolation.py` lines 303-315. -/
def nearestCall (p : Pts K) (x : K) : Py K := do
  if p.ys.length = 0 then throw .overflow
  if p.ys.length = 1 then pyIndex p.ys 0
  else
    let i ← if x ∈ p.xs then Except.ok (p.xs.idxOf x)
      else do
        let i ← bisectLeft p.xs x 1 (p.xs.length - 1)
        let xl ← pyIndex p.xs (i - 1)
        let xr ← pyIndex p.xs i
        let q ← pyDiv (xl - x) (xl - xr)
        if q ≤ 1 / 2 then Except.ok (i - 1) else Except.ok i
    pyIndex p.ys i

/-- `linear.__call__`, `dcf/interpolation.py` lines 347-355. -/
def linearCall (p : Pts K) (x : K) : Py K := do
  if p.ys.length = 0 then throw .overflow
  if p.ys.length = 1 then pyIndex p.ys 0
  else
    let i ← bisectLeft p.xs x 1 (p.xs.length - 1)
    let yl ← pyIndex p.ys (i - 1)
    let yr ← pyIndex p.ys i
    let xl ← pyIndex p.xs (i - 1)
    let xr ← pyIndex p.xs i
    let q ← pyDiv ((yr - yl) * (xl - x)) (xl - xr)
    .ok (yl + q)

/-- `flat`, `dcf/interpolation.py` lines 72-94: the single point `(0, y)`, call returns it. -/
def flatCall (y : K) (_x : K) : Py K := pyIndex (Pts.new [0] [y]).ys 0

end Base

/-- Interpolation classes of `dcf/interpolation.py`: `no` 130-151, `zero` 154-179, `left` 182-218,
`constant` 221-230, `right` 233-269, `nearest` 272-315, `linear` 318-355, `loglinear` 358-400,
`loglinearrate` 403-454, `logconstantrate` 457-502. -/
inductive Kind
  | no | zero | left | constant | right | nearest | linear | loglinear | loglinearrate
  | logconstantrate
  deriving DecidableEq, Repr

/-- An instance of one of the interpolation classes. -/
structure Interp where
  kind : Kind
  pts : Pts ℝ
  /-- `_y_at_zero` of the rate variants -/
  yAtZero : Option ℝ

/-- `[f(x, y) for x, y in zip(x_list, y_list) if x]`, `dcf/interpolation.py` lines 445, 493. -/
noncomputable def rateList (x_list y_list : List ℝ) (f : ℝ → ℝ → Py ℝ) : Py (List ℝ) :=
  pyMap (fun p : ℝ × ℝ => f p.1 p.2) ((x_list.zip y_list).filter fun p => p.1 ≠ 0)

/-- `y_list[x_list.index(z[0])] if z else None`, `dcf/interpolation.py` lines 443-444, 491-492. -/
noncomputable def yAtZeroOf (x_list y_list : List ℝ) : Py (Option ℝ) :=
  if (0 : ℝ) ∈ x_list then some <$> pyIndex y_list (x_list.idxOf 0) else .ok none

/-- The constructors: `loglinear` lines 391-396, `loglinearrate` lines 438-447,
`logconstantrate` lines 488-495, all others `base_interpolation.__init__` lines 22-31. -/
noncomputable def Interp.new (kind : Kind) (x_list y_list : List ℝ) : Py Interp :=
  match kind with
  | .loglinear => do
    if ¬ ∀ y ∈ y_list, 0 < y then throw .value
    let log_y_list ← pyMap pyLog y_list
    .ok ⟨kind, Pts.new x_list log_y_list, none⟩
  | .loglinearrate => do
    if ¬ ∀ y ∈ y_list, 0 < y then throw .value
    let z ← yAtZeroOf x_list y_list
    let log_y_list ← rateList x_list y_list fun x y => do pyDiv (← pyLog y) x
    .ok ⟨kind, Pts.new (x_list.filter (· ≠ 0)) log_y_list, z⟩
  | .logconstantrate => do
    if ¬ ∀ y ∈ y_list, 0 < y then throw .value
    let z ← yAtZeroOf x_list y_list
    let log_y_list ← rateList x_list y_list fun x y => do pyDiv (-(← pyLog y)) x
    .ok ⟨kind, Pts.new (x_list.filter (· ≠ 0)) log_y_list, z⟩
  | _ => .ok ⟨kind, Pts.new x_list y_list, none⟩

/-- `__call__` of the interpolation classes (lines as cited at the algebraic call functions;
`loglinear` 398-400, `loglinearrate` 450-454, `logconstantrate` 498-502). `none` is python's
`None`. -/
noncomputable def Interp.call (f : Interp) (x : ℝ) : Py (Option ℝ) :=
  match f.kind with
  | .no => defaultCall f.pts none x
  | .zero => defaultCall f.pts (some 0) x
  | .left | .constant => some <$> leftCall f.pts x
  | .right => some <$> rightCall f.pts x
  | .nearest => some <$> nearestCall f.pts x
  | .linear => some <$> linearCall f.pts x
  | .loglinear => (fun l => some (Real.exp l)) <$> linearCall f.pts x
  | .loglinearrate =>
    if x = 0 then .ok f.yAtZero else (fun l => some (Real.exp (l * x))) <$> linearCall f.pts x
  | .logconstantrate =>
    if x = 0 then .ok f.yAtZero else (fun l => some (Real.exp (-l * x))) <$> leftCall f.pts x

/-- An interpolation argument as used by curves: a single class or an `interpolation_scheme`
(left, mid, right), given as the class itself or by a string, the name of a variable of `dcf.interpolation`. -/
inductive FuncSpec
  | base (k : Kind)
  | scheme (left mid right : Kind) (str : Bool)
  deriving DecidableEq, Repr

/-- The predefined schemes, `dcf/interpolation.py` lines 576-590. -/
def linearScheme : FuncSpec := .scheme .constant .linear .constant false
def logLinearScheme : FuncSpec := .scheme .constant .loglinear .constant false
def logLinearRateScheme : FuncSpec := .scheme .logconstantrate .loglinearrate .logconstantrate false
def zeroLinearScheme : FuncSpec := .scheme .zero .linear .constant false

/-- The schemes whose class name, `left_mid_right` by `_dyn_scheme` (`dcf/interpolation.py` lines 570-573), is the name of a
variable of the module (lines 576-590).  The class `constant_loglinear_constant` is not: its variable is called
`logconstant_loglinear_logconstant`. -/
def schemeNames : List (Kind × Kind × Kind) :=
  [(.constant, .linear, .constant), (.logconstantrate, .loglinearrate, .logconstantrate), (.zero, .linear, .constant)]

/-- The interpolation of a curve handed on by `kwargs`: classes are replaced by their names
(`dcf/curves/curve.py` lines 153-164), which are looked up in `dcf.interpolation` (line 261).  A name that is not found is
called as if it was the class: `TypeError`.  All single classes are found, strings are handed on as they are. -/
def FuncSpec.again : FuncSpec → Py FuncSpec
  | .scheme l m r str => if str ∨ (l, m, r) ∈ schemeNames then .ok (.scheme l m r str) else .error .type
  | .base k => .ok (.base k)

/-- `interpolation or data.kwargs.interpolation`, and looking it up. -/
def keepInterp (interp own : Option FuncSpec) : Py (Option FuncSpec) :=
  match interp, own with
  | some i, _ => .ok (some i)
  | none, none => .ok none
  | none, some i => some <$> i.again

/-- Selection of the three interpolations in `interpolation_scheme.__init__`,
`dcf/interpolation.py` lines 528-545: class default `dflt`, optional argument given as a tuple (a
single class behaves as a tuple of length one). -/
def schemeSelect (dflt : Kind × Kind × Kind) (interpolation : Option (List Kind)) :
    Py (Kind × Kind × Kind) :=
  match interpolation with
  | none | some [] => .ok dflt
  | some [l, m, r] => .ok (l, m, r)
  | some [m, r] => .ok (r, m, r)
  | some [m] => .ok (dflt.1, m, dflt.2.2)
  | some _ => .error .value

/-- A constructed interpolation function. -/
inductive Func
  | base (f : Interp)
  | scheme (l m r : Interp)
  /-- a function returned by an interpolation of the user, see `Model/OwnInterp.lean` -/
  | own (g : ℝ → Py (Option ℝ))

/-- Construction; for schemes `dcf/interpolation.py` lines 547-555. -/
noncomputable def Func.new (s : FuncSpec) (domain data : List ℝ) : Py Func :=
  match s with
  | .base k => Func.base <$> Interp.new k domain data
  | .scheme l m r _ => do
    if ¬ domain.length = data.length then throw .assertion
    if ¬ domain.Nodup then throw .assertion
    let mid ← Interp.new m domain data
    let right ← Interp.new r domain data
    let left ← Interp.new l domain data
    .ok (.scheme left mid right)

/-- `l[-1]`. -/
def pyLast {α} (l : List α) : Py α :=
  match l.getLast? with
  | some a => .ok a
  | none => .error .index

/-- Call; for schemes `dcf/interpolation.py` lines 557-567. -/
noncomputable def Func.call (f : Func) (x : ℝ) : Py (Option ℝ) :=
  match f with
  | .base f => f.call x
  | .scheme left mid right => do
    let x0 ← pyIndex left.pts.xs 0
    if x < x0 then left.call x
    else
      let xn ← pyLast right.pts.xs
      if xn < x then right.call x else mid.call x
  | .own g => g x

/-- `cls.from_dict(xy_dict)`, `dcf/interpolation.py` lines 60-69, for a class `kind` with data given
by the points with increasing keys.  The values are passed as a generator.  A generator is true in a
boolean context, so plain classes take the update branch; the log classes exhaust it in the
positivity check (`all(...)` stops after the first non-positive value and raises), after which it
yields nothing, and `y_list[...]` on it is a `TypeError`. -/
noncomputable def Interp.fromDict (kind : Kind) (pts : List (ℝ × ℝ)) : Py Interp :=
  let sorted := sortPairs pts
  let xs := sorted.map Prod.fst
  let ys := sorted.map Prod.snd
  match kind with
  | .loglinear =>
    if ¬ ∀ y ∈ ys, 0 < y then .error .value else .ok ⟨kind, Pts.new xs [], none⟩
  | .loglinearrate | .logconstantrate =>
    if ¬ ∀ y ∈ ys, 0 < y then .error .value
    else if (0 : ℝ) ∈ xs then .error .type
    else .ok ⟨kind, Pts.new (xs.filter (· ≠ 0)) [], none⟩
  | _ => .ok ⟨kind, ⟨xs, ys⟩, none⟩

end Dcf
