import Verif.Model.Curve

/-!
# Lists and tuples as domains (`dcf/curves/curve.py`)

`self.domain + other.domain` (lines 294, 299, 304, 312) asks for two lists or two tuples; one of each is a `TypeError`.
Here curves carry the container type of their domain.
-/

namespace Dcf

inductive Box
  | list | tuple
  deriving DecidableEq, Repr

/-- An object with the container type of its domain. -/
structure Boxed (α : Type) where
  obj : α
  box : Box

/-- `a + b` on containers. -/
def Box.plus (a b : Box) : Py Box := if a = b then .ok a else .error .type

/-- `Curve.__init__` with point lists, lines 240-265: points are turned into lists, an empty domain stays what it is. -/
noncomputable def Curve.newBoxed (box : Box) (domain data : List ℝ) (interp : Option FuncSpec) : Py (Boxed Curve) := do
  let c ← Curve.new domain data interp
  .ok ⟨c, if domain = [] then box else .list⟩

/-- `Curve.__add__`, `__sub__`, `__mul__`, lines 293-306. -/
noncomputable def Curve.binopBoxed (op : ℝ → ℝ → ℝ) (f g : Boxed Curve) : Py (Boxed Curve) := do
  let _ ← f.box.plus g.box
  let c ← Curve.binop op f.obj g.obj
  .ok ⟨c, .list⟩

section
variable {D P : Type} [LinearOrder D] (cal : Cal D P)

/-- `DateCurve.__init__` with point lists, lines 432-436 and 452-455: the domain is kept as given. -/
noncomputable def DateCurve.newBoxed (box : Box) (domain : List D) (data : List ℝ) (interp : Option FuncSpec)
    (origin : Option D) (dc : DayCountArg D) (dflt : FuncSpec) : Py (Boxed (DateCurve D)) := do
  let c ← DateCurve.new cal domain data interp origin dc dflt
  .ok ⟨c, box⟩

/-- `Curve.__setitem__` on a date curve, lines 278-286: `list(self.domain)`. -/
noncomputable def DateCurve.setitemBoxed (c : Boxed (DateCurve D)) (key : D) (value : ℝ) : Py (Boxed (DateCurve D)) := do
  let c ← c.obj.setitem cal key value
  .ok ⟨c, .list⟩

variable [AddCommGroup D]

/-- `DateCurve.shifted`, lines 341-353: moved dates are a list. -/
noncomputable def DateCurve.shiftedBoxed (c : Boxed (DateCurve D)) (delta : D) : Py (Boxed (DateCurve D)) := do
  let d ← c.obj.shifted cal delta
  .ok ⟨d, if delta ≠ 0 then .list else c.box⟩

/-- `DateCurve.__add__`, `__sub__`, `__mul__`, lines 464-483 and 293-306. -/
noncomputable def DateCurve.binopBoxed (op : ℝ → ℝ → ℝ) (f g : Boxed (DateCurve D)) : Py (Boxed (DateCurve D)) := do
  let delta ← originDiff f.obj g.obj
  let g' ← DateCurve.shiftedBoxed cal g delta
  let _ ← f.box.plus g'.box
  let c ← DateCurve.binop cal op f.obj g.obj
  .ok ⟨c, .list⟩

end

end Dcf
