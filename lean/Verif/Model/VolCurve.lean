import Verif.Model.RateCurve
import Mathlib.MeasureTheory.Integral.IntervalIntegral.Basic

/-!
# Model of `DateCurve.integrate` (`dcf/curves/curve.py`) and of `dcf/curves/volatilitycurve.py`

Simplifications:
* `scipy.integrate.quad` is exact: it returns the integral of the function it is given;
* building the text of the log messages (`repr(self)`, lines 115-120) is not modelled;
* `get_terminal_vol` of `TerminalVolatilityCurve` is recursive through `get_instantaneous_vol`; it
  carries the remaining recursion depth `limit`.
-/

namespace Dcf

open Classical in
/-- `quad(f, s, e)`: the integral of `f`; an exception of `f` is passed on, `None` is a `TypeError`. -/
noncomputable def pyQuad (f : ℝ → Py ℝ) (s e : ℝ) : Py ℝ :=
  if h : ∃ g : ℝ → ℝ, ∀ x ∈ Set.uIcc s e, f x = .ok (g x) then .ok (∫ x in s..e, h.choose x)
  else if h : ∃ err, ∃ x ∈ Set.uIcc s e, f x = .error err then .error h.choose else .error .type

section Vol
variable {D P : Type} [LinearOrder D] (cal : Cal D P)

/-- `DateCurve.integrate` on a rate curve, `dcf/curves/curve.py` lines 517-551; `scipy` says whether
scipy can be imported.  With scipy the function integrated is `Curve.__call__` (no fixings, no spread),
without it the curve itself. -/
noncomputable def RateCurve.integrate (scipy : Bool) (c : RateCurve D P) (start stop : D) : Py ℝ := do
  let value ←
    if scipy then do
      let s ← c.base.time cal start
      let e ← c.base.time cal stop
      pyQuad (fun x => do pyNum (← c.base.func.call x)) s e
    else do
      let (current, value) ← stepLoop cal cal.oneDay stop (fun value current next => do
        let r ← c.call cal current
        let t ← c.base.dayCount cal current next
        .ok (value + r * t)) start 0
      let r ← c.call cal current
      let t ← c.base.dayCount cal current stop
      .ok (value + r * t)
  let d ← c.base.dayCount cal start stop
  pyDiv value d

/-- `InstantaneousVolatilityCurve` lines 34-69, `TerminalVolatilityCurve` lines 72-126. -/
inductive VolClass
  | instantaneous | terminal
  deriving DecidableEq, Repr

/-- The class default of the interpolation: `_interpolation` in line 25 is overwritten by every
constructor, so it is the one of `Curve`, `dcf/curves/curve.py` line 151. -/
def VolClass.dflt : VolClass → FuncSpec
  | _ => linearScheme

/-- `floor` is the class attribute `FLOOR`, line 74. -/
structure VolCurve (D P : Type) extends RateCurve D P where
  cls : VolClass
  floor : Option ℝ

noncomputable def VolCurve.call (c : VolCurve D P) (x : D) : Py ℝ := c.toRateCurve.call cal x

def VolCurve.dayCount (c : VolCurve D P) (start stop : D) : Py ℝ := c.base.dayCount cal start stop

/-- Construction from point lists. -/
noncomputable def VolCurve.new (cls : VolClass) (floor : Option ℝ) (domain : List D) (data : List ℝ)
    (interp : Option FuncSpec) (origin : Option D) (dc : DayCountArg D) (tenor : Option P) : Py (VolCurve D P) := do
  let b ← DateCurve.new cal domain data interp origin dc cls.dflt
  .ok ⟨⟨b, tenor, none⟩, cls, floor⟩

/-- `TerminalVolatilityCurve.get_terminal_vol` for `start < stop`, lines 110-126. -/
noncomputable def VolCurve.forwardVol (c : VolCurve D P) (start stop : D) : Py ℝ := do
  let o ← pyDate c.base.origin
  let t0 ← c.dayCount cal o start
  let v0 ← c.call cal start
  let var_start := t0 * v0 ^ 2
  let t1 ← c.dayCount cal o stop
  let v1 ← c.call cal stop
  let var_end := t1 * v1 ^ 2
  let t ← c.dayCount cal start stop
  let var ← pyDiv (var_end - var_start) t
  if var < 0 ∧ c.floor = none then throw .zeroDivision
  let var := match c.floor with
    | some f => max var (f ^ 2)
    | none => var
  .ok (Real.sqrt var)

/-- `TerminalVolatilityCurve.get_terminal_vol`, lines 100-126, with the call of
`get_instantaneous_vol`, lines 97-98, in it. -/
noncomputable def VolCurve.terminalVolT (c : VolCurve D P) : ℕ → D → Option D → Py ℝ
  | 0, _, _ => .error .recursion
  | limit + 1, start, stop =>
    match stop with
    | none => c.call cal start
    | some stop =>
      if some start = c.base.origin then c.call cal stop
      else if start = stop then do
        let e ← cal.add start cal.oneDay
        c.terminalVolT limit start (some e)
      else if start > stop then .ok 0
      else c.forwardVol cal start stop

/-- `InstantaneousVolatilityCurve.get_terminal_vol`, lines 62-69. -/
noncomputable def VolCurve.terminalVolI (scipy : Bool) (c : VolCurve D P) (start : D) (stop : Option D) : Py ℝ :=
  let go (start stop : D) : Py ℝ :=
    if start = stop then c.call cal start
    else if start > stop then .ok 0
    else c.toRateCurve.integrate cal scipy start stop
  match stop with
  | some stop => go start stop
  | none => do
    let o ← pyDate c.base.origin
    go o start

/-- `get_terminal_vol` -/
noncomputable def VolCurve.terminalVol (scipy : Bool) (limit : ℕ) (c : VolCurve D P) (start : D) (stop : Option D) :
    Py ℝ :=
  match c.cls with
  | .instantaneous => c.terminalVolI cal scipy start stop
  | .terminal => c.terminalVolT cal limit start stop

/-- `get_instantaneous_vol`, lines 59-60 and 97-98. -/
noncomputable def VolCurve.instantaneousVol (limit : ℕ) (c : VolCurve D P) (start : D) : Py ℝ :=
  match c.cls with
  | .instantaneous => c.call cal start
  | .terminal => do
    let e ← cal.add start cal.oneDay
    c.terminalVolT cal limit start (some e)

/-- `_get_storage_value`, lines 36-38 and 76-78. -/
noncomputable def VolClass.storage (cls : VolClass) (scipy : Bool) (limit : ℕ) (c : VolCurve D P) (x : D) : Py ℝ :=
  match cls with
  | .instantaneous => c.instantaneousVol cal limit x
  | .terminal => c.terminalVol cal scipy limit x none

/-- Casting a curve as a whole: `cls(curve)`, lines 40-57 and 80-95 (and `dcf/curves/curve.py` lines
693-746). -/
noncomputable def VolCurve.cast (cls : VolClass) (floor : Option ℝ) (scipy : Bool) (limit : ℕ) (c : VolCurve D P)
    (interp : Option FuncSpec) (origin : Option D) (dc : DayCountArg D) (tenor : Option P) : Py (VolCurve D P) := do
  let origin := origin.or c.base.origin
  let o ← pyDate origin
  let domain ← match cls with
    | .instantaneous => do
      let l ← pyMap (fun d => do
        let a ← cal.sub d cal.oneDay
        let b ← cal.add d cal.oneDay
        .ok [a, d, b]) (c.base.domain ++ [o])
      .ok (sortedSet l.flatten)
    | .terminal => do
      let a ← cal.add o cal.oneDay
      let m ← maxDate c.base.domain
      let b ← cal.add m cal.tenYears
      .ok (sortedSet (c.base.domain ++ [a, b]))
  let data ← pyMap (cls.storage cal scipy limit c) domain
  VolCurve.new cal cls floor domain data interp (cal.or origin c.base.origin?) (dc.or c.base.dc.kwarg) tenor

end Vol

end Dcf
