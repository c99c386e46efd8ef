import Verif.Model.Rebuild
import Verif.Model.Curve

/-!
# Texts of payoffs, cashflow lists and curves

`dcf/cashflows/payoffs.py` lines 24-25, `dcf/cashflows/cashflow.py` lines 174-197 and `dcf/curves/curve.py` lines 319-339.

A text is modelled by the parts it shows, in their order, not by its characters: of a cashflow list the dates, the payoffs and the
origin, of a curve the points and their values.  A payoff or amount is shown as a number, or as the name of a function.

Simplifications: the class name and the further keyword arguments are left out; of the `legs` of a leg list only whether their texts
can be made.
-/

set_option linter.unusedVariables false

namespace Dcf

/-- What is shown of a payoff or amount. -/
inductive Shown
  | num (x : ℝ)
  | name

section
variable {D P : Type} [LinearOrder D]

/-- `repr(payoff)`, `dcf/cashflows/payoffs.py` lines 24-25: `str(getattr(self, 'amount', self))`.  Without the attribute `amount` the
text of the payoff itself is asked for, and `object.__str__` is `repr` again. -/
def PayOff.repr : ℕ → PayOff D P → Py Shown
  | 0, _ => .error .recursion
  | _ + 1, .num x => .ok (.num x)
  | _ + 1, .fixed a => .ok (.num a)
  | _ + 1, .rate p => .ok (.num p.amount)
  | _ + 1, .contingentRate p => .ok (.num p.amount)
  | _ + 1, .option o => .ok (.num o.amount)
  | n + 1, .strategy os => PayOff.repr n (.strategy os)
  | _ + 1, .fn _ => .ok .name

/-- The classes whose constructor has an argument `amount_list`, `dcf/cashflows/cashflow.py` lines 86, 254, 283 and
`contingent.py` lines 25, 88, 152, 212. -/
def ListClass.hasAmounts : ListClass → Bool
  | .plain | .fixed | .rate | .option | .contingentRate => true
  | .contingent | .strategy => false

/-- `kwargs['amount_list']` of a flat list if it is there, `dcf/cashflows/cashflow.py` lines 64-78. -/
def CFList.amountList (cls : ListClass) (l : CFList D P) : Py (List (PayOff D P)) :=
  if cls.hasAmounts then (fun ps => ps.map PayOff.byName) <$> l.stored else .ok []

/-- What a text shows of a cashflow list. -/
structure ListText (D : Type) where
  dates : List D
  amounts : List Shown
  origin : Option D

/-- `str(l)`, `dcf/cashflows/cashflow.py` lines 174-185: of dates and payoffs the first and the last. -/
def CFList.str (limit : ℕ) (cls : ListClass) (l : CFList D P) : Py (ListText D) := do
  let inner ← match l.domain.head?, l.domain.getLast? with
    | some s, some e => do
      let p ← pyKey (l.flows.get s)
      let a ← p.repr limit
      let q ← pyKey (l.flows.get e)
      let b ← q.repr limit
      .ok ([s, e], [a, b])
    | _, _ => .ok ([], [])
  let _ ← l.amountList cls
  .ok ⟨inner.1, inner.2, l.origin?⟩

/-- `repr(l)`, `dcf/cashflows/cashflow.py` lines 187-197: all dates and the amounts of `kwargs`; for no dates nothing is shown. -/
def CFList.repr (limit : ℕ) (cls : ListClass) (l : CFList D P) : Py (ListText D) :=
  if l.domain = [] then .ok ⟨[], [], none⟩
  else do
    let ps ← l.amountList cls
    let as ← pyMap (PayOff.repr limit) ps
    .ok ⟨l.domain, as, l.origin?⟩

mutual
/-- The text of the `kwargs` of a leg, made for the text of `legs`. -/
def CF.kwText (limit : ℕ) (cls : CFList D P → ListClass) : CF D P → Py Unit
  | .flat l => do
    let ps ← l.amountList (cls l)
    let _ ← pyMap (PayOff.repr limit) ps
    .ok ()
  | .legs ls _ _ => CF.kwTexts limit cls ls

def CF.kwTexts (limit : ℕ) (cls : CFList D P → ListClass) : List (CF D P) → Py Unit
  | [] => .ok ()
  | l :: ls => do
    CF.kwText limit cls l
    CF.kwTexts limit cls ls
end

/-- `str(c)` of any list: a leg list has stored the amount 0 at each of its dates (`dcf/cashflows/cashflow.py` line 221), and its
constructor has no argument `origin`. -/
def CF.str (limit : ℕ) (cls : CFList D P → ListClass) : CF D P → Py (ListText D)
  | .flat l => l.str limit (cls l)
  | .legs ls dom _ => do
    let inner ← match dom.head?, dom.getLast? with
      | some s, some e => do
        let a ← PayOff.repr limit (.num 0 : PayOff D P)
        let b ← PayOff.repr limit (.num 0 : PayOff D P)
        .ok ([s, e], [a, b])
      | _, _ => .ok ([], [])
    CF.kwTexts limit cls ls
    .ok ⟨inner.1, inner.2, none⟩

/-- `repr(c)` of any list: the constructor of leg lists has neither argument, so `()` is shown twice. -/
def CF.repr (limit : ℕ) (cls : CFList D P → ListClass) : CF D P → Py (ListText D)
  | .flat l => l.repr limit (cls l)
  | .legs ls dom _ =>
    if dom = [] then .ok ⟨[], [], none⟩
    else do
      CF.kwTexts limit cls ls
      .ok ⟨[], [], none⟩

end

/-- `str(curve)`, `dcf/curves/curve.py` lines 319-329: the first and the last point of the domain and their values; `kwargs` computes
all values on the domain (line 158). -/
def curveStr {D V : Type} (call : D → Py V) (domain : List D) : Py (List D × List V) := do
  let inner ← match domain.head?, domain.getLast? with
    | some s, some e => do
      let a ← call s
      let b ← call e
      .ok ([s, e], [a, b])
    | _, _ => .ok ([], [])
  let _ ← pyMap call domain
  .ok inner

/-- `repr(curve)`, `dcf/curves/curve.py` lines 331-339: the domain and the values on it; for no points nothing. -/
def curveRepr {D V : Type} (call : D → Py V) (domain : List D) : Py (List D × List V) :=
  if domain = [] then .ok ([], [])
  else do
    let data ← pyMap call domain
    .ok (domain, data)

end Dcf
