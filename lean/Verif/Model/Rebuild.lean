import Verif.Model.CashflowTable

/-!
# Cashflow lists built from the `kwargs` of a list: `dcf/cashflows/cashflow.py` lines 57-78

`kwargs` reads for each constructor argument `name` the attribute `_name`; `amount_list` are the stored payoffs, and
`payment_date_list` the dates.  Of all attributes only `_origin` and `_legs` exist.  Then the arguments not found have their
defaults.

Simplifications: functions have a name (so they are replaced by it); a payoff given as amount of a payoff is no number, and reading
the flow is modelled as the `TypeError` that every use as a number gives.
-/

set_option linter.unusedVariables false

namespace Dcf

section
variable {D P : Type} [LinearOrder D] (cal : Cal D P)

/-- `getattr(a, '__name__', a)`, line 73: a text can not be called. -/
def PayOff.byName : PayOff D P → PayOff D P
  | .fn _ => .fn fun _ => .error .type
  | p => p

/-- A payoff whose amount is a payoff. -/
def PayOff.noNumber : PayOff D P := .fn fun _ => .error .type

/-- `tuple(self._flows[d] for d in self.domain)`, line 67. -/
def CFList.stored (l : CFList D P) : Py (List (PayOff D P)) := pyMap (fun d => pyKey (l.flows.get d)) l.domain

/-- `type(l)(**l.kwargs)` for flat lists of each class. -/
noncomputable def CFList.rebuild (back : D → D → Py D) (cls : ListClass) (l : CFList D P) : Py (CFList D P) := do
  match cls with
  | .plain => do
    let ps ← l.stored
    CFList.ofPayoffs l.domain (ps.map PayOff.byName) l.origin? (.fwd .none) false
  | .fixed => do
    let ps ← l.stored
    CFList.ofPayoffs l.domain (ps.map fun _ => PayOff.noNumber) l.origin? (.fwd .none) false
  | .rate => do
    let ps ← l.stored
    let starts ← accrualStarts back l.origin? l.domain
    let payoffs ← ratePays cal starts l.domain (ps.map fun _ => 0) none fun _ _ _ => PayOff.noNumber
    CFList.ofPayoffs l.domain payoffs l.origin? (.fwd .none) false
  | .contingent => CFList.newContingent l.domain none l.origin? (.fwd .none)
  | .option => do
    let ps ← l.stored
    CFList.newOption cal l.domain (.list (ps.map fun _ => 0)) (.list []) (.scalar false) none none l.origin? (.fwd .none)
  | .strategy => CFList.newStrategy cal l.domain (.scalar 1) [] (.scalar 1) [] none none l.origin? (.fwd .none)
  | .contingentRate => do
    let ps ← l.stored
    let starts ← contingentStarts cal back l.origin? l.domain
    let payoffs ← ratePays cal starts l.domain (ps.map fun _ => 0) none fun _ _ _ => PayOff.noNumber
    CFList.newContingent l.domain (some payoffs) l.origin? (.fwd .none)

/-- `type(c)(**c.kwargs)`: for leg lists the legs are replaced by their `kwargs`, dictionaries, which are no cashflow lists
(line 213: `ValueError`). -/
noncomputable def CF.rebuild (back : D → D → Py D) (cls : ListClass) : CF D P → Py (CF D P)
  | .flat l => CF.flat <$> l.rebuild cal back cls
  | .legs [] d o => CF.newLegs []
  | .legs (_ :: _) d o => .error .value

end

end Dcf
