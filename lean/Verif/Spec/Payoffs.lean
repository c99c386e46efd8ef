import Verif.Model.Cashflow

/-! # Specification vocabulary for payoffs -/

namespace Dcf.Spec

/-- What a forward curve says about the rate fixed at a date: a number for itself, a rate curve by `get_cash_rate`, any
other callable by its answer. -/
inductive Quotes {D : Type} : Fwd D → D → ℝ → Prop
  | num (x : ℝ) (d : D) : Quotes (.num x) d x
  | cash {r : D → Py ℝ} {dc : D → D → Py ℝ} {d : D} {x : ℝ} (h : r d = .ok x) : Quotes (.cash r dc) d x
  | fn {f : D → Py ℝ} {d : D} {x : ℝ} (h : f d = .ok x) : Quotes (.fn f) d x
  | price {p f : D → Py ℝ} {dc : D → D → Py ℝ} {d : D} {x : ℝ} (h : f d = .ok x) : Quotes (.price p f dc) d x

/-- The rate clamped between an optional floor and an optional cap, as documented: `max(K, min(f, L))`. -/
noncomputable def clampRate (floor cap : Option ℝ) (f : ℝ) : ℝ :=
  let capped := match cap with
    | some l => min f l
    | none => f
  match floor with
  | some k => max k capped
  | none => capped

end Dcf.Spec
