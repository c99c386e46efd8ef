import Mathlib.Algebra.Order.Field.Basic
import Mathlib.Data.Rat.Cast.Order

/-!
# Vocabulary for statements about interpolations

Everything is stated for a list of points `(x, y)` in any order; nothing here refers to the model.
-/

namespace Dcf.Spec

variable {K : Type} [Field K] [LinearOrder K]

/-- `y` belongs to the last node not after `x`, or to the first node if `x` is before all. -/
def IsLeftValue (pts : List (K × K)) (x y : K) : Prop :=
  ∃ p ∈ pts, p.2 = y ∧
    ((p.1 ≤ x ∧ ∀ q ∈ pts, q.1 ≤ x → q.1 ≤ p.1) ∨
      ((∀ q ∈ pts, x < q.1) ∧ ∀ q ∈ pts, p.1 ≤ q.1))

/-- `y` belongs to the first node not before `x`, or to the last node if `x` is after all. -/
def IsRightValue (pts : List (K × K)) (x y : K) : Prop :=
  ∃ p ∈ pts, p.2 = y ∧
    ((x ≤ p.1 ∧ ∀ q ∈ pts, x ≤ q.1 → p.1 ≤ q.1) ∨
      ((∀ q ∈ pts, q.1 < x) ∧ ∀ q ∈ pts, q.1 ≤ p.1))

/-- `y` belongs to a node of minimal distance, the left one on ties. -/
def IsNearestValue (pts : List (K × K)) (x y : K) : Prop :=
  ∃ p ∈ pts, p.2 = y ∧ ∀ q ∈ pts, |p.1 - x| ≤ |q.1 - x| ∧ (|p.1 - x| = |q.1 - x| → p.1 ≤ q.1)

/-- The straight line through two points. -/
def chord (p q : K × K) (x : K) : K := p.2 + (q.2 - p.2) / (q.1 - p.1) * (x - p.1)

/-- `p` and `q` are neighbouring nodes. -/
def Neighbours (pts : List (K × K)) (p q : K × K) : Prop :=
  p ∈ pts ∧ q ∈ pts ∧ p.1 < q.1 ∧ ∀ r ∈ pts, r.1 ≤ p.1 ∨ q.1 ≤ r.1

/-- `y` lies on the chord of the two neighbouring nodes enclosing `x`; before the first (after the
last) node the first (last) chord is continued. -/
def IsLinearValue (pts : List (K × K)) (x y : K) : Prop :=
  ∃ p q, Neighbours pts p q ∧ y = chord p q x ∧
    (p.1 ≤ x ∨ ∀ r ∈ pts, p.1 ≤ r.1) ∧ (x ≤ q.1 ∨ ∀ r ∈ pts, r.1 ≤ q.1)

/-- `y` is the flat extrapolation of the first or last point, or lies on the enclosing chord. -/
def IsFlatLinearValue (pts : List (K × K)) (x y : K) : Prop :=
  (∃ p ∈ pts, y = p.2 ∧ ((x ≤ p.1 ∧ ∀ r ∈ pts, p.1 ≤ r.1) ∨ (p.1 ≤ x ∧ ∀ r ∈ pts, r.1 ≤ p.1))) ∨
    ∃ p q, Neighbours pts p q ∧ p.1 ≤ x ∧ x ≤ q.1 ∧ y = chord p q x

end Dcf.Spec
