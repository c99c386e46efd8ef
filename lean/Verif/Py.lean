import Mathlib.Algebra.Order.Field.Basic
import Mathlib.Analysis.SpecialFunctions.Log.Basic
import Mathlib.Analysis.SpecialFunctions.Pow.Real
import Mathlib.Analysis.SpecialFunctions.Sqrt
import Mathlib.Data.List.Sort

/-!
# Python primitives

Exceptions are values: a python expression of type `α` that may raise is a `Py α`.
Only the exception classes the modelled code can raise are listed.
-/

namespace Dcf

/-- Python exception classes raised by the modelled code.  `diverges` is not an exception: it stands
for a loop that does not end. -/
inductive PyErr
  | zeroDivision | value | type | assertion | overflow | index | key | attribute
  | notImplemented | unboundLocal | recursion | diverges
  deriving DecidableEq, Repr

/-- Result of a python call: a value or a raised exception. -/
abbrev Py := Except PyErr

@[simp] theorem Py.ok_bind {α β} (a : α) (f : α → Py β) : (Except.ok a >>= f : Py β) = f a := rfl
@[simp] theorem Py.error_bind {α β} (e : PyErr) (f : α → Py β) :
    (Except.error e >>= f : Py β) = .error e := rfl
@[simp] theorem Py.pure_eq {α} (a : α) : (pure a : Py α) = .ok a := rfl
@[simp] theorem Py.throw_eq {α} (e : PyErr) : (throw e : Py α) = .error e := rfl
@[simp] theorem Py.map_ok {α β} (f : α → β) (a : α) : (f <$> (Except.ok a : Py α)) = .ok (f a) := rfl
@[simp] theorem Py.map_error {α β} (f : α → β) (e : PyErr) :
    (f <$> (Except.error e : Py α)) = .error e := rfl

theorem Py.bind_eq_ok {α β} {x : Py α} {f : α → Py β} {b : β} :
    (x >>= f) = .ok b ↔ ∃ a, x = .ok a ∧ f a = .ok b := by
  cases x <;> simp

/-- List comprehension `[f(x) for x in l]`: evaluated left to right, the first error wins. -/
def pyMap {α β} (f : α → Py β) : List α → Py (List β)
  | [] => .ok []
  | a :: l => do
    let b ← f a
    let bs ← pyMap f l
    .ok (b :: bs)

/-- `n` rounds of `while cond(s): s = body(s)`; `none` if the loop has not ended by then. -/
def runWhile {σ} (cond : σ → Py Bool) (body : σ → Py σ) : ℕ → σ → Option (Py σ)
  | 0, _ => none
  | n + 1, s =>
    match cond s with
    | .error e => some (.error e)
    | .ok false => some (.ok s)
    | .ok true =>
      match body s with
      | .error e => some (.error e)
      | .ok s' => runWhile cond body n s'

open Classical in
/-- `while cond(s): s = body(s)`: the state at the end, the first error, or `diverges`. -/
noncomputable def pyWhile {σ} (cond : σ → Py Bool) (body : σ → Py σ) (s : σ) : Py σ :=
  if h : ∃ n r, runWhile cond body n s = some r then h.choose_spec.choose else .error .diverges

/-- `l[i]` for a non-negative index. -/
def pyIndex {α} (l : List α) (i : Nat) : Py α :=
  match l[i]? with
  | some a => .ok a
  | none => .error .index

section Field
variable {K : Type} [Field K] [LinearOrder K]

/-- `a / b` on floats. -/
def pyDiv (a b : K) : Py K := if b = 0 then .error .zeroDivision else .ok (a / b)

/-- Python's `sum` (starting from `0`). -/
def pySum (l : List K) : K := l.foldl (· + ·) 0

end Field

section Bisect
variable {K : Type} [LinearOrder K]

/-- `bisect.bisect_left(a, x, lo, hi)` of the standard library (reference implementation:
`while lo < hi: mid = (lo + hi) // 2; if a[mid] < x: lo = mid + 1 else: hi = mid`).
The first argument bounds the number of iterations. -/
def bisectLeftGo (a : List K) (x : K) : Nat → Nat → Nat → Py Nat
  | 0, lo, _ => .ok lo
  | n + 1, lo, hi =>
    if lo < hi then
      match a[(lo + hi) / 2]? with
      | none => .error .index
      | some y =>
        if y < x then bisectLeftGo a x n ((lo + hi) / 2 + 1) hi
        else bisectLeftGo a x n lo ((lo + hi) / 2)
    else .ok lo

/-- `bisect.bisect_left(a, x, lo, hi)`. The interval shrinks in each iteration, so `hi - lo`
iterations are enough. -/
def bisectLeft (a : List K) (x : K) (lo hi : Nat) : Py Nat := bisectLeftGo a x (hi - lo) lo hi

/-- `bisect.bisect_right(a, x, lo, hi)`:
`while lo < hi: mid = (lo + hi) // 2; if x < a[mid]: hi = mid else: lo = mid + 1`. -/
def bisectRightGo (a : List K) (x : K) : Nat → Nat → Nat → Py Nat
  | 0, lo, _ => .ok lo
  | n + 1, lo, hi =>
    if lo < hi then
      match a[(lo + hi) / 2]? with
      | none => .error .index
      | some y =>
        if x < y then bisectRightGo a x n lo ((lo + hi) / 2)
        else bisectRightGo a x n ((lo + hi) / 2 + 1) hi
    else .ok lo

/-- `bisect.bisect_right(a, x, lo, hi)`. -/
def bisectRight (a : List K) (x : K) (lo hi : Nat) : Py Nat := bisectRightGo a x (hi - lo) lo hi

/-- Tuple order of python on pairs. -/
def pairLe (p q : K × K) : Prop := p.1 < q.1 ∨ (p.1 = q.1 ∧ p.2 ≤ q.2)

instance : DecidableRel (pairLe (K := K)) := fun _ _ => inferInstanceAs (Decidable (_ ∨ _))

/-- `sorted(l)` for a list of pairs. -/
def sortPairs (l : List (K × K)) : List (K × K) := l.insertionSort pairLe

/-- `sorted(set(l))` for a list of ordered values. -/
def sortedSet (l : List K) : List K := l.dedup.insertionSort (· ≤ ·)

end Bisect

section Real

/-- `math.log`. -/
noncomputable def pyLog (x : ℝ) : Py ℝ := if 0 < x then .ok (Real.log x) else .error .value

/-- `math.sqrt`. -/
noncomputable def pySqrt (x : ℝ) : Py ℝ := if 0 ≤ x then .ok (Real.sqrt x) else .error .value

open Classical in
/-- `math.pow(x, y)` on finite floats: a negative base needs an integral exponent and a zero base
a non-negative one, otherwise `ValueError`. -/
noncomputable def pyPow (x y : ℝ) : Py ℝ :=
  if 0 < x then .ok (x ^ y)
  else if x = 0 then
    if y < 0 then .error .value else if y = 0 then .ok 1 else .ok 0
  else if h : ∃ n : ℤ, (n : ℝ) = y then .ok (x ^ h.choose)
  else .error .value

end Real

/-! ### Dictionaries -/

section Dict
variable {α β : Type*} [DecidableEq α]

/-- A python dictionary: association list in insertion order, keys pairwise different. -/
abbrev Dict (α β : Type*) := List (α × β)

/-- `d.get(k)`. -/
def Dict.get (d : Dict α β) (k : α) : Option β :=
  match d with
  | [] => none
  | (a, b) :: l => if a = k then some b else Dict.get l k

/-- `d[k] = v`: an existing key keeps its position. -/
def Dict.set (d : Dict α β) (k : α) (v : β) : Dict α β :=
  match d with
  | [] => [(k, v)]
  | (a, b) :: l => if a = k then (a, v) :: l else (a, b) :: Dict.set l k v

/-- `dict(pairs)`: later pairs override earlier ones. -/
def Dict.ofPairs (l : List (α × β)) : Dict α β := l.foldl (fun d p => Dict.set d p.1 p.2) []

end Dict

end Dcf
