import Verif.Model.Pricer

/-! # Sessions: sequences of calls of the functions of `dcf/pricer.py` on shared objects -/

namespace Dcf

/-- A call of a pricing function with its arguments; curves and lists are given by their addresses. -/
inductive PriceCall (D P : Type)
  | presentValue (p : Product D) (disc : ℕ) (same : Bool) (v : Option D)
  | yieldToMaturity (limit : ℕ) (same : Bool) (interp : Option FuncSpec) (origin : Option D) (dc : DayCountArg D) (tenor : Option P)
      (p : Product D) (v : Option D) (target precision lo hi : ℝ)
  | interestAccrued (p : Product D) (v : D)
  | fairRate (limit : ℕ) (p : Product D) (disc : ℕ) (same : Bool) (v : Option D) (target precision lo hi : ℝ)
  | basisPointValue (p : Product D) (disc : ℕ) (same : Bool) (v : Option D) (delta : Option (List ℕ)) (shift : ℝ)
  | bucketedDelta (p : Product D) (disc : ℕ) (same : Bool) (v : Option D) (delta : Option (List ℕ)) (grid : Option (List D)) (shift : ℝ)
  | curveFit (limit : ℕ) (scipy : Bool) (sameD : D → Bool) (ps : List (Product D)) (disc : ℕ) (same : Bool) (v : Option D)
      (fitting : Option ℕ) (grid : Option (List D)) (target : NumArg) (precision lo hi : ℝ)

section
variable {D P : Type} [LinearOrder D] (cal : Cal D P)

/-- The call, with numbers as lists of one number: `dcf/pricer.py` lines 52, 117, 211, 292, 367, 433, 581. -/
noncomputable def PriceCall.run : PriceCall D P → PyM (World D P) (List ℝ)
  | .presentValue p disc same v => do pure [← pvOn cal disc same v p]
  | .yieldToMaturity limit same interp origin dc tenor p v target precision lo hi =>
    do pure [← ytm cal limit same interp origin dc tenor p v target precision lo hi]
  | .interestAccrued p v => fun w => ((fun x => [x]) <$> accrued cal w v p, w)
  | .fairRate limit p disc same v target precision lo hi => do pure [← Dcf.fairRate cal limit disc same p v target precision lo hi]
  | .basisPointValue p disc same v delta shift => do pure [← Dcf.basisPointValue cal disc same p v delta shift]
  | .bucketedDelta p disc same v delta grid shift => Dcf.bucketedDelta cal disc same p v delta grid shift
  | .curveFit limit scipy sameD ps disc same v fitting grid target precision lo hi =>
    Dcf.curveFit cal limit scipy sameD ps disc same v fitting grid target precision lo hi

/-- A session: calls one after the other; an exception is caught and the session goes on. -/
noncomputable def session : List (PriceCall D P) → World D P → List (Py (List ℝ)) × World D P
  | [], w => ([], w)
  | c :: cs, w =>
    let r := c.run cal w
    let rest := session cs r.2
    (r.1 :: rest.1, rest.2)

end

end Dcf
