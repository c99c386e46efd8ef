import Verif.Model.Cashflow

/-! # Tables of cashflow lists: `dcf/cashflows/cashflow.py` lines 25-43, `details` of payoffs -/

set_option linter.unusedVariables false

namespace Dcf

/-- The keys of the details of payoffs, named as in python (`'cashflow'`, `'pay date'`, ...); `option i k` is `'#i k'`. -/
inductive Col
  | cashflow | payDate | notional | payRec | fixedRate | startDate | endDate | yearFraction | forwardRate | fixingDate | tenor
  | forwardCurveId | putCall | longShort | strike | expiryDate | valuationDate | forward | volatility | volatilityCurveId
  | timeToExpiry | modelId | floorlet | floorletStrike | floorletVolatility | caplet | capletStrike | capletVolatility
  | modelValuationDate
  | option (i : ℕ) (k : Col)
  deriving DecidableEq

/-- What is found in a cell: a number, a date, a text, `None`, or something else (tenors and identities of objects). -/
inductive Cell (D : Type)
  | num (x : ℝ)
  | date (d : D)
  | text (s : String)
  | none
  | other

/-- A number or `None`. -/
def Cell.ofNum {D : Type} : Option ℝ → Cell D
  | some x => .num x
  | .none => .none

/-- A date or `None`. -/
def Cell.ofDate {D : Type} : Option D → Cell D
  | some d => .date d
  | .none => .none

/-- The details of a payoff, a python dictionary. -/
abbrev Details (D : Type) := Dict Col (Cell D)

section
variable {D P : Type} (cal : Cal D P)

/-- `RateCashFlowPayOff.details`, `dcf/cashflows/payoffs.py` lines 107-145, as a dictionary. -/
noncomputable def RatePay.dict (p : RatePay D P) (arg : ModelArg D) : Py (Details D) := do
  let d ← p.details cal arg
  let base : Details D :=
    [(.cashflow, .num d.cashflow), (.notional, .num d.notional), (.payRec, .text (if 0 < d.notional then "pay" else "rec")),
      (.fixedRate, Cell.ofNum p.fixedRate), (.startDate, .date d.start), (.endDate, .date d.stop),
      (.yearFraction, .num d.yearFraction)]
  .ok (match d.forward, d.fixing with
    | some f, some x => base ++ [(.forwardRate, .num f), (.fixingDate, .date x), (.tenor, .other), (.forwardCurveId, .other)]
    | _, _ => base)

/-- `OptionPayOffModel.details`, `dcf/models/optionpricing.py` lines 193-245, as a list of entries.  Whether a forward curve
has a tenor is not modelled, its entry is `other`. -/
noncomputable def OptDetails.entries (d : OptDetails D) : List (Col × Cell D) :=
  [(.valuationDate, Cell.ofDate d.valuation)] ++
  (match d.forward, d.fixing with
    | some f, some x => [(.fixingDate, .date x), (.tenor, .other), (.forward, .num f), (.forwardCurveId, .other)]
    | _, _ => []) ++
  [(.strike, .num d.strike)] ++
  (match d.volatility with
    | some v => [(.volatility, .num v), (.volatilityCurveId, .other)]
    | none => []) ++
  [(.timeToExpiry, .num d.time), (.modelId, .other)]

/-- `dict.update` -/
def Dict.update {α β : Type} [DecidableEq α] (d : Dict α β) (l : List (α × β)) : Dict α β :=
  l.foldl (fun d p => Dict.set d p.1 p.2) d

/-- `OptionCashFlowPayOff.details`, `dcf/cashflows/payoffs.py` lines 218-238, as a dictionary. -/
noncomputable def OptPay.dict (o : OptPay D) (arg : ModelArg D) : Py (Details D) := do
  let cf ← o.cashflow cal arg
  let base : Details D :=
    [(.cashflow, .num cf), (.putCall, .text (if o.isPut then "put" else "call")),
      (.longShort, .text (if 0 < o.amount then "long" else "short")), (.notional, .num o.amount),
      (.strike, Cell.ofNum o.strike), (.expiryDate, .date o.expiry)]
  match arg with
  | .fwd _ => .ok base
  | .model m => do
    let d ← m.details cal o.expiry o.strike
    .ok (Dict.update base d.entries)

/-- `OptionStrategyCashFlowPayOff.details`, `dcf/cashflows/payoffs.py` lines 298-317, as a dictionary. -/
noncomputable def strategyDict (options : List (OptPay D)) (arg : ModelArg D) : Py (Details D) := do
  let cf ← strategyCashflow cal options arg
  let parts ← pyMap (fun x : OptPay D × ℕ => do
    let d ← x.1.dict cal arg
    .ok (d.map fun e => (Col.option x.2 e.1, e.2))) options.zipIdx
  let base : Details D := (.cashflow, .num cf) :: parts.flatten
  match arg, options with
  | .model m, o :: _ => do
    let d ← m.details cal o.expiry none
    .ok (Dict.update base (d.entries.filter fun e => e.1 ≠ .strike))
  | _, _ => .ok base

/-- Entries of a floorlet or caplet, `dcf/cashflows/payoffs.py` lines 399-420. -/
noncomputable def optletEntries (m : OptModel D) (value : D → Option ℝ → Py ℝ) (fixing : D) (scale : ℝ) (strike : Option ℝ)
    (k ks kv : Col) : Py (List (Col × Cell D)) :=
  match strike with
  | some x => do
    let d ← m.details cal fixing (some x)
    let v ← value fixing (some x)
    .ok [(k, .num (v * scale)), (ks, .num x), (kv, Cell.ofNum d.volatility), (.timeToExpiry, .num d.time),
      (.valuationDate, Cell.ofDate d.valuation)]
  | none => .ok []

/-- `ContingentRateCashFlowPayOff.details`, `dcf/cashflows/payoffs.py` lines 387-427, as a dictionary. -/
noncomputable def ContingentRatePay.dict (p : ContingentRatePay D P) (arg : ModelArg D) : Py (Details D) := do
  let base ← p.toRatePay.dict cal (.fwd arg.curve)
  let details ← p.toRatePay.details cal (.fwd arg.curve)
  match arg with
  | .fwd _ => .ok base
  | .model m => do
    let fixing ← pyKey details.fixing
    let scale := details.yearFraction * details.notional
    let floorlet ← optletEntries cal m (m.putValue cal) fixing scale p.floor .floorlet .floorletStrike .floorletVolatility
    let caplet ← optletEntries cal m (m.callValue cal) fixing scale p.cap .caplet .capletStrike .capletVolatility
    let cf ← p.cashflow cal arg
    .ok (Dict.update base (floorlet ++ caplet ++ [(.cashflow, .num cf)]))

/-- The details of an entry of a cashflow list, `dcf/cashflows/cashflow.py` lines 32-38: of a payoff, else of a number; a
function is no number (`TypeError`). -/
noncomputable def PayOff.dict (p : PayOff D P) (arg : ModelArg D) : Py (Details D) :=
  match p with
  | .num x => .ok [(.cashflow, .num x)]
  | .fixed a => .ok [(.cashflow, .num a)]
  | .rate p => p.dict cal arg
  | .contingentRate p => p.dict cal arg
  | .option o => o.dict cal arg
  | .strategy os => strategyDict cal os arg
  | .fn _ => .error .type

/-- The classes of flat cashflow lists. -/
inductive ListClass
  | plain | fixed | rate | contingent | option | strategy | contingentRate

/-- `_cashflow_details`, `dcf/cashflows/cashflow.py` lines 23 and 279-281, `contingent.py` lines 23, 82-86, 136-150 and
204-210. -/
def ListClass.columns : ListClass → List Col
  | .plain | .fixed | .contingent => [.cashflow, .payDate]
  | .rate => [.cashflow, .payDate, .notional, .startDate, .endDate, .yearFraction, .fixedRate, .forwardRate, .fixingDate, .tenor]
  | .option => [.cashflow, .payDate, .putCall, .longShort, .notional, .strike, .expiryDate, .fixingDate, .forward, .volatility,
      .timeToExpiry, .valuationDate]
  | .strategy => [.cashflow, .payDate] ++
      ((List.range 10).map fun i => [Col.option i .putCall, .option i .longShort, .option i .notional, .option i .strike]).flatten ++
      [.expiryDate, .fixingDate, .forward, .volatility, .timeToExpiry, .valuationDate]
  | .contingentRate => [.cashflow, .payDate, .notional, .startDate, .endDate, .yearFraction, .fixedRate, .forwardRate,
      .fixingDate, .tenor, .floorlet, .floorletStrike, .floorletVolatility, .caplet, .capletStrike, .capletVolatility,
      .timeToExpiry, .modelValuationDate]

/-- `getattr(self, 'forward_curve', None)`, `dcf/cashflows/cashflow.py` line 34: only rate lists have a forward curve. -/
def ListClass.tableArg (cls : ListClass) (arg : ModelArg D) : ModelArg D :=
  match cls with
  | .rate => arg
  | _ => .fwd .none

/-- The inner loop of `table`, `dcf/cashflows/cashflow.py` lines 39-41. -/
def extendHeader (columns : List Col) (details : Details D) (header : List Col) : List Col :=
  columns.foldl (fun h k => if (details.get k).isSome ∧ k ∉ h then h ++ [k] else h) header

/-- The outer loop of `table`, lines 31-42, after the details; the header grows while rows are written. -/
def detailRows (columns : List Col) : List (Details D) → List Col → List Col × List (List (Cell D))
  | [], header => (header, [])
  | d :: ds, header =>
    let header := extendHeader columns d header
    let row := header.map fun k => (d.get k).getD (.text "")
    let rest := detailRows columns ds header
    (rest.1, row :: rest.2)

end

section
variable {D P : Type} [LinearOrder D] (cal : Cal D P)

/-- `CashFlowList.table`, `dcf/cashflows/cashflow.py` lines 25-43: header and rows. -/
noncomputable def CFList.table (cls : ListClass) (l : CFList D P) : Py (List Col × List (List (Cell D))) := do
  let details ← pyMap (fun d => do
    let e ← ((l.flows.get d).getD (.num 0)).dict cal (cls.tableArg l.arg)
    .ok (Dict.set e .payDate (.date d))) l.domain
  .ok (detailRows cls.columns details [])

/-- `table` of any cashflow list; leg lists store zeros (line 223). -/
noncomputable def CF.table (cls : ListClass) : CF D P → Py (List Col × List (List (Cell D)))
  | .flat l => l.table cal cls
  | .legs _ d o => do
    let l ← CFList.new (P := P) d (.list (List.replicate d.length 0)) o
    l.table cal .plain

end

end Dcf
