# Formal model of dcf (Lean 4)

`lean/` holds a Lean 4 + Mathlib model of the python package in `/repo/dcf` and machine-checked
proofs of the properties listed in `properties.jsonl`.  `MANIFEST.json` maps each property to
its theorems.

## Layout

* `Verif/Py.lean` – python exceptions as values (`Py α = Except PyErr α`), checked division,
  logarithm, power, square root, list indexing, sorting, bisection, dictionaries.
* `Verif/Model/*.lean` – the model, one file per python module; every definition cites file and
  lines.
* `Verif/Spec/*.lean` – the small vocabulary used in property statements.  It does not use model
  helpers.
* `Verif/Lemmas/*.lean` – helper lemmas.
* `Verif/Props/*.lean` – the property theorems, each with a non-vacuity `example`.
* `Verif/Checks/Documented.lean` – no claims: the examples printed in the docstrings of `/repo/dcf` (interpolations, curves, tables,
  cashflow lists, payoffs, accrued interest), recomputed by the model.
* `Verif/Checks/DocumentedValues.lean` – no claims: the printed present values and the basis point value, which involve
  exponentials, agree with the model to within `1e-9`; `DocumentedOptions.lean` – likewise for the printed option prices;
  `DocumentedDeltas.lean` – likewise for the printed bucketed deltas; `DocumentedYields.lean` – for the printed yields and the fair rate.

## Trusted base

* The Lean 4.33.0 kernel and the three standard axioms `propext`, `Classical.choice`,
  `Quot.sound`.  No other axiom is used; no `sorry`, `native_decide` or `bv_decide`.
* The reading of the python source: the model was written by hand from the text in `/repo`.
  Nothing was executed.  Where a docstring prints a number that does not depend on rounding, `Verif/Checks/Documented.lean`
  proves that the model returns it.
* Numbers.  Python floats are idealised as elements of a linearly ordered field (`ℝ` where
  `exp`, `log`, `sqrt` or real powers occur, any linearly ordered field elsewhere).  Overflow,
  infinities and NaN are outside the model.  Rounding error is modelled in `Model/Rounded.lean`,
  `Model/RoundedLegs.lean`, `Model/RoundedOptions.lean`, `Model/RoundedMarket.lean`, `Model/RoundedRates.lean`, `Model/RoundedFormulas.lean`, `Model/RoundedRating.lean`, `Model/RoundedInterp.lean`, `Model/RoundedBuckets.lean` and `Model/RoundedForward.lean` only (C166-C172, C174-C186, C191, C192: compounding, linear and log-linear
  interpolation, zero rate, short rate and cash rate curves, present values, plans, day count, yields, fair rates, coupons, accrued interest, option values and
  bumps, closed option formulas, volatilities, fx rates, credit data, rating weights, master scales, basis point values and bucketed deltas), for rounding to
  nearest with any number of bits, any rule for ties and an unbounded exponent.  Where python raises for a real
  argument (division by zero, `log` of a non-positive number, ...) the model returns that error.
* Dates.  A date type is any linear order `D` with a day count `D → D → ℝ`.  Adding a period to
  a date is a function supplied as a parameter.  Calendar arithmetic of `businessdate` is
  external.
* Object identity (`is`) is an explicit boolean parameter where the code tests it.
* Recursion whose termination is in question carries the recursion limit `limit`; at 0 it is python's
  `RecursionError`.  "Calls itself forever" is stated as the error for every limit.
* `while` loops are `pyWhile cond body state` (`Verif/Py.lean`): the result of the first state whose
  condition fails, `.error .diverges` if there is none.
* Truth values.  `a or b` and `if a` on dates and periods go through `Cal.falsy`, `Cal.falsyPeriod`,
  because `0.0` is a valid float date and false.  Curve objects define neither `__len__` nor
  `__bool__` and are always true.
* Mutable objects.  The functions of `pricer.py` change curves, payoff models and rate payoffs in place, also on the way to
  an exception.  They are functions `World → Except PyErr α × World` (`PyM`), where `World` maps addresses to curve, model
  and list objects, so aliasing (two lists sharing a model, a curve used for discounting and forecasting) is visible.
  Forward and volatility curves of models and lists are functions of the curves in the world.
* Containers.  Lists, tuples and dictionary views given by the caller are lists; dictionaries are
  association lists with python's insertion order.  List objects that a curve or leg list shares with the caller are
  modelled in `Model/Sharing.lean` (C159), tuples against lists also in `Model/Containers.lean` (C132).
* `scipy.integrate.quad` (external) returns the exact integral, `scipy.misc.derivative` the central difference; whether scipy is installed is a boolean
  parameter.
* Currencies are interned, so `is` and `==` agree on them.
* `kwargs` of a curve carries what constructors use: origin and tenor as they are, day count and interpolation by the
  name of the function or class (`DayCountArg.kwarg`, `keepInterp`; a name that is not found raises `TypeError`).  That
  building a curve from another one also evaluates the other on its own domain (in `kwargs`) is only modelled where
  `kwargs` itself is used (`rebuild`).

## Not modelled

* The characters of texts (of `__str__` and `__repr__` the parts shown are modelled, see C10, C151), deprecation warnings, logging.
* `businessdate` itself (holiday calendars, period arithmetic).

## Plan per property

Status words: *proved* (full statement), *partial* (part of the statement, or the code violates
the statement: then a refutation with a concrete witness plus the part that holds).

| id | modelled | how |
|----|----------|-----|
| C01-C04 | the ten functions of `compounding.py` with their error branches | field algebra, `Real.exp/log/rpow`; C04 by Bernoulli's inequality and the exponential limit |
| C05-C07 | `plans.py` | list induction, geometric sum |
| C08-C10 | `master_scale.fromkeys`, `RatingClass.__iter__` including half-even rounding to 7 digits | list lemmas, parity argument for ties |
| C11-C17 | all classes of `interpolation.py`, `bisect` as its reference loop | bisection invariant, list induction, refinement to a finite map |
| C18-C27 | `Curve`, `DateCurve`, `ForwardCurve` | from the interpolation theorems; violations by witness |
| C28-C37 | `RateCurve`, interest rate curve classes | algebra over the day count; loops by induction; non-termination for every fuel |
| C91-C97 | spread setter, casts with arguments, empty periods, hazard rates | case analysis, loop lemmas |
| C38-C40, C77, C78 | `creditcurve.py` | correspondence with zero and short rate curves; products over tenor steps; clamp bounds carried through the interpolation |
| C41-C43, C79 | `fx.py` container as a state machine over `add` | invariant by induction over histories, witness for re-adding |
| C44, C45, C80-C82 | `volatilitycurve.py`, `DateCurve.integrate` | algebra with `sqrt`, interval integrals; strict Cauchy-Schwarz for C80 |
| C46-C52, C85-C90 | `cashflow.py`, `payoffs.py`, `contingent.py` | list induction, case analysis |
| C53, C68-C71, C83, C84, C98-C102 | `models/*` | algebra, derivatives via `HasDerivAt`, mean value theorem; C101 by Bernstein coefficients of the error of the derivative |
| C54-C64, C103 | `pricer.py` with an explicit heap for mutable curves, legs and models | induction, intermediate value theorem, compactness |
| C65-C67, C88, C104, C105 | `products.py`, arithmetic of cashflow lists; the schedules of `businessdate` are parameters | loop invariant, list induction |
| C106, C107 | `products.py`, `pricer.py`, cash rates: floating legs valued on their own curve | telescoping sums over C31, C54, C65 ff. |
| C108, C109 | `RatingClass.__init__`, `__str__`, `rating_classes`, `SLOPPY` weights (`Model/Rating.lean`) | one-hot weights by list induction; rounding of powers of ten |
| C110-C112 | `rate_table`, container protocol, `DateCurve.derivative` (`Model/Table.lean`); `scipy.misc.derivative` is the central difference | loop invariants; C110 by an explicit table specification |
| C113, C114 | special periods of volatility curves; option lists and strategies as whole lists | case analysis over C44 ff., C48, C52 |
| C115 | arithmetic of rate curves through both casts (`Model/RateArith.lean`) | piecewise linear and step functions on the common grid; for discount factors linear zero rates on a finer grid (`Props/FactorArith.lean`, cash rates in `Props/CashArith.lean`); the errors of divisions (`Props/RateDivision.lean`); witnesses |
| C116 | `plans.py`: present values of plans | list induction, Bernoulli |
| C117 | interpolation schemes as functions of the data | mean rules: every value is a mean of neighbouring data; witness for the rate scheme |
| C118 | bands of rates and discount factors of all curve classes | sums and products over steps with C117 for the data |
| C119 | `CashFlowList.table` (`Model/CashflowTable.lean`): details as dictionaries of cells, the header grows row by row as in the loop; columns that are not numbers, dates or text are one opaque cell | dictionary lemmas, loop invariant of the header |
| C120 | present values on flat curves | exponential bounds and convexity summed over the flows, C58 for the yields |
| C121 | fair rates of coupon legs | C59 (affine in the rate) and C107 (value of the legs) |
| C122 | `make_grid` (`Model/Plot.lean`) for dates and steps in an ordered group; drawing is external | loop invariant, least number of steps |
| C123 | option models with every kind of curve (`Model/OptionPricing.lean`); relations `ForwardOf`, `VolOf`, `TimeOf` say what shall be read | cases |
| C124 | closed formulas for any distribution function; the code's one for the swap | algebra, symmetry of the distribution function |
| C125 | closed formulas with the exact and the code's distribution function | derivatives, convexity, error bound C101; jump at 0 and tail for the violations |
| C126 | products over shared state (`Model/Pricer.lean`), any curve with multiplying discount factors; cast curves from C36 | C54, filtering of flows |
| C127 | interpolation handed on by name (`keepInterp`), yield of a forward curve not in `kwargs`; refuted for `log_linear_scheme` and any non-zero yield | `KeptInterp`, C27 |
| C128 | `rebuild` functions: values on the domain, everything else by name | uniqueness of sorted points, node property |
| C129 | `getAll`, `setPair`, `setCurve` of `Model/Fx.lean`; refuted with a curve of two rates | C41 state of a container |
| C130 | a shift is a cast onto the moved grid with default arguments | node property |
| C131 | the dispatch of constructor arguments (`IRCurve.construct`) | fields of casts, empty interpolation |
| C132 | curves with the container type of their domain (`Model/Containers.lean`) | C21, C24 for the values |
| C133 | plans for any number, `pyInt` truncates; refuted for two and a half periods | C05 on the whole part |
| C134 | documented formulas against the model | closed forms of C05, C13, C16 |
| C135 | `kwargs` per list class, then the constructor; refuted for all but plain lists | stored payoffs, dictionary lemmas |
| C136 | `CRCurve.rebuild`, `CRCurve.shifted`, `CRCurve.construct`; refuted for default probabilities and for moved values | node values, clamping is idempotent |
| C137 | `CRCurve.binop` at every date; the operation at the dates as stored by the constructor; refuted for sums of probabilities, default probabilities, division, unsorted dates, float dates, settings and origins; marginal probabilities and different origins in `MarginalArith`, errors of divisions in `CreditDivision` | resampling on finer grids (`surv_grid`, `linVal_finer`, `left_grid`), `own_binop`, `OwnStorage` (what a class stores of its own curves) |
| C138 | data of `CRCurve.new` in a band, bounds on `factor`/`survivalProb` for every period (from the origin for flat and survival); witnesses with survival above one | C117 (means), C118, C38 |
| C139 | `basisPointValue`, `bucketedDelta` of flows `Pays` on a zero rate curve between explicit sums; zero outside the neighbours | C61, C62, C63 |
| C140 | `ForwardCurve.binop`, `ForwardCurve.div`, `FxCurve.binop` at the joint dates, between and beyond; explicit witnesses | C26, C27, C24 |
| C141 | forward volatilities of `VolCurve.new .terminal` on all periods; neighbouring quotes `l ++ p :: q :: r` falling slowly; exact criterion for float dates | C44, C45, C13 |
| C142 | `ytm` of a redemption leg and a coupon leg at par against `log(1+cΔ)/Δ` and `c - c²Δ/2 .. c` | C58 |
| C143 | `VolCurve.binop`, `VolCurve.div` against the values and terminal volatilities of both curves | C81, C131 |
| C144 | `VolCurve.rebuild`, `VolCurve.shifted`, `VolCurve.construct`; default interpolation against `zeroLinearScheme` | C130, C136, C15 |
| C145 | `fwdRef` under `basisPointValue`, `bond`, two curve valuation of floating rate notes | C61, C106 |
| C146 | `volRef`, `VolCurve.asVol` under `basisPointValue`, `CFList.newOption`, `OptModel` | C61, C82, C114, C123, C125 |
| C147 | `OptPay.dict`, `strategyDict`, `RatePay.dict`, `ContingentRatePay.dict` | C119 |
| C148 | `ContingentRatePay.cashflow`, `CFList.newContingentRate` | C49, C53, C125 |
| C149 | `strategyOptions`, `CFList.newStrategy` | C114, C53, C125 |
| C150 | `interestRateSwap`, `basisPointValue` | C145, C107, C61 |
| C151 | `PayOff.repr`, `CFList.str/repr`, `CF.str/repr`, `curveStr/curveRepr` by the parts they show | recursion by induction on the limit; dictionary lemmas for distinct dates |
| C152 | `curveFit` on curves of class zero, prices by `pvOn` on the curve with the rates `r` | residuals are triangular in the errors of the discount factors (`residual_flows`, `triangular`); existence by signs at the bounds (`C64_exists`) |
| C153 | Volatilities implied by option prices | ImpliedVol, FitSolved; recovery and existence for rising price formulas, repricing for all; uniqueness violated with the approximated normal distribution |
| C154 | points read off a curve | Interpolation, Curve, DateCurve, RateCurve, CreditCurve; a finer grid on the graph gives the same function |
| C155 | locality of a curve point | Interpolation, Curve, DateCurve, RateCurve, CreditCurve; grids that agree but at one place |
| C156 | risk of a portfolio | Pricer; leg by leg in the shifted states |
| C157 | notionals | Cashflow, Pricer; a relation between computations on scaled and unscaled objects |
| C158 | order of curves, factors and values | InterestRate, Credit, Pricer; C117 carried over to dates, factors and present values |
| C159 | tuples and list objects on a heap, programs over curves and lists (`Model/Sharing.lean`) | frame invariant by induction over programs |
| C160 | classes as tables of the methods they define, recursion limit (`Model/OwnFormula.lean`) | dispatch unfolded, induction over the limit; C123 for what the model reads |
| C161 | calls with their arguments and sessions, exceptions caught (`Model/Session.lean`) | three relations on computations closed under bind, loops and the bracketing search: bounds on changes for any outcome, bounds for success, simulation between worlds that differ in valuation dates |
| C162 | objects with renamed dates (`Lemmas/Moving*.lean`, specification only) | every modelled function commutes with renaming, by simplification; loops by a lemma on `pyWhile`, computations with state by a relation closed under bind, loops and bracketing |
| C163 | curves on dates against curves on `floatCal` (specification only) | the inner interpolation gets the same times and data, hence the same function; rates and factors then agree by cases; lists through dictionaries with injectively renamed keys |
| C164 | `nativeCal` (`Model/Native.lean`) | as C163: one set of lemmas for two types of dates with the same order and year fractions |
| C165 | `Model/OwnInterp.lean`: the interpolation is any function of the points | refinement of the curves of the package; invariant along assignments |
| C166, C167, C168 | `Model/Rounded.lean`: the same code with a rounding after every operation; unbounded exponent, plain summation | relative error of rounding to nearest (`Rounding.err`), monotone rounding, products of factors `1 + δ`, induction on sums; `exists_rounding` for non-vacuity |
| C169, C170 | `Rounded.zeroDiscount`, `zeroValue`, `annuity` | C166, C167, C168 composed; relative errors of differences `q ^ n - 1` |
| C171 | `Rounded.bracket`, `yieldError`, `yieldToMaturity` | midpoints of floats stay between and shrink the interval by a third down to 16 units; values of the size `2 ^ e` differ by multiples of the spacing |
| C172 | `Rounded.times`, `dateFunc`, `dateCall`, `dateDiscount`, `dateValue` | days are at least 1/366 years apart, so rounding the times keeps their order and moves the chord by a bounded amount |
| C173 | `Func.own`, `RateCurve.own`, `IRCurve.own`, `CRCurve.own`, `VolCurve.own`, `RateCurve.ownSetitem` | the sorted points reach the function of the user; what it returns answers for the curve, so the theorems about curves that answer apply |
| C174 | `Rounded.coupon`, `legsValue`, `accruedFlow`, `accrued`, `basisPoint`, `flatBasisPoint` | products of factors within one unit of rounding of one; floats are closed under negation and doubling, so rounding is monotone, symmetric and scales |
| C175 | `Model/RoundedOptions.lean`: `Rounded.callValue`, `putValue`, `callDelta`, `callGamma`, `binaryPrice`, `intrinsicPrice` | differences of floats within a factor of two are floats; the float nearer than half of the spacing is the rounded value |
| C176, C177, C178 | `Model/RoundedMarket.lean`: `Rounded.forwardVol`, `forwardRate`, `cross`, `crossBack`, `fxForward`, `survivalData`, `defaultData`, `conditional` | `rnd_sqrt_sq`: the root of the square of a float is its absolute value; monotone rounding; products of factors; floats from one half on are multiples of `2 ^ -53` |
| C179, C180 | `Model/RoundedRates.lean`: `Rounded.shortAverage`, `cashFactor`, `cashRate`, `fairError`, `fairRate` | relative errors multiply (`rel_mul`); logarithms of close numbers (`log_near`); `fold_err_abs`; bracketing as for C171; the value is affine in the rate |
| C181, C182 | `Model/RoundedFormulas.lean`: `Rounded.normalPdf`, `cdfPoly`, `normalCdf`, `normalD`, `normalPrice`, `normalBinary`, `logNormalD`, `logNormalPrice`, `logNormalBinary`, `displacedPrice` | one step of the nested polynomial (`horner_step`); a relative error in the exponent of a falling exponential is an absolute error of that size (`exp_falling`), likewise for the distribution function (`cdf_scaled`) |
| C183 | `Model/RoundedRating.lean`: `Rating.floatRound7`, `Rating.floatVector` | the quotient of rounded differences is within three roundings of the exact one and stays within [0,1] (monotone rounding); rounding to seven digits keeps zero and one |
| C184 | `Model/RoundedInterp.lean`: `Rounded.logLinear`, `Rounded.logLinearRate`, `Rounded.logConstantRate` | errors in the exponent (`rate_near`, `product_near`, C167); more floats than logarithms between 1/16 and 1/8 (`same_log`, pigeonhole) |
| C185 | `Model/RoundedRating.lean`: `Rating.floatLog`, `Rating.floatFirst`, `Rating.floatFromkeys` | six roundings in the exponent (`class_near`), the default scale within 1e-9 of powers of ten (`default_near`), then C183 |
| C186 | `Model/RoundedForward.lean`: `Rounded.curveFactor`, `Rounded.continuousRate`, `Rounded.curveRate`, `Rounded.yieldFactor`, `Rounded.forwardPrice` | one rounding per operation; the exponential function between `(1 - v)` and `(1 + v)` times the exact one (`yieldFactor_near`); `rnd_near` for the witness |
| C187 | `Model/OwnRateArith.lean`: `IRCurve.ownBinop`, `IRCurve.ownDiv`, `IRCurve.ownRebuild`; shifts, spreads and risk numbers are those of the earlier models | casts of a curve quoting given points (`quoting_castOn`), C173 for the intermediate curves, C61 and C139 for the risk numbers; witness with spikes off the points |
| C188 | `Model/OwnRateArith.lean`: `VolCurve.ownBinop`, `CRCurve.ownBinop`, `…ownDiv`, `…ownRebuild` | the objects with own interpolation (`ownVol_eq`, `ownCredit_eq`), casts to the own class (`vol_cast_own`, `intensity_cast`); witness with values of 1 in the second year only |
| C189 | `Model/OwnRateArith.lean`: `CRCurve.ownBinop`, `CRCurve.ownRebuild` for probability classes | the objects with own interpolation (`ownProb_eq`), casts of positive curves (`prob_cast`), the package's survival curves (`surv_call`); witness with a value of 1/2 in the second year only |
| C190 | `Model/OwnRateArith.lean`: `CRCurve.ownBinop`, `CRCurve.ownRebuild` for marginal classes | the objects with own interpolation (`ownMarg_eq`), a marginal probability over one tenor is the quoted one (`marginal_storage`), casts (`marg_cast`), the package's marginal curves (`marginal_call`, `marginal_range`); witness with a value of 1/2 in the second year only |
| C191 | `Model/RoundedBuckets.lean`: `Rounded.spreadCall`, `spreadRate`, `spreadDiscount`, `spreadValue`, `bucketedDelta` | the rounded curve stays close to the exact one (`dateCall_err`, from C172), the shift curves of a grid (`hatGrids_get`, `bucket_spread`), values with a spread (`spread_value`), the quotient (`C174_basis_point`), the exact deltas (`C139_buckets`); exact zeros outside the neighbours (`spread_left`, `spread_right`); the sign off the falling side (`spread_rise`, `spread_value_le`) |
| C192 | `Model/RoundedBuckets.lean`: `Rounded.basisPointValue` | the curve of one point answers exactly with the shift (`parallel_spread`), the values of C191 (`spread_value`), monotone roundings (`spread_value_le`), factors the rounding commutes with (`spreadValue_scale`), the exact value (`C61_zero`, `value_unrounded`) |
| C72 | `daycount.py` | algebra |
| C73 | log interpolation classes | witness |
| C74-C76 | construction order, day count of copies, integer yields | witnesses, and the cases that hold |
