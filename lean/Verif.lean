import Verif.Checks.Documented
import Verif.Checks.DocumentedDeltas
import Verif.Checks.DocumentedOptions
import Verif.Checks.DocumentedValues
import Verif.Checks.DocumentedYields
import Verif.Lemmas.Bisect
import Verif.Lemmas.Bracket
import Verif.Lemmas.CdfBounds
import Verif.Lemmas.CreditCurve
import Verif.Lemmas.Curve
import Verif.Lemmas.Dict
import Verif.Lemmas.FlatCurve
import Verif.Lemmas.Greeks
import Verif.Lemmas.Interp
import Verif.Lemmas.Interpolation
import Verif.Lemmas.Moving
import Verif.Lemmas.MovingPricer
import Verif.Lemmas.Pricer
import Verif.Lemmas.Py
import Verif.Lemmas.PyM
import Verif.Lemmas.RateCurve
import Verif.Lemmas.Rating
import Verif.Lemmas.Rounding
import Verif.Model.Cashflow
import Verif.Model.CashflowTable
import Verif.Model.Compounding
import Verif.Model.Containers
import Verif.Model.CreditArith
import Verif.Model.CreditCurve
import Verif.Model.Curve
import Verif.Model.DayCount
import Verif.Model.Fx
import Verif.Model.Interpolation
import Verif.Model.Native
import Verif.Model.OptionPricing
import Verif.Model.OwnFormula
import Verif.Model.OwnInterp
import Verif.Model.OwnRate
import Verif.Model.OwnRateArith
import Verif.Model.Plans
import Verif.Model.Plot
import Verif.Model.Pricer
import Verif.Model.Products
import Verif.Model.RateArith
import Verif.Model.RateCurve
import Verif.Model.Rating
import Verif.Model.Rebuild
import Verif.Model.Rounded
import Verif.Model.RoundedBuckets
import Verif.Model.RoundedFormulas
import Verif.Model.RoundedForward
import Verif.Model.RoundedInterp
import Verif.Model.RoundedLegs
import Verif.Model.RoundedMarket
import Verif.Model.RoundedOptions
import Verif.Model.RoundedRates
import Verif.Model.RoundedRating
import Verif.Model.Session
import Verif.Model.Sharing
import Verif.Model.Table
import Verif.Model.Text
import Verif.Model.VolArith
import Verif.Model.VolCurve
import Verif.Props.Accrued
import Verif.Props.Applied
import Verif.Props.Applied2
import Verif.Props.Applied3
import Verif.Props.Applied4
import Verif.Props.Applied5
import Verif.Props.Bracket
import Verif.Props.Bumps
import Verif.Props.CashArith
import Verif.Props.Cashflow
import Verif.Props.CashflowTable
import Verif.Props.CdfAccuracy
import Verif.Props.Collars
import Verif.Props.Compounding
import Verif.Props.Containers
import Verif.Props.CreditArith
import Verif.Props.CreditCurve
import Verif.Props.CreditData
import Verif.Props.CreditDivision
import Verif.Props.CreditShape
import Verif.Props.CreditShift
import Verif.Props.Curve
import Verif.Props.CurveArith
import Verif.Props.CurveFit
import Verif.Props.CurveFitZero
import Verif.Props.CurveOrder
import Verif.Props.CurveRecovered
import Verif.Props.Delta
import Verif.Props.Derived
import Verif.Props.DiscountShape
import Verif.Props.Documented
import Verif.Props.FactorArith
import Verif.Props.FairPar
import Verif.Props.FairRate
import Verif.Props.FitSolved
import Verif.Props.FloatRisk
import Verif.Props.Forward
import Verif.Props.ForwardArith
import Verif.Props.Fx
import Verif.Props.FxMap
import Verif.Props.Greeks
import Verif.Props.ImpliedVol
import Verif.Props.InterpShape
import Verif.Props.Interpolation
import Verif.Props.Legs
import Verif.Props.Local
import Verif.Props.MarginalArith
import Verif.Props.Moving
import Verif.Props.NativeDates
import Verif.Props.NormalCdf
import Verif.Props.OptionLists
import Verif.Props.OptionModel
import Verif.Props.OptionShape
import Verif.Props.Options
import Verif.Props.OwnCreditVol
import Verif.Props.OwnFormula
import Verif.Props.OwnInterp
import Verif.Props.OwnMarginal
import Verif.Props.OwnProbability
import Verif.Props.OwnRate
import Verif.Props.OwnRateArith
import Verif.Props.Par
import Verif.Props.ParYield
import Verif.Props.Payoff
import Verif.Props.PayoffDetails
import Verif.Props.PlanForms
import Verif.Props.PlanValue
import Verif.Props.Plans
import Verif.Props.Plot
import Verif.Props.Portfolio
import Verif.Props.PresentValue
import Verif.Props.PriceYield
import Verif.Props.Products
import Verif.Props.RateArith
import Verif.Props.RateCast
import Verif.Props.RateCurve
import Verif.Props.RateDivision
import Verif.Props.RateExtra
import Verif.Props.RateLoops
import Verif.Props.RateShift
import Verif.Props.Rating
import Verif.Props.RatingNames
import Verif.Props.Rebuild
import Verif.Props.Refine
import Verif.Props.Risk
import Verif.Props.RollForward
import Verif.Props.Rounded
import Verif.Props.RoundedBracket
import Verif.Props.RoundedBuckets
import Verif.Props.RoundedCdf
import Verif.Props.RoundedDates
import Verif.Props.RoundedFair
import Verif.Props.RoundedForward
import Verif.Props.RoundedInterp
import Verif.Props.RoundedLegs
import Verif.Props.RoundedMarket
import Verif.Props.RoundedOptions
import Verif.Props.RoundedPrices
import Verif.Props.RoundedRates
import Verif.Props.RoundedRating
import Verif.Props.RoundedScale
import Verif.Props.RoundedShift
import Verif.Props.RoundedValue
import Verif.Props.RoundedVol
import Verif.Props.Session
import Verif.Props.Sharing
import Verif.Props.SwapRisk
import Verif.Props.Table
import Verif.Props.Text
import Verif.Props.VolArith
import Verif.Props.VolCurve
import Verif.Props.VolPeriods
import Verif.Props.VolRisk
import Verif.Props.VolShape
import Verif.Props.VolShift
import Verif.Props.YearFractions
import Verif.Props.Yield
import Verif.Py
import Verif.Spec.Dates
import Verif.Spec.Greeks
import Verif.Spec.Interpolation
import Verif.Spec.Payoffs
import Verif.Spec.Rates
