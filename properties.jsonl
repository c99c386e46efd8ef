{"id": "C01", "title": "Converting a rate to a discount factor and back returns the rate", "statement": "For each compounding convention (simple, continuous, periodic with m periods a year), turning a rate r over t years into a discount factor and then asking for the rate of that factor gives r again. It holds exactly where the conversion succeeds: t is not 0, and 1+r*t is not 0 (simple) or 1+r/m is positive (periodic). For t = 0 or 1+r*t = 0 (simple) the calls raise ZeroDivisionError, for 1+r/m = 0 (periodic, t > 0) ValueError; for periodic compounding with a negative base 1+r/m the round trip can return a different number, which a witness shows.", "quantifier": "all real rates r, all maturities t, all periods m>0", "why_tests_cant": "The set of (r,t,m) is a continuum and includes negative rates and maturities and the singular lines where an error must be raised; sampling cannot rule out a region where the two functions are not inverse.", "anchors": ["dcf/compounding.py:simple_compounding", "dcf/compounding.py:simple_rate", "dcf/compounding.py:continuous_compounding", "dcf/compounding.py:continuous_rate", "dcf/compounding.py:periodic_compounding", "dcf/compounding.py:periodic_rate"]}
{"id": "C02", "title": "Converting a discount factor to a rate and back returns the factor", "statement": "For each compounding convention, the rate computed from a positive discount factor df over t years compounds back to exactly df; a factor of 0 (or a non-positive one for continuous) raises instead.", "quantifier": "all positive discount factors, all non-zero t, all m>0", "why_tests_cant": "Same continuum argument; tests only use the factor 0.5.", "anchors": ["dcf/compounding.py:simple_rate", "dcf/compounding.py:continuous_rate", "dcf/compounding.py:periodic_rate"]}
{"id": "C03", "title": "Discount factors over consecutive periods multiply", "statement": "Continuous and periodic compounding satisfy df(r,s+t)=df(r,s)*df(r,t), are positive, equal 1 for t=0, and (for r>=0) never increase with maturity; simple compounding does not multiply (1/(1+r(s+t)) is at least the product when r*s*t>=0).", "quantifier": "all rates, all maturities s,t", "why_tests_cant": "A universally quantified functional equation over reals.", "anchors": ["dcf/compounding.py:continuous_compounding", "dcf/compounding.py:periodic_compounding", "dcf/compounding.py:simple_compounding"]}
{"id": "C04", "title": "The periodic family is ordered and tends to continuous compounding", "statement": "For r>=0 and t>=0 the discount factor falls when the number of compounding periods rises (annual >= semi-annual >= quarterly >= monthly >= daily), every one of them is at least the continuous factor, and the periodic factor tends to the continuous one as m grows. The five named functions are exactly the periodic function at m=1,2,4,12,365.", "quantifier": "all r>=0, t>=0, all pairs m<=n of positive frequencies, and the limit m to infinity", "why_tests_cant": "A limit and an ordering over all frequencies cannot be established by evaluating finitely many.", "anchors": ["dcf/compounding.py:annually_compounding", "dcf/compounding.py:semi_compounding", "dcf/compounding.py:quarterly_compounding", "dcf/compounding.py:monthly_compounding", "dcf/compounding.py:daily_compounding"]}
{"id": "C05", "title": "Payment plans have the requested number of payments and the requested total", "statement": "same, amortize, bullet, annuity and consumer return n payments; their totals are n*N, N, N, N and N*(1+n*r). Calls that cannot honour this are identified: n=0 (division by zero for amortize, consumer and annuity; bullet returns one payment instead of none) and r=0 for annuity (division by zero although the zero-rate plan is well defined).", "quantifier": "all plan lengths n, all amounts N, all rates r with r not 0 and (1+r)^n not 1", "why_tests_cant": "n and r are unbounded; the geometric sum identity must hold for every n.", "anchors": ["dcf/plans.py:same", "dcf/plans.py:bullet", "dcf/plans.py:amortize", "dcf/plans.py:annuity", "dcf/plans.py:consumer"]}
{"id": "C06", "title": "An annuity pays the same total (principal plus interest) every period and ends at zero", "statement": "For the annuity plan X_1..X_n of amount N at rate r, principal X_i plus interest r*O_i on the outstanding balance O_i (as returned by outstanding) is the same for all i, and after the last payment nothing is left: O_n - X_n = 0.", "quantifier": "all n>=1, all N, all r with (1+r)^n not 1", "why_tests_cant": "Needs induction over the number of payments.", "anchors": ["dcf/plans.py:annuity", "dcf/plans.py:outstanding"]}
{"id": "C07", "title": "outstanding is the running balance of a plan", "statement": "outstanding(plan,N) has as many entries as the plan (one for an empty plan), starts at N, and each following entry is the previous one minus (or, with sign set, plus) the payment made in between; so entry i is N -/+ the sum of the first i payments.", "quantifier": "all plans (lists of any length), all N, both signs", "why_tests_cant": "Lists of every length; requires induction.", "anchors": ["dcf/plans.py:outstanding"]}
{"id": "C08", "title": "A master scale built from names is geometric, increasing and ends at 1", "statement": "master_scale.fromkeys for n>=2 names assigns strictly increasing default probabilities whose consecutive ratios are constant, first equal to the given start value (default 10^-(n-1), so the ratio is 10), last equal to 1. With exactly one name the constructor raises ZeroDivisionError.", "quantifier": "all n, all start values in (0,1)", "why_tests_cant": "All list lengths and a continuum of start values.", "anchors": ["dcf/ratingclass.py:RatingClass.master_scale.fromkeys"]}
{"id": "C09", "title": "Rating weights form a probability vector supported on two neighbouring classes", "statement": "Iterating a rating whose value lies inside its master scale yields one weight per class; all weights lie in [0,1], they add up to exactly 1, and at most two are non-zero, belonging to neighbouring classes that enclose the value. A value outside the scale raises ValueError unless SLOPPY is set. A scale whose smallest and largest rounded value coincide (for instance a single class) raises ZeroDivisionError.", "quantifier": "all master scales of any size, all rating values, after rounding to 7 digits", "why_tests_cant": "Scale size and values are unbounded, and rounding ties could break the exact sum; only a proof covers every tie.", "anchors": ["dcf/ratingclass.py:RatingClass.__iter__"]}
{"id": "C10", "title": "Rating weights reproduce the rating value", "statement": "The weighted average of the (rounded) class values under the returned weights differs from the (rounded) rating value by at most the rounding error: half of 1e-7 times the distance of the two enclosing class values.", "quantifier": "all master scales and values inside the scale", "why_tests_cant": "Continuum of values; an error bound is a universally quantified inequality.", "anchors": ["dcf/ratingclass.py:RatingClass.__iter__"]}
{"id": "C11", "title": "Interpolation reproduces the given points", "statement": "Every interpolation class (no, zero, left, constant, right, nearest, linear, loglinear, loglinearrate, logconstantrate) and every predefined scheme returns y_i when called at x_i, for pairwise different x_i given in any order (log variants need positive y_i).", "quantifier": "all point sets of any size, all nodes, all interpolation classes and schemes", "why_tests_cant": "Index arithmetic in bisect (lo=1, hi=n-1, off-by-one at both ends) must be right for every list length and every node position.", "anchors": ["dcf/interpolation.py:left.__call__", "dcf/interpolation.py:right.__call__", "dcf/interpolation.py:nearest.__call__", "dcf/interpolation.py:linear.__call__", "dcf/interpolation.py:loglinear", "dcf/interpolation.py:loglinearrate", "dcf/interpolation.py:logconstantrate", "dcf/interpolation.py:interpolation_scheme"]}
{"id": "C12", "title": "Piecewise constant interpolations pick the documented neighbour", "statement": "left returns the value of the last node not after x (first node when x is before all), right the value of the first node not before x (last node when x is after all), nearest the value of a node at minimal distance (the left one on ties).", "quantifier": "all sorted node lists, all real x", "why_tests_cant": "Quantifies over all x and all lists; off-by-one errors hide between nodes and beyond the ends.", "anchors": ["dcf/interpolation.py:left", "dcf/interpolation.py:right", "dcf/interpolation.py:nearest", "dcf/interpolation.py:constant"]}
{"id": "C13", "title": "Linear interpolation lies on the chord between the two neighbours", "statement": "For x between two consecutive nodes the linear interpolation equals the chord through them, lies between their two values, and outside the node range continues the first or last chord; the resulting function of x is continuous.", "quantifier": "all node lists of length at least 2 with different x, all real x", "why_tests_cant": "Continuity and chord equations are statements over all reals.", "anchors": ["dcf/interpolation.py:linear.__call__"]}
{"id": "C14", "title": "Linear interpolation is exact for straight-line data and linear in the data", "statement": "If all points lie on one line a+b*x, linear interpolation and extrapolation return a+b*x for every x; and interpolating a pointwise sum (or multiple) of two data sets on the same nodes gives the sum (or multiple) of the interpolations.", "quantifier": "all node lists, all a,b, all x", "why_tests_cant": "Universal over data and evaluation point.", "anchors": ["dcf/interpolation.py:linear.__call__"]}
{"id": "C15", "title": "Extrapolation of the default scheme is flat and inside it agrees with the middle interpolation", "statement": "A scheme (left, mid, right) uses left strictly before the first node, right strictly after the last node and mid otherwise, where for log-rate classes only nodes different from 0 count; hence the default linear scheme returns the first value for every x before the first node and the last value for every x after the last one, is bounded by the smallest and largest given value everywhere and is continuous. Unequal lengths or duplicate points raise AssertionError.", "quantifier": "all point sets, all real x", "why_tests_cant": "Universal over x; boundary cases are exactly where tests are thin.", "anchors": ["dcf/interpolation.py:interpolation_scheme", "dcf/interpolation.py:linear_scheme"]}
{"id": "C16", "title": "Log interpolations stay positive and interpolate logs (or log-rates) linearly", "statement": "loglinear is exp of the linear interpolation of logs, hence positive and a weighted geometric mean of its neighbours; loglinearrate interpolates -log(y)/x linearly, logconstantrate keeps it constant. Any non-positive value raises ValueError at construction. At x=0 the rate versions return the value given for x=0 and None if no value was given for 0.", "quantifier": "all positive data, all x", "why_tests_cant": "Universal over reals and the None-branch depends on whether 0 is a node.", "anchors": ["dcf/interpolation.py:loglinear", "dcf/interpolation.py:loglinearrate", "dcf/interpolation.py:logconstantrate"]}
{"id": "C17", "title": "Updating an interpolation object behaves like updating a finite map", "statement": "After any sequence of additions/overrides and removals of points, the stored points are exactly those of a finite map receiving the same operations, listed in strictly increasing x order.", "quantifier": "all finite sequences of updates (each with pairwise different x) and all starting data", "why_tests_cant": "Sequences are unbounded; needs an invariant and induction.", "anchors": ["dcf/interpolation.py:base_interpolation._update"]}
{"id": "C18", "title": "A curve does not depend on the order in which its points are given", "statement": "Building a curve from any permutation of the same (x,y) points gives the same function (and for date-free curves the same sorted domain).", "quantifier": "all permutations of all point lists with different x", "why_tests_cant": "n! orders for every n.", "anchors": ["dcf/curves/curve.py:Curve.__init__", "dcf/curves/curve.py:Curve._update"]}
{"id": "C19", "title": "Setting a point on a curve behaves like a map update", "statement": "After c[x]=y, c(x) and c[x] are y, all other given points keep their values and the domain gains exactly x; reading c[x] at a point that is not in the domain raises KeyError. This holds along any sequence of assignments.", "quantifier": "all curves (any reproducing interpolation), all sequences of assignments", "why_tests_cant": "Unbounded sequences and arbitrary interleaving of new and existing points.", "anchors": ["dcf/curves/curve.py:Curve.__setitem__", "dcf/curves/curve.py:Curve.__getitem__"]}
{"id": "C20", "title": "Assigning a point does not change what the curve returns elsewhere on its grid when a spread or fixings are active", "statement": "Expected: assigning c[x]=y on a rate curve leaves the values at all other grid points unchanged and makes c(x) equal to y even while a spread curve or fixings are present. The code re-reads its own output when assigning, so the spread is added twice at the other points and the assigned value is returned with the spread on top; with a fixing the fixing is baked into the data.", "quantifier": "all curves with a spread that is non-zero somewhere on the grid, all assignments", "why_tests_cant": "The failure needs the interaction of two features; a universal statement pins down precisely when it occurs.", "anchors": ["dcf/curves/curve.py:Curve.__setitem__", "dcf/curves/curve.py:RateCurve.__call__", "dcf/curves/curve.py:DateCurve.__call__"]}
{"id": "C21", "title": "Sum, difference and multiples of curves are pointwise everywhere", "statement": "For curves with the default linear scheme, (f+g)(x)=f(x)+g(x) and (f-g)(x)=f(x)-g(x) for every real x (not only on grid points, including both extrapolation ranges); for products and quotients equality holds on all grid points of both curves, and dividing by a curve that vanishes on the joint grid raises ZeroDivisionError.", "quantifier": "all curves on any two grids, all real x", "why_tests_cant": "Different grids and all x including extrapolation.", "anchors": ["dcf/curves/curve.py:Curve.__add__", "dcf/curves/curve.py:Curve.__sub__", "dcf/curves/curve.py:Curve.__mul__", "dcf/curves/curve.py:Curve.__div__"]}
{"id": "C22", "title": "shifted(delta) moves a curve along the x axis", "statement": "Expected: shifted(delta) has its points moved by delta with the values kept, so the new curve at x+delta equals the old one at x. The code resamples the old curve at the moved points instead, so the new curve agrees with the old curve at the moved points.", "quantifier": "all curves, all delta", "why_tests_cant": "Whether values or arguments move is only visible for all data at once; on constant data both agree.", "anchors": ["dcf/curves/curve.py:Curve.shifted"]}
{"id": "C23", "title": "Values of a date curve do not depend on its origin", "statement": "For an additive day count and a translation-invariant interpolation (left, right, nearest, linear, default scheme, log-linear scheme) the value of a date curve at any date is independent of the origin used to measure time.", "quantifier": "all origins, all dates, all data", "why_tests_cant": "Universal over origins and dates.", "anchors": ["dcf/curves/curve.py:DateCurve.__init__", "dcf/curves/curve.py:DateCurve.day_count", "dcf/curves/curve.py:DateCurve.__call__"]}
{"id": "C24", "title": "Arithmetic of date curves keeps origin and day count, and division works", "statement": "Expected: the sum, difference and product of date curves keep origin and day count of the left operand and quotients are available. In the code the result falls back to the default day count and to the first grid date as origin, and dividing date curves always raises AttributeError.", "quantifier": "all pairs of date curves", "why_tests_cant": "The always-raises part is a universal statement.", "anchors": ["dcf/curves/curve.py:DateCurve.__add__", "dcf/curves/curve.py:DateCurve.__div__"]}
{"id": "C25", "title": "Copying a date curve by its constructor gives the same curve", "statement": "Expected: DateCurve(c) is a date curve with the same domain and values as c. In the code the domain of the copy is replaced by year fractions and measured against the wrong origin, so for float dates the copy agrees with the original only when the origin is the zero date (in general copy(z-2*origin)=c(z)) and for calendar dates copying raises TypeError.", "quantifier": "all date curves", "why_tests_cant": "Coincides for the common test data starting at 0.", "anchors": ["dcf/curves/curve.py:DateCurve.__init__", "dcf/curves/curve.py:Curve.__init__"]}
{"id": "C26", "title": "Fixings take precedence and are local", "statement": "A date with a fixing returns the fixing; every other date returns exactly what it returned before.", "quantifier": "all curves, all fixings, all dates", "why_tests_cant": "Universal over dates.", "anchors": ["dcf/curves/curve.py:DateCurve.__call__"]}
{"id": "C27", "title": "Forward prices extrapolate at the yield and are continuous at the last date", "statement": "Up to the last date forward prices are interpolated; beyond it the price is the last price grown at the yield: p_T = p_n*exp(y*tau(t_n,T)) for a flat yield, p_n/df(t_n,T) for an interest rate curve; at the last date both rules agree. For a plain yield function g the documented p_n*g(T)/g(t_n) is not what is returned: the code returns p_n*g(t_n)/g(T).", "quantifier": "all curves, yields and dates beyond the last", "why_tests_cant": "Universal over dates and yields.", "anchors": ["dcf/curves/curve.py:ForwardCurve.get_forward_price"]}
{"id": "C28", "title": "Discount factors are 1 over an empty period and multiply over adjacent periods", "statement": "For a zero rate curve with additive day count df(t,t)=1, df(s,t)*df(t,u)=df(s,u), df>0; for a discount factor curve the same follows from the stored factors as long as they are non-zero and the curve is 1 at the origin.", "quantifier": "all curves, all dates s,t,u in any order", "why_tests_cant": "No-arbitrage identity over all date triples.", "anchors": ["dcf/curves/interestratecurve.py:InterestRateCurve.get_discount_factor", "dcf/curves/interestratecurve.py:ZeroRateCurve._get_compounding_rate", "dcf/curves/interestratecurve.py:DiscountFactorCurve._get_compounding_factor"]}
{"id": "C29", "title": "Zero rates and discount factors describe the same curve", "statement": "For every curve class df(s,t)=exp(-z(s,t)*tau(s,t)) for s different from t, and zero rates over a longer period are the time-weighted average of zero rates over its parts.", "quantifier": "all curve classes, all dates", "why_tests_cant": "Four classes with different storage; must hold for all dates.", "anchors": ["dcf/curves/interestratecurve.py:InterestRateCurve.get_zero_rate", "dcf/curves/curve.py:RateCurve._get_compounding_rate", "dcf/curves/curve.py:RateCurve._get_compounding_factor"]}
{"id": "C30", "title": "Results do not depend on object identity of the start date", "statement": "Expected: passing a start date that equals the origin but is a different object gives the same discount factor. True for zero rate curves; for discount factor curves the two code paths agree exactly when the curve is 1 at the origin, and when the origin is not among the given points the call raises TypeError.", "quantifier": "all curves and dates", "why_tests_cant": "Identity versus equality is invisible to tests that reuse the same object.", "anchors": ["dcf/curves/interestratecurve.py:DiscountFactorCurve._get_compounding_factor", "dcf/curves/interestratecurve.py:ZeroRateCurve._get_compounding_rate"]}
{"id": "C31", "title": "Cash rates and discount factors satisfy the deposit identity", "statement": "For zero rate, discount factor and short rate curves 1 + f(s,t)*tau(s,t) = 1/df(s,t) for every period with non-zero length, given stop, step or the default tenor; if stop and step contradict each other AssertionError is raised.", "quantifier": "all curves, all periods", "why_tests_cant": "Universal over periods.", "anchors": ["dcf/curves/interestratecurve.py:InterestRateCurve.get_cash_rate"]}
{"id": "C32", "title": "Short rate integration walks the period in daily steps", "statement": "The zero rate of a short rate curve from s to t is the average of the daily left-endpoint rates weighted by day count; with additive day count it is additive for splits on the step grid; a flat curve returns its rate; the loop terminates.", "quantifier": "all dates s<t, all curves", "why_tests_cant": "Unbounded loops.", "anchors": ["dcf/curves/interestratecurve.py:ShortRateCurve._get_compounding_rate"]}
{"id": "C33", "title": "The short rate of any interest rate curve is defined for every date", "statement": "Expected: get_short_rate returns a number for every date on every non-empty curve. True when the grid has at least two dates (one day or more apart); with a single grid date the method calls itself forever.", "quantifier": "all curves, all dates", "why_tests_cant": "Non-termination is a statement about all recursion depths.", "anchors": ["dcf/curves/interestratecurve.py:InterestRateCurve._get_short_rate"]}
{"id": "C34", "title": "A cash rate curve can quote the cash rate of any period", "statement": "Expected: CashRateCurve.get_cash_rate(start, stop) returns the rate implied by discount factors also when stop is not start plus the curve tenor. In the code exactly these calls recurse forever.", "quantifier": "all cash rate curves, all periods different from the curve tenor", "why_tests_cant": "Non-termination for all inputs.", "anchors": ["dcf/curves/interestratecurve.py:CashRateCurve._get_cash_rate"]}
{"id": "C35", "title": "The swap annuity is the accrual-weighted sum of discount factors", "statement": "Expected: get_swap_annuity(t_0..t_n) is the sum of df(t_i)*tau(t_(i-1),t_i). In the code every period is paired with itself so the annuity is 0 for every date list.", "quantifier": "all curves, all date lists", "why_tests_cant": "Universal: it is zero for every input.", "anchors": ["dcf/curves/interestratecurve.py:InterestRateCurve.get_swap_annuity"]}
{"id": "C36", "title": "Casting a zero rate curve to discount factors loses nothing", "statement": "The discount factor curve built from a zero rate curve returns the same discount factor as the zero rate curve for every date from the first positive grid point on, not only on grid points.", "quantifier": "all zero rate curves (linear scheme), all dates in range", "why_tests_cant": "Agreement between grid points is an identity between two different interpolations.", "anchors": ["dcf/curves/interestratecurve.py:DiscountFactorCurve.__init__", "dcf/curves/interestratecurve.py:DiscountFactorCurve._get_storage_value", "dcf/interpolation.py:loglinearrate"]}
{"id": "C37", "title": "Casting there and back returns the same values on the grid", "statement": "Zero -> discount factor -> zero and discount factor -> zero -> discount factor return the original value at every grid date after the origin.", "quantifier": "all curves, all grid dates", "why_tests_cant": "Universal over data.", "anchors": ["dcf/curves/interestratecurve.py:ZeroRateCurve._get_storage_value", "dcf/curves/interestratecurve.py:DiscountFactorCurve._get_storage_value", "dcf/curves/curve.py:RateCurve.__init__"]}
{"id": "C38", "title": "Survival and default probabilities are complementary probabilities", "statement": "A curve of (marginal) default probabilities answers like the curve of one minus these survival probabilities. Survival over [t,t] is 1; for non-negative hazard rates, marginal probabilities in (0,1] and non-increasing survival probabilities the survival probability lies in (0,1] and never increases with the end date; for flat intensities exactly if the cumulated intensity never decreases.", "quantifier": "all curves of all six classes, all dates", "why_tests_cant": "Universal over dates.", "anchors": ["dcf/curves/creditcurve.py:CreditCurve", "dcf/curves/creditcurve.py:FlatIntensityCurve", "dcf/curves/creditcurve.py:HazardRateCurve", "dcf/curves/creditcurve.py:SurvivalProbabilityCurve", "dcf/curves/creditcurve.py:MarginalSurvivalProbabilityCurve"]}
{"id": "C39", "title": "The flat intensity over an empty period is defined", "statement": "Expected: get_flat_intensity(d,d) returns the instantaneous intensity. For FlatIntensityCurve the call raises AttributeError for every d different from the origin.", "quantifier": "all flat intensity curves, all dates other than origin", "why_tests_cant": "Tests only hit the origin.", "anchors": ["dcf/curves/creditcurve.py:FlatIntensityCurve._get_compounding_rate"]}
{"id": "C40", "title": "Probability inputs are clamped into the unit interval", "statement": "Probability curves accept any numbers and store values in [float_info.min,1]; default probability curves store the clamped complement; marginal curves return values in that interval for every date, and survival probabilities from the origin to a later date are in (0,1].", "quantifier": "all data, all dates", "why_tests_cant": "Universal over data including out-of-range inputs.", "anchors": ["dcf/curves/creditcurve.py:ProbabilityCurve.__init__", "dcf/curves/creditcurve.py:DefaultProbabilityCurve.__init__"]}
{"id": "C41", "title": "FX spot rates in a container are free of triangular arbitrage", "statement": "After adding any sequence of distinct currencies, rates between any two different currencies (and of the base currency with itself) are present, the direct rates are the given spots, rate(a,b)*rate(b,a)=1 and rate(a,b)*rate(b,c)=rate(a,c).", "quantifier": "all sequences of add with distinct currencies and positive spots", "why_tests_cant": "All histories; cross rates grow quadratically.", "anchors": ["dcf/curves/fx.py:FxContainer.add"]}
{"id": "C42", "title": "Re-adding a currency updates all its cross rates", "statement": "Expected: adding a currency again with a new spot updates every cross rate. In the code the direct rate and its inverse change but cross rates to other currencies keep the old spot, so triangular arbitrage appears whenever a spot is updated while a third currency is present.", "quantifier": "all histories containing a re-add with a changed spot", "why_tests_cant": "Stateful: needs the right history.", "anchors": ["dcf/curves/fx.py:FxContainer.add"]}
{"id": "C43", "title": "FX forwards satisfy covered interest parity in both directions", "statement": "The FX forward beyond the last date is spot*df_domestic/df_foreign (between the last date and the value date). Expected: the inverse pair in a container is the reciprocal forward. In the code the pair (foreign, base) of a container ends up with the foreign curve on both sides, so its forward is flat.", "quantifier": "all spots, curves, dates", "why_tests_cant": "Stateful aliasing of curve attributes.", "anchors": ["dcf/curves/fx.py:FxForwardCurve.get_forward_price", "dcf/curves/fx.py:FxContainer.add"]}
{"id": "C44", "title": "Forward variances add up", "statement": "For terminal volatility curves sigma(s,t)^2*tau(s,t)+sigma(t,u)^2*tau(t,u)=sigma(s,u)^2*tau(s,u) for origin<=s<t<u whenever all three are defined (no floor applied).", "quantifier": "all curves and dates", "why_tests_cant": "Identity over date triples.", "anchors": ["dcf/curves/volatilitycurve.py:TerminalVolatilityCurve._get_terminal_vol"]}
{"id": "C45", "title": "Terminal volatilities are real: negative forward variance is either rejected or floored", "statement": "If the forward variance over a period is negative the call raises ZeroDivisionError when no floor is set and otherwise returns the floor; if it is non-negative the result is non-negative (and at least the floor). In the code this holds for periods that do not start at the origin; from the origin the stored value is returned, even if negative or below the floor.", "quantifier": "all curves and periods, with and without floor", "why_tests_cant": "Branch logic over a continuum.", "anchors": ["dcf/curves/volatilitycurve.py:TerminalVolatilityCurve._get_terminal_vol"]}
{"id": "C46", "title": "A cashflow list is a map from date to amount", "statement": "Looking up a pay date returns its amount, any other date 0; unequal lengths raise ValueError. Expected: total of all looked-up flows over the domain equals the total of given amounts. True for distinct dates; with a repeated pay date the last amount is counted once per repetition.", "quantifier": "all date and amount lists", "why_tests_cant": "Lists of all lengths with arbitrary repetitions.", "anchors": ["dcf/cashflows/cashflow.py:CashFlowList"]}
{"id": "C47", "title": "A leg list is the sum of its legs", "statement": "The domain of a leg list is the sorted set of all leg dates, its flow at a date is the sum of the leg flows at that date, and its present value is the sum of the leg present values and also the discounted sum of its own flows.", "quantifier": "all lists of legs", "why_tests_cant": "Any number of legs and dates.", "anchors": ["dcf/cashflows/cashflow.py:CashFlowLegList", "dcf/pricer.py:get_present_value"]}
{"id": "C48", "title": "Accrual periods tile the life of a rate leg", "statement": "With an origin, the accrual periods of a rate cashflow list are consecutive: first starts at origin, each next starts where the previous ended, last ends at the last pay date (all minus the pay offset), hence year fractions add up to that of the whole period. Without origin the first period has the length of the second; with one date and no origin the period is empty and the flow is 0; with no date and no origin construction fails.", "quantifier": "all pay date lists, all origins, all offsets", "why_tests_cant": "Lists of all lengths and the branch structure for origin.", "anchors": ["dcf/cashflows/cashflow.py:RateCashFlowList"]}
{"id": "C49", "title": "Contingent rate legs use the same accrual periods as plain rate legs", "statement": "Expected: for equal dates, amounts, origin and offsets a contingent rate list has the same periods as a rate list. True for every origin except the falsy origin 0 (or 0.0): there all periods collapse and every cashflow is 0.", "quantifier": "all inputs", "why_tests_cant": "Only visible at origin 0.", "anchors": ["dcf/cashflows/contingent.py:ContingentRateCashFlowList", "dcf/cashflows/cashflow.py:RateCashFlowList"]}
{"id": "C50", "title": "Rate cashflows are affine in the fixed rate and follow the documented formula", "statement": "Each rate flow is (forward + fixed)*tau(start,end)*amount with the forward taken at start minus fixing offset; setting fixed_rate sets it on all flows; reading it returns the common rate, or None if rates differ.", "quantifier": "all flows, curves and rates", "why_tests_cant": "Universal over rates and forward curve types.", "anchors": ["dcf/cashflows/payoffs.py:RateCashFlowPayOff", "dcf/cashflows/cashflow.py:RateCashFlowList.fixed_rate"]}
{"id": "C51", "title": "A collared rate flow with intrinsic values is the clamped rate", "statement": "With intrinsic option values, floor K<=cap L: flow = (max(K,min(f,L))+c)*tau*N. For K>L the documented formula is not what is returned.", "quantifier": "all forwards, strikes, rates", "why_tests_cant": "Continuum and the K>L region.", "anchors": ["dcf/cashflows/payoffs.py:ContingentRateCashFlowPayOff"]}
{"id": "C52", "title": "Option strategies are the sum of their options, in any order", "statement": "The value of an option strategy equals the sum of its single call and put values, independent of the order in which strikes are given; surplus amounts or strikes are ignored.", "quantifier": "all lists of options", "why_tests_cant": "All orders and lengths.", "anchors": ["dcf/cashflows/payoffs.py:OptionStrategyCashFlowPayOff"]}
{"id": "C53", "title": "Put-call parity holds for every model", "statement": "For every option model get_put_value - get_call_value = strike - forward for all dates, strikes and vols including zero vol or zero time; the same for deltas.", "quantifier": "all models given by an arbitrary call price formula, all inputs", "why_tests_cant": "Must hold for arbitrary formula and all inputs.", "anchors": ["dcf/models/optionpricing.py:OptionPayOffModel.get_put_value", "dcf/models/optionpricing.py:OptionPayOffModel.get_put_delta"]}
{"id": "C54", "title": "Present value is linear in cashflows and only counts flows from the valuation date on", "statement": "PV is the sum over pay dates t>=valuation date of df(valuation date,t)*flow(t); it is additive and homogeneous in amounts; flows before the valuation date have no effect, a flow on the valuation date counts fully.  A curve that is no rate curve (credit, volatility) is refused with AttributeError as soon as there is a flow to discount.", "quantifier": "all cashflow lists, curves, valuation dates", "why_tests_cant": "All lists and dates, including exact boundary.", "anchors": ["dcf/pricer.py:get_present_value"]}
{"id": "C55", "title": "Pricing leaves no trace in the payoff model", "statement": "get_present_value evaluates option flows with the model valuation date set to the given valuation date and restores the previous one; expected also when an evaluation fails - in the code a failing flow leaves the model at the new date.", "quantifier": "all models and lists", "why_tests_cant": "State after success and after every possible failure point.", "anchors": ["dcf/pricer.py:get_present_value"]}
{"id": "C56", "title": "Bracketing returns a point next to a root or refuses", "statement": "The root search raises AssertionError exactly when the function values at the two bounds have the same strict sign; otherwise, if it returns m, m is the midpoint of a sub-interval of the bounds of the documented final size, whose end values still enclose 0 and differ by less than the precision; for a continuous function there is a true root within the precision of m.", "quantifier": "all functions, all bounds, all precisions", "why_tests_cant": "Quantifies over functions.", "anchors": ["dcf/pricer.py:_simple_bracketing"]}
{"id": "C57", "title": "Bracketing terminates for continuous functions", "statement": "For every continuous function, bounds that enclose a sign change and positive precision the search stops; the number of halvings is bounded by log2 of interval length (and Lipschitz constant times length) over the precision. For functions with a jump at the sign change larger than the precision (or a precision of 0) it always ends in RecursionError, whatever the recursion limit is.", "quantifier": "all continuous functions", "why_tests_cant": "Termination for all functions.", "anchors": ["dcf/pricer.py:_simple_bracketing"]}
{"id": "C58", "title": "The yield to maturity reprices the cashflows", "statement": "Discounting at the returned yield reproduces the given present value up to the stated precision: a yield with exactly that present value lies within half the precision of the returned one, for non-negative flows the present value at the returned yield misses the given one by less than the precision and the yield is unique; AssertionError is raised exactly when the present values at both bounds lie on the same side; the product is not changed.", "quantifier": "all fixed cashflow lists, present values, bounds", "why_tests_cant": "Existence of a root near the answer, for all inputs.", "anchors": ["dcf/pricer.py:get_yield_to_maturity"]}
{"id": "C59", "title": "The fair rate makes the present value equal to the target and does not change the product", "statement": "After get_fair_rate returns, setting the fixed rate to the returned value gives the requested present value within the precision, and the product has its previous fixed rate. The latter is expected always; in the code it fails when the list has flows with different fixed rates (all rates become None) and when the search fails.", "quantifier": "all rate lists, curves, targets", "why_tests_cant": "State after all runs.", "anchors": ["dcf/pricer.py:get_fair_rate"]}
{"id": "C60", "title": "Accrued interest grows linearly from zero to the full coupon", "statement": "For a rate leg without pay offset the accrued interest at date t inside a period is the coupon times the elapsed fraction of the period, lies between 0 and the coupon, is 0 at period start and the whole coupon at the pay date; with a pay offset it exceeds the coupon between period end and pay date.", "quantifier": "all legs and dates", "why_tests_cant": "Universal over dates.", "anchors": ["dcf/pricer.py:get_interest_accrued"]}
{"id": "C61", "title": "Basis point value leaves the curves as they were", "statement": "On success get_basis_point_value resets the spread of every given curve to none and returns the difference of the present value under a parallel shift scaled to one basis point. Expected: curves keep a pre-existing spread and failures leave no shift behind. In the code a pre-existing spread (or the same curve given twice) raises TypeError and leaves earlier curves in the list shifted.", "quantifier": "all lists of curves, all products", "why_tests_cant": "Heap effects with aliasing.", "anchors": ["dcf/pricer.py:get_basis_point_value", "dcf/curves/curve.py:RateCurve.spread"]}
{"id": "C62", "title": "Bucket shifts add up to the parallel shift", "statement": "The bucket shift curves used by get_bucketed_delta over any increasing grid of at least two dates add up to the parallel shift at every date, each is non-negative, bounded by the shift and equals it exactly at its own grid date and 0 at the others.", "quantifier": "all increasing grids, all dates including outside the grid", "why_tests_cant": "Partition of unity over all reals.", "anchors": ["dcf/pricer.py:get_bucketed_delta"]}
{"id": "C63", "title": "Bucketed deltas add up to the basis point value for linear products", "statement": "If the present value depends affinely on the spreads of the delta curve, or is a sum of flows each reacting to the spread at its own date and all these dates are on or outside the grid, then the bucketed deltas add up to the basis point value, and all curves are left as they were. Positive flows discounted with a zero rate curve and paid between grid dates give bucketed deltas adding up to strictly less than the basis point value.", "quantifier": "all increasing grids, curves and products", "why_tests_cant": "All grids.", "anchors": ["dcf/pricer.py:get_bucketed_delta", "dcf/pricer.py:get_basis_point_value"]}
{"id": "C64", "title": "Curve fitting reprices all products", "statement": "Expected: if get_curve_fit returns, a curve with the returned values reprices every product within the precision, and the fitted curve is as before in any case; with enough recursion depth it returns whenever the prices can be reached. In the code only the sum of the differences over all products maturing by each grid date is within the precision, so a product alone between two grid dates is met within twice the precision, and products sharing a date may all be missed. A grid date before all maturities is silently sent to the lower bound. If a step fails the spread stays attached and every later fit raises TypeError. A DiscountFactorCurve can never be fitted: the first step raises ValueError.", "quantifier": "all grids, products, prices, bounds and precisions; all rate curves with linear or constant interpolation", "why_tests_cant": "State carried over unbounded loops and a root search per grid date.", "anchors": ["dcf/pricer.py:get_curve_fit"]}
{"id": "C65", "title": "Interest payment dates can be generated for year-fraction dates", "statement": "Expected: with numeric start, end and period the product builders return a schedule. In the code the schedule loop never ends when at least one full period fits, and raises TypeError otherwise; so bond and swap builders never return for numeric dates.", "quantifier": "all numeric start, end and positive period", "why_tests_cant": "Non-termination for all inputs.", "anchors": ["dcf/cashflows/products.py:_interest_payment_dates", "dcf/cashflows/products.py:bond", "dcf/cashflows/products.py:interest_rate_swap"]}
{"id": "C66", "title": "Bond notionals are exchanged in full", "statement": "Given a schedule, a bond pays its notional at the start and redeems exactly that in total; interest is paid on the outstanding amount, so all flows add up to the interest; without redemption plan the whole notional is redeemed at the end, as with a plan of one redemption at the last date; a plan of other length than the schedule raises ValueError.", "quantifier": "all schedules of distinct dates other than the start, amounts and redemption plans", "why_tests_cant": "Lists of all lengths.", "anchors": ["dcf/cashflows/products.py:bond"]}
{"id": "C67", "title": "Asset swaps can be built", "statement": "Expected: asset_swap returns a leg list. In the code multiplying a leg by -1 raises TypeError for every input.", "quantifier": "all inputs", "why_tests_cant": "Always-raises is universal.", "anchors": ["dcf/cashflows/products.py:asset_swap", "dcf/cashflows/cashflow.py:CashFlowList.__mul__"]}
{"id": "C68", "title": "Displaced log-normal with zero displacement is the log-normal model, and every model price depends on forward and strike as documented", "statement": "Displaced prices and greeks equal Black-76 ones at shifted forward and strike, and for displacement 0 coincide with Black-76.", "quantifier": "all inputs", "why_tests_cant": "Universal.", "anchors": ["dcf/models/displaced.py:DisplacedLogNormalOptionPayOffModel", "dcf/models/black76.py:LogNormalOptionPayOffModel"]}
{"id": "C69", "title": "Greeks are derivatives of the price", "statement": "With an exact normal distribution function the delta, gamma and vega formulas of each model are the partial derivatives of its call price. True for the normal model, for the delta of the binary normal and log-normal (also displaced) model and for intrinsic models off the strike; the log-normal vega and the binary log-normal delta are right only at the money, the binary normal gamma and the binary log-normal vega have the wrong sign, the binary normal vega is right at one point only, log-normal gammas are missing.", "quantifier": "all positive forwards, strikes, vols, times", "why_tests_cant": "Derivatives are limits.", "anchors": ["dcf/models/bachelier.py", "dcf/models/black76.py", "dcf/models/intrinsic.py"]}
{"id": "C70", "title": "The normal distribution approximation is a distribution function", "statement": "normal_cdf takes values strictly between 0 and 1, satisfies cdf(x)+cdf(-x)=1 for x not 0 and exceeds 1/2 slightly at 0. Expected: option values are non-negative; with this approximation normal-model calls beyond a threshold between 8 and 9 standard deviations out of the money get negative values.", "quantifier": "all real x", "why_tests_cant": "Inequalities over all reals.", "anchors": ["dcf/models/distibutions.py:normal_cdf", "dcf/models/bachelier.py:NormalOptionPayOffModel._call_price"]}
{"id": "C71", "title": "Numerical greeks use the model's own time", "statement": "Expected: gamma, vega and theta at a date depend on the date only through the time to expiry. In the code gamma and theta formulas and the vega bump receive the date itself in place of the time, so they are correct only if date and time coincide.", "quantifier": "all dates and valuation dates", "why_tests_cant": "Coincides when the valuation date is 0, as in the tests.", "anchors": ["dcf/models/optionpricing.py:OptionPayOffModel.get_call_gamma", "dcf/models/optionpricing.py:OptionPayOffModel.get_call_vega", "dcf/models/optionpricing.py:OptionPayOffModel.get_call_theta"]}
{"id": "C72", "title": "The default day count is additive and orders dates", "statement": "day_count(a,b)+day_count(b,c)=day_count(a,c), day_count(a,a)=0 and day_count(a,b)>0 exactly when b is after a, both for year-fraction dates and for calendar dates given as day numbers.", "quantifier": "all dates", "why_tests_cant": "Universal; every other additivity result rests on it.", "anchors": ["dcf/daycount.py:day_count"]}
{"id": "C73", "title": "Building an interpolation from a dictionary equals building it from its points", "statement": "Expected: from_dict(xy) gives the same function as the class called with keys and values. True for the non-log classes; the log classes consume the values while checking them and end up without any point, so each call away from 0 raises OverflowError.", "quantifier": "all dictionaries of points, all classes", "why_tests_cant": "Quantifies over all dictionaries; the tests do not use from_dict on log classes.", "anchors": ["dcf/interpolation.py:base_interpolation.from_dict", "dcf/interpolation.py:loglinear.__init__"]}
{"id": "C74", "title": "Forward prices do not depend on the order in which the points are given", "statement": "Expected: a forward curve, like every other curve, may be given its points in any order. The code takes the date given last as the end of the curve, so prices between that date and the actual last date are extrapolated instead of interpolated; the order is irrelevant only as long as the date given last stays the same.", "quantifier": "all permutations of all point lists, all dates", "why_tests_cant": "Quantifies over permutations; tests pass sorted lists only.", "anchors": ["dcf/curves/curve.py:ForwardCurve.get_forward_price"]}
{"id": "C75", "title": "A date curve with an own day count can be resampled and shifted", "statement": "Expected: resampling a date curve on another grid (or shifting it) keeps its day count. True for the default day count and registered names; a day count function is replaced by its name, so for every curve with an own unregistered day count function resampling on any non-empty grid and shifting raise TypeError.", "quantifier": "all date curves, all day counts, all grids", "why_tests_cant": "The always-raises part is universal; tests use the default day count.", "anchors": ["dcf/curves/curve.py:DateCurve.__init__", "dcf/curves/curve.py:Curve.kwargs", "dcf/curves/curve.py:Curve.shifted"]}
{"id": "C76", "title": "Whole numbers are accepted as flat yield of a forward curve", "statement": "Expected: yield_curve=0 or 1 behaves like 0.0 or 1.0. In the code an integer yield is kept as it is and called as a function, so every price beyond the last date raises TypeError, while prices up to the last date agree.", "quantifier": "all forward curves, all integers, all dates", "why_tests_cant": "Universal over dates; tests pass floats.", "anchors": ["dcf/curves/curve.py:ForwardCurve.__init__", "dcf/curves/curve.py:ForwardCurve.get_forward_price"]}
{"id": "C77", "title": "Domain and data of different length are rejected", "statement": "Building a plain, date, interest rate or credit curve from lists of different length raises ValueError, whatever the other arguments.", "quantifier": "all lists of different length, all other arguments", "why_tests_cant": "Universal over lengths.", "anchors": ["dcf/curves/curve.py:Curve.__init__", "dcf/curves/creditcurve.py:ProbabilityCurve.__init__"]}
{"id": "C78", "title": "Casting flat intensities to survival probabilities loses nothing", "statement": "The survival or default probability curve built from a flat intensity curve returns the same survival probability for every date from the day after the origin on, not only on grid points.", "quantifier": "all flat intensity curves (linear scheme), all dates in range", "why_tests_cant": "Agreement between grid points is an identity between two different interpolations.", "anchors": ["dcf/curves/creditcurve.py:ProbabilityCurve.__init__", "dcf/curves/creditcurve.py:SurvivalProbabilityCurve._get_storage_value"]}
{"id": "C79", "title": "FX forwards of a container are free of arbitrage", "statement": "Expected: with the documented meaning of a spot (N in EUR * spot = N in USD for base currency USD) the forward rate of a container satisfies forward * df_base = spot * df_foreign. In the code the forward is spot * df_base / df_foreign, so this holds only where both discount factors agree; the number is free of arbitrage when the rate is read the other way round.", "quantifier": "all histories, curves and dates", "why_tests_cant": "A convention clash between two modules: each looks right by itself.", "anchors": ["dcf/curves/fx.py:FxForwardCurve.get_forward_price", "dcf/curves/fx.py:FxContainer.add"]}
{"id": "C80", "title": "The terminal volatility of an instantaneous volatility curve carries the integrated variance", "statement": "Expected: sigma(s,t)^2*tau(s,t) is the integral of the squared instantaneous volatility over the period. The code returns the mean of the volatility itself, so the terminal variance is strictly too small on every period on which the volatility is not constant.", "quantifier": "all continuous instantaneous volatility curves, all periods", "why_tests_cant": "An integral identity; on flat test curves both agree.", "anchors": ["dcf/curves/volatilitycurve.py:InstantaneousVolatilityCurve.get_terminal_vol"]}
{"id": "C81", "title": "Casting to a terminal volatility curve keeps terminal volatilities", "statement": "TerminalVolatilityCurve(curve) has the same origin and day count, its grid is the grid of the curve plus the day after the origin and ten years after the last date, and on that grid get_terminal_vol from the origin returns what the curve returns.", "quantifier": "all volatility curves, both classes", "why_tests_cant": "Composition over all grids.", "anchors": ["dcf/curves/volatilitycurve.py:TerminalVolatilityCurve.__init__", "dcf/curves/volatilitycurve.py:TerminalVolatilityCurve._get_storage_value", "dcf/curves/curve.py:RateCurve.__init__"]}
{"id": "C82", "title": "The mean of a curve over a period does not depend on whether scipy is installed", "statement": "Expected: DateCurve.integrate gives (up to quadrature) the same value with and without scipy. In the code the scipy branch ignores spread (and fixings) while the other one includes them; and without scipy every curve with float dates raises TypeError.", "quantifier": "all flat curves with flat spread, all periods; all curves with float dates", "why_tests_cant": "Two environments, never compared by one test run.", "anchors": ["dcf/curves/curve.py:DateCurve.integrate"]}
{"id": "C83", "title": "A flat forward of zero is a forward of zero", "statement": "Expected: an option model whose forward curve is the number 0.0 values options on a forward of 0, like any other number. In the code the number 0.0 is treated as 'no forward curve': every call and put value raises TypeError and every collared rate flow KeyError, while the plain rate flow with the same model works. All other numbers work.", "quantifier": "all models, dates, strikes", "why_tests_cant": "One point of a continuum of forwards, for every model and strike.", "anchors": ["dcf/models/optionpricing.py:OptionPayOffModel.details", "dcf/cashflows/payoffs.py:ContingentRateCashFlowPayOff.details"]}
{"id": "C84", "title": "Binary options pay one unit or nothing", "statement": "Expected: binary call values lie between 0 and 1 and binary put = 1 - binary call. In the code, without volatility or at expiry every binary model returns max(F-K,0), and the put is K-F plus the call; with volatility and time the intrinsic binary call is 0 or 1.", "quantifier": "all binary models, forwards and strikes", "why_tests_cant": "Universal over models and market data.", "anchors": ["dcf/models/optionpricing.py:OptionPayOffModel.get_put_value", "dcf/models/optionpricing.py:OptionPayOffModel.get_call_value", "dcf/models/intrinsic.py:BinaryIntrinsicOptionPayOffModel"]}
{"id": "C85", "title": "Amount lists of rate legs must fit the pay dates", "statement": "Expected: a rate cashflow list whose amount list has another length than the pay dates raises ValueError. True for shorter lists; from longer lists the surplus amounts are dropped silently.", "quantifier": "all dates and amounts", "why_tests_cant": "All pairs of lengths.", "anchors": ["dcf/cashflows/cashflow.py:RateCashFlowList"]}
{"id": "C86", "title": "The pay offset moves the accrual end dates only", "statement": "Expected (as documented): the offset is between accrual end date and pay date, so the first accrual period starts at the given origin. In the code origin is moved by the pay offset, too.", "quantifier": "all origins, dates and offsets", "why_tests_cant": "Universal over offsets.", "anchors": ["dcf/cashflows/cashflow.py:RateCashFlowList"]}
{"id": "C87", "title": "Calling a cashflow list evaluates it", "statement": "Expected: calling a cashflow list gives a plain cashflow list with the same dates, origin and flows (evaluated with the given model or curve if there is one). True for flat lists; calling a leg list gives the same dates with all flows 0.", "quantifier": "all lists, models and dates", "why_tests_cant": "All lists; the leg list case is inherited code.", "anchors": ["dcf/cashflows/cashflow.py:CashFlowList.__call__", "dcf/cashflows/cashflow.py:CashFlowLegList"]}
{"id": "C89", "title": "Default arguments of contingent lists give lists", "statement": "Expected: contingent and option lists can be built from any pay dates with their default arguments. In the code the default payoff list fits exactly one pay date and the default strikes none: ValueError in all other cases. With strikes of the right length option lists exist.", "quantifier": "all pay date lists", "why_tests_cant": "All lengths.", "anchors": ["dcf/cashflows/contingent.py:ContingentCashFlowList", "dcf/cashflows/contingent.py:OptionCashflowList"]}
{"id": "C90", "title": "A fixed copy of a cashflow list has the same flows", "statement": "FixedCashFlowList(cf) has the dates, origin and flows (at every date) of the list cf, flat or of legs, and no longer depends on models and curves. Expected: an explicit origin replaces that of cf; true unless the explicit origin is 0, which is ignored.", "quantifier": "all lists, dates and later models", "why_tests_cant": "All lists including nested leg lists.", "anchors": ["dcf/cashflows/cashflow.py:FixedCashFlowList"]}
{"id": "C91", "title": "A spread is set, removed and set again", "statement": "On a rate curve without spread any spread curve can be set and is added to every value from then on; while one is set another one is rejected with TypeError and nothing changes; setting None restores the curve as it was.", "quantifier": "all rate curves, spreads and dates", "why_tests_cant": "Sequences of assignments on all curves.", "anchors": ["dcf/curves/curve.py:RateCurve.spread"]}
{"id": "C92", "title": "The hazard rate of any credit curve is defined for every date", "statement": "Expected: get_hazard_rate returns the flat intensity between the neighbouring grid dates for every date, continued flat outside the grid (stored value on hazard rate curves). True when the grid has at least two dates a day apart; with a single grid date the method calls itself forever (survival, default probabilities, flat intensities). Marginal probabilities use the day after the last date instead.", "quantifier": "all credit curves and dates", "why_tests_cant": "All dates and grids; infinite recursion.", "anchors": ["dcf/curves/creditcurve.py:CreditCurve._get_hazard_rate", "dcf/curves/creditcurve.py:MarginalSurvivalProbabilityCurve._get_hazard_rate"]}
{"id": "C93", "title": "A cast curve has the requested origin", "statement": "Expected: casting a curve with an explicit origin gives a curve with this origin and without one the origin is kept. True except for the falsy origin 0 (or 0.0): an explicit 0 is dropped in favour of the curve's own origin.", "quantifier": "all curves, classes and origins", "why_tests_cant": "Only visible at origin 0.", "anchors": ["dcf/curves/curve.py:RateCurve.__init__", "dcf/curves/interestratecurve.py:DiscountFactorCurve.__init__", "dcf/curves/interestratecurve.py:CashRateCurve.__init__", "dcf/curves/creditcurve.py:CreditCurve.__init__"]}
{"id": "C94", "title": "The grid of a cash rate cast", "statement": "Casting a curve to a cash rate curve gives as grid the dates of the curve together with all dates obtained from them by repeatedly going back by the tenor while after the origin, strictly increasing.", "quantifier": "all curves, tenors and origins", "why_tests_cant": "A loop over all dates.", "anchors": ["dcf/curves/interestratecurve.py:CashRateCurve.__init__"]}
{"id": "C95", "title": "The rate over an empty period is that of the next day", "statement": "For zero rate and discount factor curves and credit curves of probabilities the rate from s to s is the rate from s to the next day, except at the origin (stored zero rate; rate to the next grid date); for short, cash and hazard rate curves it is the stored value. For flat intensities see C39.", "quantifier": "all curves and dates", "why_tests_cant": "All dates.", "anchors": ["dcf/curves/interestratecurve.py:ZeroRateCurve._get_compounding_rate", "dcf/curves/interestratecurve.py:DiscountFactorCurve._get_compounding_rate", "dcf/curves/curve.py:RateCurve._get_compounding_rate"]}
{"id": "C96", "title": "Casting to cash rates uses the requested tenor", "statement": "Expected: CashRateCurve(curve, forward_tenor=p) returns at its grid dates the cash rates of the curve over p. In the code it stores the cash rates over the tenor of the curve and returns them as rates over p; right only if both tenors agree.", "quantifier": "all curves, tenors and grid dates", "why_tests_cant": "All curves and tenors.", "anchors": ["dcf/curves/interestratecurve.py:CashRateCurve._get_storage_value", "dcf/curves/interestratecurve.py:CashRateCurve.__init__"]}
{"id": "C97", "title": "A cast keeps day count and tenor", "statement": "Expected: arguments not given are taken from the curve that is cast. True for a registered or default day count and for the tenor of cash rate curves; every other cast resets the tenor to the class default, also for marginal probabilities whose data depend on it.", "quantifier": "all curves and classes", "why_tests_cant": "All classes.", "anchors": ["dcf/curves/curve.py:RateCurve.__init__"]}
{"id": "C98", "title": "Closed formulas as documented", "statement": "Prices and greeks of the models are the formulas in the class documentation: all of the normal model; price, delta, vega of the binary normal model; price and delta of the log-normal model; price and vega of the binary log-normal one; intrinsic values. Not: binary normal gamma (off by the time), log-normal vega (off by forward/strike), binary log-normal delta (off by the forward), log-normal gammas (missing), binary intrinsic price at the strike (0, documented 1).", "quantifier": "all times, strikes, forwards, volatilities", "why_tests_cant": "Equality of functions.", "anchors": ["dcf/models/bachelier.py", "dcf/models/black76.py", "dcf/models/intrinsic.py", "dcf/models/displaced.py"]}
{"id": "C99", "title": "Bumped greeks are derivatives up to the bump", "statement": "For a differentiable price formula a bumped delta (gamma, vega) is the scale times the first (second, first) derivative of the price at a point within the bump; formula greeks are scaled by the same constants; greeks of options without time or volatility are those of the payoff. Not for theta: it is the derivative in time times the scale squared.", "quantifier": "all differentiable price formulas and inputs", "why_tests_cant": "Mean value statements over all smooth functions.", "anchors": ["dcf/models/optionpricing.py:OptionPayOffModel.get_call_delta", "dcf/models/optionpricing.py:OptionPayOffModel.get_call_gamma", "dcf/models/optionpricing.py:OptionPayOffModel.get_call_vega", "dcf/models/optionpricing.py:OptionPayOffModel.get_call_theta"]}
{"id": "C100", "title": "A binary option as a call spread", "statement": "BinaryOptionPayOffModel prices minus the strike derivative of the inner call price at a strike within half a basis point; between 0 and 1 if the inner price falls in the strike with slope between -1 and 0; 0 or 1 over the intrinsic model. Expected: strike_shift sets the bump. In the code the argument has no effect.", "quantifier": "all inner formulas, strikes and shifts", "why_tests_cant": "All inner formulas.", "anchors": ["dcf/models/optionpricing.py:BinaryOptionPayOffModel._call_price", "dcf/models/optionpricing.py:BinaryOptionPayOffModel.__init__"]}
{"id": "C101", "title": "Accuracy of the normal distribution function", "statement": "normal_cdf differs from the standard normal distribution function by less than 0.00001 everywhere, normal_pdf from its density by at most 1e-10; hence normal call prices are off by at most 0.00001 |F-K| (plus a rounding term) and log-normal ones by at most 0.00001 (F+K).", "quantifier": "all real arguments, all option inputs", "why_tests_cant": "Uniform bound over the reals.", "anchors": ["dcf/models/distibutions.py:normal_cdf", "dcf/models/distibutions.py:normal_pdf"]}
{"id": "C102", "title": "Option values have time value", "statement": "With the exact normal distribution the normal and log-normal formulas value every call above its intrinsic value, log-normal calls below the forward, and log-normal values rise with the volatility.", "quantifier": "all positive times and volatilities, all forwards and strikes", "why_tests_cant": "Inequalities over all inputs.", "anchors": ["dcf/models/bachelier.py:NormalOptionPayOffModel._call_price", "dcf/models/black76.py:LogNormalOptionPayOffModel._call_price"]}
{"id": "C103", "title": "The default delta grid is the domain of the delta curve", "statement": "Expected, as documented: without delta_grid there is one delta for each date of the curve shifted. In the code there is one for each date of the discount curve, whatever the curves shifted; a given non-empty grid has one delta per date.", "quantifier": "all curves, products and grids", "why_tests_cant": "All pairs of curves; the tests use one curve for both.", "anchors": ["dcf/pricer.py:get_bucketed_delta"]}
{"id": "C88", "title": "Cashflow lists can be scaled and shifted", "statement": "Expected: list + x, list - x, list * x and list / x return a cashflow list with every flow changed accordingly. In the code no operation returns a list or changes one: lists of numbers return None (division by zero raises), lists with payoff objects raise AttributeError, leg lists do the same for their legs.", "quantifier": "all operations, numbers and cashflow lists", "why_tests_cant": "That nothing is ever returned or changed is universal.", "anchors": ["dcf/cashflows/cashflow.py:CashFlowList.__add__", "dcf/cashflows/cashflow.py:CashFlowList.__mul__", "dcf/cashflows/cashflow.py:CashFlowLegList.__mul__"]}
{"id": "C104", "title": "Products built with default arguments can be evaluated", "statement": "Expected: bonds built with the default day count 'thirty360' have cashflows. In the code the name is kept in place of a day count function: the bond is built, but every coupon raises TypeError when it is read. With a function or without day count all flows are numbers.", "quantifier": "all schedules, rates, offsets, forward curves and day count names", "why_tests_cant": "All names and schedules; default arguments were never evaluated in the tests.", "anchors": ["dcf/cashflows/products.py:bond", "dcf/cashflows/products.py:interest_rate_swap", "dcf/cashflows/payoffs.py:RateCashFlowPayOff.__init__"]}
{"id": "C105", "title": "A swap pays one coupon leg and receives the other", "statement": "On every date a swap built on given schedules pays (rate of the pay leg) x (its year fraction) x notional if the date is a date of the pay leg, and receives the same of the receive leg; the origin is the start date; a swap of two equal legs has only zero flows.", "quantifier": "all schedules without repeated dates, rates, day counts, offsets and forward curves", "why_tests_cant": "Schedules of all lengths and overlaps.", "anchors": ["dcf/cashflows/products.py:interest_rate_swap", "dcf/cashflows/cashflow.py:CashFlowLegList.__getitem__"]}
{"id": "C106", "title": "A floating rate note is worth par", "statement": "A bond whose coupons are the cash rates of a curve over the curve's own tenor, discounted with the same curve, has present value zero (notional paid at the start included) at every valuation date up to the start; with a margin on top it is worth the discounted margins.", "quantifier": "all schedules of any length that follow the tenor, notionals, margins, valuation dates up to the start, and curves whose discount factors are positive and multiply over adjacent periods (zero rate curves; discount factor curves starting at 1)", "why_tests_cant": "Telescoping over schedules of every length and curves of any shape.", "anchors": ["dcf/cashflows/products.py:bond", "dcf/pricer.py:get_present_value", "dcf/curves/interestratecurve.py:InterestRateCurve.get_cash_rate"]}
{"id": "C107", "title": "The par swap rate", "statement": "A swap of a fixed rate K against the cash rates of a curve, valued on the same curve, is worth notional x (df(start) - df(end) - K x annuity) with the annuity the discounted year fractions of the fixed leg, hence is worth zero exactly for K = (df(start) - df(end)) / annuity.", "quantifier": "all fixed schedules, all floating schedules following the tenor from the same start to the same end, notionals, rates, valuation dates up to the start, curves as in C106", "why_tests_cant": "Identity over schedules of every length and curves of any shape.", "anchors": ["dcf/cashflows/products.py:interest_rate_swap", "dcf/pricer.py:get_present_value", "dcf/curves/interestratecurve.py:InterestRateCurve.get_cash_rate"]}
{"id": "C108", "title": "A rating given by name is that rating", "statement": "Expected: RatingClass(name, scale) has the value of the class of that name, shows that name and has its whole weight on it; a list of names makes such a scale. In the code this holds for classes that differ after rounding to seven digits and are given as floats, so for lists of two to nine names; from ten names on (MASTER_SCALE has ten) the second best rating shows as the best one, and a class with an integer value cannot be given by name (TypeError).", "quantifier": "all scales, names and values; lists of names of any length", "why_tests_cant": "Scales of all sizes and values; whether two classes collide depends on their rounded values.", "anchors": ["dcf/ratingclass.py:RatingClass.__init__", "dcf/ratingclass.py:RatingClass.__str__", "dcf/ratingclass.py:RatingClass.master_scale.fromkeys"]}
{"id": "C109", "title": "Sloppy weights outside the scale", "statement": "With SLOPPY set, a value below (above) the scale has the ratio to the best (worst) class as its only weight, so the weights reproduce the value up to rounding. In the code this raises ZeroDivisionError below a best class that rounds to zero.", "quantifier": "all scales and values outside of them", "why_tests_cant": "All values and scales; rounding error bound.", "anchors": ["dcf/ratingclass.py:RatingClass.__iter__"]}
{"id": "C110", "title": "A rate table lists the curve at origin plus row plus column", "statement": "Expected: the table of a curve has one row per domain date and columns of increasing terms, entry = value at row + column, blank exactly where the next row begins. In the code this holds for increasing rows and columns with a positive last column; a date curve keeps decreasing dates in that order and then the table never finishes, a single date raises IndexError, plain curves raise AttributeError.", "quantifier": "all curves, row and column grids of any length", "why_tests_cant": "Grids of any length; non-termination cannot be observed by a test.", "anchors": ["dcf/curves/curve.py:rate_table", "dcf/curves/curve.py:Curve.table"]}
{"id": "C111", "title": "Curves are containers of their points", "statement": "Expected: x in curve says whether x is a given point, curve[x] is the value there and raises KeyError elsewhere, and iterating yields the points. In the code the first two hold and iterating raises TypeError for every curve.", "quantifier": "all curves, plain and over dates, all points", "why_tests_cant": "Every curve and point.", "anchors": ["dcf/curves/curve.py:Curve.__contains__", "dcf/curves/curve.py:Curve.__getitem__", "dcf/curves/curve.py:Curve.__iter__"]}
{"id": "C112", "title": "The derivative of a date curve", "statement": "Expected: derivative(start) is the slope of the curve at start, whichever packages are installed. In the code it is the slope where the curve is straight for a day on both sides; at a kink it is the mean of both slopes with scipy and the slope after it without; with scipy fixings do not count; over year fractions it raises TypeError.", "quantifier": "all date curves, dates and interpolations", "why_tests_cant": "All curves; the result depends on an optional package.", "anchors": ["dcf/curves/curve.py:DateCurve.derivative"]}
{"id": "C113", "title": "Volatilities over special periods", "statement": "Expected: get_terminal_vol(t) runs from the origin to t, over an empty period it is the instantaneous volatility there, over a reversed period it is zero. In the code this holds except for terminal volatility curves with the period starting at the origin, where a reversed period gets the curve's value.", "quantifier": "all volatility curves of both classes, all dates", "why_tests_cant": "Every curve and pair of dates.", "anchors": ["dcf/curves/volatilitycurve.py:TerminalVolatilityCurve.get_terminal_vol", "dcf/curves/volatilitycurve.py:InstantaneousVolatilityCurve.get_terminal_vol"]}
{"id": "C114", "title": "Lists of options and option strategies", "statement": "Expected: an option cashflow list pays on each date its amount times the model's call or put value for the expiry, which is the pay date less both offsets, nothing on other dates and nothing without model; a strategy pays on each date the sum over all its calls and puts; more than ten raise KeyError; a forward curve can be given as everywhere else. In the code a forward curve or price in place of the model raises AttributeError on every pay date, and more than ten options raise TypeError.", "quantifier": "all dates, amounts, strikes, offsets, option models, and lists of any length", "why_tests_cant": "Lists of all lengths, all models and offsets.", "anchors": ["dcf/cashflows/cashflow.py:OptionCashflowList", "dcf/cashflows/cashflow.py:OptionStrategyCashflowList", "dcf/cashflows/payoffs.py:OptionCashFlowPayOff"]}
{"id": "C115", "title": "Arithmetic of rate curves", "statement": "Expected: sums, differences and products of two rate curves of one class quote the sums, differences and products, keep origin, day count, interpolation and tenor of the first curve, so that the discount factors of a sum of zero rate curves are the products of the discount factors. In the code, for curves with the same origin and default day count, sums and differences of zero rate and cash rate curves and any combination of short rate curves are pointwise at every date and keep the tenor; so are products of discount factor curves, while sums of these are right at the dates of both and wrong between them; origin, day count and interpolation are lost, so discount factors are products only if the origin is the first date of both; division raises for all curves, ZeroDivisionError if the second curve quotes zero at a date and AttributeError otherwise.", "quantifier": "all zero rate, cash rate, short rate and discount factor curves with any points, same origin, default day count and interpolation; all dates", "why_tests_cant": "Curves with any number of points and all dates between them.", "anchors": ["dcf/curves/curve.py:RateCurve.__add__", "dcf/curves/curve.py:RateCurve.__sub__", "dcf/curves/curve.py:RateCurve.__mul__", "dcf/curves/curve.py:RateCurve.__div__", "dcf/curves/curve.py:DateCurve.__add__", "dcf/curves/curve.py:DateCurve.__div__"]}
{"id": "C116", "title": "Amortisation plans are worth their notional", "statement": "A loan that pays each period the redemption of the plan plus interest at the plan rate on the outstanding balance is worth, discounted at that rate, N - (N - total)/(1+r)^n: exactly N for bullet, amortize and annuity plans. For the consumer plan, whose interest is on the original notional, the payments are worth N for one period and more than N for more.", "quantifier": "all plans (any list of redemptions), all rates r > -1 (r > 0 for the consumer plan), all notionals and numbers of periods", "why_tests_cant": "An identity of sums over plans of any length.", "anchors": ["dcf/plans.py:bullet", "dcf/plans.py:amortize", "dcf/plans.py:annuity", "dcf/plans.py:consumer", "dcf/plans.py:outstanding"]}
{"id": "C117", "title": "Interpolated functions keep the shape of the data", "statement": "Expected of all default interpolations: values between the smallest and largest given value, monotone data give a monotone function, larger data give a larger function, small changes of the data give small changes of the function. In the code constant, left, right, nearest, linear and log-linear schemes do; the log-linear-rate scheme (default of discount factor and survival probability curves) keeps the band of zero rates and the order, but monotone data can give a function that is not monotone and leaves the range of the data.", "quantifier": "all sets of points, all arguments", "why_tests_cant": "Statements over all point sets and all arguments between and beyond them.", "anchors": ["dcf/interpolation.py:constant", "dcf/interpolation.py:linear", "dcf/interpolation.py:loglinear", "dcf/interpolation.py:loglinearrate", "dcf/interpolation.py:interpolation_scheme"]}
{"id": "C118", "title": "Rates in a band give discount factors in a band", "statement": "Expected: if all given rates lie in [a,b], the discount factors over every period lie between the factors of the rates a and b; with rates that are not negative they lie in (0,1] and never increase with the end date. In the code this holds for short and cash rate curves over all periods, for discount factor curves from the origin (and for decreasing interpolated factors everywhere), for zero rate curves from the origin only: positive zero rates can give forward discount factors above one.", "quantifier": "all curves from any points with any of the default interpolations, all periods", "why_tests_cant": "Curves with any number of points and all periods, including loops over any number of steps.", "anchors": ["dcf/curves/interestratecurve.py:ZeroRateCurve", "dcf/curves/interestratecurve.py:DiscountFactorCurve", "dcf/curves/interestratecurve.py:ShortRateCurve", "dcf/curves/interestratecurve.py:CashRateCurve", "dcf/curves/interestratecurve.py:InterestRateCurve.get_discount_factor"]}
{"id": "C119", "title": "The table of a cashflow list shows its cashflows", "statement": "Expected: the table property has one row per date in the order of the list, which starts with the value of the list on that date and the date itself; a header with these and all details that occur; for rate cashflows the row shows notional, period, year fraction, fixed rate (and forward rate, fixing date), whose product is the cashflow. In the code lists of numbers, fixed and rate cashflows do; lists of options, option strategies and contingent cashflows show the values without model (zero for options) whatever the model; lists of cashflow lists show zeros; lists of functions raise.", "quantifier": "all cashflow lists of any length with any payoffs, models and forward curves", "why_tests_cant": "Lists of any length and any mixture of payoffs, whose details may have different keys.", "anchors": ["dcf/cashflows/cashflow.py:CashFlowList.table", "dcf/cashflows/payoffs.py:RateCashFlowPayOff", "dcf/cashflows/payoffs.py:OptionCashFlowPayOff", "dcf/cashflows/payoffs.py:CashFlowPayOff"]}
{"id": "C120", "title": "Prices and yields of non-negative flows", "statement": "At a yield higher by d the present value of flows paid between times a and b falls by a factor between exp(-d b) and exp(-d a); the present value is a convex function of the yield; the yield to maturity for a price y above x is lower than that for x, by between log(y/x)/b and log(y/x)/a up to the precision.", "quantifier": "all products with non-negative flows, all yields, prices, bounds, precisions, valuation dates, day counts", "why_tests_cant": "Any number of flows at any dates, and all yields.", "anchors": ["dcf/pricer.py:get_present_value", "dcf/pricer.py:get_yield_to_maturity", "dcf/curves/interestratecurve.py:ZeroRateCurve"]}
{"id": "C121", "title": "The fair rate of a fixed leg is the par rate", "statement": "get_fair_rate of a fixed rate leg returns target / (notional x annuity) within half the precision, with the annuity the discounted year fractions, succeeds whenever the bounds enclose that rate, and leaves the leg as it was. In a swap against the cash rates of a curve, with the negative value of the floating leg as target, this is the par swap rate (df(start) - df(end)) / annuity.", "quantifier": "all schedules of any length, notionals, rates, targets, bounds, precisions; all zero, short and discount factor curves with positive factors", "why_tests_cant": "Swaps of any length on all curves; combines search, cashflows and discounting.", "anchors": ["dcf/pricer.py:get_fair_rate", "dcf/pricer.py:get_present_value", "dcf/cashflows/products.py:interest_rate_swap", "dcf/cashflows/cashflow.py:RateCashFlowList"]}
{"id": "C122", "title": "The grid of a curve plot", "statement": "Expected: the grid of a plot contains every date of the curve, starts with the first and ends with the last, is in order and stays within the curve, with steps no longer than the requested one. In the code all dates are contained; with a number of steps per interval the grid is in order and each interval has exactly these steps; with a given step it is in order exactly if the step divides every interval, otherwise it runs past the next date and back, beyond the last date too; negative steps never return. Drawn are the values of each named function at the dates of the grid in their order; functions the curve does not have are left out.", "quantifier": "all domains of any length, steps and numbers of steps", "why_tests_cant": "A loop over any number of dates and steps.", "anchors": ["dcf/curves/plot.py:make_grid"]}
{"id": "C123", "title": "What an option model reads from its parameters", "statement": "Call and put values are the formula of the class at: the time from the valuation date to expiry by the model's own day count, else the volatility curve's, else the forward curve's, else the default one; the forward price, cash rate, number or function value of the forward curve; the terminal volatility, number or function value of the volatility curve; the given strike or the forward. No volatility or no time: intrinsic values. No valuation date: TypeError. The base class: RecursionError. A binary model on top of another takes every given parameter (dates, numbers and curves that are not None or 0), inherits the others, always bumps, and is worth the call spread of the inner model's calls.", "quantifier": "all models, kinds of curves, dates, strikes, formulas", "why_tests_cant": "The combinations of optional parameters and kinds of curves are many; tests use a few.", "anchors": ["dcf/models/optionpricing.py:OptionPayOffModel.details", "dcf/models/optionpricing.py:OptionPayOffModel.get_call_value", "dcf/models/optionpricing.py:OptionPayOffModel.get_put_value", "dcf/models/optionpricing.py:BinaryOptionPayOffModel"]}
{"id": "C124", "title": "Symmetries of option prices", "statement": "In the normal model only forward minus strike matters and prices scale with forward, strike and volatility; log-normal prices scale with forward and strike; volatility and time matter only as volatility times root of time. A put is a call with forward and strike exchanged: in the normal model always (with the code's own distribution function), in the log-normal model unless one of the arguments of the distribution function is 0, where it is off by up to 2e-9 times the strike.", "quantifier": "all times, strikes, forwards, volatilities, scales, models and kinds of curves", "why_tests_cant": "Identities in real parameters; the exceptional points are never hit by samples.", "anchors": ["dcf/models/optionpricing.py:OptionPayOffModel.get_put_value", "dcf/models/bachelier.py:NormalOptionPayOffModel", "dcf/models/black76.py:LogNormalOptionPayOffModel", "dcf/models/distibutions.py:normal_cdf"]}
{"id": "C125", "title": "No arbitrage between strikes, forwards and times", "statement": "Call spreads are worth between nothing and their width, butterflies and calendar spreads something; prices rise with the forward, by less than it does, and with the volatility. True for both models with the exact distribution function; with the code's one up to its accuracy (1e-5 times strikes and forward) only: for all times, volatilities and forwards some higher strike is worth more.", "quantifier": "all strikes, forwards, volatilities, times and weights", "why_tests_cant": "Inequalities over all pairs of strikes; violations of 1e-9 at single points or ten standard deviations out of the money.", "anchors": ["dcf/models/bachelier.py:NormalOptionPayOffModel", "dcf/models/black76.py:LogNormalOptionPayOffModel", "dcf/models/distibutions.py:normal_cdf"]}
{"id": "C126", "title": "Present values at later dates and on cast curves", "statement": "For products without payoff model: the present value is the discounted value of what is paid before any later date plus the discounted present value at that date; between payments it grows by the factor of the curve; after the last payment it is 0 on any curve. Only the discount factors of the curve matter: a zero rate curve and the discount factor curve cast from it give the same present values, at the origin and at any date from the next day on.", "quantifier": "all products of any nesting, flows, curves, pairs of valuation dates", "why_tests_cant": "A relation between two calls at arbitrary dates, for arbitrary products and curves.", "anchors": ["dcf/pricer.py:get_present_value", "dcf/curves/curve.py:RateCurve.cast", "dcf/curves/interestratecurve.py:InterestRateCurve.get_discount_factor"]}
{"id": "C127", "title": "Derived curves keep interpolation and yield", "statement": "A curve built from another one (by new points, by shifted, by copying, by to_curve) interpolates like it unless told otherwise, and a forward curve keeps its yield. A cast to another class interpolates as told or by the default of the new class.", "quantifier": "all curves, domains, interpolations, yields", "why_tests_cant": "Needs every interpolation and every yield; tests derive from curves with the default ones only.", "anchors": ["dcf/curves/curve.py:Curve.__init__", "dcf/curves/curve.py:Curve.kwargs", "dcf/curves/curve.py:Curve.shifted", "dcf/curves/curve.py:ForwardCurve.__init__"]}
{"id": "C128", "title": "Rebuilding a curve from its kwargs", "statement": "type(curve)(**curve.kwargs) gives the curve again: same domain, values, interpolation, origin, day count and tenor, also for points not in order. With a spread or fixings the values on the grid stay, the rebuilt curve has neither. A plain curve handed to its own constructor is copied likewise.", "quantifier": "all points, interpolations, origins, day counts, tenors, classes of interest rate curves", "why_tests_cant": "A round trip through arbitrary points and arguments.", "anchors": ["dcf/curves/curve.py:Curve.kwargs", "dcf/curves/curve.py:DateCurve.__init__", "dcf/curves/interestratecurve.py:RateCurve.__init__"]}
{"id": "C129", "title": "An fx container is a mapping of pairs and of currencies", "statement": "container[a] holds exactly the pairs starting with a; container[a, b] = x sets that pair only; container[f] = x is adding f with the foreign curve of x at its price at the origin and is rejected for another domestic curve; afterwards container[base, f] prices like x at every date. A curve rebuilt from its kwargs prices like the curve.", "quantifier": "all containers, currencies, curves, histories", "why_tests_cant": "Needs arbitrary containers and arbitrary assigned curves with more than a spot rate.", "anchors": ["dcf/curves/fx.py:FxContainer.__getitem__", "dcf/curves/fx.py:FxContainer.__setitem__", "dcf/curves/fx.py:FxForwardCurve.__init__"]}
{"id": "C130", "title": "Shifting a rate curve", "statement": "curve.shifted(delta) of a rate curve has the rate of x at x + delta and keeps class, origin, day count, tenor and interpolation.", "quantifier": "all rate curves, shifts", "why_tests_cant": "Tests shift flat curves with default arguments only, where nothing shows.", "anchors": ["dcf/curves/curve.py:Curve.shifted", "dcf/curves/curve.py:RateCurve.__init__"]}
{"id": "C131", "title": "Which arguments build a rate curve", "statement": "A curve as domain is cast as a whole, then data must not be given (TypeError). A curve as data is cast onto the dates given as domain; without dates, or with domain None, onto its own dates. Class, tenor and interpolation are the given ones.", "quantifier": "all curves, classes, dates, further arguments", "why_tests_cant": "A statement on all combinations of arguments.", "anchors": ["dcf/curves/curve.py:RateCurve.__init__", "dcf/curves/interestratecurve.py:DiscountFactorCurve.__init__", "dcf/curves/interestratecurve.py:CashRateCurve.__init__"]}
{"id": "C132", "title": "Curves given by lists and by tuples", "statement": "Sums, differences and products of curves do not depend on whether the points were given as lists or as tuples.", "quantifier": "all curves, containers, origins, operations", "why_tests_cant": "Needs all combinations of containers, origins and previous assignments.", "anchors": ["dcf/curves/curve.py:Curve.__add__", "dcf/curves/curve.py:DateCurve.__add__", "dcf/curves/curve.py:Curve.shifted", "dcf/curves/curve.py:Curve.__setitem__"]}
{"id": "C133", "title": "Plans for a number of payments that is not whole", "statement": "The number of payments may be any number; whole floats are as good as integers; otherwise its whole part counts, and the payments of amortize, bullet and annuity still add up to the amount, those of consumer to amount * (1 + n * rate).", "quantifier": "all numbers, amounts, rates", "why_tests_cant": "Needs all fractional numbers; tests use integers.", "anchors": ["dcf/plans.py:same", "dcf/plans.py:bullet", "dcf/plans.py:amortize", "dcf/plans.py:annuity", "dcf/plans.py:consumer"]}
{"id": "C134", "title": "Plans, rates and interpolations are what their documentation says", "statement": "The formulas in the docstrings of annuity, of the compounding functions and of the interpolation classes are the values returned.", "quantifier": "all arguments, points, neighbours", "why_tests_cant": "A formula can not be compared at all arguments by examples; the examples in the docstrings do not compare with the formulas.", "anchors": ["dcf/plans.py:annuity", "dcf/compounding.py:simple_rate", "dcf/compounding.py:simple_compounding", "dcf/compounding.py:continuous_compounding", "dcf/compounding.py:continuous_rate", "dcf/compounding.py:periodic_compounding", "dcf/compounding.py:periodic_rate", "dcf/interpolation.py:flat.__call__", "dcf/interpolation.py:linear.__call__", "dcf/interpolation.py:loglinear.__call__", "dcf/interpolation.py:logconstantrate.__call__"]}
{"id": "C135", "title": "Cashflow lists rebuilt from their kwargs", "statement": "A cashflow list built from the kwargs of a list is of the same class and has the same dates, origin and cashflows.", "quantifier": "all lists of all classes, all dates, all curves and models", "why_tests_cant": "Needs every class and every payoff; kwargs only serves the text output in tests.", "anchors": ["dcf/cashflows/cashflow.py:CashFlowList.kwargs", "dcf/cashflows/cashflow.py:CashFlowList.__init__", "dcf/cashflows/cashflow.py:CashFlowLegList.__init__", "dcf/cashflows/cashflow.py:RateCashFlowList.__init__", "dcf/cashflows/contingent.py:ContingentCashFlowList.__init__", "dcf/cashflows/contingent.py:OptionCashFlowList.__init__", "dcf/cashflows/contingent.py:OptionStrategyCashFlowList.__init__"]}
{"id": "C136", "title": "Rebuilding, shifting and constructing credit curves", "statement": "A credit curve built from the kwargs of a credit curve is that curve, a shifted credit curve has its values moved along with its dates, and a curve given as domain or as data of a credit curve is cast.", "quantifier": "all classes of credit curves, all dates and values, all interpolations, day counts and shifts", "why_tests_cant": "Needs all classes and all values; tests rebuild only a few curves and shift none.", "anchors": ["dcf/curves/creditcurve.py:CreditCurve.__init__", "dcf/curves/creditcurve.py:ProbabilityCurve.__init__", "dcf/curves/creditcurve.py:DefaultProbabilityCurve.__init__", "dcf/curves/curve.py:Curve.kwargs", "dcf/curves/curve.py:Curve.shifted", "dcf/curves/curve.py:RateCurve.__init__"]}
{"id": "C137", "title": "Arithmetic of credit curves", "statement": "The sum, difference, product and quotient of two credit curves quotes at every date the sum, difference, product and quotient of what the curves quote; survival probabilities of a sum of intensity curves are the products.", "quantifier": "all pairs of credit curves of one class, all dates and values, all dates asked", "why_tests_cant": "Needs every date between and beyond the given ones and all pairs of date grids; tests do no arithmetic with credit curves.", "anchors": ["dcf/curves/curve.py:RateCurve.__add__", "dcf/curves/curve.py:RateCurve.__sub__", "dcf/curves/curve.py:RateCurve.__mul__", "dcf/curves/curve.py:RateCurve.__div__", "dcf/curves/curve.py:Curve.__add__", "dcf/curves/creditcurve.py:ProbabilityCurve.__init__", "dcf/curves/creditcurve.py:CreditCurve.__init__"]}
{"id": "C138", "title": "Credit data in a band give survival probabilities in a band", "statement": "Expected: if all given hazard rates or intensities lie in [a,b], the survival probability over every period lies between exp(-b t) and exp(-a t); if all given marginal survival probabilities lie in [p,q], the one over n and a fraction r of tenors lies between p^(n+r) and q^(n+r); so survival probabilities of data that make sense never exceed one. In the code this holds for hazard rates and marginal (default) probabilities over every period, for flat intensities and survival or default probabilities from the origin only: for a later start the survival probability can exceed one.", "quantifier": "all points, day counts, origins, tenors, all periods; all interpolations that take means", "why_tests_cant": "All numbers of points and all periods, products over any number of steps.", "anchors": ["dcf/curves/creditcurve.py:HazardRateCurve", "dcf/curves/creditcurve.py:FlatIntensityCurve", "dcf/curves/creditcurve.py:MarginalSurvivalProbabilityCurve", "dcf/curves/creditcurve.py:MarginalDefaultProbabilityCurve", "dcf/curves/creditcurve.py:SurvivalProbabilityCurve", "dcf/curves/creditcurve.py:DefaultProbabilityCurve", "dcf/interpolation.py:log_linear_rate_scheme"]}
{"id": "C139", "title": "Risk numbers of fixed flows", "statement": "For non-negative flows paid within b years and discounted with a zero rate curve, the basis point value is minus the sum of time to payment times present value, per basis point, up to a factor between exp(-shift b) and 1. The bucketed delta of a grid date is the same sum weighted by the triangle between the neighbours of the date, up to the same factor; it is never positive, negative as soon as a positive flow is paid strictly between the neighbours, and depends on no flow paid elsewhere: it is 0 if nothing is paid there.", "quantifier": "all products with given flows, all zero rate curves, day counts, increasing grids of any length, shifts", "why_tests_cant": "All numbers of flows and grid dates; an inequality with an exponential function.", "anchors": ["dcf/pricer.py:get_basis_point_value", "dcf/pricer.py:get_bucketed_delta", "dcf/curves/interestratecurve.py:ZeroRateCurve"]}
{"id": "C140", "title": "Arithmetic of forward curves", "statement": "At every date of one of the curves the sum, difference or product of two forward curves has the sum, difference or product of the prices; with the default interpolation and no yields the price of a product is the product of the prices at every date. Sums are wrong between the dates, yields of both curves are lost beyond the last date, results that are not positive raise ValueError and a quotient always fails. Sums, differences and products of fx curves give no rate beyond the last date, and there is no result at all if the second curve ends before the first.", "quantifier": "all pairs of forward or fx curves, grids, prices, yields, origins, operations, dates", "why_tests_cant": "All grids of any length and all dates between them; products of exponentials of interpolations on the joint grid.", "anchors": ["dcf/curves/curve.py:DateCurve.__add__", "dcf/curves/curve.py:DateCurve.__div__", "dcf/curves/curve.py:ForwardCurve", "dcf/curves/fx.py:FxForwardCurve"]}
{"id": "C141", "title": "Terminal volatility quotes give every forward volatility", "statement": "A terminal volatility curve built from quotes whose variances increase gives a volatility for every period after the origin. The volatility to the later date lies between the one to the earlier date and the forward volatility. Terminal volatilities of an instantaneous volatility curve stay in the band of the given ones.", "quantifier": "all increasing grids of any length, non-negative volatilities, day counts, origins not after the first date, all periods", "why_tests_cant": "All pairs of dates between any quotes; a cubic function of time on every interval.", "anchors": ["dcf/curves/volatilitycurve.py:TerminalVolatilityCurve.get_terminal_vol", "dcf/curves/volatilitycurve.py:InstantaneousVolatilityCurve.get_terminal_vol"]}
{"id": "C142", "title": "The yield of a bond at par", "statement": "The yield to maturity of a fixed rate bond valued at its notional is its coupon rate, as the documentation of get_yield_to_maturity says. What is true: with coupon periods of equal length D the yield is log(1 + c D)/D up to half the precision; for any periods it is at most the coupon rate and at least c - c^2 D/2 for the longest period D; it is strictly below any positive coupon rate.", "quantifier": "all payment dates, numbers of coupons, non-negative coupon rates, notionals, day counts, search bounds, precisions", "why_tests_cant": "All schedules and all coupons; an exact statement about the limit of a search.", "anchors": ["dcf/pricer.py:get_yield_to_maturity"]}
{"id": "C143", "title": "Arithmetic of volatility curves", "statement": "Adding, subtracting or multiplying volatility curves with the same class and origin gives a curve of the class, floor and tenor of the left one which quotes on every date of both curves the sum, difference or product; sums and differences hold at every date; if the origin is the first quoted date of terminal curves, terminal volatilities from the origin add up, too. The origin should be kept and the result should be the sum for all questions, products included, and division should work. In the code the origin is lost: sums of terminal curves quoted after their origin start later, sums of instantaneous curves always earlier, and volatilities from the origin are not the sums; products are wrong between dates; division always raises; curves on numbers as dates raise TypeError.", "quantifier": "all volatility curves of a class (any quotes, dates, floors, tenors, origins), operations, dates", "why_tests_cant": "Any two curves and any date; the loss of the origin shows only in later questions.", "anchors": ["dcf/curves/curve.py:RateCurve.__add__", "dcf/curves/curve.py:RateCurve.__truediv__", "dcf/curves/volatilitycurve.py:VolatilityCurve.cast"]}
{"id": "C144", "title": "Rebuilding, shifting and constructing volatility curves", "statement": "A volatility curve built from the kwargs of a volatility curve is that curve; a shifted volatility curve has its volatilities moved along with its dates and keeps its settings; a curve given as domain or as data is cast, as domain together with data is a TypeError; without an interpolation given the default of the class, zero_linear_scheme, is used. In the code shifting reads the old curve at the new dates and drops tenor and interpolation; the default of the class is never used, so before its first quote a volatility curve is flat instead of zero.", "quantifier": "all volatility curves (any class, dates, values, interpolation, day count, origin), shifts, dates", "why_tests_cant": "Needs all curves and dates; tests shift none and look only between quotes.", "anchors": ["dcf/curves/volatilitycurve.py:VolatilityCurve", "dcf/curves/curve.py:Curve.kwargs", "dcf/curves/curve.py:Curve.shifted", "dcf/curves/curve.py:RateCurve.__init__"]}
{"id": "C145", "title": "Rate risk of floating rate notes", "statement": "A floating rate note whose rates come from one zero rate curve and which is discounted by another is worth, up to its start, the sum over its periods of the discounted margin and growth factor less the discount factor at the period start; its basis point value is the change of this when the curves in delta are shifted, rates and discount factors each moving with their own curve. If both curves carry the same rates and both are shifted (or are one object) only the margins are exposed and a note without margin has a basis point value of exactly 0, for every size of shift. Shifting only the discount curve shows a loss and only the forward curve a gain, for a positive notional.", "quantifier": "all zero rate curves with working day counts, schedules on the curve's tenor, notionals, margins, valuation dates up to the start, shifts other than 0, lists of shifted curves", "why_tests_cant": "Needs all curves, schedules and shifts, and exact zero instead of a small number; tests value one note.", "anchors": ["dcf/pricer.py:get_basis_point_value", "dcf/cashflows/products.py:bond", "dcf/cashflows/payoffs.py:RateCashFlowPayOff.__call__", "dcf/curves/interestratecurve.py:InterestRateCurve.get_cash_rate"]}
{"id": "C146", "title": "Volatility risk of option lists", "statement": "The present value of a list of options whose model takes its volatilities from a volatility curve is the discounted sum of amount times price at the curve's terminal volatility for the expiry, the time to expiry by the day count of the volatility curve, puts by parity. Its basis point value for the volatility curve is the change of this when all volatilities rise by the shift and nothing else moves, the same for calls and puts; positive for the holder of options in the normal and log-normal model. Its basis point value for the discount curve moves the discount factors only. In the code the claim on volatilities fails for a curve of instantaneous volatilities: with scipy the shift does not reach the terminal volatilities and the risk is exactly 0.", "quantifier": "all option lists (any dates, amounts, strikes, puts and calls, offsets), models, volatility curves, discount curves, valuation dates, shifts", "why_tests_cant": "Needs all curves and options; tests shift interest rate curves only.", "anchors": ["dcf/pricer.py:get_basis_point_value", "dcf/cashflows/contingent.py:OptionCashflowList", "dcf/models/optionpricing.py:OptionPayOffModel.details", "dcf/curves/volatilitycurve.py:TerminalVolatilityCurve.get_terminal_vol", "dcf/curves/volatilitycurve.py:InstantaneousVolatilityCurve.get_terminal_vol", "dcf/curves/curve.py:DateCurve.integrate"]}
{"id": "C147", "title": "Details of payoffs state their terms and add up", "statement": "The details of a payoff contain its value. For an option they state put or call, long or short, notional and expiry date, and with a model its valuation date, time to expiry, forward, fixing date and volatility as far as the model has them, and the strike, which is the forward if none was given. For a strategy they hold the details of all options under their number and the cashflow is the sum of the option cashflows. For a rate cashflow the cashflow is the sum of the rates shown times the year fraction and notional shown. For a collared rate cashflow it is the rate cashflow plus the floorlet less the caplet shown, which are shown if and only if they were agreed. Expected further: what the table has columns for is found in the details; in the code the expiry date of a strategy and the model valuation date of a collared cashflow never are.", "quantifier": "all payoffs, models, curves", "why_tests_cant": "Details are computed by several updates of one dictionary, where later entries can overwrite earlier ones for some models only.", "anchors": ["dcf/cashflows/payoffs.py:OptionCashFlowPayOff.details", "dcf/cashflows/payoffs.py:OptionStrategyCashFlowPayOff.details", "dcf/cashflows/payoffs.py:RateCashFlowPayOff.details", "dcf/cashflows/payoffs.py:ContingentRateCashFlowPayOff.details", "dcf/models/optionpricing.py:OptionPayOffModel.details", "dcf/cashflows/contingent.py:OptionStrategyCashflowList"]}
{"id": "C148", "title": "Capped and floored coupons respect their strikes", "statement": "In every option model a coupon with cap and floor pays (fixed rate + forward + put at the floor - call at the cap) * year fraction * amount. Hence with equal strikes K it pays (fixed rate + K) * year fraction * amount, whatever forward, volatility and time, and a list of such coupons pays on every date what a list of fixed coupons pays; a collared and the plain coupon pay together what the capped and the floored one pay; a capped and a floored coupon with the same strike pay together what the plain and the fixed coupon pay. Without volatility a floored coupon pays the greater of rate and floor, a capped one the lesser of rate and cap. Expected further, in normal and log-normal models with volatility: a capped coupon pays less than the plain one and less than fixed rate plus cap, a floored one more than the plain one and than fixed rate plus floor, and a collared one stays between the two. This holds with the exact normal distribution; with that of the code only up to its accuracy, as it values some calls below zero and some higher strikes above lower ones.", "quantifier": "all coupons, fixing offsets, day counts, models, forwards, volatilities, strikes; in the list all dates, amounts and offsets", "why_tests_cant": "The identities are between floating point results of transcendental formulas for all model parameters; deviations occur only far out of the money.", "anchors": ["dcf/cashflows/payoffs.py:ContingentRateCashFlowPayOff.details", "dcf/cashflows/contingent.py:ContingentRateCashFlowList.__init__", "dcf/models/optionpricing.py:OptionPayOffModel.get_call_value", "dcf/models/optionpricing.py:OptionPayOffModel.get_put_value"]}
{"id": "C149", "title": "Option strategies respect their bounds", "statement": "On every date of a list of option strategies a long call and a short put with equal strike pay amount times forward less strike, in every model. Without volatility, or at expiry, a call spread pays the forward between the strikes less the lower strike, a butterfly is never negative, a straddle pays the distance of forward and strike. Expected further in normal and log-normal models with volatility: a call spread pays more than nothing and less than its width, a butterfly more than nothing, a straddle more than the distance of forward and strike. This holds with the exact normal distribution; with that of the code call spreads keep their bounds only up to its accuracy, as for each forward, volatility and time there is a call spread with negative value.", "quantifier": "all dates, offsets, amounts, strikes, models, forwards, volatilities, times", "why_tests_cant": "Bounds of differences of transcendental formulas for all strikes, forwards and volatilities; deviations occur only for special strikes.", "anchors": ["dcf/cashflows/contingent.py:OptionStrategyCashflowList.__init__", "dcf/cashflows/payoffs.py:OptionStrategyCashFlowPayOff.details", "dcf/models/optionpricing.py:OptionPayOffModel.get_call_value", "dcf/models/optionpricing.py:OptionPayOffModel.get_put_value"]}
{"id": "C150", "title": "Rate risk of interest rate swaps", "statement": "An interest rate swap that pays a fixed rate K on one schedule and receives the rate of a forward curve plus a margin on another is worth N * (sum of df * (margin * yf + 1/dfF - 1) over the floating periods - K * sum of yf * df over the fixed periods), where df is from the discount curve and dfF from the forward curve. get_basis_point_value moves each of these factors with the curve it comes from, according to which curves are to be shifted. If both come from equal zero rate curves and both are shifted, a swap without margin moves as if the floating leg were the notional at the start against the notional at the end; a swap that starts at the valuation date and pays a fixed rate of at least 0 gains when rates rise if and only if its notional is positive, and loses if and only if it is negative.", "quantifier": "all schedules, notionals, fixed rates, margins, zero rate curves, shifts and selections of curves to shift", "why_tests_cant": "The shift is applied to shared mutable curves that both legs read; a sum of exponentials for all schedules and curves.", "anchors": ["dcf/cashflows/products.py:interest_rate_swap", "dcf/pricer.py:get_basis_point_value", "dcf/pricer.py:get_present_value"]}
{"id": "C151", "title": "Texts of payoffs, cashflow lists and curves", "statement": "The text of a payoff shows its amount. str of a cashflow list shows the first and the last date, their payoffs and the origin, repr all dates and payoffs and the origin, for every class of cashflow lists. The texts of a curve show its points and its values there, and can be made exactly if the values can.", "quantifier": "all lists of distinct dates, amounts, origins, classes of cashflow lists, curves and recursion limits", "why_tests_cant": "Texts are made by a generic attribute lookup that behaves differently per class; tests print a few objects of some classes.", "anchors": ["dcf/cashflows/payoffs.py:CashFlowPayOff.__repr__", "dcf/cashflows/cashflow.py:CashFlowList.__str__", "dcf/cashflows/cashflow.py:CashFlowList.__repr__", "dcf/cashflows/cashflow.py:CashFlowList.kwargs", "dcf/curves/curve.py:Curve.__str__", "dcf/curves/curve.py:Curve.__repr__"]}
{"id": "C152", "title": "A fit to the prices on a curve gives the curve", "statement": "If products with fixed cashflows are priced on a zero rate curve, then get_curve_fit of any zero rate curve with the same dates, origin and day count to these prices returns the rates of the curve the prices came from, as precisely as wanted for a small enough precision. It does return if these rates are in the range searched, the precision is small enough and the recursion limit is large enough, and the curve fitted is as before afterwards.", "quantifier": "all zero rate curves with any number of increasing dates after the origin, all day counts increasing in time, all lists of products with fixed flows on these dates such that at each date the flows at this date of the products maturing by then do not cancel, all start curves, ranges and tolerances", "why_tests_cant": "Bootstrapping errors of early dates go into all later dates; a test checks one set of swaps with one tolerance, not that the errors vanish with the precision.", "anchors": ["dcf/pricer.py:get_curve_fit", "dcf/pricer.py:get_present_value", "dcf/curves/interestratecurve.py:ZeroRateCurve"]}
{"id": "C153", "title": "Volatilities implied by option prices", "statement": "Fitting a terminal volatility curve to prices of option lists by get_curve_fit leaves the curve as it was, and on a volatility curve with the returned values the lists maturing by each grid date meet their prices in sum within the precision. If the prices were the present values on another terminal volatility curve, the lists end at every grid date and all notionals are positive, then the fit gives back the volatilities of that curve as precisely as wanted, and it does return for small precisions and large recursion limits when these volatilities are inside the range of the fit: this holds for the normal and the log-normal model with the exact normal distribution, including vanishing volatilities. With the approximation of the normal distribution used without scipy it does not: every call out of the money has in the normal model the same price without volatility and at a certain positive volatility, and lower prices in between.", "quantifier": "all grids, option lists of calls and puts on grid dates, notionals, strikes, forwards, discount factors, volatility curves and searched ranges with non-negative volatilities", "why_tests_cant": "An implied volatility test compares a few numbers at one precision; that the solution is unique and the bisections of later dates cope with the errors of earlier ones needs the monotonicity and slopes of the price formulas for all arguments.", "anchors": ["dcf/pricer.py:get_curve_fit", "dcf/pricer.py:_simple_bracketing", "dcf/models/optionpricing.py:NormalOptionPayOffModel", "dcf/models/optionpricing.py:LogNormalOptionPayOffModel", "dcf/curves/volatilitycurve.py:TerminalVolatilityCurve"]}
{"id": "C154", "title": "Points read off a curve", "statement": "Assigning to a curve values read off that same curve (`c[x] = c(x)`, any number of them, in any order) adds the points to its domain and changes none of its values. This holds for plain, date, interest rate and credit curves with any interpolation class but `nearest` and with the schemes linear, loglinear and loglinear-rate, on and outside the data. With `zero_linear_scheme` it holds for points that are not before the data; there the added zero tilts the first piece. With `nearest` an added point attracts its own neighbourhood.", "quantifier": "for all data, interpolations, lists of points to add, evaluation points, origins and day counts", "why_tests_cant": "a test adds a few points to one curve and compares some values; the claim is about every refinement of every curve at every point", "anchors": ["dcf/interpolation.py:linear.__call__", "dcf/interpolation.py:loglinearrate", "dcf/interpolation.py:interpolation_scheme.__call__", "dcf/curves/curve.py:Curve.__setitem__", "dcf/curves/curve.py:DateCurve.__setitem__"]}
{"id": "C155", "title": "Locality of a curve point", "statement": "Assigning, adding or removing one point of a curve leaves all values beyond the neighbouring points unchanged: at and before any grid point before it, at and after any grid point after it. This holds for plain, date, interest rate and credit curves with the predefined schemes and all interpolation classes but `linear`, `loglinear` and `loglinearrate`; for interpolated rates the origin does not count as grid point. Discount factors of zero rate curves and of discount factor curves are local likewise. The three linear classes are local between the remaining points, but continue the first and last slope: the last value moves values beyond both ends.", "quantifier": "for all data, interpolations, assigned dates and values, evaluation dates, origins and day counts", "why_tests_cant": "a test bumps one point and compares some values; the claim is about every point of every grid and every evaluation date", "anchors": ["dcf/interpolation.py:constant.__call__", "dcf/interpolation.py:linear.__call__", "dcf/interpolation.py:interpolation_scheme.__call__", "dcf/curves/curve.py:Curve.__setitem__", "dcf/curves/curve.py:DateCurve.__setitem__", "dcf/curves/interestratecurve.py:InterestRateCurve.get_discount_factor"]}
{"id": "C156", "title": "Risk of a portfolio", "statement": "Risk numbers of leg lists are additive. Whenever each leg has a present value (with or without valuation date), a basis point value or bucketed deltas for the given curves, shift and grid, so has the leg list, and its number is the sum over the legs, bucket by bucket for the deltas; no object is changed. Conversely, if the leg list has such a number, so has each leg.", "quantifier": "for all non-empty lists of legs (nested or not), curves, models, shifts, grids, valuation dates and delta curves", "why_tests_cant": "a test adds up the deltas of two swaps; the claim is about every portfolio, grid and state of the curves", "anchors": ["dcf/pricer.py:get_present_value", "dcf/pricer.py:get_basis_point_value", "dcf/pricer.py:get_bucketed_delta", "dcf/cashflows/cashflow.py:CashFlowLegList"]}
{"id": "C157", "title": "Notionals", "statement": "Multiplying the amounts by a factor (also a negative one: paying instead of receiving) multiplies flows, present values, basis point values, bucketed deltas and accrued interest by that factor. It holds for numbers and lists of amounts and for all kinds of cashflow lists (plain, fixed, rate, collared rate, option, option strategy, own payoffs), nested or not. Calls that raise still raise the same exception and leave the same changes; strikes, rates and dates are not scaled.", "quantifier": "for all factors, amounts, dates, curves, models, strikes, shifts, grids, valuation dates and states of the program", "why_tests_cant": "a test doubles the notional of one swap; the claim is about every product, factor and market, and about failing calls", "anchors": ["dcf/cashflows/cashflow.py:CashFlowList.__init__", "dcf/cashflows/cashflow.py:RateCashFlowList", "dcf/cashflows/contingent.py:OptionCashflowList", "dcf/cashflows/contingent.py:OptionStrategyCashflowList", "dcf/cashflows/contingent.py:ContingentRateCashFlowList", "dcf/cashflows/payoffs.py:RateCashFlowPayOff.details", "dcf/cashflows/payoffs.py:OptionCashFlowPayOff.details", "dcf/cashflows/payoffs.py:ContingentRateCashFlowPayOff.details", "dcf/pricer.py:get_present_value", "dcf/pricer.py:get_basis_point_value", "dcf/pricer.py:get_bucketed_delta", "dcf/pricer.py:get_interest_accrued"]}
{"id": "C158", "title": "Higher rates, lower values", "statement": "Of two curves of one class on the same dates, the one with the higher data quotes higher values at every date (for all interpolations by means of neighbouring data). Higher zero rates give lower discount factors from the origin, higher short rates and higher non-negative cash rates lower ones over every period, higher discount factors higher ones after the origin; so a product with non-negative flows is worth less on the curve with the higher rates. Likewise higher intensities and hazard rates give lower, higher (marginal) survival probabilities and lower (marginal) default probabilities higher survival probabilities.", "quantifier": "for all dates, data, origins, day counts, tenors and products; zero rates and flat intensities over periods from the origin only", "why_tests_cant": "a test compares two flat curves; the claim is about every pair of ordered data, at and between the points", "anchors": ["dcf/curves/curve.py:DateCurve.__call__", "dcf/curves/interestratecurve.py:ZeroRateCurve", "dcf/curves/interestratecurve.py:ShortRateCurve", "dcf/curves/interestratecurve.py:CashRateCurve", "dcf/curves/interestratecurve.py:DiscountFactorCurve", "dcf/curves/creditcurve.py:FlatIntensityCurve", "dcf/curves/creditcurve.py:HazardRateCurve", "dcf/curves/creditcurve.py:SurvivalProbabilityCurve", "dcf/curves/creditcurve.py:MarginalSurvivalProbabilityCurve", "dcf/pricer.py:get_present_value"]}
{"id": "C159", "title": "Lists handed over", "statement": "A curve is a value: what the caller does afterwards to the list of dates or the list of legs given to the constructor, and what is done to other curves, does not change the curve or product. Assignments, shifts, casts and sums give the same result whether or not lists are shared, and never change a list of the caller or another curve.", "quantifier": "for all programs of list changes, constructions, assignments, fixings, casts, shifts and sums, all curves, dates and lists", "why_tests_cant": "aliasing shows only if the caller goes on to use the list; a test would have to try every later change of every list", "anchors": ["dcf/curves/curve.py:DateCurve.__init__", "dcf/curves/curve.py:Curve.domain", "dcf/curves/curve.py:Curve.__setitem__", "dcf/curves/curve.py:Curve.shifted", "dcf/curves/curve.py:Curve.kwargs", "dcf/curves/curve.py:DateCurve.__add__", "dcf/cashflows/cashflow.py:CashFlowLegList.__init__"]}
{"id": "C160", "title": "Pricing formulas written by the user", "statement": "A subclass of OptionPayOffModel that defines __call__ or _call_price is priced by it: calls are worth that price at time to expiry, strike, forward and volatility, puts follow by parity, own delta and vega are used (scaled) unless the model bumps, and greeks that are not defined are difference quotients of the price. A class that defines neither ends in a RecursionError. OptionPricingFormula.from_function makes such a class of any function.", "quantifier": "for all user formulas, greeks, models, dates, strikes, forwards and volatilities", "why_tests_cant": "the user's formula is an arbitrary function; tests subclass with one or two of them", "anchors": ["dcf/models/optionpricing.py:OptionPricingFormula.__call__", "dcf/models/optionpricing.py:OptionPricingFormula._call_price", "dcf/models/optionpricing.py:OptionPricingFormula.from_function", "dcf/models/optionpricing.py:OptionPayOffModel.get_call_value", "dcf/models/optionpricing.py:OptionPayOffModel.get_call_delta"]}
{"id": "C161", "title": "Sessions of pricing calls", "statement": "Pricing functions called one after the other on the same curves, lists and models, with exceptions caught in between, do not influence each other: each call gives what it gives on fresh objects, in any order and however often. Whatever happens, a call changes no more than valuation dates of payoff models (which no later result depends on), spreads of the curves it shifts or fits and the fixed rate of the list it searches a fair rate for, and a call that returns changes nothing.", "quantifier": "for all sequences of calls of get_present_value, get_yield_to_maturity, get_interest_accrued, get_fair_rate, get_basis_point_value, get_bucketed_delta and get_curve_fit with any arguments, on all curves, lists, leg lists and models, with any exceptions", "why_tests_cant": "a statement on all sequences of calls on shared objects; tests run each call on fresh objects", "anchors": ["dcf/pricer.py:get_present_value", "dcf/pricer.py:get_yield_to_maturity", "dcf/pricer.py:get_interest_accrued", "dcf/pricer.py:get_fair_rate", "dcf/pricer.py:get_basis_point_value", "dcf/pricer.py:get_bucketed_delta", "dcf/pricer.py:get_curve_fit"]}
{"id": "C162", "title": "Moving all dates", "statement": "Only the order of dates, their distances and what adding a period gives matter: if all dates of curves, cashflow lists, models and arguments are renamed such that these stay as they are (moved by the same number of days, counted in other units), curves answer on the renamed dates what they answered on the old ones, cashflow lists pay the same amounts, and every pricing function returns the same numbers, raises the same exceptions and leaves the objects in the same state.", "quantifier": "for all renamings of dates that keep order, day count and date arithmetic, all interest rate, credit and volatility curves, all cashflow lists, leg lists and payoff models, and all sequences of pricing calls", "why_tests_cant": "a statement on all renamings of dates and all objects; tests use one set of dates", "anchors": ["dcf/curves/curve.py:DateCurve", "dcf/curves/interestratecurve.py:InterestRateCurve", "dcf/curves/creditcurve.py:CreditCurve", "dcf/curves/volatilitycurve.py:VolatilityCurve", "dcf/cashflows/cashflow.py:CashFlowList", "dcf/cashflows/contingent.py:ContingentRateCashFlowList", "dcf/pricer.py:get_present_value", "dcf/pricer.py:get_curve_fit"]}
{"id": "C163", "title": "Year fractions in place of dates", "statement": "With the default day count it does not matter whether a curve, a cashflow list and a valuation date are given as calendar dates or as the corresponding year fractions (floats): zero and discount curves built on year fractions give the same values, rates, discount factors and raise the same exceptions, fixed rate lists pay the same amounts and present values of fixed flows agree.", "quantifier": "for all increasing maps from dates to floats under which differences are year fractions, all domains, data, interpolations and origins, all dates asked for, all fixed rate lists and all products of fixed flows", "why_tests_cant": "a statement relating two types of dates for all curves and dates; tests use dates of one type at a time", "anchors": ["dcf/curves/curve.py:DateCurve.__init__", "dcf/curves/curve.py:DateCurve.__call__", "dcf/daycount.py:day_count", "dcf/curves/interestratecurve.py:ZeroRateCurve", "dcf/curves/interestratecurve.py:DiscountFactorCurve", "dcf/cashflows/cashflow.py:RateCashFlowList", "dcf/pricer.py:get_present_value"]}
{"id": "C164", "title": "Dates of the package datetime", "statement": "The framework works with native datetime dates as it does with BusinessDate: curves on datetime dates give the same rates, discount factors, survival probabilities and volatilities and raise the same exceptions, fixed and floating rate lists pay the same amounts and present values agree, whenever the dates are the same days.", "quantifier": "for all increasing maps to day numbers under which the year fraction is the number of days over 365.25, all domains, data, interpolations and origins, all dates asked for, all rate lists and all products", "why_tests_cant": "a statement relating two types of dates for all curves and dates; tests use dates of one type at a time", "anchors": ["dcf/daycount.py:day_count", "dcf/curves/curve.py:DateCurve.__init__", "dcf/curves/interestratecurve.py:ZeroRateCurve", "dcf/curves/interestratecurve.py:DiscountFactorCurve", "dcf/curves/interestratecurve.py:InterestRateCurve.get_cash_rate", "dcf/curves/creditcurve.py:FlatIntensityCurve", "dcf/curves/creditcurve.py:SurvivalProbabilityCurve", "dcf/curves/volatilitycurve.py:TerminalVolatilityCurve", "dcf/cashflows/cashflow.py:RateCashFlowList", "dcf/pricer.py:get_present_value"]}
{"id": "C165", "title": "Interpolations written by the user", "statement": "Any function through its points can be used as interpolation: it is called with the points in increasing order whatever the order they are given in (for date curves with the year fractions from the origin), the curve is the function it returns and takes the given values, also after any sequence of assignments, sums, differences and products take the right values on the joint points (everywhere if the function is additive in the values), what it raises reaches the caller, and copied, shifted and rebuilt curves use the same function. The classes of the package are the special case they should be.", "quantifier": "for all functions through their points, all points, sequences of assignments and dates, whatever the name of the function is found as", "why_tests_cant": "a statement for all interpolation functions a user may write; tests use the classes of the package", "anchors": ["dcf/curves/curve.py:Curve.__init__", "dcf/curves/curve.py:Curve._update", "dcf/curves/curve.py:Curve.kwargs", "dcf/curves/curve.py:Curve.__setitem__", "dcf/curves/curve.py:Curve.__add__", "dcf/curves/curve.py:Curve.shifted", "dcf/curves/curve.py:DateCurve._update", "dcf/curves/curve.py:DateCurve.__init__"]}
{"id": "C166", "title": "Compounding in floating point arithmetic", "statement": "With every operation rounded to nearest, simple discount factors have a relative error of at most four units of rounding, are positive and at most one for nonnegative rates, one at maturity zero, and never increase with rate or maturity, not even by a last digit; continuous ones have a relative error of (1 + v) exp(u |r t|) - 1 for an exponential function of relative error v. A rate turned into a discount factor and back is off by at most 8 u (1 + r t) / t.", "quantifier": "for all rates and maturities, all numbers of bits from four on and every rule for ties; all exponential functions of the stated accuracy", "why_tests_cant": "error bounds for all inputs and all IEEE roundings; tests compare single values up to a tolerance", "anchors": ["dcf/compounding.py:simple_compounding", "dcf/compounding.py:simple_rate", "dcf/compounding.py:continuous_compounding"]}
{"id": "C167", "title": "Linear interpolation in floating point arithmetic", "statement": "With every operation rounded to nearest, the linear interpolation between two neighbouring points is off the straight line by at most 14 units of rounding relative to the larger value, increases between increasing values and does not fall below the left value, not even by a last digit, and returns the first value and values between points of equal value exactly. All given points are returned.", "quantifier": "for all points with distinct abscissas in any order, all arguments between the first and the last point, all numbers of bits from four on and every rule for ties", "why_tests_cant": "error bounds for all inputs and all IEEE roundings; tests use a few points with short decimal values", "anchors": ["dcf/interpolation.py:linear.__call__"]}
{"id": "C168", "title": "Sums of money in floating point arithmetic", "statement": "With every operation rounded to nearest, the present value of n flows is off by at most (1 + u)^(n + 1) - 1 times the sum of the absolute discounted amounts, is never lower for more money and never negative for nonnegative flows; the payments of an amortizing plan are equal, have the sign of the amount and add up to it within the same bound, balances are off by at most (1 + u)^(k + 1) - 1 times the amounts involved, and year fractions are zero over no days, never decrease with the end date and add up within two units of rounding.", "quantifier": "for all lists of flows, plans, amounts, numbers of payments and dates, all numbers of bits from four on and every rule for ties", "why_tests_cant": "error bounds for lists of any length and all IEEE roundings; tests compare single values up to a tolerance", "anchors": ["dcf/pricer.py:get_present_value", "dcf/plans.py:amortize", "dcf/plans.py:outstanding", "dcf/daycount.py:day_count"]}
{"id": "C169", "title": "Valuation in floating point arithmetic", "statement": "With every operation rounded to nearest and an exponential function of relative error v, the present value of n flows on a zero rate curve with rates of absolute value at most M is off by at most (1 + v) exp(16 u M T) (1 + u)^(n + 1) - 1 times the sum of the absolute discounted amounts, if all flows are within T years of the origin: interpolation, compounding, multiplication and summation together. Each discount factor has a relative error of at most (1 + v) exp(16 u M T) - 1.", "quantifier": "for all zero rate curves, day counts, lists of flows, rates and horizons, all numbers of bits from four on and every rule for ties; all exponential functions of the stated accuracy", "why_tests_cant": "an error bound for the whole calculation, for lists of any length and all IEEE roundings; tests compare single values up to a tolerance", "anchors": ["dcf/pricer.py:get_present_value", "dcf/curves/interestratecurve.py:ZeroRateCurve._get_compounding_rate", "dcf/curves/curve.py:RateCurve._get_compounding_factor", "dcf/interpolation.py:interpolation_scheme.__call__", "dcf/compounding.py:continuous_compounding"]}
{"id": "C170", "title": "Annuities in floating point arithmetic", "statement": "With every operation rounded to nearest and a power function accurate to the unit of rounding u, an annuity plan for a positive rate exists, has the requested number of payments of the sign of the amount and adds up to the amount within (1 + 9 w)(1 + u)^n - 1, where w = u q^n / (q^n - 1) and q is one plus the rate.", "quantifier": "for all amounts, positive rates and numbers of payments, all numbers of bits from four on and every rule for ties", "why_tests_cant": "the error grows without bound for small rates; tests use rates of a few percent", "anchors": ["dcf/plans.py:annuity"]}
{"id": "C171", "title": "Bracketing and yields in floating point arithmetic", "statement": "With every operation rounded to nearest, bracketing a function between float bounds refuses exactly if both end values have the same strict sign; what it returns lies within the bounds, encloses a change of sign and meets the precision in both respects. It returns for all large enough recursion limits, and so the yield to maturity of a product is found for every amount.", "quantifier": "for all functions, bounds, precisions and recursion limits, all numbers of bits from four on (one on for refusals and results) and every rule for ties; all amounts", "why_tests_cant": "whether a recursion ends for all amounts; tests use amounts of a hundred or a million and never reach the spacing of floats", "anchors": ["dcf/pricer.py:_simple_bracketing", "dcf/pricer.py:get_yield_to_maturity", "dcf/pricer.py:get_fair_rate", "dcf/pricer.py:get_curve_fit"]}
{"id": "C172", "title": "Curves over dates in floating point arithmetic", "statement": "With every operation rounded to nearest, including the year fractions of the default day count, different dates have different year fractions in the same order; the value of a curve at a date differs from its exact value by at most (14 + 5856 T) units of rounding of the largest value, for dates within T years of the origin, and discount factors and present values have a bounded relative error.", "quantifier": "for all numbers of bits from four on, all rules for ties, all curves of float values at different dates within T years of the origin with 1500 T units of rounding at most one, all flows and every exponential function with a bounded relative error", "why_tests_cant": "a bound over all dates, values and roundings; tests compare single numbers with a tolerance", "anchors": ["dcf/curves/curve.py:DateCurve._update", "dcf/curves/curve.py:DateCurve.__call__", "dcf/daycount.py:day_count", "dcf/curves/interestratecurve.py:ZeroRateCurve._get_compounding_factor", "dcf/pricer.py:get_present_value"]}
{"id": "C173", "title": "Rate curves with interpolations written by the user", "statement": "Interest rate, credit and volatility curves accept any function of the points as interpolation. If it returns a function through the points, the curve is built and takes the given values (credit curves: the given probabilities clamped to the unit interval) at the given dates; zero rate curves discount flows on these dates by the given rates, and their casts onto such dates are the same whatever the interpolation; after any sequence of assignments the curve takes the values last assigned. The order of the points does not matter, a class of the package given as function makes the curve of the package, and errors of the function are raised as they are. Survival probabilities are at most one.", "quantifier": "for all functions of points, all points at different dates, origins, usable day counts, flows on the given dates and sequences of assignments", "why_tests_cant": "interpolations written by users cannot be enumerated; tests use those of the package", "anchors": ["dcf/curves/curve.py:DateCurve._update", "dcf/curves/curve.py:RateCurve.__call__", "dcf/curves/interestratecurve.py:ZeroRateCurve", "dcf/curves/creditcurve.py:SurvivalProbabilityCurve"]}
{"id": "C174", "title": "Coupons, legs, accrued interest and basis point values in floating point arithmetic", "statement": "With every operation rounded to nearest, coupons have a relative error of at most three roundings and do not fall with higher rates, longer periods or larger amounts; the value of several legs has an error bounded by the number of flows and legs relative to the absolute discounted flows; accrued interest lies between zero and the coupon without any tolerance and is the whole coupon at the end of the period; opposite legs are worth exactly nothing together, twice the amounts are worth exactly twice as much; and basis point values are those of the exact values up to the error of the values divided by the shift. Opposite legs cancel in any list of legs, and basis point values of flows after today are not zero.", "quantifier": "for all numbers of bits from four on, all rules for ties (cancelling and doubling: rules that are symmetric and do not depend on the exponent), rates, year fractions, amounts, legs, flows and shifts", "why_tests_cant": "a bound over all amounts and roundings; tests compare single numbers with a tolerance", "anchors": ["dcf/cashflows/payoffs.py:RateCashFlowPayOff.details", "dcf/pricer.py:get_present_value", "dcf/pricer.py:get_interest_accrued", "dcf/pricer.py:get_basis_point_value"]}
{"id": "C175", "title": "Options and bumped sensitivities in floating point arithmetic", "statement": "With every operation rounded to nearest, calls and puts without volatility or time are never negative, one of them is worth nothing, their difference is exactly the computed forward minus strike and they are exact when forward and strike are within a factor of two; a put found by parity has a bounded error, is the call at the money and is not negative if and only if the call is worth at least the computed forward minus strike; bumped deltas, bumped gammas and call spreads of binary options have errors bounded by the error of the prices, divided by the shift. Bumped deltas of calls in the money are not zero, bumped gammas are not negative and binary calls lie between zero and one.", "quantifier": "for all numbers of bits from four on, all rules for ties (parity: symmetric ones), pricing formulas, forwards, strikes, volatilities and times", "why_tests_cant": "a bound over all forwards, strikes and roundings; tests compare single prices with a tolerance", "anchors": ["dcf/models/optionpricing.py:OptionPayOffModel.get_call_value", "dcf/models/optionpricing.py:OptionPayOffModel.get_put_value", "dcf/models/optionpricing.py:OptionPayOffModel.get_call_delta", "dcf/models/optionpricing.py:OptionPayOffModel.get_call_gamma", "dcf/models/optionpricing.py:BinaryOptionPayOffModel._call_price"]}
{"id": "C176", "title": "Volatilities and forward rates in floating point arithmetic", "statement": "With every operation rounded to nearest, terminal volatilities that do not fall give a forward volatility for every period, never negative; with a floor every forward volatility is defined and at least the floor, without any tolerance; its square misses the exact forward variance by a few roundings of the variances divided by the length of the period. Forward rates, of zero rates and of flat intensities, have the sign of the exact forward rate, keep its order and have a bounded error. Rising total variance gives forward volatilities, and forwards on flat curves are the flat value.", "quantifier": "for all numbers of bits from four on, all rules for ties, year fractions, volatilities, rates and floors", "why_tests_cant": "a bound over all quotes and roundings; tests compare single numbers with a tolerance", "anchors": ["dcf/curves/volatilitycurve.py:TerminalVolatilityCurve.get_terminal_vol", "dcf/curves/interestratecurve.py:ZeroRateCurve._get_compounding_rate", "dcf/curves/creditcurve.py:FlatIntensityCurve._get_compounding_rate"]}
{"id": "C177", "title": "Fx rates in floating point arithmetic", "statement": "With every operation rounded to nearest, cross rates in a container are positive, keep their order and miss the exact quotient of the spots by a few roundings, as do triangles of three currencies and rates the other way round; they are exact if the spot of the currency is a power of two; forwards miss the exact forward by a few roundings and are the spot without discounting. Cross rates do not depend on the order in which currencies are added.", "quantifier": "for all numbers of bits from four on, all rules for ties, positive spots and discount factors", "why_tests_cant": "a bound over all spots and roundings; tests compare single numbers with a tolerance", "anchors": ["dcf/curves/fx.py:FxContainer.add", "dcf/curves/fx.py:FxForwardCurve.get_forward_price"]}
{"id": "C178", "title": "Credit data in floating point arithmetic", "statement": "With every operation rounded to nearest, survival probabilities from the least positive normal float to one are stored as given and others clamped; survival probabilities stored for default probabilities are positive, at most one, fall with the default probability, miss the exact ones by at most one rounding and are exact for default probabilities of at least one half; conditional survival probabilities of falling survival probabilities lie between zero and one, are one without a fall and multiply over adjacent periods up to a few roundings. No positive default probability is lost.", "quantifier": "for all rules for ties and all probabilities (conditional survival: all numbers of bits from four on)", "why_tests_cant": "a bound over all probabilities and roundings; tests compare single numbers with a tolerance", "anchors": ["dcf/curves/creditcurve.py:ProbabilityCurve.__init__", "dcf/curves/creditcurve.py:DefaultProbabilityCurve.__init__", "dcf/curves/creditcurve.py:SurvivalProbabilityCurve._get_compounding_factor"]}
{"id": "C179", "title": "Rates over many periods in floating point arithmetic", "statement": "With every operation rounded to nearest, the zero rate of a short rate curve misses the exact average of the short rates by a number of roundings given by the number of days, keeps the order of the rates and is not negative for rates that are not; discount factors of cash rates that are not negative are positive, at most one and miss the exact product by five roundings per period, and the zero rate of a cash rate curve is not negative and has a bounded error. A flat short rate is the zero rate of every period, and positive cash rates have a positive zero rate.", "quantifier": "for all numbers of bits from four on, all rules for ties, any number of steps, all rates and year fractions, all logarithms with a relative error", "why_tests_cant": "a bound over all rates, numbers of steps and roundings; tests compare single numbers with a tolerance", "anchors": ["dcf/curves/interestratecurve.py:ShortRateCurve._get_compounding_rate", "dcf/curves/interestratecurve.py:CashRateCurve._get_compounding_rate", "dcf/compounding.py:continuous_rate"]}
{"id": "C180", "title": "Fair rates in floating point arithmetic", "statement": "With every operation rounded to nearest, a fair rate that is returned lies within the bounds, and the exact value of the coupons at that rate misses the target by at most the precision and a number of roundings given by the number of coupons; if the exact values at the bounds lie on the same side of the target, by more than the rounding error, the search is refused. A fair rate is found whenever there is one within the bounds.", "quantifier": "for all numbers of bits from four on, all rules for ties, any number of coupons, all discount factors, forwards, year fractions, amounts, targets, bounds and precisions", "why_tests_cant": "a bound over all legs and roundings; tests compare single numbers with a tolerance", "anchors": ["dcf/pricer.py:get_fair_rate", "dcf/pricer.py:_simple_bracketing", "dcf/cashflows/payoffs.py:RateCashFlowPayOff"]}
{"id": "C181", "title": "The normal distribution in floating point arithmetic", "statement": "With every operation and every literal rounded to nearest, the computed normal density and distribution function miss the exact ones by the error of the approximation and a few roundings, whatever the argument; computed probabilities lie between zero and one, and the probability of the upper tail is one less that of the lower tail, rounded.", "quantifier": "for all numbers of bits from twenty on, all rules for ties, all arguments, all exponential functions with a relative error", "why_tests_cant": "a bound over all arguments, however large, and all roundings; tests compare single numbers with a tolerance", "anchors": ["dcf/models/distibutions.py:normal_pdf", "dcf/models/distibutions.py:normal_cdf"]}
{"id": "C182", "title": "Closed option formulas in floating point arithmetic", "statement": "With every operation rounded to nearest, call prices and binary call prices (which are the deltas of calls) in the normal and log-normal models miss the exact formulas by 0.00001 times moneyness, or forward plus strike, plus explicit multiples of the rounding unit; with 53 bits and log-moneyness up to ten and standard deviations from 0.0001 to 1000 the error of a log-normal price is at most 0.00001001 times forward plus strike.", "quantifier": "for all numbers of bits from twenty on, all rules for ties, all positive year fractions and volatilities, all strikes and forwards (positive ones in the log-normal model), all exponential and logarithm functions with a relative error", "why_tests_cant": "a bound over all inputs and roundings; tests compare single prices with a tolerance", "anchors": ["dcf/models/bachelier.py:NormalOptionPayOffModel._call_price", "dcf/models/bachelier.py:BinaryNormalOptionPayOffModel._call_price", "dcf/models/black76.py:LogNormalOptionPayOffModel._call_price", "dcf/models/black76.py:BinaryLogNormalOptionPayOffModel._call_price", "dcf/models/displaced.py:DisplacedLogNormalOptionPayOffModel._call_price"]}
{"id": "C183", "title": "Rating weights in floating point arithmetic", "statement": "With every operation rounded to nearest and round(x, 7) giving the float nearest to the rounded decimal, a value within the master scale has one weight per class, each between zero and one; only the two classes next to the value have weights, these add up to one up to 0.0000001 and three roundings and reproduce the rounded value up to 0.00000005 (and six roundings) times the two class values; a class value has weight one for that class and no other; values outside the scale are refused.", "quantifier": "for all numbers of bits from four on, all rules for ties, all master scales with two different values, all values", "why_tests_cant": "a statement on all scales, values and roundings; tests compare the weights of single values on one scale", "anchors": ["dcf/ratingclass.py:RatingClass.__iter__", "dcf/ratingclass.py:RatingClass.masterscale"]}
{"id": "C184", "title": "Log interpolation in floating point arithmetic", "statement": "With every operation rounded to nearest, log-linear interpolation, log-linear interpolation of rates and the constant rates beyond the data miss the exact values by an explicit relative error; between points with increasing values log-linear interpolation is increasing without any tolerance; a given point comes back exactly.", "quantifier": "for all numbers of bits from four on, all rules for ties, all points with positive values and distinct arguments, all exponential and logarithm functions with a relative error", "why_tests_cant": "a bound over all points, arguments and roundings, and a statement on all exponential and logarithm functions; tests compare single values with a tolerance", "anchors": ["dcf/interpolation.py:loglinear", "dcf/interpolation.py:loglinearrate", "dcf/interpolation.py:logconstantrate"]}
{"id": "C185", "title": "Master scales in floating point arithmetic", "statement": "With every operation rounded to nearest, the values of a master scale built from names are geometric up to an explicit relative error; the default scale, rounded to seven digits as for weights, is exactly that of the powers of ten (as floats); a rating given by its name has weight one for that class and zero for all others.", "quantifier": "for all rules for ties, all exponential and logarithm functions with a relative error (for the default scale up to 0.000000000000001), all numbers of names (up to 100000 for the default scale)", "why_tests_cant": "a bound over all numbers of names and all roundings; tests look at single scales", "anchors": ["dcf/ratingclass.py:RatingClass.master_scale.fromkeys", "dcf/ratingclass.py:RatingClass.__iter__"]}
{"id": "C186", "title": "Discount factor curves and forward prices in floating point arithmetic", "statement": "With every operation rounded to nearest, a factor of a discount factor curve misses the quotient of the two curve values by one rounding, is exactly one over an empty period, at most one if the values do not increase and monotone in them; factors of adjacent periods multiply to the factor of the whole; the rate of a period misses the exact rate by an explicit bound. Forward prices after the last date miss the documented price by an explicit factor growing with yield and time, never fall with time for a non-negative yield and stay at the last price for the yield zero.", "quantifier": "for all positive values, periods and yields, all numbers of bits from four on, all rules for ties, all exponential and logarithm functions with a relative error", "why_tests_cant": "a bound over all values and all roundings; tests compare single numbers up to a tolerance", "anchors": ["dcf/curves/interestratecurve.py:DiscountFactorCurve._get_compounding_factor", "dcf/curves/curve.py:RateCurve._get_compounding_rate", "dcf/curves/curve.py:ForwardCurve.get_forward_price"]}
{"id": "C187", "title": "Arithmetic, shifts, spreads and risk numbers of rate curves with an interpolation written by the user", "statement": "Zero and short rate curves with any interpolation function through their points can be added, subtracted and multiplied: at every date the result is the combination of the values of both curves, and at dates given to both that of the given values. A shifted curve has the values of the curve at the moved dates. A curve is rebuilt from its kwargs. A spread adds to the values, changes the discount factors at given dates accordingly, and removing it gives the curve back. Basis point value and bucketed deltas of flows on given dates depend on the given zero rates only.", "quantifier": "for all interpolation functions through their points, all points, dates, origins, day counts, spreads, worlds, products, shifts and delta grids", "why_tests_cant": "the interpolation is an arbitrary function of the user; tests use the few of the package", "anchors": ["dcf/curves/curve.py:RateCurve.__add__", "dcf/curves/curve.py:DateCurve.__add__", "dcf/curves/curve.py:Curve.shifted", "dcf/curves/curve.py:Curve.kwargs", "dcf/curves/curve.py:RateCurve.spread", "dcf/pricer.py:get_basis_point_value", "dcf/pricer.py:get_bucketed_delta"]}
{"id": "C188", "title": "Arithmetic of volatility and intensity curves with an interpolation written by the user", "statement": "Terminal and instantaneous volatility curves, flat intensity and hazard rate curves with any interpolation function through their points can be added, subtracted and multiplied: at every date the result is the combination of the values of both curves; at the dates of the second curve, and those its cast adds, this holds of the values its own function gives, and at dates given to both of the given values. The result keeps class, tenor and volatility floor. A curve is rebuilt from its kwargs.", "quantifier": "for all interpolation functions through their points, all points, common origins, day counts of the first curve, tenors, floors and operations", "why_tests_cant": "the interpolation is an arbitrary function of the user; tests use the few of the package", "anchors": ["dcf/curves/curve.py:RateCurve.__add__", "dcf/curves/curve.py:DateCurve.__add__", "dcf/curves/curve.py:Curve.shifted", "dcf/curves/curve.py:Curve.kwargs", "dcf/curves/creditcurve.py:CreditCurve", "dcf/curves/volatilitycurve.py:InstantaneousVolatilityCurve", "dcf/curves/volatilitycurve.py:TerminalVolatilityCurve"]}
{"id": "C189", "title": "Arithmetic and kwargs of probability curves with an interpolation written by the user", "statement": "Survival and default probability curves with any interpolation function through their points that stays positive can be added, subtracted and multiplied: at every date the result is the combination of the values of both curves; at the dates of the second curve, the day after the origin and a year after the last date this holds of the values its own function gives, cut off to the range of probabilities. A curve is rebuilt from its kwargs.", "quantifier": "for all positive interpolation functions through their points, all points, common origins, day counts of the first curve, tenors and operations", "why_tests_cant": "the interpolation is an arbitrary function of the user; tests use the few of the package", "anchors": ["dcf/curves/curve.py:RateCurve.__add__", "dcf/curves/curve.py:DateCurve.__add__", "dcf/curves/curve.py:Curve.kwargs", "dcf/curves/creditcurve.py:ProbabilityCurve", "dcf/curves/creditcurve.py:SurvivalProbabilityCurve", "dcf/curves/creditcurve.py:DefaultProbabilityCurve"]}
{"id": "C190", "title": "Arithmetic and kwargs of marginal probability curves with an interpolation written by the user", "statement": "Marginal survival and default probability curves with interpolation functions through their points that stay in a band of probabilities can be added, subtracted and multiplied, whatever the tenor of the second curve: at every date the result is the combination of the values of both curves; at the dates of the second curve, the day after the origin and a year after the last date this holds of the values its own function gives, cut off to the range of probabilities. A curve is rebuilt from its kwargs.", "quantifier": "for all interpolation functions through their points that stay in a band, all points, common origins, day counts of the first curve, tenors and operations whose results are not too small for a float", "why_tests_cant": "the interpolation is an arbitrary function of the user; tests use the few of the package", "anchors": ["dcf/curves/curve.py:RateCurve.__add__", "dcf/curves/curve.py:DateCurve.__add__", "dcf/curves/curve.py:Curve.kwargs", "dcf/curves/creditcurve.py:ProbabilityCurve", "dcf/curves/creditcurve.py:MarginalSurvivalProbabilityCurve", "dcf/curves/creditcurve.py:MarginalDefaultProbabilityCurve"]}
{"id": "C191", "title": "Bucketed deltas in floating point arithmetic", "statement": "With every operation rounded, get_bucketed_delta of flows at calendar dates on a zero rate curve returns one number per grid date. Each is within a bound proportional to the unit roundoff of the delta of exact arithmetic; the bound is relative to the value of the absolute flows divided by the shift, so small shifts lose digits. The delta of a grid date is exactly zero, without any tolerance, if every flow is at or before the grid date before it or after the grid date behind it. For flows that are not negative and not before the origin it is never positive, for positive and negative shifts and without any tolerance, if every flow is at or before the grid date or after the grid date behind it, or the grid date is the last one.", "quantifier": "for all precisions of at least four bits, roundings, exponential functions with a relative error, for the sign those that are also monotone, curves, flows, increasing grids and shifts that are floats other than zero, as long as the dates are not too far apart for the precision", "why_tests_cant": "the error is a bound over all inputs and exact zeros depend on rounded interpolations between neighbours; tests compare a few deltas up to a tolerance", "anchors": ["dcf/pricer.py:get_bucketed_delta", "dcf/pricer.py:get_present_value", "dcf/curves/curve.py:RateCurve.__call__", "dcf/curves/interestratecurve.py:ZeroRateCurve", "dcf/curves/curve.py:DateCurve.__call__"]}
{"id": "C192", "title": "Basis point values of curves over dates in floating point arithmetic", "statement": "With every operation rounded, get_basis_point_value of flows at calendar dates on a zero rate curve of any shape returns a number within a bound proportional to the unit roundoff of that of exact arithmetic; the bound is relative to the value of the absolute flows divided by the shift. For flows that are not negative and not before the origin of the curve it is never positive, for positive and negative shifts and without any tolerance. Flows at the origin have a basis point value of exactly zero. With a rounding that does not depend on the sign the other side of a deal has exactly the opposite basis point value and bucketed deltas, and flows scaled by a power of two have the scaled ones.", "quantifier": "for all precisions of at least four bits, roundings, curves, flows and shifts that are floats other than zero, as long as the dates are not too far apart for the precision; exponential functions with a relative error, for the sign those that are monotone", "why_tests_cant": "the error is a bound over all inputs and the sign has to survive every rounding; tests compare a few values up to a tolerance", "anchors": ["dcf/pricer.py:get_basis_point_value", "dcf/pricer.py:get_present_value", "dcf/curves/curve.py:RateCurve.__call__", "dcf/curves/interestratecurve.py:ZeroRateCurve"]}
