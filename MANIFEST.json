{"claims": [
  {"property": "C01", "status": "proved", "theorems": ["Dcf.C01_simple", "Dcf.C01_continuous", "Dcf.C01_periodic", "Dcf.C01_periodic_zero_base", "Dcf.C01_periodic_zero_frequency", "Dcf.C01_periodic_negative_base"], "note": ""},
  {"property": "C02", "status": "proved", "theorems": ["Dcf.C02_simple", "Dcf.C02_continuous", "Dcf.C02_periodic"], "note": ""},
  {"property": "C03", "status": "proved", "theorems": ["Dcf.C03_continuous", "Dcf.C03_periodic", "Dcf.C03_antitone", "Dcf.C03_simple"], "note": ""},
  {"property": "C04", "status": "proved", "theorems": ["Dcf.C04_names", "Dcf.C04_order", "Dcf.C04_limit"], "note": ""},
  {"property": "C05", "status": "proved", "theorems": ["Dcf.Plans.C05_same", "Dcf.Plans.C05_bullet", "Dcf.Plans.C05_bullet_empty", "Dcf.Plans.C05_amortize", "Dcf.Plans.C05_consumer", "Dcf.Plans.C05_annuity", "Dcf.Plans.C05_annuity_zero_rate"], "note": ""},
  {"property": "C06", "status": "proved", "theorems": ["Dcf.Plans.C06_annuity"], "note": ""},
  {"property": "C07", "status": "proved", "theorems": ["Dcf.Plans.C07_outstanding", "Dcf.Plans.C07_step"], "note": ""},
  {"property": "C08", "status": "proved", "theorems": ["Dcf.Rating.C08_scale", "Dcf.Rating.C08_default", "Dcf.Rating.C08_degenerate"], "note": ""},
  {"property": "C09", "status": "proved", "theorems": ["Dcf.Rating.C09_C10_weights", "Dcf.Rating.C09_outside", "Dcf.Rating.C09_degenerate"], "note": ""},
  {"property": "C10", "status": "proved", "theorems": ["Dcf.Rating.C09_C10_weights"], "note": ""},
  {"property": "C11", "status": "proved", "theorems": ["Dcf.C11_classes", "Dcf.C11_schemes", "Dcf.C11_rate_scheme_only_zero"], "note": "one exception is proved as well: a log-rate scheme whose only point is x=0 raises IndexError on every call (C11_rate_scheme_only_zero)"},
  {"property": "C12", "status": "proved", "theorems": ["Dcf.C12_left", "Dcf.C12_right", "Dcf.C12_nearest", "Dcf.C12_unique", "Dcf.C12_C13_empty"], "note": ""},
  {"property": "C13", "status": "proved", "theorems": ["Dcf.C12_C13_empty", "Dcf.C13_linear", "Dcf.C13_between", "Dcf.C13_single"], "note": ""},
  {"property": "C14", "status": "proved", "theorems": ["Dcf.C14_exact", "Dcf.C14_linear"], "note": ""},
  {"property": "C15", "status": "proved", "theorems": ["Dcf.C15_zero_linear", "Dcf.C15_linear_scheme", "Dcf.C15_dispatch", "Dcf.C15_assertion", "Dcf.C15_select"], "note": ""},
  {"property": "C16", "status": "proved", "theorems": ["Dcf.C16_loglinear", "Dcf.C16_loglinearrate", "Dcf.C16_logconstantrate", "Dcf.C16_at_zero", "Dcf.C16_nonpositive"], "note": ""},
  {"property": "C17", "status": "proved", "theorems": ["Dcf.C17_refines_map", "Dcf.C17_surplus"], "note": ""},
  {"property": "C18", "status": "proved", "theorems": ["Dcf.C18_curve", "Dcf.C18_domain", "Dcf.C18_date_curve", "Dcf.C18_date_curve_no_origin"], "note": ""},
  {"property": "C19", "status": "proved", "theorems": ["Dcf.C19_assign", "Dcf.C19_assign_date"], "note": ""},
  {"property": "C20", "status": "partial", "theorems": ["Dcf.C20_partial", "Dcf.C20_spread", "Dcf.C20_violated", "Dcf.C20_fixing_violated"], "note": "code violates the property with a spread (C20_spread, C20_violated) and with a fixing at the assigned date (C20_fixing_violated); holds without both (C20_partial)"},
  {"property": "C21", "status": "proved", "theorems": ["Dcf.C21_add_sub", "Dcf.C21_mul", "Dcf.C21_div", "Dcf.C21_div_undefined"], "note": ""},
  {"property": "C22", "status": "partial", "theorems": ["Dcf.C22_violated", "Dcf.C22_resample_partial"], "note": "code violates the property (C22_violated): shifted resamples; what it does is C22_resample_partial"},
  {"property": "C23", "status": "proved", "theorems": ["Dcf.C23_origin", "Dcf.C23_rate_scheme_depends"], "note": ""},
  {"property": "C24", "status": "partial", "theorems": ["Dcf.C24_dates_lost", "Dcf.C24_div_never", "Dcf.C24_same_origin_partial", "Dcf.C24_div_attribute", "Dcf.C24_div_undefined"], "note": "code violates the property: origin and day count are never kept (C24_dates_lost) and division always raises (C24_div_never, C24_div_attribute); sums and differences are pointwise for equal origins and default day count (C24_same_origin_partial)"},
  {"property": "C25", "status": "partial", "theorems": ["Dcf.C25_calendar_violated", "Dcf.C25_float", "Dcf.C25_float_violated", "Dcf.C25_zero_origin_partial"], "note": "code violates the property unless the origin is the zero date (C25_float_violated, C25_calendar_violated); exact relation C25_float; C25_zero_origin_partial"},
  {"property": "C26", "status": "proved", "theorems": ["Dcf.C26_fixings", "Dcf.C26_rate", "Dcf.C26_rate_no_spread"], "note": "on rate curves with a spread the fixing is returned plus the spread (C26_rate)"},
  {"property": "C27", "status": "partial", "theorems": ["Dcf.C27_flat", "Dcf.C27_discount", "Dcf.C27_function_partial", "Dcf.C27_function_violated"], "note": "holds for flat yields and interest rate curves; for yield functions the code uses the inverse ratio of the documented one (C27_function_violated, C27_function_partial)"},
  {"property": "C28", "status": "proved", "theorems": ["Dcf.C28_empty", "Dcf.C28_zero", "Dcf.C28_discount", "Dcf.C28_discount_adjacent", "Dcf.C28_discount_origin_violated", "Dcf.C28_short", "Dcf.C28_cash"], "note": "for discount factor curves whose value at the origin is not 1 the factor over the empty period at the origin is that value (C28_discount_origin_violated)"},
  {"property": "C29", "status": "proved", "theorems": ["Dcf.C29_relation", "Dcf.C29_average"], "note": ""},
  {"property": "C30", "status": "partial", "theorems": ["Dcf.C30_missing_origin_violated", "Dcf.C30_zero", "Dcf.C30_short_cash", "Dcf.C30_discount_partial"], "note": "code violates the property for discount factor curves that are not 1 at the origin (C30_discount_partial, an equivalence) or have no point there (C30_missing_origin_violated); holds for the other classes"},
  {"property": "C31", "status": "partial", "theorems": ["Dcf.C31_relation", "Dcf.C31_empty", "Dcf.C31_conflict", "Dcf.C31_conflict_violated", "Dcf.C31_cash"], "note": "code violates the last clause when the end date or the period is falsy, e.g. 0.0 (C31_conflict_violated); the deposit identity is proved"},
  {"property": "C32", "status": "proved", "theorems": ["Dcf.C32_integral", "Dcf.C32_terminates", "Dcf.C32_flat", "Dcf.C32_additive", "Dcf.C32_cash"], "note": ""},
  {"property": "C33", "status": "partial", "theorems": ["Dcf.C33_inside", "Dcf.C33_short", "Dcf.C33_partial", "Dcf.C33_single_violated"], "note": "code violates the property on a single grid date (C33_single_violated); holds on wider grids (C33_partial)"},
  {"property": "C34", "status": "partial", "theorems": ["Dcf.C34_partial", "Dcf.C34_violated"], "note": "code violates the property for every other period (C34_violated); the own tenor works (C34_partial)"},
  {"property": "C35", "status": "partial", "theorems": ["Dcf.C35_partial", "Dcf.C35_violated"], "note": "code violates the property: the annuity is always 0 (C35_partial, C35_violated)"},
  {"property": "C36", "status": "proved", "theorems": ["Dcf.C36_cast"], "note": ""},
  {"property": "C37", "status": "proved", "theorems": ["Dcf.C37_zero", "Dcf.C37_discount"], "note": ""},
  {"property": "C38", "status": "proved", "theorems": ["Dcf.C38_flat", "Dcf.C38_flat_monotone", "Dcf.C38_hazard_integral", "Dcf.C38_hazard", "Dcf.C38_survival", "Dcf.C38_survival_monotone", "Dcf.C38_survival_origin_violated", "Dcf.C38_marginal_product", "Dcf.C38_marginal", "Dcf.C38_default"], "note": "for survival curves whose value at the origin is not 1 the probability over the empty period at the origin object is that value (C38_survival_origin_violated); values below 2*float_info.min count as 0"},
  {"property": "C39", "status": "partial", "theorems": ["Dcf.C39_violated", "Dcf.C39_partial"], "note": "code violates the property for every flat intensity curve off the origin (C39_violated); what holds is C39_partial"},
  {"property": "C40", "status": "proved", "theorems": ["Dcf.C40_clamp", "Dcf.C40_marginal_range", "Dcf.C40_survival_range", "Dcf.C40_zero"], "note": "the upper bound of the code, 1. - float_info.min, is the float 1.0; the stored number for probability 0 counts as 0 again in periods (C40_zero)"},
  {"property": "C41", "status": "proved", "theorems": ["Dcf.C41_no_arbitrage", "Dcf.C41_missing"], "note": "any other pair is rejected with AssertionError (C41_missing), also the pair of a currency other than the base currency with itself"},
  {"property": "C42", "status": "partial", "theorems": ["Dcf.C42_partial", "Dcf.C42_violated"], "note": "code violates the property (C42_violated): cross rates keep the old spot; exact effect C42_partial"},
  {"property": "C43", "status": "partial", "theorems": ["Dcf.C43_forward", "Dcf.C43_container", "Dcf.C43_inverse_violated", "Dcf.C43_inverse_partial"], "note": "the forward formula is proved (C43_forward, C43_container); code violates the reciprocity for pairs (foreign, base) (C43_inverse_violated), it holds for all other pairs (C43_inverse_partial)"},
  {"property": "C44", "status": "proved", "theorems": ["Dcf.C44_additive", "Dcf.C44_defined"], "note": ""},
  {"property": "C45", "status": "partial", "theorems": ["Dcf.C45_no_floor_partial", "Dcf.C45_floor_partial", "Dcf.C45_day", "Dcf.C45_origin_violated"], "note": "code violates the property for periods from the origin (C45_origin_violated); it holds for all others (C45_no_floor_partial, C45_floor_partial)"},
  {"property": "C46", "status": "partial", "theorems": ["Dcf.C46_length", "Dcf.C46_lookup", "Dcf.C46_scalar", "Dcf.C46_total_partial", "Dcf.C46_total_violated"], "note": "code violates the last clause for repeated pay dates (C46_total_violated); it holds for distinct dates (C46_total_partial); lookup and lengths are proved"},
  {"property": "C47", "status": "partial", "theorems": ["Dcf.C47_domain", "Dcf.C47_flow", "Dcf.C47_no_legs", "Dcf.C47_origin", "Dcf.C47_present_value", "Dcf.C47_duplicate_violated"], "note": "code violates the last clause for legs with a pay date twice (C47_duplicate_violated); everything else is proved, the last clause with the models at the valuation date (C47_present_value)"},
  {"property": "C48", "status": "proved", "theorems": ["Dcf.C48_offset", "Dcf.C48_offset_years", "Dcf.C48_tiles", "Dcf.C48_total", "Dcf.C48_no_origin", "Dcf.C48_single", "Dcf.C48_empty"], "note": "all periods are moved by the pay offset, see C86"},
  {"property": "C49", "status": "partial", "theorems": ["Dcf.C49_same_partial", "Dcf.C49_violated"], "note": "code violates the property for the falsy origin (C49_violated); it holds for all others (C49_same_partial)"},
  {"property": "C50", "status": "proved", "theorems": ["Dcf.C50_formula", "Dcf.C50_no_curve", "Dcf.C50_affine", "Dcf.C50_list", "Dcf.C50_set", "Dcf.C50_get", "Dcf.C50_get_none", "Dcf.C50_set_get", "Dcf.C50_built"], "note": ""},
  {"property": "C51", "status": "partial", "theorems": ["Dcf.C51_clamp_partial", "Dcf.C51_violated"], "note": "code violates the documented formula for cap < forward < floor (C51_violated); it holds for floor <= cap (C51_clamp_partial)"},
  {"property": "C52", "status": "proved", "theorems": ["Dcf.C52_sum", "Dcf.C52_order", "Dcf.C52_no_model"], "note": ""},
  {"property": "C53", "status": "proved", "theorems": ["Dcf.C53_second_order", "Dcf.C53_value", "Dcf.C53_strike", "Dcf.C53_atm", "Dcf.C53_delta"], "note": ""},
  {"property": "C54", "status": "partial", "theorems": ["Dcf.C54_sum", "Dcf.C54_default", "Dcf.C54_legs", "Dcf.C54_past", "Dcf.C54_linear", "Dcf.C54_today", "Dcf.C54_today_discount", "Dcf.C54_today_violated", "Dcf.C54_nested", "Dcf.C54_flows", "Dcf.C54_other_curve", "Dcf.C54_violated"], "note": "code violates the last clause for discount factor curves without a one at the origin (C54_today_violated, C54_violated); all other clauses are proved"},
  {"property": "C55", "status": "partial", "theorems": ["Dcf.C55_restored", "Dcf.C55_evaluated", "Dcf.C55_failing_flow_violated", "Dcf.C55_failing_discount", "Dcf.C55_no_model_violated", "Dcf.C55_scope", "Dcf.C55_violated", "Dcf.C55_none_violated"], "note": "code violates the property when a flow raises (C55_failing_flow_violated, C55_violated) and for payoff model None (C55_no_model_violated, C55_none_violated); success and failing discounting are proved"},
  {"property": "C56", "status": "proved", "theorems": ["Dcf.C56_refuses", "Dcf.C56_errors", "Dcf.C56_result", "Dcf.C56_root", "Dcf.C56_passes"], "note": ""},
  {"property": "C57", "status": "proved", "theorems": ["Dcf.C57_steps", "Dcf.C57_continuous", "Dcf.C57_lipschitz", "Dcf.C57_jump", "Dcf.C57_precision"], "note": ""},
  {"property": "C58", "status": "proved", "theorems": ["Dcf.C58_reprices", "Dcf.C58_price", "Dcf.C58_refuses", "Dcf.C58_exists", "Dcf.C58_unique", "Dcf.C58_roundtrip", "Dcf.C58_no_date"], "note": ""},
  {"property": "C59", "status": "partial", "theorems": ["Dcf.C59_affine", "Dcf.C59_reprices", "Dcf.C59_unchanged", "Dcf.C59_mixed_violated", "Dcf.C59_none_violated", "Dcf.C59_refused_violated", "Dcf.C59_exists", "Dcf.C59_legs", "Dcf.C59_violated"], "note": "code violates the property for flows with different rates (C59_mixed_violated, C59_none_violated, C59_violated) and when the search is refused (C59_refused_violated); repricing, existence and the case of equal rates are proved"},
  {"property": "C60", "status": "partial", "theorems": ["Dcf.C60_accrued", "Dcf.C60_bounds", "Dcf.C60_full", "Dcf.C60_outside", "Dcf.C60_legs", "Dcf.C60_fixed", "Dcf.C60_offset_violated", "Dcf.C60_contingent_violated", "Dcf.C60_violated"], "note": "code violates the bound when there is a pay offset (C60_offset_violated) and raises for contingent rate legs (C60_contingent_violated); legs without pay offset are proved"},
  {"property": "C61", "status": "partial", "theorems": ["Dcf.C61_value", "Dcf.C61_parallel", "Dcf.C61_spread_violated", "Dcf.C61_failing_violated", "Dcf.C61_no_shift", "Dcf.C61_zero", "Dcf.C61_sign", "Dcf.C61_violated"], "note": "code violates the property for curves with a spread or given twice (C61_spread_violated, C61_violated) and when the shifted present value raises (C61_failing_violated); success is fully characterised (C61_value)"},
  {"property": "C62", "status": "proved", "theorems": ["Dcf.C62_triangles", "Dcf.C62_partition", "Dcf.C62_bounds", "Dcf.C62_node"], "note": ""},
  {"property": "C63", "status": "proved", "theorems": ["Dcf.C63_buckets", "Dcf.C63_affine", "Dcf.C63_on_grid", "Dcf.C63_zero"], "note": ""},
  {"property": "C64", "status": "partial", "theorems": ["Dcf.C64_success", "Dcf.C64_reprices", "Dcf.C64_first", "Dcf.C64_only", "Dcf.C64_exists", "Dcf.C64_empty_violated", "Dcf.C64_failing_violated", "Dcf.C64_zero", "Dcf.C64_discount_violated", "Dcf.C64_violated"], "note": "code violates the property: only sums per grid date are met (C64_violated), grid dates without products go to the lower bound (C64_empty_violated), failure leaves the spread (C64_failing_violated), discount factor curves always fail (C64_discount_violated); sums, single products, existence and the unchanged curve are proved"},
  {"property": "C65", "status": "partial", "theorems": ["Dcf.C65_violated", "Dcf.C65_numeric_violated", "Dcf.C65_short_violated", "Dcf.C65_bond_violated", "Dcf.C65_swap_violated"], "note": "code violates the property for all dates (C65_violated) with the failure for numbers in C65_numeric_violated and C65_short_violated; nothing of it holds"},
  {"property": "C66", "status": "proved", "theorems": ["Dcf.C66_plan", "Dcf.C66_bullet", "Dcf.C66_length", "Dcf.C66_total", "Dcf.C66_bullet_plan"], "note": ""},
  {"property": "C67", "status": "partial", "theorems": ["Dcf.C67_violated"], "note": "code violates the property for every input (C67_violated); nothing of it holds"},
  {"property": "C68", "status": "partial", "theorems": ["Dcf.C68_displaced", "Dcf.C68_zero", "Dcf.C68_price", "Dcf.C68_negative", "Dcf.C68_binary_violated", "Dcf.C68_delta"], "note": "code violates the property for the greeks of the binary displaced model (C68_binary_violated); all other models are proved"},
  {"property": "C69", "status": "partial", "theorems": ["Dcf.C69_normal_delta", "Dcf.C69_normal_gamma", "Dcf.C69_normal_vega", "Dcf.C69_binary_normal_delta", "Dcf.C69_binary_normal_gamma_violated", "Dcf.C69_binary_normal_vega_violated", "Dcf.C69_log_normal_delta", "Dcf.C69_log_normal_gamma_violated", "Dcf.C69_log_normal_vega_violated", "Dcf.C69_binary_log_normal_delta_violated", "Dcf.C69_binary_log_normal_vega_violated", "Dcf.C69_intrinsic"], "note": "code violates the property for the greeks listed, each as an equivalence (C69_*_violated); the others are proved"},
  {"property": "C70", "status": "partial", "theorems": ["Dcf.C70_range", "Dcf.C70_symmetric", "Dcf.C70_zero", "Dcf.C70_monotone", "Dcf.C70_limits", "Dcf.C70_price_partial", "Dcf.C70_price_violated", "Dcf.C70_threshold"], "note": "range, symmetry, monotonicity and limits are proved; code violates non-negativity of normal calls beyond a threshold between 8 and 9 standard deviations (C70_price_violated), it holds below (C70_price_partial; C70_threshold is an equivalence)"},
  {"property": "C71", "status": "partial", "theorems": ["Dcf.C71_partial", "Dcf.C71_date_violated", "Dcf.C71_violated", "Dcf.C71_theta_violated"], "note": "code violates the property (C71_violated, C71_date_violated, C71_theta_violated); what holds is C71_partial"},
  {"property": "C72", "status": "proved", "theorems": ["Dcf.C72_day_count", "Dcf.C72_mixed"], "note": ""},
  {"property": "C73", "status": "partial", "theorems": ["Dcf.C73_plain_partial", "Dcf.C73_log_violated"], "note": "code violates the property for the three log classes (C73_log_violated); it holds for all others (C73_plain_partial)"},
  {"property": "C74", "status": "partial", "theorems": ["Dcf.C74_order_violated", "Dcf.C74_same_last_partial"], "note": "code violates the property (C74_order_violated); holds when the last given date is the same (C74_same_last_partial)"},
  {"property": "C75", "status": "partial", "theorems": ["Dcf.C75_func_violated", "Dcf.C75_shifted_violated", "Dcf.C75_registered_partial"], "note": "code violates the property for own day count functions (C75_func_violated, C75_shifted_violated); holds for default and registered ones (C75_registered_partial)"},
  {"property": "C76", "status": "partial", "theorems": ["Dcf.C76_int_yield_violated", "Dcf.C76_at_last_partial"], "note": "code violates the property beyond the last date (C76_int_yield_violated)"},
  {"property": "C77", "status": "proved", "theorems": ["Dcf.C77_plain", "Dcf.C77_dates"], "note": ""},
  {"property": "C78", "status": "proved", "theorems": ["Dcf.C78_cast"], "note": ""},
  {"property": "C79", "status": "partial", "theorems": ["Dcf.C79_violated", "Dcf.C79_partial"], "note": "code violates the property unless both discount factors agree (C79_violated, an equivalence); it holds for the reciprocal reading (C79_partial)"},
  {"property": "C80", "status": "partial", "theorems": ["Dcf.C80_average_partial", "Dcf.C80_flat_partial", "Dcf.C80_violated", "Dcf.C80_points_violated"], "note": "code violates the property on every period with non-constant volatility (C80_violated, C80_points_violated); what it returns is C80_average_partial"},
  {"property": "C81", "status": "proved", "theorems": ["Dcf.C81_terminal", "Dcf.C81_instantaneous"], "note": ""},
  {"property": "C82", "status": "partial", "theorems": ["Dcf.C82_spread_violated", "Dcf.C82_float_violated", "Dcf.C82_flat_partial"], "note": "code violates the property (C82_spread_violated, C82_float_violated); flat curves without spread agree (C82_flat_partial)"},
  {"property": "C83", "status": "partial", "theorems": ["Dcf.C83_violated", "Dcf.C83_collar_violated", "Dcf.C83_partial"], "note": "code violates the property (C83_violated, C83_collar_violated); all other numbers work (C83_partial)"},
  {"property": "C84", "status": "partial", "theorems": ["Dcf.C84_flat_violated", "Dcf.C84_put_violated", "Dcf.C84_intrinsic_partial"], "note": "code violates the property (C84_flat_violated, C84_put_violated); the intrinsic binary call is 0 or 1 with volatility and time (C84_intrinsic_partial)"},
  {"property": "C85", "status": "partial", "theorems": ["Dcf.C85_partial", "Dcf.C85_violated"], "note": "code violates the property for longer lists (C85_violated)"},
  {"property": "C86", "status": "partial", "theorems": ["Dcf.C86_violated", "Dcf.C86_partial"], "note": "code violates the documentation (C86_violated); without offset it holds (C86_partial)"},
  {"property": "C87", "status": "partial", "theorems": ["Dcf.C87_flat", "Dcf.C87_legs_zero", "Dcf.C87_legs_violated"], "note": "code violates the property for leg lists (C87_legs_zero, C87_legs_violated); it holds for flat lists (C87_flat)"},
  {"property": "C89", "status": "partial", "theorems": ["Dcf.C89_payoffs_violated", "Dcf.C89_strikes_violated", "Dcf.C89_options_partial"], "note": "code violates the property (C89_payoffs_violated, C89_strikes_violated); lists with explicit arguments exist (C89_options_partial)"},
  {"property": "C90", "status": "partial", "theorems": ["Dcf.C90_copy", "Dcf.C90_origin_partial", "Dcf.C90_origin_violated"], "note": "the copy is proved (C90_copy); code violates the last clause for the falsy origin (C90_origin_violated), it holds for all others (C90_origin_partial)"},
  {"property": "C91", "status": "proved", "theorems": ["Dcf.C91_set", "Dcf.C91_reset", "Dcf.C91_remove"], "note": ""},
  {"property": "C92", "status": "partial", "theorems": ["Dcf.C92_hazard", "Dcf.C92_inside", "Dcf.C92_before", "Dcf.C92_after_marginal", "Dcf.C92_after", "Dcf.C92_single_violated", "Dcf.C92_partial"], "note": "code violates the property on a single grid date (C92_single_violated); it holds on wider grids (C92_partial)"},
  {"property": "C93", "status": "partial", "theorems": ["Dcf.C93_rate_partial", "Dcf.C93_credit_partial", "Dcf.C93_violated", "Dcf.C93_kept_partial"], "note": "code violates the property for falsy origins (C93_violated); it holds for all others"},
  {"property": "C94", "status": "proved", "theorems": ["Dcf.C94_grid"], "note": ""},
  {"property": "C95", "status": "proved", "theorems": ["Dcf.C95_zero", "Dcf.C95_zero_origin", "Dcf.C95_stored", "Dcf.C95_discount", "Dcf.C95_discount_origin", "Dcf.C95_prob", "Dcf.C95_hazard"], "note": ""},
  {"property": "C96", "status": "partial", "theorems": ["Dcf.C96_stored", "Dcf.C96_partial", "Dcf.C96_violated"], "note": "code violates the property (C96_stored, C96_violated); it holds for equal tenors (C96_partial)"},
  {"property": "C97", "status": "partial", "theorems": ["Dcf.C97_day_count_partial", "Dcf.C97_cash_tenor_partial", "Dcf.C97_tenor_violated", "Dcf.C97_credit_violated"], "note": "code violates the property for tenors (C97_tenor_violated, C97_credit_violated); day count and tenors of cash rate curves are kept"},
  {"property": "C98", "status": "partial", "theorems": ["Dcf.C98_normal", "Dcf.C98_binary_normal_partial", "Dcf.C98_binary_normal_gamma_violated", "Dcf.C98_log_normal_partial", "Dcf.C98_log_normal_violated", "Dcf.C98_binary_log_normal_partial", "Dcf.C98_binary_log_normal_violated", "Dcf.C98_intrinsic_partial", "Dcf.C98_binary_intrinsic_violated"], "note": "code violates the documentation for the greeks listed (C98_*_violated); all others are as documented"},
  {"property": "C99", "status": "partial", "theorems": ["Dcf.C99_delta", "Dcf.C99_gamma", "Dcf.C99_vega_partial", "Dcf.C99_theta_violated", "Dcf.C99_formula", "Dcf.C99_flat"], "note": "code violates the property for theta (C99_theta_violated); bumped vega needs date and time to agree (C99_vega_partial, see C71)"},
  {"property": "C100", "status": "partial", "theorems": ["Dcf.C100_spread", "Dcf.C100_range", "Dcf.C100_intrinsic", "Dcf.C100_shift_violated"], "note": "code violates the last clause (C100_shift_violated); the call spread itself is proved"},
  {"property": "C101", "status": "proved", "theorems": ["Dcf.C101_cdf", "Dcf.C101_pdf", "Dcf.C101_normal_price", "Dcf.C101_log_normal_price"], "note": ""},
  {"property": "C102", "status": "proved", "theorems": ["Dcf.C102_normal", "Dcf.C102_log_normal", "Dcf.C102_vol"], "note": ""},
  {"property": "C103", "status": "partial", "theorems": ["Dcf.C103_given", "Dcf.C103_default_violated", "Dcf.C103_violated"], "note": "code violates the property: the default grid is the domain of the discount curve (C103_default_violated, C103_violated); given grids are proved"},
  {"property": "C88", "status": "partial", "theorems": ["Dcf.C88_violated", "Dcf.C88_numbers", "Dcf.C88_zero", "Dcf.C88_payoffs_violated", "Dcf.C88_legs"], "note": "code violates the property for every list and operation (C88_violated)"},
  {"property": "C104", "status": "partial", "theorems": ["Dcf.C104_violated", "Dcf.C104_partial"], "note": "code violates the property for every non-empty name (C104_violated); functions and no day count are proved (C104_partial)"},
  {"property": "C105", "status": "proved", "theorems": ["Dcf.C105_flows", "Dcf.C105_equal_legs"], "note": ""},
  {"property": "C106", "status": "proved", "theorems": ["Dcf.C106_margin", "Dcf.C106_par"], "note": ""},
  {"property": "C107", "status": "proved", "theorems": ["Dcf.C107_value", "Dcf.C107_par"], "note": ""},
  {"property": "C108", "status": "partial", "theorems": ["Dcf.Rating.C108_partial", "Dcf.Rating.C108_classes", "Dcf.Rating.C108_unknown", "Dcf.Rating.C108_combination", "Dcf.Rating.C108_whole_violated", "Dcf.Rating.C108_names", "Dcf.Rating.C108_names_violated", "Dcf.Rating.C108_plain", "Dcf.Rating.C108_violated"], "note": "code violates the property from ten names on (C108_names_violated, C108_violated) and for integer valued classes (C108_whole_violated); distinct float classes and up to nine names are proved"},
  {"property": "C109", "status": "partial", "theorems": ["Dcf.Rating.C109_below", "Dcf.Rating.C109_above", "Dcf.Rating.C109_zero_violated"], "note": "code violates the property below a best class that rounds to zero (C109_zero_violated); all other values are proved (C109_below, C109_above)"},
  {"property": "C110", "status": "partial", "theorems": ["Dcf.C110_partial", "Dcf.C110_default_partial", "Dcf.C110_curve_partial", "Dcf.C110_decreasing_violated", "Dcf.C110_single_violated", "Dcf.C110_plain_violated", "Dcf.C110_columns_violated", "Dcf.C110_zero_violated", "Dcf.C110_violated"], "note": "code violates the property for decreasing dates (C110_decreasing_violated, C110_violated), single dates (C110_single_violated), plain curves (C110_plain_violated) and columns that are not increasing and positive (C110_columns_violated, C110_zero_violated); increasing grids are proved"},
  {"property": "C111", "status": "partial", "theorems": ["Dcf.C111_partial", "Dcf.C111_dates_partial", "Dcf.C111_violated", "Dcf.C111_dates_violated"], "note": "code violates the last clause: no curve can be iterated (C111_violated, C111_dates_violated); membership and item access are proved"},
  {"property": "C112", "status": "partial", "theorems": ["Dcf.C112_slopes", "Dcf.C112_partial", "Dcf.C112_fixing_violated", "Dcf.C112_float_violated", "Dcf.C112_violated"], "note": "code violates the property at kinks (C112_slopes, C112_violated), with fixings (C112_fixing_violated) and for year fraction dates (C112_float_violated); straight pieces are proved (C112_partial)"},
  {"property": "C113", "status": "partial", "theorems": ["Dcf.C113_from_origin", "Dcf.C113_empty", "Dcf.C113_reversed_partial", "Dcf.C113_reversed_violated"], "note": "code violates the property from the origin backwards for terminal volatility curves (C113_reversed_violated); all other periods are proved"},
  {"property": "C114", "status": "partial", "theorems": ["Dcf.C114_options", "Dcf.C114_lists", "Dcf.C114_scalars", "Dcf.C114_no_model", "Dcf.C114_curve_violated", "Dcf.C114_strategies", "Dcf.C114_limit_violated"], "note": "code violates the property for forward curves in place of models (C114_curve_violated) and for more than ten options (C114_limit_violated); values with models and without are proved"},
  {"property": "C115", "status": "partial", "theorems": ["Dcf.C115_cash_partial", "Dcf.C115_factors_partial", "Dcf.C115_factor_dates_partial", "Dcf.C115_factor_sum_violated", "Dcf.C115_zero_partial", "Dcf.C115_short_partial", "Dcf.C115_discount_partial", "Dcf.C115_div_violated", "Dcf.C115_origin_violated", "Dcf.C115_settings_violated", "Dcf.C115_grid_violated", "Dcf.C115_flat_partial", "Dcf.C115_day_count_violated", "Dcf.C115_div_error_violated"], "note": "code violates the property: the origin is lost (C115_origin_violated), day count and interpolation too (C115_settings_violated, C115_day_count_violated), division always raises (C115_div_violated), for zero and short rate curves with one origin ZeroDivisionError if the second quotes zero at a date and AttributeError otherwise (C115_div_error_violated); pointwise values for equal origins and default day count are proved for zero and short rate curves; with different origins the second curve is read at dates moved by the difference of the origins (C115_grid_violated), which is harmless for flat curves (C115_flat_partial); products of discount factor curves are pointwise (C115_factors_partial), other operations on them only at their dates (C115_factor_dates_partial): a curve of factors one added to itself quotes eight between them (C115_factor_sum_violated); sums and differences of cash rate curves are pointwise (C115_cash_partial)"},
  {"property": "C116", "status": "proved", "theorems": ["Dcf.Plans.C116_loan", "Dcf.Plans.C116_plans", "Dcf.Plans.C116_consumer"], "note": ""},
  {"property": "C117", "status": "partial", "theorems": ["Dcf.C117_shape", "Dcf.C117_order", "Dcf.C117_rate", "Dcf.C117_rate_violated"], "note": "code violates range and monotonicity for the log-linear-rate scheme (C117_rate_violated); all other default schemes are proved, and the log-linear-rate scheme keeps the zero rate band and the order (C117_rate)"},
  {"property": "C118", "status": "partial", "theorems": ["Dcf.C118_data", "Dcf.C118_short", "Dcf.C118_short_decreasing", "Dcf.C118_zero", "Dcf.C118_zero_decreasing", "Dcf.C118_cash", "Dcf.C118_cash_decreasing", "Dcf.C118_discount", "Dcf.C118_discount_data", "Dcf.C118_violated"], "note": "code violates the property for zero rate curves over periods that start after the origin (C118_violated); C118_zero_decreasing says exactly when it holds there; all other cases are proved"},
  {"property": "C119", "status": "partial", "theorems": ["Dcf.C119_values", "Dcf.C119_shown", "Dcf.C119_plain", "Dcf.C119_rate", "Dcf.C119_forward", "Dcf.C119_contingent_violated", "Dcf.C119_option_violated", "Dcf.C119_strategy_violated", "Dcf.C119_collar_violated", "Dcf.C119_option_columns_violated", "Dcf.C119_legs_violated", "Dcf.C119_function_violated"], "note": "code violates the property for contingent lists (C119_contingent_violated, C119_option_violated, C119_strategy_violated), for lists of lists (C119_legs_violated) and for functions (C119_function_violated); lists of numbers, fixed and rate cashflows are proved (C119_shown, C119_plain, C119_rate, C119_forward)"},
  {"property": "C120", "status": "proved", "theorems": ["Dcf.C120_duration", "Dcf.C120_convex", "Dcf.C120_order", "Dcf.C120_defined"], "note": ""},
  {"property": "C121", "status": "proved", "theorems": ["Dcf.C121_fair", "Dcf.C121_found", "Dcf.C121_swap"], "note": ""},
  {"property": "C122", "status": "partial", "theorems": ["Dcf.C122_grid", "Dcf.C122_dates", "Dcf.C122_sorted", "Dcf.C122_negative_violated", "Dcf.C122_nums", "Dcf.C122_step_violated", "Dcf.C122_special", "Dcf.C122_zero", "Dcf.C122_no_step", "Dcf.C122_values"], "note": "code violates the property for steps that do not divide an interval (C122_step_violated; C122_sorted is an equivalence) and for negative steps (C122_negative_violated); coverage and grids by number of steps are proved, and that steps of zero leave the domain as it is (C122_zero)"},
  {"property": "C123", "status": "proved", "theorems": ["Dcf.C123_call", "Dcf.C123_put", "Dcf.C123_flat", "Dcf.C123_no_valuation", "Dcf.C123_base", "Dcf.C123_binary_given", "Dcf.C123_binary_inherited", "Dcf.C123_binary_value", "Dcf.C123_binary_bumps"], "note": ""},
  {"property": "C124", "status": "partial", "theorems": ["Dcf.C124_normal_shift", "Dcf.C124_normal_scale", "Dcf.C124_log_normal_scale", "Dcf.C124_total_vol", "Dcf.C124_swap_normal", "Dcf.C124_swap_log_normal_partial", "Dcf.C124_swap_log_normal_violated"], "note": "code violates the swap of put and call in the log-normal model where an argument of the distribution function is 0 (C124_swap_log_normal_violated); proved else"},
  {"property": "C125", "status": "partial", "theorems": ["Dcf.C125_log_normal_strike", "Dcf.C125_log_normal_forward", "Dcf.C125_normal", "Dcf.C125_normal_strike", "Dcf.C125_normal_vol", "Dcf.C125_time", "Dcf.C125_normal_violated", "Dcf.C125_log_normal_violated", "Dcf.C125_log_normal_partial", "Dcf.C125_normal_partial"], "note": "code violates the property by the error of its distribution function (C125_normal_violated, C125_log_normal_violated); proved for the exact distribution and up to that error"},
  {"property": "C126", "status": "proved", "theorems": ["Dcf.C126_roll", "Dcf.C126_carry", "Dcf.C126_over", "Dcf.C126_curves", "Dcf.C126_cast"], "note": ""},
  {"property": "C127", "status": "partial", "theorems": ["Dcf.C127_kept", "Dcf.C127_given", "Dcf.C127_copy_given", "Dcf.C127_lost_violated", "Dcf.C127_log_linear_violated", "Dcf.C127_date_kept", "Dcf.C127_date_given", "Dcf.C127_date_violated", "Dcf.C127_yield_violated", "Dcf.C127_spot_violated", "Dcf.C127_forward_shift", "Dcf.C127_forward_values", "Dcf.C127_to_curve", "Dcf.C127_to_curve_violated", "Dcf.C127_to_curve_default_violated", "Dcf.C127_fx_shift", "Dcf.C127_cast", "Dcf.C127_credit_cast"], "note": "code violates it: a curve with the class log_linear_scheme (or an own scheme class) as interpolation raises TypeError when resampled, copied or shifted; a forward curve built from another one loses its yield and is flat beyond its last date; the plain curve of a date curve that interpolates log-linearly by default interpolates linearly; proved that the interpolation is kept whenever the construction succeeds, that a given interpolation replaces it, and what casts interpolate by"},
  {"property": "C128", "status": "partial", "theorems": ["Dcf.C128_curve", "Dcf.C128_copy", "Dcf.C128_date", "Dcf.C128_rate", "Dcf.C128_baked", "Dcf.C128_grid", "Dcf.C128_violated", "Dcf.C128_plain_violated", "Dcf.C128_rate_violated"], "note": "code violates it: curves with own day count functions or an interpolation like log_linear_scheme can not be rebuilt (TypeError), forward curves lose their yield (C127); proved for plain curves, date curves and interest rate curves of any class with named arguments"},
  {"property": "C129", "status": "partial", "theorems": ["Dcf.C129_all", "Dcf.C129_pair", "Dcf.C129_assign", "Dcf.C129_other", "Dcf.C129_spot", "Dcf.C129_forward_violated", "Dcf.C129_rebuild_violated"], "note": "code violates it: of an assigned curve only the rate at the origin is kept, forwards of the container come from spot and discount factors; an fx curve rebuilt from its kwargs loses both discount curves and raises AttributeError beyond its last date; the mapping laws are proved"},
  {"property": "C130", "status": "partial", "theorems": ["Dcf.C130_fields", "Dcf.C130_lost_violated", "Dcf.C130_values", "Dcf.C130_moved_violated"], "note": "code violates it: tenor, interpolation and spread get lost, and the moved dates get the rates the curve already has there (so nothing is moved); proved what is kept and which values a zero rate curve gets"},
  {"property": "C131", "status": "partial", "theorems": ["Dcf.C131_domain", "Dcf.C131_data", "Dcf.C131_none", "Dcf.C131_values", "Dcf.C131_data_only_violated", "Dcf.C131_data_only_exists"], "note": "code violates it: with a curve as data and no dates the result has no points and every call fails; the rest is proved"},
  {"property": "C132", "status": "partial", "theorems": ["Dcf.C132_curve", "Dcf.C132_chain", "Dcf.C132_empty_violated", "Dcf.C132_date", "Dcf.C132_lists", "Dcf.C132_mixed_violated", "Dcf.C132_origins_violated", "Dcf.C132_setitem_violated", "Dcf.C132_chain_violated", "Dcf.C132_built"], "note": "code violates it: a list and a tuple can not be joined (TypeError), which also happens for two tuples with different origins or after a point was set or when a third curve is added to the sum of two, and for the curve without points; proved that otherwise containers do not matter"},
  {"property": "C133", "status": "partial", "theorems": ["Dcf.Plans.C133_whole", "Dcf.Plans.C133_truncated", "Dcf.Plans.C133_amortize", "Dcf.Plans.C133_consumer", "Dcf.Plans.C133_below_one", "Dcf.Plans.C133_negative", "Dcf.Plans.C133_negative_annuity", "Dcf.Plans.C133_total_violated"], "note": "code violates it: amortize and consumer divide by the number itself but pay its whole part only, so the total is short by the fraction; below one nothing is paid (the bullet is, the annuity divides by zero); the rest is proved"},
  {"property": "C134", "status": "partial", "theorems": ["Dcf.Plans.C134_annuity", "Dcf.Plans.C134_annuity_violated", "Dcf.C134_simple_rate", "Dcf.C134_rates", "Dcf.C134_flat", "Dcf.C134_linear", "Dcf.C134_loglinear", "Dcf.C134_rate_violated"], "note": "the documentation is violated: the documented annuity payment is the one paid iff r (1+r)^(n-1) = 1, never at the default rate; the documented simple rate is never the one returned; documented linear and loglinear values lack the value at the left point, so they agree iff it is 0 or 1; those of the rate classes have the wrong logarithm; all other formulas are proved"},
  {"property": "C135", "status": "partial", "theorems": ["Dcf.C135_plain", "Dcf.C135_function_violated", "Dcf.C135_fixed_violated", "Dcf.C135_rate_violated", "Dcf.C135_option_violated", "Dcf.C135_contingent_violated", "Dcf.C135_strategy_violated", "Dcf.C135_legs_violated"], "note": "code violates it: proved for plain lists of numbers and payoffs; functions are replaced by their names, fixed and rate lists get payoffs as amounts so no flow is a number, payoffs, strikes and models of contingent lists are lost, legs become dictionaries"},
  {"property": "C136", "status": "partial", "theorems": ["Dcf.C136_rebuild", "Dcf.C136_default_violated", "Dcf.C136_fields", "Dcf.C136_shift", "Dcf.C136_moved_violated", "Dcf.C136_construct", "Dcf.C136_values"], "note": "code violates it: default probability curves rebuilt from their kwargs have complemented values, a shifted curve reads the values at the moved dates and drops tenor, interpolation and spread; rebuilding of the other classes, the shifted values and the constructor arguments are proved"},
  {"property": "C137", "status": "partial", "theorems": ["Dcf.C137_product_partial", "Dcf.C137_intensity_partial", "Dcf.C137_hazard_partial", "Dcf.C137_survival_partial", "Dcf.C137_div_violated", "Dcf.C137_dates", "Dcf.C137_probability_violated", "Dcf.C137_order_violated", "Dcf.C137_float_violated", "Dcf.C137_div_error_violated", "Dcf.C137_marginal_partial", "Dcf.C137_marginal_dates", "Dcf.C137_marginal_violated", "Dcf.C137_settings_violated", "Dcf.C137_origin_violated", "Dcf.C137_constant_partial"], "note": "code violates it: sums of (marginal) survival probabilities are cut off at one, operations on (marginal) default probabilities are complemented, division fails for all classes (with which error for intensity and hazard rate curves is C137_div_error_violated), curves with dates out of order are shifted against themselves, and curves over numbers cannot be added at all; origins, day counts and interpolations of both curves are dropped; proved for products of survival curves and of marginal survival curves, sums and differences of intensity curves and all operations on hazard rate curves of one origin with default settings, and for different origins if each curve has one rate"},
  {"property": "C138", "status": "partial", "theorems": ["Dcf.C138_data", "Dcf.C138_hazard", "Dcf.C138_flat", "Dcf.C138_marginal", "Dcf.C138_survival", "Dcf.C138_flat_violated", "Dcf.C138_survival_violated"], "note": "code violates it: with a later start, positive flat intensities and decreasing survival probabilities can give survival probabilities above one (the latter because the default interpolation is not monotone); proved over every period for hazard rates and marginal probabilities, from the origin for flat intensities, survival and default probabilities"},
  {"property": "C139", "status": "proved", "theorems": ["Dcf.C139_duration", "Dcf.C139_buckets", "Dcf.C139_local", "Dcf.C139_empty", "Dcf.C139_bucket_duration"], "note": "for positive shifts (locality for all shifts); valuation at the origin for the buckets, at any date for the basis point value"},
  {"property": "C140", "status": "partial", "theorems": ["Dcf.C140_grid", "Dcf.C140_product", "Dcf.C140_nonpositive_violated", "Dcf.C140_div_never", "Dcf.C140_div_violated", "Dcf.C140_yield_violated", "Dcf.C140_fx_violated", "Dcf.C140_fx_short_violated", "Dcf.C140_sum_violated"], "note": "code violates it: sums are interpolated between the dates of both curves, yields are lost, differences that are not positive raise ValueError, quotients raise AttributeError, fx results have no curves; the values at the dates of both curves and the products of curves with default settings are proved"},
  {"property": "C141", "status": "partial", "theorems": ["Dcf.C141_defined", "Dcf.C141_increasing", "Dcf.C141_between", "Dcf.C141_band", "Dcf.C141_iff", "Dcf.C141_violated"], "note": "code violates it: between quotes with increasing variances the linearly interpolated volatility can have a decreasing variance and a period raises ZeroDivisionError; proved if no volatility falls faster than half the later volatility per time to the later date, which is also necessary for dates as year fractions"},
  {"property": "C142", "status": "partial", "theorems": ["Dcf.C142_equal", "Dcf.C142_bounds", "Dcf.C142_violated", "Dcf.C142_found", "Dcf.C142_doc_violated"], "note": "code violates the documented equality with the coupon rate: yields are continuously compounded; what is true instead is proved for all bonds at par"},
  {"property": "C143", "status": "partial", "theorems": ["Dcf.C143_grid", "Dcf.C143_pointwise", "Dcf.C143_terminal", "Dcf.C143_origin_violated", "Dcf.C143_volatility_violated", "Dcf.C143_product_violated", "Dcf.C143_instantaneous_violated", "Dcf.C143_div_violated", "Dcf.C143_float_violated"], "note": "code violates it: results forget the origin, so volatilities from the origin are not the sums; products fail between dates; division always raises; numeric dates raise TypeError; what holds is proved for all volatility curves with a common origin"},
  {"property": "C144", "status": "partial", "theorems": ["Dcf.C144_rebuild", "Dcf.C144_construct", "Dcf.C144_fields", "Dcf.C144_shift", "Dcf.C144_moved_violated", "Dcf.C144_default_violated"], "note": "code violates it: shifting does not move values and drops tenor and interpolation; the class default interpolation is never in effect; rebuilding and constructor arguments proved as claimed"},
  {"property": "C145", "status": "proved", "theorems": ["Dcf.C145_value", "Dcf.C145_risk", "Dcf.C145_margin", "Dcf.C145_single"], "note": "the four theorems together give the claim; discount and forward curve may be one object"},
  {"property": "C146", "status": "partial", "theorems": ["Dcf.C146_value", "Dcf.C146_vega", "Dcf.C146_log_normal", "Dcf.C146_normal", "Dcf.C146_instantaneous_violated", "Dcf.C146_discount"], "note": "code violates it for instantaneous volatilities: with scipy the integral ignores the spread and the risk is 0; all other parts proved"},
  {"property": "C147", "status": "partial", "theorems": ["Dcf.C147_terms", "Dcf.C147_model", "Dcf.C147_strategy", "Dcf.C147_strategy_model", "Dcf.C147_expiry_violated", "Dcf.C147_collar", "Dcf.C147_valuation_violated", "Dcf.C147_rate"], "note": "code violates it in that two columns of the tables are never filled (C147_expiry_violated, C147_valuation_violated); all else proved"},
  {"property": "C148", "status": "partial", "theorems": ["Dcf.C148_formula", "Dcf.C148_equal", "Dcf.C148_parity", "Dcf.C148_intrinsic", "Dcf.C148_normal", "Dcf.C148_log_normal", "Dcf.C148_normal_partial", "Dcf.C148_log_normal_partial", "Dcf.C148_normal_violated", "Dcf.C148_collar_violated", "Dcf.C148_log_normal_violated", "Dcf.C148_list"], "note": "code violates it with its normal distribution: C148_normal_violated, C148_collar_violated, C148_log_normal_violated; all identities proved for every model, bounds proved with the exact distribution and up to its accuracy for the code"},
  {"property": "C149", "status": "partial", "theorems": ["Dcf.C149_forward", "Dcf.C149_exact", "Dcf.C149_flat", "Dcf.C149_normal_partial", "Dcf.C149_log_normal_partial", "Dcf.C149_violated"], "note": "code violates it with its normal distribution: C149_violated; synthetic forward and flat case proved for every model, bounds proved with the exact distribution and up to its accuracy for the code"},
  {"property": "C150", "status": "proved", "theorems": ["Dcf.C150_value", "Dcf.C150_risk", "Dcf.C150_single", "Dcf.C150_sign"], "note": ""},
  {"property": "C151", "status": "partial", "theorems": ["Dcf.C151_payoff", "Dcf.C151_strategy_violated", "Dcf.C151_repr", "Dcf.C151_str", "Dcf.C151_fixed", "Dcf.C151_amounts", "Dcf.C151_strategies_violated", "Dcf.C151_contingent_violated", "Dcf.C151_legs_violated", "Dcf.C151_curve", "Dcf.C151_curve_error", "Dcf.C151_points"], "note": "code violates: the text of an option strategy payoff, and so str of a list of option strategies, is a RecursionError (no attribute amount, so the text of the payoff is asked for again); repr of lists of payoffs and of option strategies has no payoffs; str of a leg list shows flows of 0 and repr neither dates nor flows. Proved for the other classes and for curves."},
  {"property": "C152", "status": "proved", "theorems": ["Dcf.C152_recovered", "Dcf.C152_returns"], "note": ""},
  {"property": "C153", "status": "partial", "theorems": ["Dcf.C153_normal", "Dcf.C153_log_normal", "Dcf.C153_reprices", "Dcf.C153_recovered", "Dcf.C153_returns", "Dcf.C153_unique_violated"], "note": "code violates uniqueness of implied volatilities with its approximation of the normal distribution, C153_unique_violated; the recovery is proved for price formulas that rise with the volatility, with C153_normal and C153_log_normal for the exact distribution (scipy)"},
  {"property": "C154", "status": "partial", "theorems": ["Dcf.C154_function", "Dcf.C154_curve", "Dcf.C154_date_curve", "Dcf.C154_rate_curve", "Dcf.C154_credit_curve", "Dcf.C154_zero_linear", "Dcf.C154_zero_violated", "Dcf.C154_nearest_violated"], "note": "code violates it for nearest and, before the data, for zero_linear_scheme (C154_nearest_violated, C154_zero_violated); proved for all other predefined interpolations and for plain, date, interest rate and credit curves"},
  {"property": "C155", "status": "partial", "theorems": ["Dcf.C155_function", "Dcf.C155_curve", "Dcf.C155_date_curve", "Dcf.C155_rate_curve", "Dcf.C155_credit_curve", "Dcf.C155_linear", "Dcf.C155_linear_violated"], "note": "code violates it for the single classes linear, loglinear and loglinearrate beyond the data (C155_linear_violated); proved for them between the remaining points and for all other predefined interpolations everywhere, on plain, date, interest rate and credit curves"},
  {"property": "C156", "status": "proved", "theorems": ["Dcf.C156_present_value", "Dcf.C156_bpv", "Dcf.C156_bpv_legs", "Dcf.C156_deltas", "Dcf.C156_deltas_legs"], "note": "present value, basis point value and bucketed deltas of leg lists are sums over the legs, and exist only if those of the legs do"},
  {"property": "C157", "status": "proved", "theorems": ["Dcf.C157_payoff", "Dcf.C157_fixed", "Dcf.C157_rate", "Dcf.C157_options", "Dcf.C157_flow", "Dcf.C157_present_value", "Dcf.C157_bpv", "Dcf.C157_deltas", "Dcf.C157_accrued", "Dcf.C157_accruedLegs"], "note": "equations between whole computations, exceptions and changed objects included; every constructor of cashflow lists commutes with the scaling"},
  {"property": "C158", "status": "proved", "theorems": ["Dcf.C158_data", "Dcf.C158_zero", "Dcf.C158_short", "Dcf.C158_cash", "Dcf.C158_discount", "Dcf.C158_present_value", "Dcf.C158_zero_present_value", "Dcf.C158_flat", "Dcf.C158_hazard", "Dcf.C158_survival", "Dcf.C158_marginal", "Dcf.C158_zero_sharp"], "note": "every class and every pair of ordered data; C158_zero_sharp shows why zero rates are compared from the origin only: raising one of them raises the factor of the period that starts there"},
  {"property": "C159", "status": "partial", "theorems": ["Dcf.C159_build", "Dcf.C159_assign", "Dcf.C159_shift", "Dcf.C159_cast", "Dcf.C159_combine", "Dcf.C159_combine_violated", "Dcf.C159_lists", "Dcf.C159_others", "Dcf.C159_assigned", "Dcf.C159_actions", "Dcf.C159_values", "Dcf.C159_rates", "Dcf.C159_moved", "Dcf.C159_values_violated", "Dcf.C159_legs", "Dcf.C159_new_legs", "Dcf.C159_legs_violated"], "note": "code violates it: DateCurve and CashFlowLegList keep the list object they are given, so a caller who changes the first date of the list moves a curve without origin (C159_moved, C159_values_violated), and one who appends a leg changes the present value but not the pay dates of the leg list (C159_legs_violated); curves with tuples of dates and different origins cannot be added (C159_combine_violated). Everything else of the statement is proved: no library call changes a list of the caller or another curve, and curves with origin keep their values"},
  {"property": "C160", "status": "partial", "theorems": ["Dcf.C160_methods", "Dcf.C160_values", "Dcf.C160_bumped", "Dcf.C160_greeks", "Dcf.C160_second_greeks", "Dcf.C160_from_function_violated"], "note": "code violates the last sentence: from_function passes the class itself in place of a tuple of bases to type(), so it raises TypeError for every function (C160_from_function_violated); everything else is proved"},
  {"property": "C161", "status": "partial", "theorems": ["Dcf.C161_answers", "Dcf.C161_traces", "Dcf.C161_session_traces", "Dcf.C161_success", "Dcf.C161_session", "Dcf.C161_valuations", "Dcf.C161_caught", "Dcf.C161_violated", "Dcf.C161_rates_violated"], "note": "code violates the claim in two cases: a get_basis_point_value that raises leaves its spreads attached, after which the next one raises TypeError (C161_violated), and a get_fair_rate that returns for a list with different fixed rates leaves all of them None (C161_rates_violated). Proved: the bounds on what may change, for all calls and sessions and any outcome (C161_traces, C161_session_traces), no change by calls that return (C161_success), sessions of calls that return (C161_session) mixed with present values, yields and accrued interest that may raise (C161_caught), independence of the valuation dates of models (C161_valuations)"},
  {"property": "C162", "status": "partial", "theorems": ["Dcf.C162_interest_rate_curves", "Dcf.C162_credit_curves", "Dcf.C162_volatility_curves", "Dcf.C162_lists", "Dcf.C162_rate_lists", "Dcf.C162_contingent_rate_lists", "Dcf.C162_option_lists", "Dcf.C162_flows", "Dcf.C162_calls", "Dcf.C162_session", "Dcf.C162_days", "Dcf.C162_float_violated"], "note": "code violates the claim for float dates: the date 0.0 is false in a boolean context, so a list of contingent rate cashflows with origin 0.0 pays other amounts than the list moved by one year (C162_float_violated). Proved for all renamings that also keep which dates are false: curves of all classes, constructors of lists, flows, all pricing calls and sessions of them"},
  {"property": "C163", "status": "partial", "theorems": ["Dcf.C163_curves", "Dcf.C163_present_values", "Dcf.C163_credit_curves", "Dcf.C163_volatility_curves", "Dcf.C163_rate_lists", "Dcf.C163_violated"], "note": "code violates the claim for cash rates over the default period, short rate curves and whatever else adds a period: the defaults 3M and 1D are strings, which cannot be added to a float, TypeError (C163_violated). Proved for zero, discount, flat intensity, survival, default and terminal volatility curves, fixed rate lists and present values of fixed flows"},
  {"property": "C164", "status": "partial", "theorems": ["Dcf.C164_interest_rate_curves", "Dcf.C164_credit_curves", "Dcf.C164_volatility_curves", "Dcf.C164_cash_rates", "Dcf.C164_rate_lists", "Dcf.C164_present_values", "Dcf.C164_offsets", "Dcf.C164_truth", "Dcf.C164_strings_violated", "Dcf.C164_violated"], "note": "code violates the claim where a default period is added: 1D, 3M, 1Y and 10Y are strings, and a string added to a datetime date is a TypeError, so cash rates and marginal probabilities without forward tenor, short rate and hazard rate curves and instantaneous volatilities fail (C164_violated). Proved for zero, discount, flat intensity, survival, default and terminal volatility curves, for cash rates over a tenor given as timedelta, rate lists and present values"},
  {"property": "C165", "status": "partial", "theorems": ["Dcf.C165_order", "Dcf.C165_points", "Dcf.C165_assign", "Dcf.C165_arithmetic", "Dcf.C165_additive", "Dcf.C165_resample", "Dcf.C165_copy", "Dcf.C165_shift", "Dcf.C165_unregistered_violated", "Dcf.C165_errors", "Dcf.C165_package", "Dcf.C165_dates", "Dcf.C165_dates_assign", "Dcf.C165_dates_resample", "Dcf.C165_renamed_violated", "Dcf.C165_fixings"], "note": "code violates the claim for curves built from curves: a function is handed on by its name, so that one which is not registered in Curve.INTERPOLATIONS ends in a TypeError (C165_unregistered_violated, C165_dates_resample) and one named like a class of the package is silently replaced by that class (C165_renamed_violated). Proved: order, points, assignments, arithmetic, errors, date curves, and copies of functions registered under their name"},
  {"property": "C166", "status": "partial", "theorems": ["Dcf.C166_unrounded", "Dcf.C166_simple", "Dcf.C166_order", "Dcf.C166_continuous", "Dcf.C166_roundtrip", "Dcf.C166_roundtrip_violated"], "note": "code violates exact inversion: for every rounding a positive rate whose product with the maturity is at most half a unit of rounding comes back as zero (C166_roundtrip_violated). Proved: error bounds, order and the bound for the round trip"},
  {"property": "C167", "status": "partial", "theorems": ["Dcf.C167_unrounded", "Dcf.C167_error", "Dcf.C167_order", "Dcf.C167_exact", "Dcf.C167_node_violated"], "note": "code violates the last sentence: with 53 bits and every rule for ties the interpolation through (0, 2^55) and (1, 1) is 0 at 1 (C167_node_violated). Proved: error bound, order, exactness at the first point and between equal values"},
  {"property": "C168", "status": "proved", "theorems": ["Dcf.C168_unrounded", "Dcf.C168_error", "Dcf.C168_order", "Dcf.C168_amortize", "Dcf.C168_outstanding", "Dcf.C168_day_count"], "note": "error bounds for any number of flows; without rounding the functions are those of the model (C168_unrounded)"},
  {"property": "C169", "status": "proved", "theorems": ["Dcf.C169_unrounded", "Dcf.C169_discount", "Dcf.C169_value"], "note": "times are taken as the day count returns them; without rounding the discount factor is that of the curve object (C169_unrounded)"},
  {"property": "C170", "status": "partial", "theorems": ["Dcf.C170_unrounded", "Dcf.C170_small_rate_violated", "Dcf.C170_total"], "note": "code violates the claim for small rates: a positive rate of at most half a unit of rounding is a ZeroDivisionError for every rule for ties (C170_small_rate_violated). Proved: the bound for the total whenever w is at most one sixteenth (C170_total)"},
  {"property": "C171", "status": "partial", "theorems": ["Dcf.C171_unrounded", "Dcf.C171_refuses", "Dcf.C171_result", "Dcf.C171_ends", "Dcf.C171_amounts_violated", "Dcf.C171_yield_violated", "Dcf.C171_yield_exact"], "note": "code violates the claim for large amounts: the precision is absolute, so a payment of at least 2^31 after a year valued at par has no yield with the default precision 1e-7, no recursion limit is enough (C171_yield_violated), though it exists in exact arithmetic (C171_yield_exact); in general whenever the precision is not above the spacing of floats of the size of the present value (C171_amounts_violated). Proved: refusals and results without restriction (C171_refuses, C171_result) and the end of the recursion for functions close to a Lipschitz function within the precision (C171_ends)"},
  {"property": "C172", "status": "partial", "theorems": ["Dcf.C172_separates", "Dcf.C172_value", "Dcf.C172_discount", "Dcf.C172_present_value", "Dcf.C172_unrounded", "Dcf.C172_float_violated"], "note": "code violates the claim for dates given as year fractions: two different floats may have the same distance from the origin, and then the curve cannot be built (AssertionError, C172_float_violated). Proved for calendar dates: order of year fractions (C172_separates), values (C172_value), discount factors (C172_discount), present values (C172_present_value) and agreement with the exact model without rounding (C172_unrounded)"},
  {"property": "C173", "status": "partial", "theorems": ["Dcf.C173_rates", "Dcf.C173_order", "Dcf.C173_zero", "Dcf.C173_given", "Dcf.C173_value", "Dcf.C173_cast", "Dcf.C173_credit", "Dcf.C173_default", "Dcf.C173_volatility", "Dcf.C173_package", "Dcf.C173_assign", "Dcf.C173_errors", "Dcf.C173_probability_violated"], "note": "code violates the claim on probabilities: values are clamped at the given dates only, and an interpolation leaving the unit interval in between gives a survival probability of 2 (C173_probability_violated). Proved for all interpolations: answers and given values (C173_rates, C173_credit, C173_default, C173_volatility), discount factors (C173_zero, C173_given), present values (C173_value), casts (C173_cast), order (C173_order), classes of the package (C173_package), assignment (C173_assign) and errors (C173_errors)"},
  {"property": "C174", "status": "partial", "theorems": ["Dcf.C174_unrounded", "Dcf.C174_unrounded_payoff", "Dcf.C174_coupon", "Dcf.C174_order", "Dcf.C174_legs", "Dcf.C174_opposite", "Dcf.C174_double", "Dcf.C174_netting_violated", "Dcf.C174_accrued", "Dcf.C174_accrued_list", "Dcf.C174_basis_point", "Dcf.C174_basis_point_violated"], "note": "code violates the claim: a leg and its opposite do not cancel if another leg is summed in between (C174_netting_violated), and shifts below the spacing of floats at the rate are lost, so that basis point values are zero (C174_basis_point_violated). Proved: coupons (C174_coupon, C174_order), legs (C174_legs), accrued interest (C174_accrued, C174_accrued_list), two opposite legs (C174_opposite), doubling (C174_double), basis point values (C174_basis_point) and agreement with the exact model (C174_unrounded, C174_unrounded_payoff)"},
  {"property": "C175", "status": "partial", "theorems": ["Dcf.C175_unrounded", "Dcf.C175_unrounded_formulas", "Dcf.C175_intrinsic", "Dcf.C175_order", "Dcf.C175_put", "Dcf.C175_put_order", "Dcf.C175_delta", "Dcf.C175_gamma", "Dcf.C175_binary", "Dcf.C175_delta_violated", "Dcf.C175_gamma_violated", "Dcf.C175_binary_violated"], "note": "code violates the claim: with 53 bits and a forward of 2^40 the bumped delta of every formula is zero (C175_delta_violated) and the bumped gamma of the intrinsic price is negative (C175_gamma_violated); a binary call with strike 2^38 is worth more than 1.2 and one with strike 2^41 nothing (C175_binary_violated). Proved: intrinsic values (C175_intrinsic, C175_order), puts (C175_put, C175_put_order), error bounds of deltas, gammas and call spreads (C175_delta, C175_gamma, C175_binary) and agreement with the exact model (C175_unrounded, C175_unrounded_formulas)"},
  {"property": "C176", "status": "partial", "theorems": ["Dcf.C176_unrounded", "Dcf.C176_defined", "Dcf.C176_floor", "Dcf.C176_error", "Dcf.C176_rising_violated", "Dcf.C176_flat_violated", "Dcf.C176_rate", "Dcf.C176_rate_order", "Dcf.C176_rate_violated"], "note": "code violates the claim: quotes with rising total variance can raise ZeroDivisionError because the squares are rounded before the comparison (C176_rising_violated), forward volatilities and forward rates of flat curves are other numbers than the flat value (C176_flat_violated, C176_rate_violated). Proved: C176_defined, C176_floor, C176_error, C176_rate, C176_rate_order and agreement with the exact model (C176_unrounded)"},
  {"property": "C177", "status": "partial", "theorems": ["Dcf.C177_unrounded", "Dcf.C177_unrounded_container", "Dcf.C177_cross", "Dcf.C177_triangle", "Dcf.C177_order", "Dcf.C177_exact", "Dcf.C177_forward", "Dcf.C177_violated"], "note": "code violates the claim: the rate the other way round is a second division, so that it depends on the order in which the currencies are added (C177_violated: spot 49). Proved: C177_cross, C177_triangle, C177_order, C177_exact, C177_forward and agreement with the exact model (C177_unrounded, C177_unrounded_container)"},
  {"property": "C178", "status": "partial", "theorems": ["Dcf.C178_survival", "Dcf.C178_default", "Dcf.C178_conditional", "Dcf.C178_violated"], "note": "code violates the claim: default probabilities are stored as survival probabilities, those below 2^-54 are lost (C178_violated). Proved: C178_survival, C178_default, C178_conditional"},
  {"property": "C179", "status": "partial", "theorems": ["Dcf.C179_unrounded", "Dcf.C179_short", "Dcf.C179_short_order", "Dcf.C179_flat_violated", "Dcf.C179_cash", "Dcf.C179_cash_rate", "Dcf.C179_small_violated", "Dcf.C179_refused"], "note": "code violates the claim: a flat short rate is not the zero rate over a single step (C179_flat_violated), and cash rates that earn at most half a unit of rounding per period earn nothing over any number of periods (C179_small_violated). Proved: C179_short, C179_short_order, C179_cash, C179_cash_rate, C179_refused and agreement with the exact model (C179_unrounded)"},
  {"property": "C180", "status": "partial", "theorems": ["Dcf.C180_unrounded", "Dcf.C180_error", "Dcf.C180_result", "Dcf.C180_ends", "Dcf.C180_refuses", "Dcf.C180_amounts_violated"], "note": "code violates the claim for large amounts: the precision is absolute, so a coupon on an amount of at least 2^33 has no fair rate with the default precision 1e-7, no recursion limit is enough (C180_amounts_violated). Proved: C180_error, C180_result, C180_refuses, that a rate is found if the precision is above the rounding errors (C180_ends) and agreement with the exact model (C180_unrounded)"},
  {"property": "C181", "status": "proved", "theorems": ["Dcf.C181_unrounded", "Dcf.C181_pdf", "Dcf.C181_cdf", "Dcf.C181_range", "Dcf.C181_symmetric"], "note": "agreement with the exact model: C181_unrounded"},
  {"property": "C182", "status": "proved", "theorems": ["Dcf.C182_unrounded", "Dcf.C182_normal", "Dcf.C182_normal_binary", "Dcf.C182_log_normal", "Dcf.C182_log_normal_binary", "Dcf.C182_double"], "note": "agreement with the exact model: C182_unrounded"},
  {"property": "C183", "status": "proved", "theorems": ["Dcf.Rating.C183_unrounded", "Dcf.Rating.C183_weights", "Dcf.Rating.C183_outside"], "note": "agreement with the exact model: C183_unrounded"},
  {"property": "C184", "status": "partial", "theorems": ["Dcf.C184_unrounded", "Dcf.C184_log_linear", "Dcf.C184_log_linear_rate", "Dcf.C184_log_constant_rate", "Dcf.C184_order", "Dcf.C184_node_violated", "Dcf.C184_node"], "note": "code violates the last sentence: two floats between 1/16 and 1/8 have the same logarithm, so whatever the exponential function some point does not come back (C184_node_violated). Proved: error bounds, order, points up to a relative error (C184_node), agreement with the exact model (C184_unrounded)"},
  {"property": "C185", "status": "partial", "theorems": ["Dcf.Rating.C185_unrounded", "Dcf.Rating.C185_values", "Dcf.Rating.C185_digits", "Dcf.Rating.C185_named", "Dcf.Rating.C185_ten_violated"], "note": "code violates the last clause from ten names on, as in the scale MASTER_SCALE of the package: the first two classes have different values and the same weights (C185_ten_violated). Proved: error bounds, digits of the default scale, weights for up to nine names (C185_named), agreement with the exact model (C185_unrounded)"},
  {"property": "C186", "status": "partial", "theorems": ["Dcf.C186_unrounded", "Dcf.C186_factor", "Dcf.C186_adjacent", "Dcf.C186_adjacent_violated", "Dcf.C186_rate", "Dcf.C186_forward", "Dcf.C186_forward_order"], "note": "code violates the claim on adjacent periods: with the values 1, 49/64 and 1/2 the two factors multiply to the float below 1/2 (C186_adjacent_violated). Proved: they multiply up to five units of rounding (C186_adjacent), all other clauses, agreement with the exact model (C186_unrounded)"},
  {"property": "C187", "status": "partial", "theorems": ["Dcf.C187_operand", "Dcf.C187_arithmetic", "Dcf.C187_div_violated", "Dcf.C187_shift", "Dcf.C187_kwargs", "Dcf.C187_spread", "Dcf.C187_risk", "Dcf.C187_pointwise_violated"], "note": "code violates the pointwise claim: the second operand and the result are interpolated as in the package, so sums differ from the sum of the values at dates of the first curve only and between dates (C187_pointwise_violated); quotients always raise (C187_div_violated); a function not found by its name is not rebuilt (C187_kwargs). Proved: what the results are (C187_operand, C187_arithmetic), the claim at dates given to both, shifts, kwargs of functions found by name, spreads and risk numbers"},
  {"property": "C188", "status": "partial", "theorems": ["Dcf.C188_kwargs", "Dcf.C188_volatility", "Dcf.C188_intensity", "Dcf.C188_div_violated", "Dcf.C188_intensity_violated", "Dcf.C188_volatility_violated"], "note": "code violates the pointwise claim: operand and result are interpolated as in the package, so two curves with value 1 at a date between the given ones have the sum 0 there (C188_intensity_violated, C188_volatility_violated); quotients always raise (C188_div_violated); a function not found by its name is not rebuilt (C188_kwargs). Proved: what the results are, and the claim at the dates of the second curve (C188_volatility, C188_intensity); kwargs of functions found by name"},
  {"property": "C189", "status": "partial", "theorems": ["Dcf.C189_kwargs", "Dcf.C189_kwargs_violated", "Dcf.C189_probability", "Dcf.C189_pointwise_violated"], "note": "code violates the claim: operand and result are interpolated as in the package, so a survival curve with value 1/2 between its dates has the product 1 with itself there (C189_pointwise_violated); results of default probabilities are complemented again (the clampedProb in C189_probability), and so are their values when rebuilt from kwargs (C189_kwargs_violated). Proved: what the results are and their values at the dates of both curves (C189_probability), kwargs of survival curves (C189_kwargs)"},
  {"property": "C190", "status": "partial", "theorems": ["Dcf.C190_kwargs", "Dcf.C190_kwargs_violated", "Dcf.C190_marginal", "Dcf.C190_pointwise_violated"], "note": "code violates the claim: operand and result are interpolated as in the package, so a marginal survival curve with value 1/2 between its dates has the product 1 with itself there (C190_pointwise_violated); results of default probabilities are complemented again (the marginalProb in C190_marginal), and so are their values when rebuilt from kwargs (C190_kwargs_violated). Proved: what the results are and their values at the dates of both curves (C190_marginal), kwargs of marginal survival curves (C190_kwargs)"},
  {"property": "C191", "status": "proved", "theorems": ["Dcf.C191_local", "Dcf.C191_error", "Dcf.C191_sign"], "note": "error bound against the model in exact arithmetic (C191_error), exact zeros (C191_local), sign for flows not on the falling side of a bucket (C191_sign). For a flow at the date of the grid date behind, only the bound is proved: the interpolation may leave a rounding there"},
  {"property": "C192", "status": "proved", "theorems": ["Dcf.C192_sign", "Dcf.C192_today", "Dcf.C192_error", "Dcf.C192_scale", "Dcf.C192_opposite", "Dcf.C192_unrounded"], "note": "error bound against the model in exact arithmetic (C192_error), sign (C192_sign), flows at the origin (C192_today), opposite and scaled flows (C192_opposite, C192_scale; errors included), the same without rounding (C192_unrounded). That the value can be zero for shifts lost in a rounding is C174_basis_point_violated"}
]}
