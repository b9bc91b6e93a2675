{
 "claims": [
  {
   "property": "C01",
   "status": "proved",
   "theorems": [
    "Verif.C01_region",
    "Verif.C01_difference_exact"
   ],
   "note": ""
  },
  {
   "property": "C02",
   "status": "partial",
   "theorems": [
    "Verif.C02_false",
    "Verif.C02_false_level",
    "Verif.C02_partial"
   ],
   "note": "False of the code for NaN arguments (witnesses C02_false, C02_false_level); proved for non-NaN arguments."
  },
  {
   "property": "C03",
   "status": "proved",
   "theorems": [
    "Verif.C03_fresh",
    "Verif.C03_rejected"
   ],
   "note": ""
  },
  {
   "property": "C04",
   "status": "proved",
   "theorems": [
    "Verif.C04_alloc_failure"
   ],
   "note": ""
  },
  {
   "property": "C05",
   "status": "proved",
   "theorems": [
    "Verif.C05_memory_safe"
   ],
   "note": ""
  },
  {
   "property": "C06",
   "status": "partial",
   "theorems": [
    "Verif.C06_false",
    "Verif.C06_false_zero",
    "Verif.C06_false_wrap",
    "Verif.C06_partial"
   ],
   "note": "False of the code for max_excess = 0 and max_excess >= 2^61 (witnesses); proved for 1 <= max_excess < 2^61."
  },
  {
   "property": "C07",
   "status": "proved",
   "theorems": [
    "Verif.C07_free_releases"
   ],
   "note": ""
  },
  {
   "property": "C08",
   "status": "partial",
   "theorems": [
    "Verif.C08_false",
    "Verif.C08_partial"
   ],
   "note": "False of the code: a second spot_free is a double free (C08_false); proved for a first spot_free in every reachable state."
  },
  {
   "property": "C09",
   "status": "proved",
   "theorems": [
    "Verif.C09_frame",
    "Verif.C09_no_interference"
   ],
   "note": ""
  },
  {
   "property": "C10",
   "status": "proved",
   "theorems": [
    "Verif.C10_no_allocation"
   ],
   "note": ""
  },
  {
   "property": "C11",
   "status": "proved",
   "theorems": [
    "Verif.C11_most_recent"
   ],
   "note": ""
  },
  {
   "property": "C12",
   "status": "proved",
   "theorems": [
    "Verif.C12_evicted"
   ],
   "note": ""
  },
  {
   "property": "C13",
   "status": "proved",
   "theorems": [
    "Verif.C13_min_max"
   ],
   "note": ""
  },
  {
   "property": "C14",
   "status": "proved",
   "theorems": [
    "Verif.C14_mean",
    "Verif.C14_recomputed"
   ],
   "note": ""
  },
  {
   "property": "C15",
   "status": "partial",
   "theorems": [
    "Verif.C15_false",
    "Verif.C15_partial"
   ],
   "note": "False of the code even in exact arithmetic: when an extreme value is evicted the recomputation overwrites the sum of squares by the square of the last slot (C15_false). Proved while no extreme has been evicted, or with capacity 1 (C15_partial)."
  },
  {
   "property": "C16",
   "status": "proved",
   "theorems": [
    "Verif.C16_log_likelihood"
   ],
   "note": ""
  },
  {
   "property": "C17",
   "status": "proved",
   "theorems": [
    "Verif.C17_tail_fit",
    "Verif.C17_nan",
    "Verif.C17_C18_defined"
   ],
   "note": ""
  },
  {
   "property": "C18",
   "status": "proved",
   "theorems": [
    "Verif.C18_grimshaw",
    "Verif.C17_C18_defined"
   ],
   "note": ""
  },
  {
   "property": "C19",
   "status": "proved",
   "theorems": [
    "Verif.C19_budget",
    "Verif.C19_calls"
   ],
   "note": ""
  },
  {
   "property": "C20",
   "status": "proved",
   "theorems": [
    "Verif.C20_bracketed",
    "Verif.C20_true_root"
   ],
   "note": ""
  },
  {
   "property": "C21",
   "status": "proved",
   "theorems": [
    "Verif.C21_refuses"
   ],
   "note": ""
  },
  {
   "property": "C22",
   "status": "proved",
   "theorems": [
    "Verif.C22_interval"
   ],
   "note": ""
  },
  {
   "property": "C23",
   "status": "partial",
   "theorems": [
    "Verif.C23_false",
    "Verif.C23_partial",
    "Verif.C23_grimshaw_partial"
   ],
   "note": "False of the code: on a function that is NaN everywhere success is reported (C23_false). Proved when no evaluated point is a NaN, and for the searches of grimshaw_estimator in exact arithmetic on positive excesses."
  },
  {
   "property": "C24",
   "status": "proved",
   "theorems": [
    "Verif.C24_probability_quantile",
    "Verif.C24_quantile_probability"
   ],
   "note": ""
  },
  {
   "property": "C25",
   "status": "proved",
   "theorems": [
    "Verif.C25_quantile_decreasing",
    "Verif.C25_probability_decreasing"
   ],
   "note": ""
  },
  {
   "property": "C26",
   "status": "proved",
   "theorems": [
    "Verif.C26_quantile_beyond"
   ],
   "note": ""
  },
  {
   "property": "C27",
   "status": "proved",
   "theorems": [
    "Verif.C27_inverse"
   ],
   "note": ""
  },
  {
   "property": "C28",
   "status": "proved",
   "theorems": [
    "Verif.C28_nan_rejected",
    "Verif.C28_only_nan"
   ],
   "note": ""
  },
  {
   "property": "C29",
   "status": "proved",
   "theorems": [
    "Verif.C29_classification"
   ],
   "note": ""
  },
  {
   "property": "C30",
   "status": "proved",
   "theorems": [
    "Verif.C30_anomaly_no_effect"
   ],
   "note": ""
  },
  {
   "property": "C31",
   "status": "proved",
   "theorems": [
    "Verif.C31_counters"
   ],
   "note": ""
  },
  {
   "property": "C32",
   "status": "proved",
   "theorems": [
    "Verif.C32_step_frame"
   ],
   "note": ""
  },
  {
   "property": "C33",
   "status": "proved",
   "theorems": [
    "Verif.C33_fit",
    "Verif.C33_excess",
    "Verif.C33_between"
   ],
   "note": ""
  },
  {
   "property": "C34",
   "status": "proved",
   "theorems": [
    "Verif.C34_no_discard"
   ],
   "note": ""
  },
  {
   "property": "C35",
   "status": "proved",
   "theorems": [
    "Verif.C35_unfitted_silent"
   ],
   "note": ""
  },
  {
   "property": "C36",
   "status": "proved",
   "theorems": [
    "Verif.C36_fit_code"
   ],
   "note": ""
  },
  {
   "property": "C37",
   "status": "proved",
   "theorems": [
    "Verif.C37_fit_stores"
   ],
   "note": ""
  },
  {
   "property": "C38",
   "status": "partial",
   "theorems": [
    "Verif.C38_false",
    "Verif.C38_partial"
   ],
   "note": "False of the code when a training value equals the threshold (strict test in spot_fit, non-strict in spot_step): C38_false. Proved otherwise."
  },
  {
   "property": "C39",
   "status": "partial",
   "theorems": [
    "Verif.C39_false",
    "Verif.C39_partial"
   ],
   "note": "False of the code: spot_fit does not empty the tail (C39_false). Proved: same excess threshold and counters always; when no excess had been recorded, the same model, the same tracked sums, extremes and stored values, and the same outputs of every later sequence of valid calls."
  },
  {
   "property": "C40",
   "status": "proved",
   "theorems": [
    "Verif.C40_mirror",
    "Verif.C40_from_init"
   ],
   "note": "C40_from_init adds fits whose two threshold estimates are opposite."
  },
  {
   "property": "C41",
   "status": "proved",
   "theorems": [
    "Verif.C41_p2_safe"
   ],
   "note": ""
  },
  {
   "property": "C42",
   "status": "proved",
   "theorems": [
    "Verif.C42_few",
    "Verif.C42_five"
   ],
   "note": ""
  },
  {
   "property": "C43",
   "status": "proved",
   "theorems": [
    "Verif.C43_within",
    "Verif.C43_fit"
   ],
   "note": ""
  },
  {
   "property": "C44",
   "status": "proved",
   "theorems": [
    "Verif.C44_sort5"
   ],
   "note": ""
  },
  {
   "property": "C45",
   "status": "proved",
   "theorems": [
    "Verif.C45_positions",
    "Verif.C45_adjust"
   ],
   "note": ""
  },
  {
   "property": "C46",
   "status": "proved",
   "theorems": [
    "Verif.C46_equivariant"
   ],
   "note": ""
  },
  {
   "property": "C47",
   "status": "partial",
   "theorems": [
    "Verif.C47_false",
    "Verif.C47_partial",
    "Verif.C47_counts"
   ],
   "note": "False of the code: a new maximum does not move the last position, and a value equal to the current minimum moves the first one (C47_false). Proved when no datum after the fifth is a new maximum, a new minimum or a repetition of the minimum. C47_counts says what the two positions count for all data without NaN: the last one those in the range of the data before them, the first one the repetitions of the minimum."
  },
  {
   "property": "C48",
   "status": "proved",
   "theorems": [
    "Verif.C48_text",
    "Verif.C48_null",
    "Verif.C48_stored"
   ],
   "note": ""
  },
  {
   "property": "C49",
   "status": "partial",
   "theorems": [
    "Verif.C49_false",
    "Verif.C49_partial"
   ],
   "note": "False of the code: code 1005 has no message because of the test err < ERR_DATA_IS_NAN (C49_false). Proved for the codes 1000..1004 and for the codes outside of 1000..1005."
  },
  {
   "property": "C50",
   "status": "proved",
   "theorems": [
    "Verif.C50_frexp",
    "Verif.C50_exponent",
    "Verif.C50_special"
   ],
   "note": ""
  },
  {
   "property": "C51",
   "status": "proved",
   "theorems": [
    "Verif.C51_ldexp",
    "Verif.C51_inverse"
   ],
   "note": ""
  },
  {
   "property": "C52",
   "status": "partial",
   "theorems": [
    "Verif.C52_false",
    "Verif.C52_partial"
   ],
   "note": "False of the code at +infinity: xlog(+inf) is NaN (C52_false). Proved for every other double."
  },
  {
   "property": "C53",
   "status": "partial",
   "theorems": [
    "Verif.C53_false",
    "Verif.C53_partial"
   ],
   "note": "False of the code: xlog applies the fraction on [1/4,1), where the relative error reaches 4e-11 (C53_false). Proved: 5e-16 on [1/2,1] and 1e-9 on [1/4,1]."
  },
  {
   "property": "C54",
   "status": "proved",
   "theorems": [
    "Verif.C54_fraction",
    "Verif.C54_zero",
    "Verif.C54_inverse"
   ],
   "note": ""
  },
  {
   "property": "C55",
   "status": "partial",
   "theorems": [
    "Verif.C55_false",
    "Verif.C55_partial"
   ],
   "note": "False of the code: undefined conversion for infinities and from 2^32*LOG2 on, negative exponent from 2^31*LOG2 on (C55_false). Proved: the exact domain without undefined behaviour, +inf on [710, 2^31*LOG2), 0 on (-2^31*LOG2, -710]."
  },
  {
   "property": "C56",
   "status": "proved",
   "theorems": [
    "Verif.C56_xmin"
   ],
   "note": ""
  },
  {
   "property": "C57",
   "status": "proved",
   "theorems": [
    "Verif.C57_set",
    "Verif.C57_same",
    "Verif.C57_builtin"
   ],
   "note": ""
  },
  {
   "property": "C58",
   "status": "proved",
   "theorems": [
    "Verif.C58_address_independent"
   ],
   "note": ""
  },
  {
   "property": "C59",
   "status": "proved",
   "theorems": [
    "Verif.C59_moments"
   ],
   "note": ""
  },
  {
   "property": "C60",
   "status": "proved",
   "theorems": [
    "Verif.C60_stationary"
   ],
   "note": ""
  },
  {
   "property": "C61",
   "status": "partial",
   "theorems": [
    "Verif.Py.C61_false",
    "Verif.Py.C61_partial"
   ],
   "note": "False of the code: any tuple makes fit write through a null pointer; a failed fit returns None with the exception pending; a non-number is fitted as -1.0 (C61_false). Proved for lists and other iterables of numbers: exactly spot_fit on the values, temporary buffer released."
  },
  {
   "property": "C62",
   "status": "partial",
   "theorems": [
    "Verif.Js.C62_false_view",
    "Verif.Js.C62_false_leak",
    "Verif.Js.C62_partial"
   ],
   "note": "False of the code: an array that does not cover its whole buffer overflows the temporary block (C62_false_view), a failed fit leaks that block (C62_false_leak). Proved for arrays that cover their buffer."
  },
  {
   "property": "C63",
   "status": "proved",
   "theorems": [
    "Verif.Js.C63_accessors",
    "Verif.Js.C63_layout"
   ],
   "note": ""
  },
  {
   "property": "C64",
   "status": "partial",
   "theorems": [
    "Verif.C64_false",
    "Verif.C64_partial"
   ],
   "note": "False of the code: the counters are overwritten before the failure is detected (C64_false). Proved: nothing else changes."
  },
  {
   "property": "C65",
   "status": "partial",
   "theorems": [
    "Verif.C65_increasing",
    "Verif.C65_false",
    "Verif.C65_partial",
    "Verif.C65_extremes"
   ],
   "note": "False of the code: on strictly increasing data the estimate is the third datum for every order (C65_increasing, C65_false). Proved for five data: at most two exceed the threshold. C65_extremes: whenever every datum after the fifth is a new minimum or maximum, the threshold is the median of the first five at every level."
  },
  {
   "property": "C66",
   "status": "partial",
   "theorems": [
    "Verif.C66_false",
    "Verif.C66_partial"
   ],
   "note": "False of the code: just above 1 the relative error exceeds 40%, and it exceeds 4e-11 at 1/4 (C66_false). Proved with rounding: 3e-15 relative outside of [1/4,1/2) and [1,2), 1.1e-9 relative on [1/4,1/2), 2e-15 absolute on [1,2)."
  },
  {
   "property": "C67",
   "status": "proved",
   "theorems": [
    "Verif.C67_accuracy"
   ],
   "note": ""
  },
  {
   "property": "C68",
   "status": "partial",
   "theorems": [
    "Verif.Py.C68_false",
    "Verif.Py.C68_partial"
   ],
   "note": "False of the code: an argument that does not convert is processed as -1.0 and changes the detector, the exception stays pending behind a returned value; step(nan) returns -1005 without an exception (C68_false). Proved for arguments that convert."
  },
  {
   "property": "C69",
   "status": "proved",
   "theorems": [
    "Verif.Py.C69_excesses"
   ],
   "note": ""
  },
  {
   "property": "C70",
   "status": "partial",
   "theorems": [
    "Verif.Py.C70_false",
    "Verif.Py.C70_partial"
   ],
   "note": "False of the code: a second __init__ leaks the first buffer (C70_false). Proved for at most one __init__, whether it succeeds or fails."
  },
  {
   "property": "C71",
   "status": "partial",
   "theorems": [
    "Verif.Js.C71_false",
    "Verif.Js.C71_partial"
   ],
   "note": "False of the code: the finalizer of an object whose constructor threw because of its parameters frees through uninitialised memory (C71_false: double free). Proved for constructed objects and for allocation failures."
  },
  {
   "property": "C72",
   "status": "partial",
   "theorems": [
    "Verif.Js.C72_false",
    "Verif.Js.C72_partial"
   ],
   "note": "False of the code: step(NaN) throws an empty message (C72_false). Proved for the constructor and fit."
  },
  {
   "property": "C73",
   "status": "proved",
   "theorems": [
    "Verif.Js.C73_version"
   ],
   "note": ""
  },
  {
   "property": "C74",
   "status": "partial",
   "theorems": [
    "Verif.C74_false",
    "Verif.C74_small_partial",
    "Verif.C74_partial"
   ],
   "note": "False of the code for more than five points: the P2 estimator treats the tails differently (C74_false). Proved up to five points without NaN."
  },
  {
   "property": "C75",
   "status": "partial",
   "theorems": [
    "Verif.C75_false",
    "Verif.C75_quantile_partial",
    "Verif.C75_step_partial",
    "Verif.C75_fit_partial",
    "Verif.C75_probability_partial"
   ],
   "note": "False of the code: fitting three times 0.3 (C75_false). Proved: exact characterisation for quantile and probability with a shape that is neither huge nor tiny; steps and fits are only undefined when the shape estimate exceeds 2^21. Memory errors are excluded by C05."
  },
  {
   "property": "C76",
   "status": "partial",
   "theorems": [
    "Verif.C76_false",
    "Verif.C76_partial"
   ],
   "note": "False of the code at 32 and some other powers of two, by one unit in the last place (C76_false). Proved on [2^-48, 32), between two powers of two, and everywhere up to 1e-12."
  },
  {
   "property": "C77",
   "status": "partial",
   "theorems": [
    "Verif.C77_false",
    "Verif.C77_partial"
   ],
   "note": "False of the code beyond 2^31*LOG2, where the computed exponential is 0 (C77_false). Proved for all doubles of magnitude below 2^31*LOG2 (about 1.49e9)."
  },
  {
   "property": "C78",
   "status": "partial",
   "theorems": [
    "Verif.C78_false",
    "Verif.C78_partial",
    "Verif.C78_quantile_partial"
   ],
   "note": "False of the code when the proportion of excesses has fallen below q: the anomaly threshold is then on the near side (C78_false, a history of six calls). Proved for the histories such that, each time the threshold is computed, the tail parameters are moderate and Nt/n >= q."
  },
  {
   "property": "C79",
   "status": "partial",
   "theorems": [
    "Verif.C79_false",
    "Verif.C79_partial"
   ],
   "note": "False of the code by one unit in the last place at some powers of two (C79_false). Proved for q*n/Nt in [2^-47, 16] and |gamma| <= 2^20."
  },
  {
   "property": "C80",
   "status": "partial",
   "theorems": [
    "Verif.C80_false",
    "Verif.C80_partial"
   ],
   "note": "False of the code by a few units in the last place at some powers of two (C80_false). Proved for arguments of the logarithm in [2^-48, 32) and 2^-20 <= |gamma| <= 2^20, or gamma = 0."
  },
  {
   "property": "C81",
   "status": "partial",
   "theorems": [
    "Verif.C81_false",
    "Verif.C81_partial"
   ],
   "note": "False of the code: beyond 2^31*LOG2 scales the computed probability is +infinity (C81_false). Proved for shape 0 below that distance, and for 2^-20 <= |gamma| <= 2^20 at every distance."
  },
  {
   "property": "C82",
   "status": "proved",
   "theorems": [
    "Verif.C82_at_threshold"
   ],
   "note": ""
  },
  {
   "property": "C83",
   "status": "proved",
   "theorems": [
    "Verif.C83_origin",
    "Verif.C83_from_init"
   ],
   "note": "In exact arithmetic, for any mathematical functions."
  },
  {
   "property": "C84",
   "status": "partial",
   "theorems": [
    "Verif.C84_false",
    "Verif.C84_query_partial",
    "Verif.C84_step_partial",
    "Verif.C84_fit_partial",
    "Verif.C84_refit_partial"
   ],
   "note": "False of the code: with data of the order of 1e-12, every excess is flagged as an anomaly, whereas the same data in another unit give mere excesses (C84_false). Proved in exact arithmetic: queries, result codes of steps, and excess thresholds do not depend on the unit; nor does the estimation when the two root searches of Grimshaw's estimator correspond."
  },
  {
   "property": "C85",
   "status": "partial",
   "theorems": [
    "Verif.C85_false",
    "Verif.C85_sign_partial",
    "Verif.C85_partial"
   ],
   "note": "False of the code: a single excess of 1e-12 gives the scale -0 (C85_false). Proved in binary64: the scale is positive, or it is -0 with a zero shape; it is positive when the excesses are in [2^-400, 2^100], the greatest is at least c/2^24 for a capacity c, and the computed mean is not below the minimum."
  },
  {
   "property": "C86",
   "status": "proved",
   "theorems": [
    "Verif.C86_sum_drift"
   ],
   "note": "In binary64, for excesses up to 2^900."
  },
  {
   "property": "C87",
   "status": "partial",
   "theorems": [
    "Verif.C87_false",
    "Verif.C87_partial"
   ],
   "note": "False for intervals longer than the greatest double (C87_false). Proved for bounds up to 2^1000 and tolerances between 2^-1000 and 2^1000."
  },
  {
   "property": "C88",
   "status": "partial",
   "theorems": [
    "Verif.C88_false",
    "Verif.C88_fit_partial",
    "Verif.C88_step_partial"
   ],
   "note": "False for equal excesses (C88_false). Proved for buffers of regular excesses: at most 2^24 of them, minimum at least 2^-400, maximum between size/2^24 and 2^100, computed mean greater than the minimum and smaller than the maximum by a factor of 1+2^-18."
  },
  {
   "property": "C89",
   "status": "partial",
   "theorems": [
    "Verif.C89_false",
    "Verif.C89_partial"
   ],
   "note": "False for shapes close to 0 (C89_false: history ending with a shape of -2^-53, quantile off by 60% of the scale). Proved for thresholds up to 1e200, scales between 1e-100 and 1e100, shapes 0 or of at least 1e-30 in absolute value, |gamma log(q/P)| <= 100, with an explicit error bound (1e-14 scales times 1+1/|gamma|, plus the error of xlog)."
  },
  {
   "property": "C90",
   "status": "partial",
   "theorems": [
    "Verif.C90_false",
    "Verif.C90_partial"
   ],
   "note": "False for shapes close to 0 (C90_false: same history, 1/2 instead of less than 0.36). Proved for shapes 0 or of at least 2^-20 in absolute value and points with 1+gamma d/sigma at least 1e-5, with an explicit bound on the relative error."
  },
  {
   "property": "C91",
   "status": "proved",
   "theorems": [
    "Verif.C91_step",
    "Verif.C91_fit",
    "Verif.C91_kept"
   ],
   "note": ""
  },
  {
   "property": "C92",
   "status": "partial",
   "theorems": [
    "Verif.C92_false",
    "Verif.C92_partial"
   ],
   "note": "False when a datum after the fifth is a new minimum or maximum: the code does not count it (C92_false: median of 1..8 is 3, the algorithm gives 4). Proved for data none of which, after the fifth, is a new extreme, repeats the smallest or coincides with the height of an inner marker."
  },
  {
   "property": "C93",
   "status": "partial",
   "theorems": [
    "Verif.C93_searches",
    "Verif.C93_false",
    "Verif.C93_partial"
   ],
   "note": "False for tiny excesses (C93_false: with 1e-12 the equation is evaluated at -1/max, with 1e-200 and 1 at infinity). Proved for excesses between 2^-400 and 2^100 the greatest of which is at least 2^-24, at most 2^46 insertions times capacity, capacity at most 2^24."
  },
  {
   "property": "C94",
   "status": "partial",
   "theorems": [
    "Verif.C94_false",
    "Verif.C94_fit_partial",
    "Verif.C94_step_partial",
    "Verif.C94_flag_partial"
   ],
   "note": "False for shapes close to 0 (C94_false: a value of 1 is flagged although the quantile of the model is greater than 3). Proved, with an explicit error bound, for fits and steps that leave regular excesses (as C88) and parameters that are not extreme (threshold up to 1e200, scale between 1e-100 and 1e100, |gamma log(q/P)| <= 100), and for all following calls up to the next model update."
  },
  {
   "property": "C95",
   "status": "proved",
   "theorems": [
    "Verif.Py.C95_attributes"
   ],
   "note": "LP64 layout, little-endian memory."
  },
  {
   "property": "C96",
   "status": "partial",
   "theorems": [
    "Verif.Py.C96_partial",
    "Verif.Py.C96_false"
   ],
   "note": "False for max_excess outside of [0, 2^64): it is reduced modulo 2^64 without error (C96_false). Proved for all other arguments."
  },
  {
   "property": "C97",
   "status": "partial",
   "theorems": [
    "Verif.Py.C97_partial",
    "Verif.Py.C97_false"
   ],
   "note": "False for every object: its own block is never released, the call of tp_free is commented out (C97_false). Proved: every other block is released."
  },
  {
   "property": "C98",
   "status": "partial",
   "theorems": [
    "Verif.Py.C98_partial",
    "Verif.Py.C98_false"
   ],
   "note": "False: step of any finite number writes through a null pointer (C98_false). Proved for excesses, as_dict, quantile, probability, step(nan), fit of a list or iterable of numbers (stores nothing, an exception is pending) and deletion."
  },
  {
   "property": "C99",
   "status": "partial",
   "theorems": [
    "Verif.Js.C99_partial",
    "Verif.Js.C99_false"
   ],
   "note": "False for maxExcess = 2^29 and for fractions (C99_false: writes out of bounds; 2^32+3 is taken for 3). Proved for integers of 32 bits as flags and 1 <= maxExcess < 2^29."
  },
  {
   "property": "C100",
   "status": "partial",
   "theorems": [
    "Verif.C100_partial",
    "Verif.C100_false"
   ],
   "note": "False when the shape is of the order of 2^-53 (C100_false: overestimated by more than 1/2 for the parameters that are kept). Proved for a shape that is 0 or between 2^-20 and 2^20 in magnitude, with an explicit bound."
  },
  {
   "property": "C101",
   "status": "proved",
   "theorems": [
    "Verif.C101_choice"
   ],
   "note": ""
  },
  {
   "property": "C102",
   "status": "partial",
   "theorems": [
    "Verif.C102_partial",
    "Verif.C102_false",
    "Verif.C102_overflow_false",
    "Verif.C102_step_silences",
    "Verif.C102_fit_silences"
   ],
   "note": "False: one infinite training value (or finite values whose sum overflows) gives the anomaly threshold +infinity with return code 0 (C102_false, C102_overflow_false); the threshold stays non-finite until max_excess further excesses (C102_step_silences, C102_fit_silences). Proved for infinite observations when discard_anomalies is set and the thresholds are finite."
  },
  {
   "property": "C103",
   "status": "proved",
   "theorems": [
    "Verif.C103_recovery",
    "Verif.C103_later"
   ],
   "note": ""
  },
  {
   "property": "C104",
   "status": "proved",
   "theorems": [
    "Verif.C104_exact",
    "Verif.C104_binary64"
   ],
   "note": "In binary64 for calibrated thresholds (C94_fit_partial, C94_step_partial)."
  },
  {
   "property": "C105",
   "status": "partial",
   "theorems": [
    "Verif.C105_partial",
    "Verif.C105_false"
   ],
   "note": "False of the code for shapes close to 0 but not 0 (C105_false: the probability of the quantile of 1/4 is 1/2). C105_partial: shapes that are 0 or at least 2^-20 in magnitude, and at most 10, scales between 1e-100 and 1e100, thresholds of at most a million scales, |log(q n/Nt)| at most 20, |gamma log(q n/Nt)| at most 5."
  },
  {
   "property": "C106",
   "status": "partial",
   "theorems": [
    "Verif.C106_partial",
    "Verif.C106_false"
   ],
   "note": "False of the code for shapes close to 0 but not 0 (C106_false: the quantile of the probability of 5/2 is 0). C106_partial: shapes that are 0 or at least 2^-20 in magnitude, and at most 10, scales between 1e-100 and 1e100, thresholds of at most a million scales, local scales between 1/64 and 64 times sigma."
  },
  {
   "property": "C107",
   "status": "proved",
   "theorems": [
    "Verif.Py.C107_failures"
   ],
   "note": "References are counted in total; creation failures are an arbitrary function of the number of attempts."
  },
  {
   "property": "C108",
   "status": "partial",
   "theorems": [
    "Verif.Py.C108_partial",
    "Verif.Py.C108_false"
   ],
   "note": "False of the code for every fit that returns None (C108_false: one reference to a list, or a copy of another iterable, is left). C108_partial: step, and a fit that is refused; excesses and as_dict are C107."
  },
  {
   "property": "C109",
   "status": "partial",
   "theorems": [
    "Verif.C109_partial",
    "Verif.C109_false"
   ],
   "note": "False of the code for every history that ends with the eviction of an extreme (C109_false, exact arithmetic: the computed variance is v^2/c - mean^2 for one stored value v, and negative if the stored values are within a factor sqrt c of each other). C109_partial: binary64, while no extreme has been evicted."
  },
  {
   "property": "C110",
   "status": "partial",
   "theorems": [
    "Verif.C110_partial",
    "Verif.C110_false"
   ],
   "note": "False of the code after the eviction of an extreme (C110_false: the scale is negative and the likelihood NaN for all stored values within a factor sqrt c of each other). C110_partial: exact arithmetic, while no extreme has been evicted."
  },
  {
   "property": "C111",
   "status": "partial",
   "theorems": [
    "Verif.Py.C111_partial",
    "Verif.Py.C111_false"
   ],
   "note": "False when a conversion shortens the list: the missing elements are read as -1.0 and None is returned with an exception pending (C111_false). Proved for conversions that make any calls of fit, step, quantile and probability and leave the list alone."
  },
  {
   "property": "C112",
   "status": "partial",
   "theorems": [
    "Verif.Py.C112_partial",
    "Verif.Py.C112_false"
   ],
   "note": "False: when the type cannot be created NULL is read; when a later request fails references are left; when the type cannot be added the module is returned without it and with an exception pending (C112_false). Proved for all failures after the creation of the type: no undefined behaviour, NULL only with an exception, contents of the module."
  },
  {
   "property": "C113",
   "status": "partial",
   "theorems": [
    "Verif.C113_partial",
    "Verif.C113_false"
   ],
   "note": "False: between 0 and 2^202 a continuous function with a sign change exhausts the 202 evaluations (C113_false). Proved when the interval is shorter than 2^13 times the least tolerance of the search on it, for every function, also with NaN values."
  },
  {
   "property": "C114",
   "status": "partial",
   "theorems": [
    "Verif.C114_partial",
    "Verif.C114_false"
   ],
   "note": "False: with a stored excess of 0 (an observation equal to the excess threshold) the search to the right always fails (C114_false, for all such tails). Proved for excesses between 2^-400 and 2^100, the greatest at least 2^-24."
  },
  {
   "property": "C115",
   "status": "partial",
   "theorems": [
    "Verif.C115_partial",
    "Verif.C115_false",
    "Verif.C115_exact"
   ],
   "note": "False in binary64 by the rounding errors of xlog and xexp: after a fit of seven zeros and a one, the detector with q the double before 2^-51 flags a value that the one with q = 2^-51 does not (C115_false). C115_exact: exact arithmetic, from every fitted state. C115_partial: binary64, provided that the two quantiles are in the right order in the states of the second detector until its first alarm."
  },
  {
   "property": "C116",
   "status": "partial",
   "theorems": [
    "Verif.C116_partial",
    "Verif.C116_false"
   ],
   "note": "False: 0 to the power 1 is undefined behaviour, and (1 + 2^-52)^(2^52) is 39 percent too small (C116_false). C116_partial: finite positive bases, exponents of magnitude 1e-30 to 2^20, powers between e^-100 and e^100, with an explicit bound; the exponent 0, the base 1, bases outside of the domain."
  },
  {
   "property": "C117",
   "status": "proved",
   "theorems": [
    "Verif.C117_example",
    "Verif.C117_main"
   ],
   "note": "The function rexp is an arbitrary sequence without NaN. The conversions of C55 and C75 remain the only possible undefined behaviour."
  },
  {
   "property": "C118",
   "status": "partial",
   "theorems": [
    "Verif.C118_partial",
    "Verif.C118_false"
   ],
   "note": "False: the anomaly threshold is computed with the counters of the last update; after normal observations values with a smaller probability than q are not flagged (C118_false, in binary64 from an initialisation). C118_partial, exact arithmetic: flagged if and only if the probability is less than q times n at the last update / n now; values beyond the end of the support are flagged but their probability is NaN."
  },
  {
   "property": "C119",
   "status": "partial",
   "theorems": [
    "Verif.C119_partial",
    "Verif.C119_false"
   ],
   "note": "False: after the eviction of an extreme value the sum of squares is wrong, and two detectors with the stored excesses 1 and 10 get different shapes (C119_false, binary64, from an initialisation). C119_partial, exact arithmetic: the estimator of Grimshaw gives the same result always, the whole fit if no extreme value was evicted."
  },
  {
   "property": "C120",
   "status": "proved",
   "theorems": [
    "Verif.C120_fraction",
    "Verif.C120_depth",
    "Verif.C120_code",
    "Verif.C120_octave"
   ],
   "note": "Exact arithmetic. The use of the fraction by xlog is C53, with rounding C66."
  },
  {
   "property": "C121",
   "status": "proved",
   "theorems": [
    "Verif.C121_fraction",
    "Verif.C121_limit",
    "Verif.C121_code"
   ],
   "note": "Exact arithmetic. The use of the fraction by xexp is C54, with rounding C67."
  },
  {
   "property": "C122",
   "status": "partial",
   "theorems": [
    "Verif.C122_partial",
    "Verif.C122_false",
    "Verif.C122_defined",
    "Verif.C122_rising"
   ],
   "note": "False: benchmark/p2.c sorts its first five markers in descending order (C122_false, binary64; on rising series it returns the median of the first five values at every level, C122_rising). C122_partial: exactly five values. C122_defined: no undefined behaviour."
  },
  {
   "property": "C123",
   "status": "partial",
   "theorems": [
    "Verif.C123_partial",
    "Verif.C123_false"
   ],
   "note": "False: the errors are not taken in magnitude; in exact arithmetic the reported number is 0 for the logarithm at every depth and for the exponential at even depths (C123_false). C123_partial: the exponential at odd depths."
  },
  {
   "property": "C124",
   "status": "proved",
   "theorems": [
    "Verif.C124_capacity"
   ],
   "note": ""
  },
  {
   "property": "C125",
   "status": "partial",
   "theorems": [
    "Verif.C125_partial",
    "Verif.C125_false"
   ],
   "note": "False: twelve values on which the threshold at level 0.99 is below the one at level 0.9, with more excesses (C125_false, binary64, through spot_fit). C125_partial, exact arithmetic: at most six values."
  },
  {
   "property": "C126",
   "status": "proved",
   "theorems": [
    "Verif.C126_fit",
    "Verif.C126_quantile",
    "Verif.C126_constant"
   ],
   "note": "For the default ldexp and frexp. C126_constant for values up to 2^1022 in magnitude and 5 to 2^53 values."
  },
  {
   "property": "C127",
   "status": "partial",
   "theorems": [
    "Verif.C127_partial",
    "Verif.C127_first",
    "Verif.C127_false"
   ],
   "note": "False: ten values in rising order give the threshold 3 and seven excesses, in another order 8 and two (C127_false, binary64). C127_partial, exact arithmetic: orders that lead to the same excess threshold, when nothing is evicted; C127_first: the order of the first five values has no influence on the threshold."
  },
  {
   "property": "C128",
   "status": "partial",
   "theorems": [
    "Verif.C128_partial",
    "Verif.C128_false"
   ],
   "note": "False on doubles: the fit of three values 0.3 is not defined (C128_false). C128_partial: exact arithmetic, any capacity (evictions included), either tail."
  },
  {
   "property": "C129",
   "status": "partial",
   "theorems": [
    "Verif.C129_partial",
    "Verif.C129_fit",
    "Verif.C129_step",
    "Verif.C129_false"
   ],
   "note": "False on doubles: the fit of the single value 1e-12 reports success with sigma = -0 (C129_false). C129_partial, C129_fit, C129_step: exact arithmetic, all histories of calls with real numbers."
  },
  {
   "property": "C130",
   "status": "partial",
   "theorems": [
    "Verif.C130_partial",
    "Verif.C130_exact",
    "Verif.C130_false"
   ],
   "note": "False on doubles for values at the end point: with q = 2^-120 and the training values 1/4, 1, 1 a value not below the end point is not flagged (C130_false, from an initialisation). C130_partial: binary64, values beyond the computed end point. C130_exact: exact arithmetic, the end point included."
  },
  {
   "property": "C131",
   "status": "partial",
   "theorems": [
    "Verif.C131_partial",
    "Verif.C131_binade",
    "Verif.C131_false"
   ],
   "note": "False outside of [1/2, 1): the library reduces to [1/2, 1) and the benchmarks to [1, 2); at the first double after 1 the logarithm of the library is half of that of the benchmarks (C131_false). C131_partial: all doubles of [1/2, 1). C131_binade: the reduction, all normal doubles."
  },
  {
   "property": "C132",
   "status": "partial",
   "theorems": [
    "Verif.C132_partial",
    "Verif.C132_pow",
    "Verif.C132_fraction",
    "Verif.C132_false"
   ],
   "note": "False for large arguments: the exponent bits wrap around, _exp(710) is NaN and _exp(720) is less than 2^-1000 (C132_false). C132_partial: all doubles between -709 and 709, and NaN. C132_pow: the power. C132_fraction: the other form of the fraction in exp_cf_speed.c, exact arithmetic."
  },
  {
   "property": "C133",
   "status": "partial",
   "theorems": [
    "Verif.C133_partial",
    "Verif.C133_false"
   ],
   "note": "False across binades: one unit in the last place at 2 is reported as 2^52 - 1, and 1 against 2 as 0 (C133_false). C133_partial: values of one binade, for all functions and lists of points."
  },
  {
   "property": "C134",
   "status": "proved",
   "theorems": [
    "Verif.C134_probability",
    "Verif.C134_quantile",
    "Verif.C134_doubles",
    "Verif.C134_limit"
   ],
   "note": "C134_probability: doubles, any elementary functions. C134_quantile: exact arithmetic, strict. C134_doubles: doubles, at most 10^11 observations. C134_limit: at 2^51 observations the quantile can move outwards by an error of the logarithm, so some limit is needed."
  },
  {
   "property": "C135",
   "status": "proved",
   "theorems": [
    "Verif.C135_frozen",
    "Verif.C135_doubles",
    "Verif.C135_exact"
   ],
   "note": "C135_frozen: doubles, any elementary functions. C135_doubles: doubles, the code's own functions with musl's frexp and ldexp. C135_exact: exact arithmetic, both outcomes."
  },
  {
   "property": "C136",
   "status": "proved",
   "theorems": [
    "Verif.C136_trace"
   ],
   "note": "For every number type of the model and any elementary functions; any state of the detector."
  },
  {
   "property": "C137",
   "status": "proved",
   "theorems": [
    "Verif.C137_cost",
    "Verif.C137_quiet"
   ],
   "note": "Spec/Cost.lean repeats the functions with a counter; C137_cost also states that the counted functions do what the functions of the model do."
  },
  {
   "property": "C138",
   "status": "proved",
   "theorems": [
    "Verif.C138_order"
   ],
   "note": "Binary64, every reachable detector, both tails."
  },
  {
   "property": "C139",
   "status": "proved",
   "theorems": [
    "Verif.C139_same",
    "Verif.C139_init"
   ],
   "note": "For every number type of the model, any elementary functions and any state; C139_init: two initialisations."
  },
  {
   "property": "C140",
   "status": "proved",
   "theorems": [
    "Verif.C140_figure",
    "Verif.C140_limit"
   ],
   "note": "Model/Figure.lean has the script. C140_limit: an observation above the line at its own position that is not marked."
  },
  {
   "property": "C141",
   "status": "partial",
   "theorems": [
    "Verif.C141_partial",
    "Verif.C141_step",
    "Verif.C141_false"
   ],
   "note": "False for the bound 1 - level: a detector with level 0.9, fitted with seven values, reports 3.5 as an excess with a probability above a half (C141_false, binary64). C141_partial, C141_step: exact arithmetic, all histories, the bound Nt / n; hence 1 - level while Nt is at most (1 - level) n."
  },
  {
   "property": "C142",
   "status": "partial",
   "theorems": [
    "Verif.Js.C142_partial",
    "Verif.Js.C142_false"
   ],
   "note": "False: a refused structure or copy of the data is written through a null pointer (C142_false, for all parameters, detectors and arrays that are not empty). Proved for a refusal of the block of the excesses, and that a refused text buffer changes nothing but the message of the exception, which becomes empty (C142_partial)."
  },
  {
   "property": "C143",
   "status": "proved",
   "theorems": [
    "Verif.C143"
   ],
   "note": "Binary64."
  },
  {
   "property": "C144",
   "status": "proved",
   "theorems": [
    "Verif.C144",
    "Verif.C144_reduction"
   ],
   "note": "Binary64, against the real exponential."
  },
  {
   "property": "C145",
   "status": "proved",
   "theorems": [
    "Verif.C145",
    "Verif.C145_subnormal"
   ],
   "note": "Binary64, against the real logarithm."
  },
  {
   "property": "C146",
   "status": "proved",
   "theorems": [
    "Verif.C146_log",
    "Verif.C146",
    "Verif.C146_program",
    "Verif.C146_library"
   ],
   "note": "Binary64, against the real logarithm and the real power. C146_library: the library at the base 1 + 2^-52 and the exponent 2^52."
  },
  {
   "property": "C147",
   "status": "proved",
   "theorems": [
    "Verif.C147",
    "Verif.C147_limit"
   ],
   "note": "Binary64, against the real power."
  },
  {
   "property": "C148",
   "status": "partial",
   "theorems": [
    "Verif.C148_nan",
    "Verif.C148_partial",
    "Verif.C148_reached",
    "Verif.C148_false"
   ],
   "note": "False for numbers above 1: after the fit of the value 1 the quantile of 2 is a finite number below the excess threshold (C148_false). Proved for NaN in every state (C148_nan) and for negative numbers, -infinity included (C148_partial; its condition on the counters holds in the states that calls reach, C148_reached)."
  },
  {
   "property": "C149",
   "status": "proved",
   "theorems": [
    "Verif.C149_prefix",
    "Verif.C149_short",
    "Verif.C149_bounds"
   ],
   "note": "C149_prefix: every number type of the model. C149_short: doubles, every state. C149_bounds: doubles, the states that calls reach; the undefined behaviour is the read past the end."
  },
  {
   "property": "C150",
   "status": "partial",
   "theorems": [
    "Verif.C150_partial",
    "Verif.C150_not_stored",
    "Verif.C150_false"
   ],
   "note": "False: a NaN in front of ten values gives, with the code 0, the smallest value as excess threshold and nine excesses; NaN values after the fifth change the threshold too (C150_false). Proved: a NaN is not recorded as an excess (C150_not_stored), and after five numbers it is treated as a repetition of the smallest value seen so far (C150_partial)."
  }
 ]
}