{"id": "C01", "title": "spot_init accepts exactly the documented parameter region", "statement": "For non-NaN q and level, spot_init fails with -ERR_LEVEL_OUT_OF_BOUNDS exactly when level is not in [0,1), otherwise fails with -ERR_Q_OUT_OF_BOUNDS exactly when q is not in (0, 1-level) (1-level being the IEEE double difference), and otherwise it fails only because of memory. For level in [1/2,1) the double difference is the exact real number 1-level.", "quantifier": "every pair of non-NaN doubles (q, level), including infinities, signed zeros and subnormals, every low/discard flag and max_excess", "why_tests_cant": "The accepted region is a set of pairs of doubles with boundary cases at every level; tests try two bad values.", "anchors": ["src/spot.c: spot_init", "include/structs.h: enum LibspotError"]}
{"id": "C02", "title": "spot_init rejects every unusable parameter", "statement": "spot_init returns 0 only if 0 <= level < 1 and 0 < q < 1-level, whatever doubles are passed.", "quantifier": "every pair of doubles (q, level), NaN included", "why_tests_cant": "Requires all doubles including NaN payloads; all comparisons with NaN are false so the failing region is easy to miss.", "anchors": ["src/spot.c: spot_init"]}
{"id": "C03", "title": "A successful spot_init yields a fresh, fully determined detector; a rejected one touches nothing", "statement": "When spot_init returns 0: q and level are stored, low and discard_anomalies are normalised to 0/1, both counters are 0, both thresholds, gamma, sigma, min, max are NaN, sums are 0 and the tail is empty with capacity max_excess. When spot_init returns an out-of-bounds error it writes no field of the structure and performs no allocation.", "quantifier": "every argument tuple, every previous content of the structure, every heap", "why_tests_cant": "Quantifies over all arguments and all previous (garbage) contents of the structure.", "anchors": ["src/spot.c: spot_init", "src/tail.c: tail_init", "src/peaks.c: peaks_init", "src/ubend.c: ubend_init"]}
{"id": "C04", "title": "Allocation failure is always reported", "statement": "With valid parameters, spot_init returns -ERR_MEMORY_ALLOCATION_FAILED exactly when no malloc function has been registered or the registered malloc returns NULL for max_excess*8 bytes; the library never dereferences the NULL pointer as part of spot_init.", "quantifier": "every malloc function, every max_excess, every heap state", "why_tests_cant": "The failing allocator can be any function; a test uses one.", "anchors": ["src/allocator.c: xmalloc, internal_set_allocators", "src/ubend.c: ubend_init", "src/spot.c: spot_init, set_allocators"]}
{"id": "C05", "title": "Memory safety of every usage history", "statement": "After a successful spot_init with 1 <= max_excess < 2^61, no sequence of spot_fit, spot_step, spot_quantile and spot_probability calls reads or writes outside the allocated tail buffer, reads an uninitialised cell, or uses a dangling pointer.", "quantifier": "every finite sequence of API calls with every argument (NaN and infinities included), every max_excess in the range, every contract-abiding malloc", "why_tests_cant": "Unbounded histories; the ring buffer index depends on the whole history.", "anchors": ["src/ubend.c: ubend_push", "src/peaks.c: peaks_push, peaks_update_stats, log_likelihood", "src/estimator.c", "src/spot.c: spot_fit, spot_step"]}
{"id": "C06", "title": "Every accepted configuration is memory safe", "statement": "If spot_init returns 0, then recording an excess never writes outside the buffer, for every max_excess accepted (also 0 and values >= 2^61).", "quantifier": "every max_excess for which spot_init returns 0", "why_tests_cant": "Failure occurs only at extreme capacities (0, or where max_excess*8 wraps around) that tests do not allocate.", "anchors": ["src/ubend.c: ubend_init, ubend_push", "src/spot.c: spot_init"]}
{"id": "C07", "title": "spot_free releases exactly what spot_init acquired", "statement": "init, any history, then spot_free with the registered free function returns the heap's set of live blocks to what it was before spot_init: the tail buffer is released exactly once and nothing else is; afterwards all parameters, thresholds and statistics are NaN, the counters are 0 and the tail size is 0.", "quantifier": "every usage history between init and free, every heap", "why_tests_cant": "Leak-freedom is a statement about all histories.", "anchors": ["src/spot.c: spot_free", "src/tail.c: tail_free", "src/peaks.c: peaks_free", "src/ubend.c: ubend_free", "src/allocator.c: xfree"]}
{"id": "C08", "title": "spot_free is always safe to call", "statement": "Calling spot_free is safe in every state a program can reach: after a second spot_free on the same detector and after a spot_init that was rejected on a zero-initialised structure.", "quantifier": "every history ending in spot_free; any number of spot_free calls", "why_tests_cant": "Double free is undefined behaviour: a passing test shows nothing.", "anchors": ["src/spot.c: spot_free", "src/ubend.c: ubend_free", "python/libspotmodule.c: Spot_dealloc", "wasm/index.ts: FinalizationRegistry"]}
{"id": "C09", "title": "Detectors do not interfere", "statement": "An operation on one detector never changes any memory owned by another detector, so the results of every later call on the other detector are unchanged, in any interleaving of the calls.", "quantifier": "every two live detectors, every interleaving of any number of operations on them", "why_tests_cant": "All interleavings of unbounded call sequences on two instances.", "anchors": ["src/spot.c", "src/ubend.c", "src/allocator.c"]}
{"id": "C10", "title": "Bounded memory: only spot_init allocates", "statement": "spot_fit, spot_step, spot_quantile and spot_probability never allocate nor free: the set of live blocks and their sizes is the same before and after, so a detector uses max_excess doubles for its whole life.", "quantifier": "every call with every argument in every state", "why_tests_cant": "Universal over histories of unbounded length.", "anchors": ["src/spot.c", "src/ubend.c"]}
{"id": "C11", "title": "The tail keeps exactly the most recent max_excess excesses", "statement": "After any sequence of k insertions in a container of capacity c >= 1, the reported size is min(k,c) and the stored values are exactly the last min(k,c) inserted values: the i-th slot holds the latest inserted value whose index is congruent to i modulo c.", "quantifier": "every capacity 1 <= c < 2^61, every sequence of insertions of any length and any doubles", "why_tests_cant": "Wrap-around behaviour for every capacity and history length.", "anchors": ["src/ubend.c: ubend_push, ubend_size", "src/tail.c: tail_push"]}
{"id": "C12", "title": "Insertion reports the evicted value", "statement": "ubend_push returns NaN while the container is filling (including the insertion which completes it) and afterwards returns exactly the oldest stored value, which is the one that disappears.", "quantifier": "every capacity, every history of insertions", "why_tests_cant": "Depends on the whole history of insertions.", "anchors": ["src/ubend.c: ubend_push"]}
{"id": "C13", "title": "Tracked minimum and maximum are those of the stored peaks", "statement": "After any sequence of insertions of non-NaN values, min (max) is stored in the container and is <= (>=) every stored value, also after the extreme value has been evicted.", "quantifier": "every capacity, every non-empty sequence of non-NaN doubles, infinities and signed zeros included", "why_tests_cant": "Whether an eviction removes the extreme depends on the entire history.", "anchors": ["src/peaks.c: peaks_push, peaks_update_stats"]}
{"id": "C14", "title": "The mean is the arithmetic mean of the stored peaks", "statement": "In exact arithmetic, after any sequence of insertions, peaks_mean equals the sum of the stored values divided by their number (evictions and recomputations included). In IEEE arithmetic, right after a recomputation the accumulator is exactly the left-to-right floating-point sum of the slots.", "quantifier": "every capacity and sequence of insertions", "why_tests_cant": "The accumulator is updated incrementally along unbounded histories.", "anchors": ["src/peaks.c: peaks_push, peaks_update_stats, peaks_mean"]}
{"id": "C15", "title": "The variance is the variance of the stored peaks", "statement": "In exact arithmetic, after any sequence of insertions, peaks_var equals the population variance of the stored values.", "quantifier": "every capacity and sequence of insertions", "why_tests_cant": "Only wrong after evicting an extreme value, a history-dependent event that the unit tests' variance check never produces.", "anchors": ["src/peaks.c: peaks_var, peaks_update_stats, peaks_push"]}
{"id": "C16", "title": "log_likelihood is the GPD log-likelihood of the stored peaks", "statement": "In exact arithmetic, log_likelihood(gamma, sigma) equals the sum over the stored peaks of the log-density of the generalised Pareto distribution with shape gamma and scale sigma (exponential when gamma = 0), hence does not depend on the slot order.", "quantifier": "every stored sample of any size, every gamma and sigma > 0 with all peaks inside the support", "why_tests_cant": "Holds for every sample and parameter value.", "anchors": ["src/peaks.c: log_likelihood"]}
{"id": "C17", "title": "tail_fit keeps the most likely candidate", "statement": "tail_fit sets (gamma, sigma) to a pair returned by one of the two estimators and returns its log-likelihood; it is at least the log-likelihood of every estimator whose likelihood is not NaN, and it is NaN only if all are NaN.", "quantifier": "every tail state, every double result of the estimators (NaN, infinities)", "why_tests_cant": "Quantifies over all samples, including ones producing NaN likelihoods.", "anchors": ["src/tail.c: tail_fit", "src/estimator.c: mom_estimator, grimshaw_estimator"]}
{"id": "C18", "title": "Grimshaw's estimator is never worse than the exponential fit", "statement": "The log-likelihood returned by the Grimshaw estimator is the likelihood of the (gamma, sigma) it returns; when the likelihood of the exponential fit (0, mean) is not NaN, it is at least the latter, and at least that of every root that the root finder reported and whose likelihood is not NaN.", "quantifier": "every sample and every outcome of the two root searches", "why_tests_cant": "All samples, including those for which root search fails or yields NaN.", "anchors": ["src/estimator.c: grimshaw_estimator, grimshaw_simplified_log_likelihood"]}
{"id": "C19", "title": "Root search always terminates within a fixed budget", "statement": "brent evaluates the function at most 202 times and always returns, for any function and any bounds and tolerance, NaN and infinities included.", "quantifier": "every function on doubles, every interval and tolerance", "why_tests_cant": "Arbitrary functions cannot be enumerated.", "anchors": ["src/brent.c: brent"]}
{"id": "C20", "title": "A reported root is a bracketed root", "statement": "When brent reports success: the returned point b is a zero of f, or there is a point c, also evaluated, where f has not the same strict sign as at b and |c-b|/2 <= 4e-8*|b| + tol/2 (up to rounding of that test). In exact arithmetic with continuous f there is a true root within |c-b| of b.", "quantifier": "every function, interval and tolerance", "why_tests_cant": "Arbitrary functions; the invariant must survive every interpolation/bisection decision.", "anchors": ["src/brent.c: brent"]}
{"id": "C21", "title": "Root search refuses intervals without a sign change", "statement": "If f has the same strict sign at both ends, brent reports failure and returns 0; and it reports failure only in that case or when the iteration budget is exhausted.", "quantifier": "every function, interval and tolerance", "why_tests_cant": "Arbitrary functions.", "anchors": ["src/brent.c: brent"]}
{"id": "C22", "title": "Root search never leaves the interval", "statement": "In exact arithmetic, brent evaluates the function only at points of [x1,x2] and a reported root lies in [x1,x2].", "quantifier": "every function, every x1 <= x2, every tolerance >= 0", "why_tests_cant": "Interpolation steps could leave the bracket for some function; must hold for all.", "anchors": ["src/brent.c: brent"]}
{"id": "C23", "title": "Success is never reported on NaN", "statement": "If brent reports success, the returned point is not one where f is NaN.", "quantifier": "every function on doubles", "why_tests_cant": "Needs functions with NaN values, e.g. the likelihood equation outside of its domain.", "anchors": ["src/brent.c: brent", "src/estimator.c: grimshaw_w"]}
{"id": "C24", "title": "Tail quantile and probability are inverse of each other", "statement": "In exact arithmetic with exact log/exp: for sigma > 0, s > 0 and 0 < q, tail_probability(s, tail_quantile(s,q)) = q, and conversely tail_quantile(s, tail_probability(s,d)) = d for d inside the support; they are the GPD quantile and survival functions scaled by s.", "quantifier": "every gamma (zero, positive, negative), sigma > 0, s > 0, q > 0, d in the support", "why_tests_cant": "A real-valued identity for all parameters.", "anchors": ["src/tail.c: tail_probability, tail_quantile"]}
{"id": "C25", "title": "Quantile and probability are decreasing", "statement": "In exact arithmetic, a smaller q gives a strictly larger tail quantile and, inside the support, a larger d gives a strictly smaller tail probability.", "quantifier": "every gamma, sigma > 0, s > 0 and every pair of arguments (positive q, d in the support)", "why_tests_cant": "Universal over pairs of reals.", "anchors": ["src/tail.c: tail_probability, tail_quantile"]}
{"id": "C26", "title": "An anomaly is more extreme than the tail threshold", "statement": "In exact arithmetic, if q < Nt/n then the quantile of q lies strictly beyond the excess threshold (above for upper tail, below for lower tail); if q > Nt/n it lies strictly inside.", "quantifier": "every fitted tail with sigma > 0, every q > 0, both tail directions", "why_tests_cant": "Universal over real parameters.", "anchors": ["src/spot.c: spot_quantile", "src/tail.c: tail_quantile"]}
{"id": "C27", "title": "spot_quantile and spot_probability are mutually inverse in both tail modes", "statement": "In exact arithmetic, spot_probability(spot_quantile(q)) = q for every fitted detector, upper or lower tail.", "quantifier": "every fitted detector state with sigma > 0, Nt > 0, n > 0; every q > 0", "why_tests_cant": "Universal over states and reals.", "anchors": ["src/spot.c: spot_quantile, spot_probability"]}
{"id": "C28", "title": "NaN input is rejected without side effect", "statement": "spot_step(NaN) returns -ERR_DATA_IS_NAN and leaves the detector and the memory unchanged; no other input returns that code.", "quantifier": "every detector state (fitted or not), every input double", "why_tests_cant": "Universal over states.", "anchors": ["src/spot.c: spot_step"]}
{"id": "C29", "title": "Classification is exactly the threshold comparison", "statement": "For a detector with finite excess threshold and non-NaN anomaly threshold and a non-NaN x, upper tail: spot_step returns ANOMALY iff discard_anomalies and x > anomaly_threshold, otherwise EXCESS iff x >= excess_threshold, otherwise NORMAL, where the comparisons are exact comparisons of the doubles although the code tests the sign of a rounded difference; mirrored for the lower tail.", "quantifier": "every state, every double x including infinities and subnormal differences", "why_tests_cant": "The rounded subtraction must never lose the sign, for all 2^128 pairs of doubles.", "anchors": ["src/spot.c: spot_step"]}
{"id": "C30", "title": "Flagged anomalies never influence the model", "statement": "When spot_step returns ANOMALY the detector (thresholds, counters, tail) and its memory are exactly as before the call.", "quantifier": "every state and every input", "why_tests_cant": "Universal over states and inputs.", "anchors": ["src/spot.c: spot_step"]}
{"id": "C31", "title": "Counters count", "statement": "After a spot_fit on size data that finds an excess threshold, and any sequence of steps, n equals size plus the number of steps that returned NORMAL or EXCESS and Nt equals the number of training values strictly beyond the excess threshold plus the number of steps that returned EXCESS (modulo 2^64).", "quantifier": "every training set and every sequence of steps", "why_tests_cant": "Unbounded histories.", "anchors": ["src/spot.c: spot_fit, spot_step"]}
{"id": "C32", "title": "Thresholds move only when they should", "statement": "spot_step never changes q, level, the tail mode, the discard flag or the excess threshold; it changes the anomaly threshold, the tail parameters and the stored excesses only if it returns EXCESS; a NORMAL step only increments n.", "quantifier": "every sequence of steps", "why_tests_cant": "Unbounded histories.", "anchors": ["src/spot.c: spot_step"]}
{"id": "C33", "title": "The anomaly threshold is the quantile of q at the last model update", "statement": "After a spot_fit that returned 0 or -ERR_ANOMALY_THRESHOLD_IS_NAN, and after each EXCESS step, anomaly_threshold equals what spot_quantile(q) returns; between model updates it stays equal to the value computed at the last update.", "quantifier": "every history", "why_tests_cant": "Unbounded histories.", "anchors": ["src/spot.c: spot_fit, spot_step, spot_quantile"]}
{"id": "C34", "title": "Without discard_anomalies nothing is flagged", "statement": "A detector initialised with discard_anomalies = 0 never returns ANOMALY.", "quantifier": "every history and input", "why_tests_cant": "Unbounded histories.", "anchors": ["src/spot.c: spot_init, spot_step"]}
{"id": "C35", "title": "An unfitted detector is silent", "statement": "Between a successful spot_init and the first spot_fit, every spot_step on a non-NaN value returns NORMAL and the tail stays empty.", "quantifier": "every sequence of doubles", "why_tests_cant": "Unbounded histories.", "anchors": ["src/spot.c: spot_init, spot_step"]}
{"id": "C36", "title": "spot_fit's return code is accurate", "statement": "spot_fit returns -ERR_EXCESS_THRESHOLD_IS_NAN iff the level quantile estimate of the data is NaN, and then the thresholds and the tail are unchanged; otherwise that estimate becomes the excess threshold and it returns 0 iff the anomaly threshold is not NaN; there is no other code than these and -ERR_ANOMALY_THRESHOLD_IS_NAN.", "quantifier": "every data buffer (any size, NaN included) and every initialised detector", "why_tests_cant": "All buffers.", "anchors": ["src/spot.c: spot_fit"]}
{"id": "C37", "title": "spot_fit stores exactly the strict exceedances", "statement": "After a fit from a fresh detector that finds an excess threshold, Nt is the number of training values strictly beyond the excess threshold and the stored excesses are, in order of arrival, the last max_excess differences to the threshold of those values.", "quantifier": "every data buffer and capacity", "why_tests_cant": "All buffers.", "anchors": ["src/spot.c: spot_fit", "src/ubend.c"]}
{"id": "C38", "title": "Training and streaming agree on what an excess is", "statement": "A value is recorded as an excess by spot_fit iff the same value would be recorded as an excess by spot_step with the same excess threshold (anomaly test aside).", "quantifier": "every value and threshold", "why_tests_cant": "They differ at exactly one point per threshold.", "anchors": ["src/spot.c: spot_fit, spot_step"]}
{"id": "C39", "title": "Re-fitting forgets the past", "statement": "spot_fit on an already used detector yields the same state as spot_fit on a freshly initialised detector with the same parameters.", "quantifier": "every history before the second fit", "why_tests_cant": "History dependent.", "anchors": ["src/spot.c: spot_fit", "src/tail.c"]}
{"id": "C40", "title": "Lower tail mode is the mirror of upper tail mode", "statement": "A lower-tail detector fed with -x behaves as the upper-tail detector with mirrored thresholds fed with x: same result codes, same counters and tail, mirrored thresholds, for every sequence of steps.", "quantifier": "every pair of mirrored states and every sequence of steps", "why_tests_cant": "Relational property of two unbounded runs.", "anchors": ["src/spot.c: spot_step, spot_quantile"]}
{"id": "C41", "title": "The quantile estimator is memory safe and terminates on all data", "statement": "p2_quantile reads only data[0..size-1] and never indexes outside of its five-marker arrays, for every buffer, NaN and infinities included.", "quantifier": "every probability p, every buffer of every size", "why_tests_cant": "The marker search loop has no bound check; safety depends on comparisons with arbitrary doubles.", "anchors": ["src/p2.c: quantile, p2_quantile"]}
{"id": "C42", "title": "Too little data", "statement": "With fewer than five data p2_quantile returns 0, so spot_fit puts the excess threshold at 0; with exactly five non-NaN data it returns their median.", "quantifier": "every buffer of size <= 5", "why_tests_cant": "All buffers.", "anchors": ["src/p2.c: quantile", "src/spot.c: spot_fit"]}
{"id": "C43", "title": "The excess threshold lies within the training data", "statement": "For finite data of magnitude at most 2^1022 and at most 2^53 of them (at least five), the double returned by p2_quantile lies between the minimum and the maximum of the data, rounding errors included; so spot_fit finds a finite excess threshold.", "quantifier": "every buffer of such doubles, every p including NaN", "why_tests_cant": "All buffers; rounding could push an interpolated marker out of order.", "anchors": ["src/p2.c: quantile, parabolic, linear, sort5"]}
{"id": "C44", "title": "sort5 sorts", "statement": "sort5 rearranges its five elements into a permutation; if none is NaN the result is in non-decreasing order.", "quantifier": "every five doubles", "why_tests_cant": "All tuples of doubles, ties and signed zeros included.", "anchors": ["src/p2.c: sort5"]}
{"id": "C45", "title": "Marker positions stay distinct", "statement": "Throughout p2_quantile (size <= 2^53) the five marker positions stay strictly increasing integers, so that the interpolation formulas never divide by zero.", "quantifier": "every data buffer", "why_tests_cant": "All histories of marker moves.", "anchors": ["src/p2.c: quantile, parabolic, linear"]}
{"id": "C46", "title": "The threshold estimate is equivariant", "statement": "In exact arithmetic and with at least five data, p2_quantile(p, a*x+b) = a*p2_quantile(p,x)+b for a > 0: the excess threshold does not depend on units.", "quantifier": "every p, data, a > 0, b", "why_tests_cant": "Universal over data and affine maps.", "anchors": ["src/p2.c"]}
{"id": "C47", "title": "The last marker counts the observations", "statement": "As in the P2 algorithm, after processing m >= 5 observations the position of the maximum marker is m-1 (positions being numbered from 0) and that of the minimum marker is 0.", "quantifier": "every data buffer", "why_tests_cant": "All histories.", "anchors": ["src/p2.c: quantile"]}
{"id": "C48", "title": "Text functions never overflow the caller's buffer", "statement": "For size >= 1 and a buffer of at least size bytes, libspot_version, libspot_license and libspot_error write only the first size bytes, NUL-terminate, zero-fill, and store the longest prefix of the message that fits; a NULL buffer is ignored.", "quantifier": "every buffer size >= 1, every text", "why_tests_cant": "All sizes and strings.", "anchors": ["src/spot.c: strncpy, libspot_version, libspot_license, libspot_error"]}
{"id": "C49", "title": "Every error code has a message", "statement": "libspot_error writes the message documented for every code the API can return (1000..1005) and leaves the buffer untouched for other codes.", "quantifier": "every code", "why_tests_cant": "Existing test prints messages without checking.", "anchors": ["src/spot.c: libspot_error, errors", "include/structs.h: LibspotError"]}
{"id": "C50", "title": "frexp decomposition is exact", "statement": "The built-in frexp maps every finite non-zero double x to (m,e) with 1/2 <= |m| < 1 and x = m*2^e exactly, subnormals included; zero, infinities and NaN are returned unchanged.", "quantifier": "every double", "why_tests_cant": "2^64 inputs; subnormal path is recursive.", "anchors": ["src/xmath.c: musl_frexp"]}
{"id": "C51", "title": "ldexp is correctly rounded", "statement": "The built-in ldexp(x,n) returns x*2^n rounded once to nearest even (overflow to infinity, gradual underflow), for every double x and every int n.", "quantifier": "every double x and 32-bit int n", "why_tests_cant": "2^96 inputs; double rounding in the subnormal range is the classical bug.", "anchors": ["src/xmath.c: musl_ldexp"]}
{"id": "C52", "title": "xlog domain errors", "statement": "xlog returns NaN for NaN and negative inputs, -infinity for both zeros, and a finite number for every positive finite double; xlog(+infinity) = +infinity.", "quantifier": "every double", "why_tests_cant": "All doubles.", "anchors": ["src/xmath.c: xlog"]}
{"id": "C53", "title": "xlog is accurate", "statement": "In exact arithmetic the polynomial fraction used by xlog approximates the natural logarithm with relative error at most 5e-16 on the reduced argument range actually used (documented claim).", "quantifier": "every real in the reduced range", "why_tests_cant": "Continuum of inputs.", "anchors": ["src/xmath.c: _log_cf_11, xlog", "docs/internals/50_math.md"]}
{"id": "C54", "title": "xexp is accurate", "statement": "In exact arithmetic the fraction used by xexp approximates exp with relative error at most 1e-14 on [0, log 2] (documented claim), equals 1 at 0 and satisfies xexp(-x)*xexp(x)=1.", "quantifier": "every real in the range", "why_tests_cant": "Continuum of inputs.", "anchors": ["src/xmath.c: _exp_cf_6, xexp", "docs/internals/50_math.md"]}
{"id": "C55", "title": "xexp is defined and monotone at the extremes", "statement": "xexp never has undefined behaviour; for huge positive x it returns +infinity and for huge negative x it returns 0.", "quantifier": "every double", "why_tests_cant": "Failing region starts at 1.4e9.", "anchors": ["src/xmath.c: xexp, xpow", "src/tail.c: tail_probability"]}
{"id": "C56", "title": "xmin", "statement": "xmin returns NaN if an argument is NaN and otherwise an argument that is <= both.", "quantifier": "every pair of doubles", "why_tests_cant": "All pairs.", "anchors": ["src/xmath.c: xmin"]}
{"id": "C57", "title": "Custom float utilities", "statement": "set_float_utils replaces each of ldexp/frexp only by a non-NULL function, and replacing them by functions meeting the same mathematical contract leaves xlog, xexp and xpow unchanged.", "quantifier": "every function pair", "why_tests_cant": "Arbitrary functions.", "anchors": ["src/xmath.c: internal_set_float_utils", "src/spot.c: set_float_utils"]}
{"id": "C58", "title": "Results do not depend on memory addresses", "statement": "Two detectors initialised with the same parameters and fed with the same calls return the same results, whatever the heaps and the addresses returned by malloc.", "quantifier": "every pair of heaps/allocators, every sequence of calls", "why_tests_cant": "Relational property over unbounded runs and allocators.", "anchors": ["src/spot.c", "src/ubend.c", "src/allocator.c"]}
{"id": "C59", "title": "Method of moments", "statement": "In exact arithmetic, the moment estimator returns the (gamma, sigma) for which the GPD has the mean and variance reported by the tail (when mean and variance are positive).", "quantifier": "every tail", "why_tests_cant": "Universal over samples.", "anchors": ["src/estimator.c: mom_estimator"]}
{"id": "C60", "title": "Grimshaw roots are stationary points", "statement": "In exact arithmetic, if x* != 0 is a zero of the function handed to the root finder and all 1+x*Yi > 0, then the (gamma, sigma) computed from x* is a critical point of the GPD log-likelihood.", "quantifier": "every sample and root", "why_tests_cant": "Universal over samples.", "anchors": ["src/estimator.c: grimshaw_w, grimshaw_v, grimshaw_simplified_log_likelihood"]}
{"id": "C61", "title": "Python: fit consumes any sequence", "statement": "Spot.fit accepts lists and tuples of floats and fits on exactly their elements; when it fails an exception is raised.", "quantifier": "every python sequence", "why_tests_cant": "All sequences.", "anchors": ["python/libspotmodule.c: Spot_fit"]}
{"id": "C62", "title": "JavaScript: fit consumes exactly the array passed", "statement": "Spot.fit(data) hands exactly the elements of the Float64Array to spot_fit and releases the temporary buffer.", "quantifier": "every Float64Array, including views on a larger buffer", "why_tests_cant": "All arrays and offsets.", "anchors": ["wasm/index.ts: fit"]}
{"id": "C63", "title": "JavaScript: thresholds are read at the right offsets", "statement": "The byte offsets used by the JS accessors are the offsets of anomaly_threshold and excess_threshold in the wasm32 layout of struct Spot.", "quantifier": "every content of the structure", "why_tests_cant": "Layout rules.", "anchors": ["wasm/index.ts: anomaly_threshold, excess_threshold", "include/structs.h"]}
{"id": "C64", "title": "A failed fit leaves the detector as it was", "statement": "When spot_fit fails because it finds no excess threshold (-ERR_EXCESS_THRESHOLD_IS_NAN) the detector and its memory are exactly as before the call, so that it can still be used.", "quantifier": "every reachable detector, every buffer", "why_tests_cant": "Needs data for which the estimate is NaN on an already used detector.", "anchors": ["src/spot.c:80-120"]}
{"id": "C65", "title": "Few training data exceed the threshold", "statement": "After spot_fit at level L on n data, the excess threshold is near the L-quantile of the training data: about n*(1-L) of them, and at most half of them for L >= 1/2, exceed it.", "quantifier": "every buffer of at least five non-NaN data", "why_tests_cant": "All data sets and orders of presentation; tests use shuffled samples only.", "anchors": ["src/p2.c: quantile", "src/spot.c: spot_fit"]}
{"id": "C66", "title": "xlog with rounding is as accurate as the C library", "statement": "With the rounding of the machine, xlog(x) differs from the natural logarithm of x by a relative error of at most 1e-14 for every positive finite double (the documentation claims the accuracy of the standard library).", "quantifier": "every positive finite double", "why_tests_cant": "2^63 inputs; the existing test samples some points and an absolute tolerance.", "anchors": ["src/xmath.c: xlog", "docs/internals/50_math.md"]}
{"id": "C67", "title": "xexp with rounding is accurate", "statement": "With the rounding of the machine, xexp(x) is finite and differs from the exponential of x by a relative error of at most 4e-15 + 2e-16*|x| (1.5e-13 at the ends) for every double whose exponential is a normal double (-708 <= x <= 709).", "quantifier": "every double in [-708, 709]", "why_tests_cant": "Billions of billions of inputs; the error comes from an argument reduction that is worst at the ends of the range.", "anchors": ["src/xmath.c: xexp, _exp_cf_6"]}
{"id": "C68", "title": "Python: step, quantile and probability reject what is not a number", "statement": "Spot.step, Spot.quantile and Spot.probability convert their argument like float(). If it does not convert, or if the library refuses it (NaN for step), an exception is raised and the detector is unchanged; otherwise they return what the C function returns, with no exception.", "quantifier": "every argument, every detector", "why_tests_cant": "Every type of argument on every state; the tests pass floats only.", "anchors": ["python/libspotmodule.c: Spot_step, Spot_quantile, Spot_probability"]}
{"id": "C69", "title": "Python: excesses() returns the current tail", "statement": "Spot.excesses() has no undefined behaviour and returns exactly the last max_excess excesses recorded by fit and step (all of them if there are fewer), in some order.", "quantifier": "every history of fits and steps on an initialised detector", "why_tests_cant": "All histories, including those for which the circular buffer has wrapped.", "anchors": ["python/libspotmodule.c: excesses, to_python_list, Spot_excesses", "src/ubend.c"]}
{"id": "C70", "title": "Python: life cycle of an object", "statement": "Whatever happened to a Python Spot object (never initialised, __init__ failed, initialised and used, initialised again) it can be deallocated safely and all the memory that its calls allocated is then released; __init__ raises an exception exactly when it fails.", "quantifier": "every sequence of __init__ and method calls, every behaviour of malloc", "why_tests_cant": "Failures of malloc and of __init__ followed by garbage collection are not exercised by tests; leaks are not observed.", "anchors": ["python/libspotmodule.c: Spot_init, Spot_dealloc"]}
{"id": "C71", "title": "JavaScript: life cycle of an object", "statement": "Whatever happened to a JavaScript Spot object (constructed and used, or constructor that threw) its finalizer is safe, and releases all the memory that was allocated for it.", "quantifier": "every sequence of constructions, calls and garbage collections", "why_tests_cant": "Finalizers run at the discretion of the garbage collector, tests never wait for them; the failure needs a constructor that throws.", "anchors": ["wasm/index.ts: constructor, freg", "src/spot.c: spot_init, spot_free"]}
{"id": "C72", "title": "JavaScript: errors carry their message", "statement": "The constructor, fit and step throw exactly when the library returns a negative code, and the message of the error is the documented message of that code.", "quantifier": "every call", "why_tests_cant": "All the failures of the library, in all states.", "anchors": ["wasm/index.ts: constructor, fit, step, libspotError"]}
{"id": "C73", "title": "JavaScript: libspotVersion", "statement": "libspotVersion() returns the version string whatever the memory that it gets from malloc holds.", "quantifier": "every version of at most 23 characters, every content of the memory", "why_tests_cant": "The buffer is not initialised: the result could depend on what was in memory.", "anchors": ["wasm/index.ts: libspotVersion, stringify"]}
{"id": "C74", "title": "Fitting opposite data mirrors the fit", "statement": "spot_fit of a lower-tail detector on -data gives the mirror image of spot_fit of an upper-tail detector with the same parameters on data: opposite thresholds, same counters, tail parameters and stored excesses.", "quantifier": "every parameters, data set and size", "why_tests_cant": "Compares two runs of the streaming estimator over arbitrary data; the asymmetry only appears on particular orders of the data.", "anchors": ["src/spot.c: spot_fit", "src/p2.c: p2_quantile"]}
{"id": "C75", "title": "No call has undefined behaviour", "statement": "No sequence of calls on an initialised detector with 1 <= max_excess < 2^61 has undefined behaviour, whatever the data (buffers having the announced size).", "quantifier": "every parameters accepted by spot_init, every sequence of spot_fit, spot_step, spot_quantile and spot_probability", "why_tests_cant": "The undefined conversion only shows on data with (almost) no dispersion or far arguments, and compilers give it some value silently.", "anchors": ["src/xmath.c: xexp", "src/tail.c: tail_quantile, tail_probability", "src/spot.c: spot_fit, spot_step, spot_quantile, spot_probability"]}
{"id": "C76", "title": "xlog is non-decreasing", "statement": "For positive doubles x <= y, xlog(x) <= xlog(y), rounding included.", "quantifier": "every pair of positive finite doubles", "why_tests_cant": "A decrease shows for pairs of neighbouring doubles only, at a few of the powers of two; there are 2^63 doubles.", "anchors": ["src/xmath.c: xlog, log_cf_11"]}
{"id": "C77", "title": "xexp is non-decreasing", "statement": "For finite doubles x <= y, xexp(x) <= xexp(y), rounding included; the values are at least 1 for x >= 0 and in [0,1] for x <= 0.", "quantifier": "every pair of finite doubles", "why_tests_cant": "A decrease would show for two neighbouring doubles only, for instance at one of the 1024 places where the reduction modulo log 2 switches from one integer to the next.", "anchors": ["src/xmath.c: xexp, exp_cf_6"]}
{"id": "C78", "title": "A flagged anomaly is beyond the excess threshold", "statement": "Whenever spot_step returns ANOMALY for a value x, x is strictly beyond excess_threshold (above it, or below it in low mode), rounding included.", "quantifier": "every history of init, fit and steps; every x; both tails", "why_tests_cant": "The two thresholds come from separate computations; their order can break after many steps only, when the observed proportion of excesses falls below q, or by rounding for some tail parameters.", "anchors": ["src/spot.c: spot_step, spot_fit, spot_quantile", "src/tail.c: tail_quantile", "src/xmath.c: xexp, xlog, xpow"]}
{"id": "C79", "title": "spot_quantile is monotone in q", "statement": "On a fitted detector, for 0 < q <= q' <= 1, spot_quantile(q) is at least as far from the excess threshold, on the far side, as spot_quantile(q'), rounding included.", "quantifier": "every fitted detector; every pair of probabilities", "why_tests_cant": "A violation is one unit in the last place at isolated pairs of neighbouring doubles.", "anchors": ["src/spot.c: spot_quantile", "src/tail.c: tail_quantile", "src/xmath.c: xexp, xlog, xpow"]}
{"id": "C80", "title": "spot_probability is monotone in z", "statement": "On a fitted detector, spot_probability(z) does not increase as z goes away from the excess threshold on the far side, rounding included.", "quantifier": "every fitted detector; every pair of finite values", "why_tests_cant": "A violation is a few units in the last place at isolated pairs of neighbouring doubles.", "anchors": ["src/spot.c: spot_probability", "src/tail.c: tail_probability", "src/xmath.c: xexp, xlog, xpow"]}
{"id": "C81", "title": "spot_probability returns a probability", "statement": "On a fitted detector, for every finite z on the far side of the excess threshold, the value returned by spot_probability is between 0 and Nt/n, or NaN beyond the end of the support, rounding included.", "quantifier": "every fitted detector; every finite z on the far side of the threshold", "why_tests_cant": "The violation needs a distance of more than 1.48e9 scales, where the exponent of the reduction changes sign.", "anchors": ["src/spot.c: spot_probability", "src/tail.c: tail_probability", "src/xmath.c: xexp"]}
{"id": "C82", "title": "Quantile and probability are exact at the threshold", "statement": "spot_probability(excess_threshold) is exactly the double nearest to Nt/n, and spot_quantile of that double is exactly excess_threshold.", "quantifier": "every fitted detector whose parameter quotients do not overflow; both tails", "why_tests_cant": "Exactness at one point for all parameters: a test sees some parameters, with a tolerance.", "anchors": ["src/spot.c: spot_probability, spot_quantile", "src/tail.c: tail_probability, tail_quantile", "src/xmath.c: xexp, xlog"]}
{"id": "C83", "title": "The origin of the data does not matter", "statement": "Adding the same number to every datum given to the detector (fit, steps, spot_probability) adds that number to both thresholds and to every quantile, and leaves all result codes and probabilities as they are, apart from rounding.", "quantifier": "every history of fits on at least five numbers, steps and queries; every offset; both tails", "why_tests_cant": "A dependence on the origin may sit in one branch of the estimators; a test compares two runs of one history.", "anchors": ["src/spot.c: spot_fit, spot_step, spot_quantile, spot_probability", "src/p2.c: p2_quantile", "src/tail.c: tail_fit, tail_push"]}
{"id": "C84", "title": "The unit of the data does not matter", "statement": "Multiplying every datum given to the detector (fit, steps, spot_probability) by the same positive power of two, without overflow or underflow, leaves all result codes and probabilities as they are and multiplies the thresholds and quantiles.", "quantifier": "every history of init, fit and steps; every scale factor", "why_tests_cant": "The dependence on the unit comes from absolute tolerances in the root search; it shows for small units only and depends on the data.", "anchors": ["src/estimator.c: grimshaw_estimator", "src/brent.c: brent", "src/spot.c: spot_fit, spot_step"]}
{"id": "C85", "title": "The estimated scale is positive", "statement": "After any insertions of positive finite excesses in a tail, tail_fit gives a scale sigma that is a positive finite number, rounding included.", "quantifier": "every capacity, every sequence of insertions", "why_tests_cant": "Depends on the rounding of the likelihood, on the points visited by the root searches and on the order of magnitude of the data; tests use data of ordinary size.", "anchors": ["src/tail.c: tail_fit", "src/estimator.c: mom_estimator, grimshaw_estimator, log_likelihood", "src/brent.c: brent"]}
{"id": "C86", "title": "The tracked sum of the excesses drifts slowly", "statement": "After N insertions of non-negative excesses in a container of capacity c, the tracked sum used for the mean is finite and differs from the exact sum of the stored values by at most N*c*2^-50 times the greatest stored value.", "quantifier": "every capacity, every sequence of N insertions with N*c <= 2^49", "why_tests_cant": "Rounding errors accumulate over the whole life of the detector: the error after 10^9 insertions is out of reach of tests.", "anchors": ["src/peaks.c: peaks_push, peaks_update_stats, peaks_mean"]}
{"id": "C87", "title": "The root search stays in its interval, rounding included", "statement": "brent evaluates the function only at finite points of [x1,x2], and a reported root is one of them, in binary64.", "quantifier": "every function on doubles (NaN and infinite values included), every interval and tolerance", "why_tests_cant": "Quantified over all functions; interpolation steps, overflow and cancellation in the step acceptance test depend on the function values.", "anchors": ["src/brent.c: brent"]}
{"id": "C88", "title": "After a fit or an excess the detector is usable", "statement": "A fit that finds at least one excess, and a step that records one, is defined; it leaves a finite shape of at most 2^20, a positive finite scale and an anomaly threshold that is a number, on the far side of the excess threshold if at least a proportion q of the observations are excesses (rounding included). In particular the fit returns 0.", "quantifier": "every detector reached by calls of the API, every data, every new value", "why_tests_cant": "The estimators, two root searches and the selection by likelihood are involved; tests look at a few data sets where the parameters come out well.", "anchors": ["src/spot.c: spot_fit, spot_step, spot_quantile", "src/tail.c: tail_fit, tail_quantile", "src/estimator.c: mom_estimator, grimshaw_estimator"]}
{"id": "C89", "title": "spot_quantile computes the quantile of the model", "statement": "On a fitted detector, spot_quantile(q) is the generalised Pareto quantile t + sigma/gamma*((q/P)^-gamma - 1) (t - sigma*log(q/P) if gamma = 0; mirrored for the lower tail) of the fitted parameters, P = Nt/n, up to rounding errors that stay a small fraction of the scale.", "quantifier": "every fitted detector; every probability q", "why_tests_cant": "The error depends on all parameters; it is large only for shapes close to 0, which come from data whose variance nearly equals the square of their mean.", "anchors": ["src/spot.c: spot_quantile", "src/tail.c: tail_quantile", "src/xmath.c: xexp, xlog, xpow"]}
{"id": "C90", "title": "spot_probability computes the probability of the model", "statement": "On a fitted detector, spot_probability(z) is P*(1 + gamma*d/sigma)^(-1/gamma) (P*exp(-d/sigma) if gamma = 0), d the distance from the excess threshold to z and P = Nt/n, with a small relative error.", "quantifier": "every fitted detector; every value z", "why_tests_cant": "The error depends on all parameters; it is large only for shapes close to 0 and close to the end of the support.", "anchors": ["src/spot.c: spot_probability", "src/tail.c: tail_probability", "src/xmath.c: xexp, xlog, xpow"]}
{"id": "C91", "title": "The tail parameters are the most likely ones for the stored excesses", "statement": "After every fit that finds an excess threshold and after every step that returns EXCESS, and until the next one, the shape and the scale used for quantiles and probabilities are those of one of the two estimators applied to the excesses stored at that moment, and no estimator with a likelihood that is a number has a greater one.", "quantifier": "every history of calls containing a fit or an excess; every continuation", "why_tests_cant": "A stale estimate gives plausible thresholds; it is visible only by comparing with estimates recomputed from the stored excesses after each call.", "anchors": ["src/spot.c: spot_fit, spot_step", "src/tail.c: tail_fit", "src/estimator.c: mom_estimator, grimshaw_estimator"]}
{"id": "C92", "title": "The threshold estimate is that of the P2 algorithm", "statement": "In exact arithmetic, the value returned by p2_quantile is that of the published P2 algorithm (Jain and Chlamtac, 1985) on the same data.", "quantifier": "all lists of at least five numbers, all levels", "why_tests_cant": "The estimate depends on the whole sequence; a test compares a few sequences with a tolerance that hides differences of the algorithm.", "anchors": ["src/p2.c: p2_quantile, quantile, linear, parabolic, init_p2"]}
{"id": "C93", "title": "The likelihood equation is only evaluated where it is defined", "statement": "When the tail is fitted to positive excesses, every point x at which the root searches evaluate the likelihood equation has 1 + x*y computed as a positive finite number for every stored excess y, so that no logarithm of a negative number or zero is taken and the value of the equation is a finite number; this includes the reported roots.", "quantifier": "all buffers of positive excesses, all points of both searches", "why_tests_cant": "The points are internal to the search and depend on the rounding of -1/max and of the mean; a NaN there silently removes a candidate.", "anchors": ["src/estimator.c: grimshaw_estimator, grimshaw_w", "src/brent.c: brent"]}
{"id": "C94", "title": "What is flagged lies beyond the quantile of the fitted model", "statement": "From a fit or an EXCESS step until the next one, spot_step returns ANOMALY exactly for the values beyond the exact generalised Pareto quantile of probability q of the parameters held by the detector (up to rounding error).", "quantifier": "every history, every value", "why_tests_cant": "Composition of estimation, quantile and comparison over unbounded histories; the reference value is a real number that no test computes exactly.", "anchors": ["src/spot.c: spot_fit, spot_step, spot_quantile", "src/tail.c: tail_fit, tail_quantile", "src/xmath.c: xexp, xlog, xpow"]}
{"id": "C95", "title": "Python: as_dict(), the attributes and raw() show the state of the detector", "statement": "On a detector in use, as_dict() is defined and shows the parameters given to the constructor, both thresholds, both counters, the parameters and statistics of the tail, the capacity and the last max_excess recorded excesses; each attribute of the object equals the entry of the same name; raw() has 152 bytes, the structure member by member.", "quantifier": "all histories", "why_tests_cant": "A format unit of Py_BuildValue that does not match its argument, or an attribute with a wrong offset or type, reads other memory; whether the result is visibly wrong depends on the platform and the values.", "anchors": ["python/libspotmodule.c: Spot_as_dict, Tail_as_dict, Peaks_as_dict, Ubend_as_dict, excesses, Spot_members, Spot_raw"]}
{"id": "C96", "title": "Python: the constructor uses the arguments that it was given", "statement": "Spot(*args, **kw) either raises and changes nothing, or initialises the library with exactly the numbers passed (0, 1, 0.98 and 500 for the optional ones that are absent); it raises for unknown or missing arguments, for values that are not numbers and for integers that the C type cannot represent.", "quantifier": "all argument lists and keyword dictionaries", "why_tests_cant": "Only few combinations of arguments and few magnitudes can be tried; silent reduction modulo 2^64 shows for huge integers only.", "anchors": ["python/libspotmodule.c: Spot_init"]}
{"id": "C97", "title": "Python: deleting an object releases its memory", "statement": "After an object was created, initialised or not, used and deleted, every block of memory is in the state that it had before.", "quantifier": "all histories, all allocators", "why_tests_cant": "A leak of some bytes per object does not change any result and is not seen by functional tests.", "anchors": ["python/libspotmodule.c: Spot_dealloc, Spot_init"]}
{"id": "C98", "title": "Python: an object that was not initialised is safe", "statement": "The methods of an object whose __init__ did not run or failed have no undefined behaviour.", "quantifier": "all arguments, all heaps", "why_tests_cant": "Such objects come from subclasses, copy or pickle protocols; tests create objects through the constructor.", "anchors": ["python/libspotmodule.c: Spot_step, Spot_quantile, Spot_probability, Spot_excesses, Spot_as_dict, Spot_dealloc"]}
{"id": "C99", "title": "JavaScript: the constructor uses the numbers that it was given", "statement": "new Spot({...}) either throws or gives a detector with the flags and the maximum number of excesses passed, whose buffer has room for that number of excesses.", "quantifier": "all numbers", "why_tests_cant": "The conversion of numbers to 32-bit integers and the computation of the size modulo 2^32 are wrong for few magnitudes only.", "anchors": ["wasm/index.ts: constructor", "src/ubend.c: ubend_init", "src/spot.c: spot_init"]}
{"id": "C100", "title": "The computed log-likelihood is close to the log-likelihood", "statement": "For every set of stored excesses, the log-likelihood computed for parameters (shape, scale) that the fit keeps is a finite number, within an explicit rounding bound of the exact log-likelihood of the generalised Pareto distribution.", "quantifier": "all sequences of insertions, all parameters", "why_tests_cant": "The loop is of unbounded length and the exact value is a real number; for shapes near 0 the factor 1/gamma amplifies the rounding of 1 + x.", "anchors": ["src/peaks.c: log_likelihood", "src/xmath.c: xlog"]}
{"id": "C101", "title": "In exact terms the parameters that are kept are not less likely than the candidates", "statement": "If the parameters kept by a fit of the tail and a candidate (method of moments, Grimshaw, exponential with the mean of the excesses) have a shape that is 0 or at least 2^-20, ordinary scales, and no excess at the end of their support, then the exact log-likelihood of the former is at least that of the latter, minus the two rounding bounds of C100.", "quantifier": "all sequences of insertions, all candidates", "why_tests_cant": "The comparison made by the code is between rounded values; the claim is about real numbers that no test computes.", "anchors": ["src/tail.c: tail_fit", "src/estimator.c: mom_estimator, grimshaw_estimator", "src/peaks.c: log_likelihood"]}
{"id": "C102", "title": "An infinite value does not disable the detector", "statement": "An infinite observation or training value beyond the tail is flagged or rejected, and the anomaly threshold stays finite.", "quantifier": "all reachable detectors, all continuations", "why_tests_cant": "Infinities come from upstream overflow or division by zero; the damage (a threshold that is infinite until the value leaves the tail, with a fit that reports success) shows only in later decisions.", "anchors": ["src/spot.c: spot_fit, spot_step", "src/peaks.c: peaks_push, peaks_mean", "src/tail.c: tail_fit", "src/estimator.c: mom_estimator"]}
{"id": "C103", "title": "An infinite excess is forgotten when it leaves the tail", "statement": "Once max_excess finite excesses have been recorded after an infinite one, the tracked sum of the excesses is finite again, and within an explicit rounding bound of the sum of the stored excesses; and it stays so as long as the excesses recorded are finite.", "quantifier": "all histories of fits and steps; excesses up to 2^900, number of later excesses times capacity up to 2^49", "why_tests_cant": "The sum is maintained by adding and subtracting; infinity minus infinity is NaN, and only the recomputation on the eviction of an extreme avoids it. It takes a full turn of the buffer to see it.", "anchors": ["src/peaks.c: peaks_push, peaks_update_stats", "src/ubend.c: ubend_push"]}
{"id": "C104", "title": "An observation that follows the model is flagged with probability q", "statement": "If the observations follow the peaks-over-threshold model that the detector holds (probability Nt/n to exceed the threshold, generalised Pareto excesses), then the probability that an observation is flagged is q in exact arithmetic; in binary64, for readings with an error of at most delta, it is q up to a factor exp(eta/m), eta being delta plus the rounding error of the threshold and m the local scale.", "quantifier": "all probability spaces and random variables, all detectors with parameters that are not extreme, all call sequences up to the next model update", "why_tests_cant": "A false-alarm rate of 1e-4 or less takes millions of simulated observations to estimate, for each state of the detector.", "anchors": ["src/spot.c: spot_step, spot_quantile", "src/tail.c: tail_quantile"]}
{"id": "C105", "title": "The probability of the quantile of q is q", "statement": "On a fitted detector, spot_probability(spot_quantile(q)) is q up to a relative error of a millionth, rounding errors included.", "quantifier": "every fitted detector; every probability q within a factor e^20 of Nt/n", "why_tests_cant": "Both functions chain a division, a power and a product, whose errors depend on all parameters; samples never meet the shapes where the composition collapses to Nt/n.", "anchors": ["src/spot.c: spot_quantile, spot_probability", "src/tail.c: tail_quantile, tail_probability", "src/xmath.c: xexp, xlog, xpow"]}
{"id": "C106", "title": "The quantile of the probability of z is z", "statement": "On a fitted detector, spot_quantile(spot_probability(z)) is z up to a millionth of the local scale sigma + gamma*d of the model at z, rounding errors included (d: distance from the excess threshold to z).", "quantifier": "every fitted detector; every value z inside the support of the model, away from its end", "why_tests_cant": "Both functions chain a division, a power and a product, whose errors depend on all parameters; samples never meet the shapes where the composition collapses to the threshold.", "anchors": ["src/spot.c: spot_quantile, spot_probability", "src/tail.c: tail_quantile, tail_probability", "src/xmath.c: xexp, xlog, xpow"]}
{"id": "C107", "title": "Python: a failed allocation leaves nothing behind", "statement": "Whatever allocations of Python objects fail during excesses() or as_dict(), the method either returns its usual value, or NULL with an exception pending; every object created on the way is released unless it is part of the result.", "quantifier": "all histories of fits and steps; every pattern of failing allocations", "why_tests_cant": "Each of the dozens of allocations (their number grows with max_excess) can fail independently; no test injects them.", "anchors": ["python/libspotmodule.c: to_python_list, excesses, Ubend_as_dict, Peaks_as_dict, Tail_as_dict, Spot_as_dict"]}
{"id": "C108", "title": "Python: the methods keep no reference to their arguments", "statement": "After a call of fit, step, excesses or as_dict, the references owned are those owned before the call and those held by the result.", "quantifier": "all detectors, arguments and heaps; every pattern of failing allocations", "why_tests_cant": "A leaked reference has no visible effect before memory runs out.", "anchors": ["python/libspotmodule.c: Spot_fit, Spot_step"]}
{"id": "C109", "title": "The computed variance is the variance of the stored excesses up to rounding", "statement": "The variance from which the moments estimate is computed differs from the variance of the stored excesses by a rounding error at most; in particular it is not negative beyond a rounding error.", "quantifier": "all histories of insertions; excesses up to 2^400, up to 2^24 of them", "why_tests_cant": "It is a difference of two large numbers that are maintained incrementally; a wrong value shows up only after an eviction, and only as a slightly different estimate.", "anchors": ["src/peaks.c: peaks_push, peaks_update_stats, peaks_var"]}
{"id": "C110", "title": "The moments candidate has the moments of the stored excesses", "statement": "The method of moments proposes a generalised Pareto distribution whose mean and variance are those of the stored excesses, with a positive scale.", "quantifier": "all histories of insertions with a positive mean and a positive variance", "why_tests_cant": "The candidate competes with the one of Grimshaw's method; a useless candidate is silently discarded.", "anchors": ["src/estimator.c: mom_estimator", "src/peaks.c: peaks_mean, peaks_var, peaks_update_stats"]}
{"id": "C111", "title": "Python arguments whose conversion calls the detector", "statement": "When the conversion of an argument (a __float__ method) itself calls methods of the same detector, the outer call acts as if the inner calls had all been made before it, on the values that the conversions returned: nothing is lost, mixed up or written outside of the memory of the detector. fit returns None without exception if and only if the last fit succeeded, also when a conversion changes the list given to fit.", "quantifier": "all detectors reachable from an initialisation, all lists of objects, all sequences of calls inside of the conversions", "why_tests_cant": "Reentrant calls are never tested; the interleaving of a buffer being filled with steps and fits of the same detector has unboundedly many forms.", "anchors": ["python/libspotmodule.c: Spot_fit, Spot_step, Spot_quantile, Spot_probability"]}
{"id": "C112", "title": "Import of the Python module", "statement": "The import either returns a complete module (version, the three constants, the type; allocators registered) without exception, or NULL with an exception and no reference left behind, whichever requests to the interpreter fail; it has no undefined behaviour. The version is cut to 63 bytes.", "quantifier": "all version texts, all contents of the buffer, all patterns of failures of the interpreter", "why_tests_cant": "Failures of the interpreter during an import cannot be provoked by tests.", "anchors": ["python/libspotmodule.c: PyInit_libspot"]}
{"id": "C113", "title": "The root search finds a root when there is a sign change", "statement": "If the function given to brent does not have the same strict sign at both ends of the interval, then a root is reported (found = true); for a continuous function there is a true root next to it, within the tolerance.", "quantifier": "all functions, all intervals, all tolerances; exact arithmetic", "why_tests_cant": "Whether 200 iterations suffice is a worst-case question about all functions; the functions of the tests converge quickly.", "anchors": ["src/brent.c: brent"]}
{"id": "C114", "title": "Heavy tails are searched for in every tail", "statement": "For every content of the tail, the estimator looks for a root of the likelihood equation on the positive side (heavy tails, unbounded support): the equation is a number at both ends of that interval, so that no root is reported only if it has the same strict sign at both ends or the evaluations are used up, and a root reported is taken into account.", "quantifier": "all contents of the tail reachable by recording excesses", "why_tests_cant": "The failing contents (an excess equal to zero, from an observation equal to the excess threshold) need exact equality, which random data never produces; the result is still a plausible number.", "anchors": ["src/estimator.c: grimshaw_estimator", "src/brent.c: brent", "src/spot.c: spot_step"]}
{"id": "C115", "title": "The detector with the greater q raises the first alarm", "statement": "Two detectors that differ only in q, given the same calls: when the one with the smaller q flags an anomaly for the first time, the one with the greater q has flagged an anomaly at this observation or earlier. A greater q never delays the first alarm.", "quantifier": "all initialisation parameters, all q <= q', all training data, all sequences of observations", "why_tests_cant": "The documentation promises a trade-off between detection and false alarms that is governed by q; it is a relation between two unbounded executions whose states differ.", "anchors": ["docs/30_parameters.md: Detection", "src/spot.c: spot_fit, spot_step, spot_quantile"]}
{"id": "C116", "title": "The power function", "statement": "xpow(a, x) is a^x for every a >= 0 and every real x, up to rounding.", "quantifier": "all bases, all exponents", "why_tests_cant": "The tests and the benchmark compare a few moderate values with pow; the base 0 and large exponents of bases close to 1 are not among them.", "anchors": ["docs/internals/50_math.md: Power", "src/xmath.c: xpow"]}
{"id": "C117", "title": "The example program", "statement": "The example program has no memory error, counts every observation exactly once, exits with the status 0, 1000 (allocation failed), 1003 or 1004 (training failed; 1003 not for finite moderate data), and leaves a detector whose counters are those of the training data and of the observations that were not flagged. It touches no memory but the buffer of the detector, which it does not release.", "quantifier": "all sequences of random numbers that are not NaN, all allocators, all contents of the heap and of the uninitialised variable", "why_tests_cant": "The program is run with one seed; whether any of its 50 million steps can go wrong for other random numbers is not tested.", "anchors": ["examples/basic.c: main", "src/spot.c: spot_init, spot_fit, spot_step"]}
{"id": "C118", "title": "What is flagged is what spot_probability finds less probable than q", "statement": "For a fitted detector that discards anomalies, spot_step flags an observation if and only if spot_probability, called just before, returns a number that is less than q.", "quantifier": "all fitted detectors, all sequences of observations since the last update of the model, all observations", "why_tests_cant": "The documentation describes both functions by the same probability, but one uses the counters of the last update and the other the current ones; the difference depends on the length of the stream.", "anchors": ["docs/20_get_started.md", "docs/30_parameters.md: Detection", "src/spot.c: spot_step, spot_probability"]}
{"id": "C119", "title": "The model depends on the stored excesses only", "statement": "Two detectors that store the same excesses, in whatever order and whatever excesses were evicted before, get the same tail parameters from a fit: evicted excesses have no influence on the model.", "quantifier": "all capacities, all histories of excesses that end with the same stored values (as a multiset)", "why_tests_cant": "It relates every pair of histories with the same window; the update of the sums after an eviction is different when the evicted value was an extreme.", "anchors": ["docs/30_parameters.md: Bounded memory", "src/peaks.c: peaks_push, peaks_update_stats", "src/tail.c: tail_fit", "src/estimator.c: grimshaw_estimator, mom_estimator"]}
{"id": "C120", "title": "The continued fraction of the logarithm", "statement": "The documented recursion for log(1+z), truncated at depth d, is defined for every positive number, lies between 0 and the logarithm, gets strictly closer to it with every level and converges to it; the relative error has an explicit bound, at depth 11 below 4.1e-16 on [1/2, 2]. The unrolled fraction in src/xmath.c is the one of depth 11.", "quantifier": "all positive reals, all depths, exact arithmetic", "why_tests_cant": "Convergence is about the limit of infinitely many depths, and the bound holds for all reals of the interval; the benchmark samples points.", "anchors": ["docs/internals/50_math.md: Natural logarithm", "benchmark/log_cf_accuracy.c: K, log_cf", "src/xmath.c: log_cf_11"]}
{"id": "C121", "title": "The continued fraction of the exponential", "statement": "The documented recursion for exp(z), truncated at depth d, is defined for every number below 2 and converges to the exponential for every number; on [-1, 1] the relative error is at most 8|z| times the product of the coefficients z^2/(4(2j+1)(2j+3)). The unrolled fraction in src/xmath.c is the one of depth 6.", "quantifier": "all reals (below 2 for the code), all depths, exact arithmetic", "why_tests_cant": "Convergence is about the limit of infinitely many depths, and the bound holds for all reals of the interval; the benchmark samples points.", "anchors": ["docs/internals/50_math.md: Exponential", "benchmark/exp_cf_accuracy.c: K, exp_cf", "src/xmath.c: exp_cf_6"]}
{"id": "C122", "title": "The benchmark of the quantile estimator measures the estimator of the library", "statement": "For every level and every series the estimator in benchmark/p2.c returns the number that the estimator in src/p2.c returns.", "quantifier": "all levels, all series of at least five values", "why_tests_cant": "The two programs agree on five values and can agree on many series; only a proof or a chosen series shows where they differ.", "anchors": ["docs/internals/60_fit.md", "benchmark/p2.c: sort5, p2_quantile", "src/p2.c: sort5, p2_quantile"]}
{"id": "C123", "title": "The reported maximum relative error is the greatest error", "statement": "The number that the accuracy benchmarks print as max relative error is at least the magnitude of the relative error at every point that was measured.", "quantifier": "all depths, all lists of points in the interval on which the fraction is used, exact arithmetic", "why_tests_cant": "The tables of the documentation are the output of the program itself; that the accumulated number is not a bound follows only from the sign of the error at all points.", "anchors": ["docs/internals/50_math.md: Truncation", "benchmark/log_cf_accuracy.c: accuracy", "benchmark/exp_cf_accuracy.c: accuracy"]}
{"id": "C124", "title": "max_excess has no influence before the tail is full", "statement": "Two detectors that differ in max_excess only and get the same calls return the same values, hold the same thresholds, counts and parameters and store the same excesses, as long as the larger one does not store more excesses than the smaller one can hold.", "quantifier": "all capacities, all sequences of fits and steps, all allocators, all binary64 values", "why_tests_cant": "A test compares two capacities on one stream; that no code path reads the capacity or a cell beyond the cursor before the buffer wraps needs all streams.", "anchors": ["docs/30_parameters.md: max_excess", "src/ubend.c: ubend_push, ubend_size", "src/peaks.c: peaks_push", "src/tail.c: tail_push"]}
{"id": "C125", "title": "A higher level gives a higher excess threshold", "statement": "With the same training values, fitting with a higher level never gives a lower excess threshold.", "quantifier": "all training series, all pairs of levels", "why_tests_cant": "The estimator is a heuristic that keeps five markers; monotonicity in the level holds on most series that one tries.", "anchors": ["docs/30_parameters.md: level", "src/p2.c: p2_quantile", "src/spot.c: spot_fit"]}
{"id": "C126", "title": "A fit that finds no excess is refused", "statement": "If no training value is strictly beyond the excess threshold, spot_fit is defined, returns the error code -1004 (anomaly threshold is NaN), leaves Nt = 0, and the next step flags nothing; in particular for a training series with one repeated value. Without excesses spot_quantile is NaN for every q.", "quantifier": "all detectors reached by any calls, also with excesses of an earlier fit in the tail; all training series, all q and levels", "why_tests_cant": "The result runs through 0/n, q/0 and the logarithm of an infinity; that no combination of parameters of an earlier fit gives a number needs all states.", "anchors": ["src/spot.c: spot_fit, spot_quantile", "src/tail.c: tail_quantile", "src/xmath.c: xlog, xpow"]}
{"id": "C127", "title": "The order of the training values does not matter", "statement": "Fitting a fresh detector with the same training values in another order gives the same return code, counts, thresholds and tail parameters.", "quantifier": "all training series and all permutations of them", "why_tests_cant": "Random test series hardly ever show how far the estimate of the quantile depends on the order; the number of orders is factorial.", "anchors": ["docs/30_parameters.md: level", "src/spot.c: spot_fit", "src/p2.c: p2_quantile", "src/peaks.c: peaks_push"]}
{"id": "C128", "title": "Equal excesses give the exponential tail", "statement": "If all training values beyond the excess threshold t of a fresh detector are equal to one number y, the fit returns 0, the tail parameters are gamma = 0 and sigma = |y - t|, and the anomaly threshold is t + (y - t) log(k / (n q)), where k is the number of these values and n the number of training values.", "quantifier": "all training series with one distinct value beyond the threshold, all capacities, both tails", "why_tests_cant": "Degenerate series are rarely in test data; the variance is zero (or, after an eviction, wrong), so one estimator divides by zero and the root search starts on a root.", "anchors": ["src/tail.c: tail_fit", "src/estimator.c: mom_estimator", "src/estimator.c: grimshaw_estimator", "src/brent.c: brent", "src/spot.c: spot_fit"]}
{"id": "C129", "title": "The fitted model covers the stored excesses", "statement": "A detector that is only given real numbers stores excesses that are real numbers and not negative. Whenever one of them is positive, the tail parameters are numbers with sigma > 0 and every stored excess x satisfies 1 + gamma x / sigma >= 0: no stored excess has probability density zero because it lies beyond the end point of the fitted distribution. A fit whose training values include one beyond the excess threshold succeeds with an anomaly threshold that is a number.", "quantifier": "all sequences of fits, steps and queries with real numbers, all capacities, both tails, all real q > 0", "why_tests_cant": "The candidates are compared by likelihood only; that none with a negative scale or a too short support can win needs an argument about the likelihood of all samples.", "anchors": ["src/tail.c: tail_fit", "src/estimator.c: mom_estimator", "src/estimator.c: grimshaw_estimator", "src/estimator.c: log_likelihood", "src/spot.c: spot_fit", "src/spot.c: spot_step"]}
{"id": "C130", "title": "Values beyond the end point of the model are flagged", "statement": "When the fitted shape gamma is negative the model has an end point t - sigma/gamma (mirrored for the lower tail). After a successful fit or an excess, and until the next update, a step with a value at or beyond the end point returns ANOMALY if anomalies are discarded, whatever q is.", "quantifier": "all detectors with moderate parameters and a negative shape, all q, both tails, all values beyond the end point", "why_tests_cant": "The probability of such values is NaN, and the threshold tends to the end point for small q; that rounding never puts the threshold beyond it needs all parameters.", "anchors": ["src/tail.c: tail_quantile", "src/spot.c: spot_step", "src/spot.c: spot_quantile", "src/xmath.c: xpow"]}
{"id": "C131", "title": "The benchmarks of the logarithm measure xlog", "statement": "For every positive double the function _log that the benchmark programs time and compare with the C library returns the double that xlog of the library returns. Its reduction multiplies the exponent by the constant LOG2 and adds the logarithm of the mantissa.", "quantifier": "all positive doubles; the reduction for all normal doubles and any function in the place of the continued fraction", "why_tests_cant": "The two functions agree on half of the interval around 1 and to many digits elsewhere; a comparison of printed values does not show where they are different functions.", "anchors": ["docs/internals/50_math.md", "benchmark/log_cf_speed.c: _log", "benchmark/pow_accuracy_speed.c: _log", "src/xmath.c: xlog"]}
{"id": "C132", "title": "The benchmarks of the exponential and the power measure xexp and xpow", "statement": "For every double the function _exp of benchmark/pow_accuracy_speed.c returns the double that xexp of the library returns, and _pow the one that xpow returns.", "quantifier": "all doubles; the fraction of exp_cf_speed.c for all real numbers", "why_tests_cant": "The scaling is done by an addition to the exponent bits in the benchmark and by multiplications in the library; that both agree for all arguments is a statement on 2^63 bit patterns.", "anchors": ["docs/internals/50_math.md", "benchmark/pow_accuracy_speed.c: _exp, _pow", "benchmark/exp_cf_speed.c: _exp_cf_6", "src/xmath.c: xexp, xpow"]}
{"id": "C133", "title": "The reported mantissa error counts units in the last place", "statement": "The number that the accuracy benchmarks print as max mantissa error is the greatest distance, in units in the last place, between the measured function and the C library over the points measured.", "quantifier": "all functions, all lists of points", "why_tests_cant": "The program is its own reference; that the number is right inside every binade and wrong across binades needs all pairs of doubles.", "anchors": ["docs/internals/50_math.md: Truncation", "benchmark/log_cf_accuracy.c: accuracy", "benchmark/exp_cf_accuracy.c: accuracy", "benchmark/pow_accuracy_speed.c: accuracy"]}
{"id": "C134", "title": "Without excesses the model only becomes stricter", "statement": "Between two excesses the tail of the model is frozen and only the number of observations grows. So, after any calls other than spot_fit of which none returned EXCESS, the probability that the detector gives to a value is not greater than before, and the quantile of q has not moved away from the data; it has moved strictly towards the data if an observation was counted (in exact arithmetic).", "quantifier": "all fitted detectors, all sequences of steps and queries without an EXCESS, both tails, all values; the quantile on doubles for up to 10^11 observations and all normal q up to 1", "why_tests_cant": "Rounded division, logarithm and exponential are composed; that their composition does not go the wrong way by one unit in the last place for any counter values cannot be sampled.", "anchors": ["src/spot.c: spot_probability", "src/spot.c: spot_quantile", "src/spot.c: spot_step", "src/tail.c: tail_probability", "src/tail.c: tail_quantile"]}
{"id": "C135", "title": "A value that repeats is learnt", "statement": "When one value is reported as an excess more than max_excess times in a row, the buffer holds nothing else: the shape and the scale no longer change while it repeats, and if it is reported as an excess once more it is reported as an excess for as long as it repeats. In exact arithmetic the model is then the exponential one of scale |x - et|; the repeated value x is an anomaly for ever if Nt < e q n (and anomalies are discarded) and an excess for ever otherwise.", "quantifier": "all reachable detectors, all values, all numbers of repetitions, both tails; the parameters for all elementary functions; on doubles with moderate parameters, q of 2^-47 or more, up to 2^53 observations", "why_tests_cant": "The claim is on runs of any length: each repetition changes the counters and recomputes the threshold with rounded divisions and logarithms, and one inward error would turn the value into an anomaly after any number of repetitions.", "anchors": ["src/spot.c: spot_step", "src/spot.c: spot_quantile", "src/peaks.c: peaks_push", "src/tail.c: tail_fit", "src/tail.c: tail_quantile"]}
{"id": "C136", "title": "What a detector remembers of a stream", "statement": "Two streams of observations with the same trace - the same excesses in the same order with the same numbers of normal observations between them - leave the same detector and the same memory behind: the values of the normal observations leave no trace, and observations that were flagged as anomalies or refused as NaN leave none at all.", "quantifier": "all detectors in any state, all pairs of streams of any length, any elementary functions, doubles and exact arithmetic, with and without discarding", "why_tests_cant": "The claim compares all pairs of streams: a test compares a few, and a step that kept a bit of a normal value (a running mean, a drifting threshold) would only show on some later observation.", "anchors": ["src/spot.c: spot_step", "src/tail.c: tail_push", "src/tail.c: tail_fit", "src/spot.c: spot_quantile"]}
{"id": "C137", "title": "What a call costs", "statement": "A call of spot_step accesses the buffer of excesses and calls the elementary functions at most 819*max_excess + 8 times, whatever the value and however long the detector has lived, and not at all when the observation is not an excess. spot_quantile and spot_probability call the elementary functions at most twice. spot_fit on n values makes at most n*(max_excess + 4) + 818*max_excess + 6 accesses and calls.", "quantifier": "all reachable detectors, all values, all data of a fit, any elementary functions (so any behaviour of the root search), doubles and exact arithmetic", "why_tests_cant": "The time of a step depends on how the root search behaves on the stored excesses, and the worst case (200 iterations in both searches, and a recomputation of the statistics) is not met by sampling; a timing is not a bound.", "anchors": ["src/spot.c: spot_step", "src/spot.c: spot_fit", "src/tail.c: tail_fit", "src/estimator.c: grimshaw_estimator", "src/brent.c: brent", "src/peaks.c: peaks_push", "src/p2.c: p2_quantile"]}
{"id": "C138", "title": "A more extreme value gets a more extreme answer", "statement": "Of two values, the more extreme one (the greater one; in lower tail mode the smaller one) does not get the weaker answer of spot_step, in the order NORMAL < EXCESS < ANOMALY. So the flagged values form a ray.", "quantifier": "all reachable detectors, whatever their thresholds (NaN and infinities included), all pairs of doubles but NaN, both tails, any elementary functions, with and without discarding", "why_tests_cant": "The answer is computed from rounded differences; a rounding or an overflow that reversed one comparison would concern a few pairs of doubles next to the thresholds.", "anchors": ["src/spot.c: spot_step"]}
{"id": "C139", "title": "q and discard_anomalies have no influence until something is flagged", "statement": "Two detectors that differ in q, discard_anomalies and the anomaly threshold only (for instance two initialisations with the same other parameters), on which the same calls are made, give the same answers and keep the same excess threshold, counters, tail and memory as long as neither of them flags an anomaly. The return code of spot_fit, which says whether the anomaly threshold is usable, may differ.", "quantifier": "all detectors in any state, all sequences of calls (fits, steps, queries), all pairs of values of q and discard_anomalies, any elementary functions, doubles and exact arithmetic", "why_tests_cant": "The claim compares two runs of any length for all pairs of parameters; a q that leaked into the fit or into the counters would change a parameter slightly and show much later.", "anchors": ["src/spot.c: spot_init", "src/spot.c: spot_fit", "src/spot.c: spot_step", "src/spot.c: spot_quantile", "src/spot.c: spot_probability"]}
{"id": "C140", "title": "What the figure of the Python example shows", "statement": "The script examples/basic.py, if it raises no exception, draws one value of the line for every observation and marks observations in the order of the stream, each with its own value. An observation is marked if and only if it is strictly above the line at the previous position (for the first one: above the anomaly threshold of the fit). At a marked observation the line does not move, so every mark is above the line; the line only moves at observations that are at least the excess threshold and not above the line. It starts from the threshold of the fit, which is not NaN, and ends at the anomaly threshold of the detector. The script fails otherwise only by the exception of a failed initialisation or fit, or by the conversion of xexp. (An observation above the line at its own position need not be marked.)", "quantifier": "all training data, all streams (of any length, with NaN and infinities), all values of the three arguments, all allocators that give fresh blocks", "why_tests_cant": "The script draws one random stream; whether the marks and the line agree at every position of every stream, after every update of the tail, cannot be seen in one figure.", "anchors": ["examples/basic.py", "python/libspotmodule.c: Spot_init", "python/libspotmodule.c: Spot_fit", "python/libspotmodule.c: Spot_step", "src/spot.c: spot_step"]}
{"id": "C141", "title": "The probability of a value just reported as an excess", "statement": "A value that a step reports as an excess has, by the next call of spot_probability, a real probability between 0 and 1 - level, as the test of the JavaScript binding asserts. (The code bounds it by Nt / n, the fraction of excesses among the values counted, and not by 1 - level; the bound holds for every value from the excess threshold to the largest stored excess, and at the threshold it is met.)", "quantifier": "all detectors, all sequences of calls with real numbers, all values", "why_tests_cant": "wasm/libspot.test.ts asserts the bound on one random stream, with the comment that the test may fail; it cannot say when it holds.", "anchors": ["wasm/libspot.test.ts", "src/spot.c: spot_step", "src/spot.c: spot_probability", "src/tail.c: tail_probability"]}
{"id": "C142", "title": "JavaScript: running out of memory is reported", "statement": "When malloc refuses a request, the constructor and the methods of the JavaScript class throw an exception; no other object is damaged and the finalizer of the object is safe. (The code tests only the block of the excesses. It uses the address of the structure, of the copy of the data and of the text of an error without a test.)", "quantifier": "all parameters, all arrays, all detectors, a refusal of any of the requests", "why_tests_cant": "The tests run with memory to spare; which requests are refused depends on the page, and a write at address 0 does not trap in WebAssembly.", "anchors": ["wasm/index.ts: Spot.constructor", "wasm/index.ts: Spot.fit", "wasm/index.ts: Spot.step", "wasm/index.ts: libspotError", "wasm/main.c: spot_new", "src/spot.c: spot_init"]}
{"id": "C143", "title": "The recursive exponential of the accuracy benchmark ends", "statement": "Whatever function is called on the reduced argument, _exp of benchmark/exp_cf_accuracy.c returns after at most seven nested calls: with a value when the argument is NaN or of magnitude below 2^64 LOG2. For every other double the conversion of the quotient to unsigned long long is undefined behaviour.", "quantifier": "all doubles, all functions in the place of the fraction", "why_tests_cant": "The recursion is on rounded arguments that may be negative or above LOG2 again; whether it ends is a statement about 2^64 doubles.", "anchors": ["benchmark/exp_cf_accuracy.c: _exp"]}
{"id": "C144", "title": "The accuracy of the recursive exponential of the benchmark", "statement": "On [-708, 708] the relative error of _exp(x, d) is at most 5.7 times the product of the coefficients 0.49/(4(2j+1)(2j+3)), j < d, plus 6e-13, for every depth d from 3 on (1e-12 at depth 6). With any other function on the reduced argument, of relative error e on [0, LOG2], it is at most 1.01 e + 5e-13.", "quantifier": "all doubles of magnitude at most 708, all depths from 3 on, IEEE 754 arithmetic", "why_tests_cant": "The program samples points and compares with the C library; the bound is for every double and the real exponential.", "anchors": ["benchmark/exp_cf_accuracy.c: _exp, exp_cf, K"]}
{"id": "C145", "title": "The accuracy of the logarithm measured by the benchmark", "statement": "For every positive normal double and every depth d from 2 on, _log(x, d) of benchmark/log_cf_accuracy.c is finite and its relative error is at most 0.061 d 0.0295^(d-1) + 5e-15 (6e-15 at depth 11). For a positive zero and for every positive subnormal double the result is between -709.1 and -708, whatever the depth.", "quantifier": "all positive finite doubles, all depths from 2 on, IEEE 754 arithmetic", "why_tests_cant": "The program samples points and compares with the C library; the bound is for every double and the real logarithm, near 1 included.", "anchors": ["benchmark/log_cf_accuracy.c: _log, log_cf, K"]}
{"id": "C146", "title": "The accuracy of the power measured by the benchmark", "statement": "For every positive normal double the _log of benchmark/pow_accuracy_speed.c has a relative error of at most 5e-15. For every positive normal base a and every finite exponent x such that a^x is between e^-700 and e^700, _pow(a, x) is defined and its relative error is at most 6e-15 |x log a| + 5e-15; this is at most 2e-12 for bases from 1/16 to 16 and exponents up to 100, among which are those that the program uses. The xpow of the library does not have this accuracy: for some base and exponent the relative error is at most 2e-14 for _pow and more than 1/6 for xpow.", "quantifier": "all positive normal bases, all exponents with a power between e^-700 and e^700, IEEE 754 arithmetic", "why_tests_cant": "The program samples a million bases for five exponents and compares with the C library; what it reports is about its own copy of the functions.", "anchors": ["benchmark/pow_accuracy_speed.c: _pow, _log, _log_cf_11, _exp, _exp_cf_6", "src/xmath.c: xpow", "docs/internals/50_math.md: Power"]}
{"id": "C147", "title": "The second power function of the benchmark", "statement": "For every positive normal base a and every exponent x of magnitude up to 1000 such that a^x is between e^-700 and e^700, _powbis(a, x) of benchmark/pow_accuracy_speed.c is defined and its relative error is at most 5e-15 |x| + 2e-16 |x log a| + 2e-14. The bound on x is needed: for the base 0.995 and the exponent 1032.5 the result is more than 0.007, that of _pow is between 0.005 and 0.006.", "quantifier": "all positive normal bases, all exponents up to 1000 with a power between e^-700 and e^700, IEEE 754 arithmetic", "why_tests_cant": "The program does not call the function.", "anchors": ["benchmark/pow_accuracy_speed.c: _powbis"]}
{"id": "C148", "title": "Questions without an answer are answered by NaN", "statement": "spot_quantile and spot_probability called with NaN return NaN, in every state of the detector. spot_quantile called with a number that is not a probability (negative or greater than 1) returns NaN, not a threshold that looks valid. None of these calls has undefined behaviour.", "quantifier": "all states for NaN; all states with not more excesses than observations (all that are reached with fewer than 2^64 values) for negative numbers, infinity included", "why_tests_cant": "The functions have no error code, so a wrong answer is only visible for the arguments that a test happens to use; the states include unfitted detectors and every shape and scale.", "anchors": ["src/spot.c: spot_quantile, spot_probability", "src/tail.c: tail_quantile, tail_probability", "src/xmath.c: xlog, xexp, xpow"]}
{"id": "C149", "title": "spot_fit reads exactly the first size values", "statement": "The outcome of spot_fit(spot, data, size) - the code, the whole detector and the memory - depends on the first size values of the buffer only. All of them are read: when the buffer has less than size values the call is undefined, whatever the state of the detector and the values.", "quantifier": "all states, all buffers, all sizes; for the first part also any elementary functions and exact arithmetic", "why_tests_cant": "A read past the end usually returns some number and goes unnoticed; a test compares a few buffers.", "anchors": ["src/spot.c: spot_fit", "src/p2.c: quantile"]}
{"id": "C150", "title": "NaN training values are reported or ignored", "statement": "A NaN among the training values is either reported by spot_fit, as spot_step reports a NaN observation, or has no influence on the detector: it is not recorded as an excess and does not move the excess threshold.", "quantifier": "all training series with NaN values, all levels, IEEE 754 arithmetic", "why_tests_cant": "A NaN does not stop anything: the fit succeeds and the thresholds look plausible. Its effect depends on its place in the series.", "anchors": ["src/spot.c: spot_fit", "src/p2.c: quantile, sort5"]}
