# libspot formal model — design

Code under study: `/repo` (asiffer/libspot, C99 library + Python / wasm bindings).
Everything below is about a Lean 4 model written by reading that code; nothing of `/repo` is executed.

## 1. Architecture of the model

| layer | Lean modules | what |
|---|---|---|
| doubles | `Verif/F64/*` | a complete IEEE-754 binary64 model (`F64`): NaN, ±inf, ±0, subnormals, round-to-nearest-even `+ - * /`, comparisons, conversions, bit patterns |
| arithmetic interface | `Verif/CDouble.lean` | class `CDouble α`: the operations the C code performs on `double`. Two instances: `F64` (what the machine does) and `XR` (real numbers with ±inf and NaN, no rounding: "exact arithmetic") |
| code | `Verif/Model/*` | every C function, once, polymorphic in `CDouble α`; UB and memory explicit |
| specification | `Verif/Spec/*` | small independent specs: last-k window, GPD density/quantile, sorted permutation, C strings ... |
| proofs | `Verif/Proofs/*` | helper lemmas |
| properties | `Verif/Props/*` | the theorems listed in MANIFEST.json, each with a non-vacuity example |

Conventions of the code model:

* Undefined behaviour is a result: functions return `C α = Except UB α`; `UB` has constructors for out-of-bounds access,
  dangling/NULL pointer access, uninitialised read, invalid free, out-of-range float→integer conversion.
* Heap: a map from addresses to blocks (never allocated / freed / live with cells that may be uninitialised).
  `malloc`/`free` are the user-registered functions: malloc is an arbitrary function of the heap and the size that
  returns NULL or an address (its contract "the address is not live" is a hypothesis of the theorems that need it).
* `unsigned long` is `UInt64` (LP64), `unsigned int` is `UInt32` (wrap-around is the real one); `int` flags are `Int`.
* pointers to structures: functions take the structure value (and the heap) and return the new ones.
* loops: structural recursion / `foldlM` over `List.range`.
* `xlog`/`xexp` are the library's own code for `F64`; for the exact-arithmetic theorems about distributions the functions are
  instantiated with the real `log`/`exp` (parameter `MathFns`), and the distance between both is what C53/C54 state.

## 2. Plan per property

C01–C03, C28–C38: `spot_init`, `spot_fit`, `spot_step` modelled literally on `F64`; C29 rests on a lemma on `F64`: the sign of
the rounded difference is the sign of the comparison.
C02 is false of the code (NaN is accepted): negation by witness + `_partial`.
C04–C10, C58: heap model; invariant `SpotInv` preserved by each operation, induction over operation lists; frame lemmas.
C06 false (0 and wrap-around): witnesses. C08 false (double free): witness, partial for the safe cases.
C11–C15: ring buffer refinement to "last c of the pushed list"; min/max by invariant (needs only the order laws of doubles);
mean in exact arithmetic; C15 is false of the code (`e2 = value*value` instead of `+=` in `peaks_update_stats`): negation + partial.
C16, C24–C27, C59, C60: exact instance `XR` with real log/exp, against an independent GPD spec in `ℝ` (Mathlib).
C17–C18: order laws of doubles with NaN.
C19–C23: `brent` over an arbitrary (monadic) function; invariant over the iterations. C23 false: witness.
C39 false (the tail is not emptied by `spot_fit`): witness + partial. C38 false at equality: witness + partial.
C40: on `F64`, a relation between the two runs that ignores the sign of zeros; C74 (fit) is false beyond five points: witness + partial.
C41–C47: P2 algorithm; five-element arrays with checked indices. C43/C45 on `F64` with true rounding. C47 false: witness.
C48–C49: byte buffers. C49 false for code 1005: witness + partial.
C50–C57: bit-level frexp/ldexp on `F64`; C53–C54 with Mathlib analysis. C52 false at +inf, C55 false: witnesses + partial.
C61–C63: small models of the binding code.

## 3. Trusted base

**Kernel.** Lean 4.33.0's kernel checks every theorem. `decide +kernel` is used for concrete witnesses (the kernel evaluates the
decision procedure); `native_decide`, `bv_decide`, `sorry`, `admit` and own axioms are not used.

**Axioms.** The theorems of MANIFEST.json depend on Lean's standard axioms `propext`, `Classical.choice` and `Quot.sound` and on
no other (`#print axioms`). Exceptions that need fewer: `C57_set` none; see the list printed by `#print axioms` for the others.

**The translation.** That the definitions of `Verif/Model` describe the C, Python-extension and TypeScript sources is a matter of
reading: each definition cites the lines it models.

**Assumptions on the platform** (they are part of the model):

* LP64: `unsigned long` and `size_t` have 64 bits, `unsigned int` and `int` 32. For the wasm32 build (ILP32) the same model of the
  library is used with 64-bit counters: the two agree while no counter and no byte count reaches 2^32 (`Verif/Model/Wasm.lean`).
* wasm: no object of C lies in the first 1024 bytes of the memory (the default of Emscripten; `errorText` in `Verif/Model/WasmAlloc.lean`).
* `double` is IEEE-754 binary64, round to nearest even, each operation rounded on its own: no contraction to fused
  multiply-add, no extended precision (`FLT_EVAL_METHOD = 0`), no `-ffast-math`. The makefile uses `-O3 -std=c99`, for which gcc
  contracts nothing on targets without FMA in the baseline; with `-march=native` the results may differ in the last bit.
  That the operations of `F64` are those of the standard is not only by definition: `Verif/F64/Nearest.lean` proves that they return the
  representable number nearest to the exact result, ties to even, and when they overflow (`operations_rounded`).
* NaN payloads and signs are not distinguished (`F64.nan` is one value); nothing in the library depends on them. The benchmark programs can change the exponent bits
  of a NaN; no theorem is about what they return then.
* `unsigned int` → `int` conversions out of range wrap (gcc, clang).
* `malloc`: an arbitrary function of the heap and the size; its contract (the address is not live) is the hypothesis `MallocOK`
  of the theorems that need it. The registered `free` is the standard one.
* The functions are sequential. Concurrent calls on the same detector are out of scope (the library has no synchronisation).

### Modelled

| source | model | comments |
|---|---|---|
| src/allocator.c | `Model/Mem.lean` | all |
| src/ubend.c | `Model/Ubend.lean` | all |
| src/peaks.c | `Model/Peaks.lean` | all, including the likelihood |
| src/estimator.c | `Model/Estimator.lean` | all |
| src/brent.c | `Model/Brent.lean` | all, for a function with any effect |
| src/tail.c | `Model/Tail.lean` | all |
| src/p2.c | `Model/P2.lean` | all |
| src/xmath.c | `Model/Xmath.lean` | the branch for 8-byte doubles of frexp and ldexp (not the 4-byte branch), log, exp, pow, min, is_nan |
| src/spot.c | `Model/Spot.lean`, `Model/Text.lean` | all |
| include/structs.h | the structures, error codes, results; layout in `Model/Wasm.lean` | |
| python/libspotmodule.c | `Model/Python.lean`, `Model/PyObject.lean`, `Model/PyRefs.lean`, `Model/PyReentry.lean`, `Model/PyModule.lean` | all methods, attributes, constructor with its arguments, deallocation, module initialisation; references and failed creations of objects for fit, step, excesses, as_dict and the initialisation; arguments whose conversion calls the detector |
| examples/basic.c | `Model/Example.lean` | all but the clock and the output |
| examples/basic.py | `Model/Figure.lean` | lines 29-43: the detector, the loop and the data drawn; not matplotlib |
| benchmark/log_cf_accuracy.c, exp_cf_accuracy.c, p2.c | `Model/Benchmark.lean`, `Model/BenchExp.lean` | the recursive fractions, the recursive exponential, the maximum relative error, the estimator |
| benchmark/pow_accuracy_speed.c, log_cf_speed.c, exp_cf_speed.c (and `accuracy` of the two above) | `Model/BenchMath.lean`, `Model/BenchPowbis.lean` | the argument reductions on bit-fields, the two power functions, the maximum mantissa error |
| wasm/index.ts, wasm/main.c | `Model/Wasm.lean`, `Model/Wasm32.lean`, `Model/WasmAlloc.lean` | constructor, fit, step, thresholds, finalizer, text functions; refused allocations |

### Not modelled

* python: objects whose `__iter__` runs code; conversions that do anything else than call the detector and shorten the list given to
  `fit`. References are counted in total, not per object.
* wasm: the Emscripten glue, the loader, garbage collection times (the finalizer is modelled as a function that may run).
* src/xmath.c: the branch for 4-byte doubles selected by `__SIZEOF_DOUBLE__`. It cannot be compiled as written (`u.f` is not a member of
  its union and `frexp` is not declared), so it has no behaviour; other sizes are an `#error`.
* docs/, test/, the build files, the rest of benchmark/ (the time measurements). In examples/basic.c the random numbers are an arbitrary sequence and the time
  measurement and `printf` are left out.
* statistical guarantees (consistency of the estimators, convergence of the P2 estimate for random data). The only probabilistic statement
  is C104: the probability to be flagged of an observation that follows the model held by the detector.

* C137 counts accesses to the elements of the buffer, accesses to the data of a fit and calls of the logarithm and the exponential. Accesses to the fields of the
  structures and the arithmetic between two counted operations are not counted (their number is constant per counted operation). The counted functions are
  in `Spec/Cost.lean`; that they compute what the model computes is part of the theorem, that the counter is put at every access is by reading.

## 4. Disagreements between the code and its documentation or evident intent

Each is a theorem (negation with a concrete witness) unless noted.

* `spot_init` accepts a NaN `q` or `level` (C02_false).
* `max_excess = 0`, and `max_excess` whose byte count wraps modulo 2^64, are accepted; later writes are out of bounds (C06_false).
* `spot_free` twice is a double free: the pointer is not cleared (C08_false).
* `peaks_update_stats` assigns `e2 = value * value` where a sum is intended: the variance is wrong after the minimum or maximum has
  been evicted (C15). It is then negative, and the moments candidate has a negative scale and a NaN likelihood, for all stored excesses within a
  factor sqrt(max_excess) of each other (C109_false, C110_false).
* `brent` reports success for a function that returns NaN (C23).
* A value equal to the excess threshold is an excess for `spot_step` but not for `spot_fit` (C38).
* A second `spot_fit` keeps the excesses of the first in the tail (C39).
* The P2 estimator does not update the positions when an observation is outside of the range seen; for strictly increasing data the
  estimate is the third datum (C65). An observation equal to the minimum wraps an index (harmless, C47).
  The published algorithm counts such observations: for the median of 1, 2, ..., 8 it gives 4, the code 3 (C92_false). Apart from new
  extremes and ties with markers the code is the published algorithm (C92_partial, against `Spec/P2Paper.lean`, which reproduces the
  example of the paper).
* `spot_fit` does not test its data for NaN. A NaN among the first five values spoils their order, a later one counts as a repetition of the minimum; the fit
  reports success in both cases (C150_false, C150_partial).
* `libspot_error` has no text for code 1005 (C49). `strncpy` with size 0 writes before the buffer (C48).
* `xlog(+inf)` is NaN (C52); `xexp` has undefined behaviour at ±inf and for |x| ≥ 2^32 log 2, and is 0 at 2e9 (C55).
* Data without dispersion: three equal excesses 0.3 have a tiny positive computed variance, the method of moments gives a shape
  of about -10^15 and `spot_fit` (or `spot_step`) converts an out-of-range double to `unsigned int` (C75_false). The same
  conversion is undefined in `spot_quantile(0)` and in `spot_probability` at the exact end of the support or far from the data.
* `xlog` decreases between the double before 32 and 32, and at other powers of two outside of [2^-48, 32) (C76_false).
* `xexp` is non-decreasing up to 2^31·log 2, but not beyond: it is 0 at 2e9 (C77_false).
* The anomaly threshold can be on the near side of the excess threshold: as soon as the observed proportion of excesses is below `q` when
  an excess is recorded, `spot_quantile` extrapolates towards the body of the distribution, and ordinary values are then flagged as
  anomalies (C78_false).
* `spot_quantile` and `spot_probability` are not exactly monotone in binary64 (C79_false, C80_false).
* `spot_probability` returns +infinity about 1.5e9 scales beyond the threshold (C81_false).
* `spot_quantile` answers a number above 1, which is not a probability, with a finite number (C148_false). NaN and negative numbers are answered by NaN.
* The result depends on the unit of the data: the root search of Grimshaw's estimator uses absolute steps of 2e-8, and with data of the
  order of 1e-12 it yields the scale -0 with an infinite likelihood; the anomaly threshold is then the excess threshold and every
  excess is an anomaly (C84_false). The origin of the data does not matter (C83). A single excess of 1e-12 is enough for the scale
  -0 (C85_false); the likelihood of (0, -0) is computed as +infinity.
* `brent` leaves an interval whose length overflows (C87_false).
* With excesses below about 1e-8 the margin of 2e-8 is absorbed by rounding and the likelihood equation is evaluated at -1/max, where it is
  infinite; with a minimum below 2^-540 the right bound of the search is infinite and the equation is NaN there (C93_false).
* A fit of equal data is undefined (C88_false, same data as C75_false); with regular excesses a fit or an excess step always leaves a usable
  detector (C88_fit_partial, C88_step_partial).
* Shapes close to 0 are kept as they are (`tail_quantile` and `tail_probability` take the exponential formula for `gamma == 0.0` only).
  Excesses whose variance equals the square of their mean up to rounding give a shape of the order of 1e-16; `(q/P)^-gamma - 1` then has
  no correct digit: with five observations around 0 followed by 12.245 the quantile of 1/4 is the threshold itself instead of 3.5 above
  it, and the probability of 5/2 is 1/2 instead of 0.31 (C89_false, C90_false). For larger shapes C89_partial and C90_partial bound the
  error; the bound grows as `1e-14/|gamma|`.
* In the same way the anomaly threshold can be wrong: with such a shape a value of 1 is flagged although the quantile of the fitted model is
  greater than 3 (C94_false). In the same state the log-likelihood of the parameters that are kept is overestimated by 1 (C100_false): all the 1 + x*y round to
  1 or next to it. This is why they win over the other candidates.
* One infinite training value, or finite values whose sum overflows, give the shape 0, an infinite scale and the anomaly threshold
  +infinity, and `spot_fit` reports success; nothing is flagged until the value leaves the tail, and a second fit on clean data does not
  help because the tail is not emptied (C102_false, C102_overflow_false). The sum is right again once the infinite excess is evicted (C103).
* The documentation says that the argument of the logarithm is reduced to [1,2]; the code reduces to [1/4,1).
* Lower-tail and upper-tail fits of opposite data give thresholds that are not opposite (C74_false), because the P2 markers are
  adjusted in one direction and ties are treated asymmetrically. Steps are symmetric (C40).
* Python: a tuple makes `fit` write through NULL; a failed fit returns None with an exception pending; a value that is not a number
  is processed as -1.0 and changes the detector; `step(nan)` returns -1005 without exception; a second `__init__` leaks; `excesses()`
  is in buffer order; `max_excess` is reduced modulo 2^64 without error (C96_false); the memory of an object is never released, the call of
  `tp_free` is commented out (C97_false); `step` on an object that was not initialised writes through NULL (C98_false); every `fit` leaves a
  reference to its list, or a copy of all items of another iterable, behind (C108_false); a conversion that shortens the list given to `fit` makes it go on with -1.0 for the missing elements (C111_false).
  The import reads NULL when the type cannot be created, leaves references behind when it fails later, and returns a module without `Spot`,
  with an exception pending, when the type cannot be added (C112_false).
* The root search: a sign change is not enough, a continuous function between 0 and 2^202 uses up the 202 evaluations (C113_false). An observation equal to the excess threshold
  is recorded as an excess of 0; while it is stored, the upper end of the search for heavy tails is not a finite number and that search always fails (C114_false).
* A greater `q` can delay the first alarm: `spot_quantile` is not monotone in its last digits, and with q the double before 2^-51 a value is flagged
  that is not flagged with q = 2^-51 (C115_false). In exact arithmetic the greater `q` always raises the first alarm (C115_exact).
* `xpow(0, x)` is undefined behaviour for every finite x that is not 0 (C116_partial), and large powers of bases next to 1 are wrong in the
  first digit (C116_false).
* The anomaly threshold is not updated when an observation is normal, `spot_probability` uses the current counters: values are not flagged although
  `spot_probability` is less than `q` (C118_false). Beyond the end of a bounded tail the probability is NaN, not 0 (C118_partial).
* Evicted excesses keep an influence on the model: two detectors that store the excesses 1 and 10 have different shapes, because one of them
  evicted 11 before (C119_false).
* benchmark/p2.c, the program behind docs/internals/60_fit.md, sorts its first five markers in descending order and so measures another
  algorithm than src/p2.c (C122_false, C122_rising). The maximum relative error in the tables of docs/internals/50_math.md is the maximum of
  signed numbers; the truncated fraction of the logarithm is always too small in magnitude, that of the exponential is too small at even depths.
  The truncation errors of the exponential at even depths do not enter the table, which explains the entry 1.0e-14 for depth 4 between
  7.8e-07 and 1.8e-12; those of the logarithm enter only through points below 1/2, where the sign changes (C123_false).
* docs/30_parameters.md reads level as the rank of the excess threshold. The estimator of src/p2.c is not monotone in the level: twelve training values
  give a lower excess threshold, and more excesses, at level 0.99 than at level 0.9 (C125_false).
* The result of a fit depends on the order of the training values: 1, ..., 10 in rising order give the excess threshold 3 and seven excesses, in another
  order 8 and two (C127_false).
* Equal excesses: in exact arithmetic the variance is zero (after an eviction negative, because of the way peaks_push corrects e2), the moments candidate
  has a NaN likelihood and the fit is the exponential model (C128_partial). On doubles the rounded variance can be a tiny number, and the
  evaluation of the candidate leaves the range of a conversion (C128_false, the same input as C75_false).
- `src/tail.c`: in exact arithmetic the candidate that wins has a positive scale and covers every stored excess (C129_partial), and the fit with an excess
  has a real anomaly threshold (C129_fit). On doubles the fit of the single value 1e-12 keeps a scale of -0 and an anomaly threshold of 0, and reports
  success (C129_false).
- `wasm/libspot.test.ts` asserts that a value reported as an excess has a probability of at most `1 - level`; the bound is `Nt / n` (C141_step), and with
  few training values the assertion fails (C141_false).
- `wasm/index.ts` does not test what `_malloc` and `spot_new` return: without memory the constructor and `fit` use address 0 (C142_false), and exceptions lose their message (C142_partial).
  WebAssembly does not trap there; for the C code it is undefined, and the model stops.
- `src/spot.c`: with a negative shape the anomaly threshold does not exceed the computed end point of the model (C130_partial). The computed end point can be
  above the exact one, and for a small `q` the threshold is equal to it, so a value at the end point is not flagged (C130_false).
- `benchmark/`: the `_log` that the programs behind docs/internals/50_math.md measure is not the `xlog` of the library: it reduces its argument to [1, 2), the library to
  [1/2, 1). Just above 1 the library subtracts two numbers close to log 2; at the first double after 1 its result is half of the right one, that of the benchmark is right
  (C131_false). The `_exp` measured agrees with `xexp` up to 709; above, its exponent bits wrap around (C132). The mantissa error compares the significand bits
  only, so across a power of two it is meaningless (C133_false). The `_log` measured does not normalise subnormal numbers: for 0 and for all of them it is about -709 (C145_subnormal). The power that
  benchmark/pow_accuracy_speed.c measures is accurate where `xpow` is not: its `_log` keeps its relative accuracy above 1, `xlog` does not (C146_library). Its
  second power function, which it does not call, has a smaller error for bases far from 1, but fails for some exponents above 1000 (C147, C147_limit).
- `src/spot.c`: between excesses the probabilities only decrease and the quantiles only move inwards (C134), rounding included, up to 10^11 observations. At 2^51 observations the
  quantile moves outwards by an error of the logarithm (C134_limit).
- `src/spot.c`: a value that repeats is an excess for ever or an anomaly for ever (C135). The sum of squares that is wrong after a recomputation (C15) does not matter
  here: the moments candidate of equal excesses has no likelihood in exact arithmetic, with the right sum as with the wrong one.
* examples/basic.c never calls `spot_free` (C117_example).
* JavaScript: a view on a larger buffer overflows the allocated block; a failed fit leaks its block; the finalizer of a rejected object
  frees through uninitialised memory; `step(NaN)` throws an empty message; the comment table in index.ts puts container.data at
  128 (it is at 124); `maxExcess` is taken modulo 2^32 and truncated, 2^29 and 0.5 are accepted and the first excess is written out of
  bounds (C99_false).

## 5. Testing the theorems

`seeded/LOG.jsonl` has one line per deliberate bug: the model is edited in a scratch copy, everything is rebuilt, and the theorems
whose proofs no longer go through are recorded (a theorem counts as failed when its own proof or a lemma that it uses fails).
Two kinds of bugs are used: single edits of a definition, and pairs of edits that keep most of the behaviour (the second edit hides the
first one from the obvious invariants), to see whether the theorem of the claim itself fails and not only lemmas about the edited line.

## 6. Testing the model

The modules under lean/Verif/Tests run the project's own deterministic tests (test/src) on the binary64 model: the tables of xmath_test.c (tolerance
1e-10), ubend_test.c, peaks_test.c with its table of 121 likelihoods (1e-6), brent_test.c, tail_test.c on its four data sets of 1000 values, the
initialisation and licence tests of spot_test.c, and the first part of `test_sort5`. All expectations are met. Small tests are theorems checked by
the kernel; the tables are `#guard` commands, evaluated by the interpreter during the build. No property uses any of them. `test_brent_log` and
`test_brent_exp` call the functions of the C library; the model takes those of libspot there. Outside of the build the uniform test of
p2_test.c was evaluated for the seeds 1 and 2 with the generator of glibc (largest error below 0.004, tolerance 0.006). Tests that need libm
functions for their data (Gaussian samples) or only print are not run.
