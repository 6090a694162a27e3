# Formal model of material-color-utilities-rs

Lean 4.33 + Mathlib.  Everything is under `lean/Verif`.

## 1. How the code is modelled

* One Lean definition per Rust function, same control flow, same order of operations.  Each
  definition cites file and lines in /repo.  Modules: `Verif/Model/*`.
* `f64` is a type parameter `F` with an operations-only class `Fl F` (`Verif/Fl.lean`): `+ - * / %`,
  comparisons, casts, `sqrt powf exp ln sin cos atan2 floor ceil round abs max min`, decimal
  literals.  The class has no laws.  Theorems come in three strengths:
  * **generic** (`∀ F [Fl F]`): control flow and data structure facts; hold for IEEE doubles and any
    math library;
  * **exact** (`F := ℝ`, `Verif/FlReal.lean`): analytic facts in exact arithmetic (no rounding);
  * **binary64** (`F := F64`, `Verif/F64.lean`): facts about IEEE-754 double arithmetic with
    round-to-nearest-even, `libm` functions left as parameters.
* `i64` is `Int`.  `& 255` and `>>`/`<<` are `% 256`, `/ 2^n`, `* 2^n`; `Props/Bits.lean` proves that
  this is what two's complement 64-bit operations compute.  Where overflow is possible it has its
  own theorem.
* Rust panics (`assert!`, indexing, `unwrap`, division by zero) are `Option.none` in the model
  wherever they are reachable for some argument; where an index is a literal or a loop variable in
  range it is modelled by a total accessor, as said in the comment.
* `HashMap` is an association list without duplicate keys.  Rust iterates hash maps in an unspecified
  order: functions that iterate take the entries in an arbitrary order (theorems quantify over all
  orders, i.e. all permutations).
* `&mut self` methods return the new state.  Caches are explicit state.
* `rand` is an arbitrary stream of indices.
* Recursive closures of `DynamicColor` (`background`, `tone_delta_pair`, ...) are modelled by a
  registry of roles; `get_tone` recurses with fuel, `none` = out of fuel or panic; a theorem shows a
  small fixed fuel is enough for all Material roles.

Not modelled: `ToString`/`Debug` text, `Stopwatch`/debug logging, hash values themselves (only which
inputs the hasher reads), memory, performance, the deprecated attribute.

## 2. Trusted base

Lean's kernel; the axioms `propext`, `Classical.choice`, `Quot.sound` (printed for every theorem by
`tools/axioms.sh`); the reading of Rust semantics in the definitions of `Verif/Model`; for *exact*
theorems the idealisation of `f64` by `ℝ`; for *binary64* theorems the definitions in `Rounding64.lean`
and `F64.lean` (nearest-even rounding of the exact result, gradual underflow, overflow to infinity, signed
zeros, a single NaN without payload; the functions of the math library are an arbitrary parameter `Libm`).
Binary64 theorems that involve `powf` carry the hypothesis `Libm.PowOk`: for a base in [1e-6, 1e60] and an exponent in
[0, 3] the result is finite with relative error at most 1e-13 (real libraries promise about 2e-16; `powOk_exists` shows
that the hypothesis can be met).  Theorems about the exact colour search also name `PowTail`, `TrigOk` and `ExpOk`
(`Verif/Spec/Libm.lean`): `pow` of tiny bases, of NaN and of infinity, and an absolute error of 1e-12 for `sin`, `cos` on
[0, 10] and `exp` on [-10, 0] (`libm_exists`: all can be met together).  Theorems about CAM16 coordinates and drawn colours
name `Libm.Sound` (`Verif/Spec/LibmRange.lean`): all of these and two assumptions on ranges only, `pow` of a base below 1e-6
to an exponent in [0.1, 3] is in [0, 1] and `atan2` is in [-3.1416, 3.1416] (`sound_exists`: can be met).  Theorems that compare
temperatures with their formula also name `Libm.TempOk`: `atan2` within 1e-12 of the angle up to whole turns unless both arguments
are zero, and `pow` of a base below 1e-6 to an exponent in [1, 1.1] is in [0, 1e-5] (`temp_sound_exists`: can be met).  Theorems
about the chroma of black and the uniform colour space also name `Libm.CamOk` (`Verif/Spec/LibmCam.lean`): `pow(0, y) = 0` for y > 0 and a
relative error of at most 1e-13 for `ln` on [1, 1e6] (`cam_sound_exists`: can be met).
Theorems about the hue of black also name `Libm.AtanZero`: `atan2` of two zeros is 0 or at least 3 in size (`hue_sound_exists`: all
assumptions can be met together).  Theorems that go back from the uniform colour space name `Libm.ExpUp`: a relative error of at
most 1e-14 for `exp` on [0, 10]; the one about the distance of colours `Libm.PowPos`: `pow` of a base in [1e-20, 1e-6] to an exponent
in [0.1, 1] is positive (`blend_sound_exists`: all can be met together); the one about viewing conditions `Libm.ExpLow`: `exp` of
negative numbers and minus infinity is in [0, 1]; those about points of the uniform colour space `Libm.ExpGe`: `exp` of a number in
[0, 10] is at least 1 (`ucs_sound_exists`: can be met together with the others).
No `sorry`, no added axioms, no `native_decide`, no `bv_decide`.

`lean/Verif/Props/*` holds the property theorems, `Verif/Lemmas/*` helper lemmas,
`Verif/Spec/*` the small independent specifications.  `tests/` runs the model on Lean `Float`
against constants from the repository's own tests (a sanity check of the transcription, not part of
the proof).  Those two files end in `.lean.txt` because they use the compiler's `Float`.

`tools/mutate.py` seeds a wrong edit into a scratch copy of the model, rebuilds and records which
theorems fail; the results are in `seeded/LOG.jsonl`.

## 3. Properties: plan

| id | modelled | proof idea | strength |
|----|----------|-----------|----------|
| C01,C02 | argb packing | Int arithmetic (`omega`), bridge to BitVec 64 | all i64 |
| C03,C04 | hex formatting, `from_str_radix` | induction over digit lists | all strings |
| C05 | sanitize_degrees_int | omega | all ints |
| C06 | sanitize_degrees_double | floor algebra; binary64: exact remainder, one rounded addition, exactly which inputs fail | exact, binary64 |
| C07,C08 | difference, rotation | case split, linear arithmetic | exact; C07 also binary64 with error bound |
| C09 | clamp, lerp, signum | linear arithmetic | exact/generic; clamp and lerp ends binary64 |
| C10 | linearized/delinearized | rpow monotone, inverse; range by clamp; binary64: running error bound (Lemmas/F64Approx, F64Color) | exact, generic, binary64 |
| C11 | lstar/y | piecewise inverse, strict monotone; binary64: the last double on the linear branch is computed exactly | exact, binary64 |
| C12,C13 | xyz/lab round trip | matrix residual bound vs gap between channels; binary64: Lipschitz error propagation (Lemmas/F64Lab) | exact, binary64 |
| C14 | all argb producers | clamp range | generic |
| C15,C16 | lstar_from_argb, argb_from_lstar | monotone + gap bound; binary64: Lemmas/F64Tone | exact, binary64 |
| C17-C20 | contrast | monotone Y, algebra; binary64: error bounds against the 0.4 margin | exact, binary64 (parts generic) |
| C21 | foreground_tone | product of contrasts with white and black is 21 | exact |
| C22 | contrast curve | piecewise linear | exact |
| C23 | Hct state machine | invariant by induction on operations | generic |
| C24 | solver | case analysis | generic/exact; black and white in binary64 |
| C25 | bisection | loop invariant: segment in cube and plane; binary64: running distance of the computed points from the line, with the gap between doubles bounding the overshoot (Lemmas/F64Planes, F64Lines, F64Vertex, F64Limit, F64Accuracy, F64Channel) | exact and binary64 |
| C26 | tone accuracy | bisection path from C25; Newton path: along a fixed hue and chroma the luminance grows like a power between 3/2 and 5/2 of the lightness (Lemmas/Elasticity, Growth, Gamut), the start is within a factor (NewtonStart), so four rounds bring the ratio close to 1 (Newton); binary64: the accepted candidates and the bisection path (F64Find, F64Channel); for the unchecked last candidate the chain of rounding bounds of one visit of the search and its four Newton rounds (F64Rel, F64Viewing, F64Relative, F64Stimuli, F64Ray, F64Core, F64Backward, F64Matrix, F64Visit, F64Forward, F64Newton, F64Rounds, F64Setting) | exact; binary64 for finite hues and chromas up to 1e50 |
| C27 | CAM16 hue | arg range; binary64: ranges through all steps (F64Forward, F64Cam) | exact; binary64 |
| C28,C29 | CAM16 inverse | algebraic inverse of the 3x3 system + error margin | exact |
| C30 | distance | norm laws | exact |
| C31 | harmonize | circle arithmetic | exact |
| C32-C36 | tonal palette | cache invariant by induction; concrete counterexamples | generic/exact |
| C37 | core palette | unfolding against a table spec | generic, binary64 (Binary64Palettes) |
| C38 | dislike | decision logic | generic/exact, binary64 |
| C39-C42 | temperature cache | refinement to a pure function; panic characterisation | generic/exact |
| C43 | QuantizerMap | count invariant | all lists |
| C44-C49 | Wu | summed-area table, partition invariant, means; floats enter through a class with instances for the reals and binary64 | all lists; exact and binary64 |
| C50,C51 | Wsmeans, Celebi | loop invariants, random stream and order arbitrary | generic |
| C52-C54 | Score | list lemmas over arbitrary order; shares, scores and hue distances with error bounds | generic/exact/binary64 |
| C55-C59 | DynamicColor, Material | case analysis with C17-C22; rounding analysis for the binary64 versions | exact reals; tones, distances and text contrast also binary64 |
| C69-C71 | Wu's choice of cuts and boxes | scan for the best cut against a sum-of-squares specification; loop invariant relating the loop to an inductive greedy process; rounding bounds for the scores | all images; exact, and binary64 up to 10^10 opaque pixels |
| C72-C75 | what k-means achieves | cost of a clustering; the mean minimises the sum of squares; loop invariants; concrete dark greys for the violations | all images, rounds, random choices; exact reals; C72-C75 also in binary64, C72 there up to rounding |
| C76-C82 | what is drawn on the screen | order of the contrast curves; tone error of the solver (C26) against the tones of C55-C59; WCAG contrast defined in `Spec/Wcag.lean` without the code | all schemes made by the library, roles, contrast levels, pairs of colours; exact reals, and binary64 (Binary64Drawn, Binary64Fixed) |
| C60 | dynamic colour cache | invariant by induction | bound: any number type; transparency: exact reals and binary64 |
| C61-C63 | schemes | decision logic | generic, exact, binary64 (Binary64Angles, Binary64Schemes, Binary64Variants) |
| C64 | viewing conditions | decision logic + bounds | exact; binary64 (panic, background, degree of adaptation) |
| C65 | legacy scheme | table spec; drawn tones by C26 | generic, exact, binary64 |
| C66,C67 | is_between, complement | circle arithmetic; fold invariant of the search | exact |
| C68 | chroma zero | a polynomial in the cone responses is positive off black; binary64 from C83 | exact; binary64 |
| C83 | accuracy of CAM16 | relative rounding bounds (F64Near) through viewing conditions, cone responses, hue, chroma and lightness (F64ViewingNear, F64ConesNear, F64HueNear, F64CamNear, F64UcsNear); no colour but black is closer to the neutral axis than 3.1e-6 of its cone responses (ChromaGap), so hue is well conditioned | all colours; binary64 with a sound math library |
| C84 | requesting a colour's own hue, chroma and tone | the ray of lightness of a given hue and chroma passes the colour (SelfRay, Precise: the matrices of the solver invert those of CAM16 up to 1e-12); interval checks over the whole gamut bound how each component grows along such rays (Interval, Cell, CoverA-D, CoverFacts, RayCell, RayPath); Newton's method in the logarithm of lightness then ends within half a rounding step above the colour after at most five steps (LogNewton, FirstGuess, SelfSearch, SelfClose, SelfBins, SelfRound, SelfColor). In binary64 the same argument runs along the ray of the computed hue and chroma, which passes the colour up to 1e-9 of its luminance (F64SelfHue, F64SelfTerms, F64SelfPoint, F64SelfAlgebra, F64SelfTone, F64SelfAim), with the rounding errors of each Newton step bounded by 1e-10 (F64Sharp, F64SharpLin, F64SelfLoop, F64SelfSolve). The interval checks are cut into pieces by tools/gen_cover.py (CoverSplit joins them) so that none needs much memory | all colours; exact reals and binary64 |
| C28-C30 | back from CAM16, blending, distance, in binary64 | the coordinates of a colour are computed with a relative error of 1e-8 or less (F64Sharp, F64SelfPoint); going back through cone responses and matrices amplifies this by far less than the half step between 8-bit channels (F64BackPoint, F64Back, F64BackXyz, F64BackUcs); black is treated exactly (F64BackBlack) | all colours; binary64 with a sound math library |
| C85 | gamut-limit search encloses the hue | turning angle from one hue to another as fractional part (Spec/Turn); cyclic order of the code is a comparison of turning angles; invariant of both bisections; `not_found` (OutOfGamut) gives a request that is out of reach | exact reals |
| C86 | uniform colour space | inverse formulas, polar coordinates | all coordinates, pairs of colours, amounts; exact reals, and binary64 up to 1e-7 |

Deviations found while proving are listed in section 4.

## 4. Findings

Behaviour of the code that contradicts its documentation or a listed property, with the theorem that
shows it.

Numbers
* `sanitize_degrees_double` documents [0, 360).  In doubles a negative angle at most 2^-45 below a whole
  turn gives exactly 360.0, and sanitising again gives 0 (`c06_violated`, `c06_violating_inputs`).
* `difference_degrees` is the circular distance only for angles at most a turn apart; the code does not
  reduce its arguments (`c07_circular_distance` needs the hypothesis).
* `lighter`/`darker` for ratios below 1 are not covered by their documentation.

Palettes
* `TonalPalette::get_hct`/`tone` cache by the truncated tone, so a fractional tone read before its integer
  neighbour changes the neighbour's colour (`c33_violated`).
* `TonalPalette` equality is not transitive and equal palettes may hash differently (`c35_*`).
* The colour cache of `DynamicColor` is therefore not transparent either (`c60_violated`).
* `SchemeExpressive` builds its neutral palettes with hue + 15 and `CorePalette` its tertiary palette with
  hue + 60 without reducing modulo 360 (`c63_expressive_violated`).
* `get_rotated_hue` compares strictly: a hue that is exactly a breakpoint is not rotated (C61).

Temperature
* `TemperatureCache` indexes a vector of 360 hues with the rounded hue: hues of 359.5 and more panic
  (`c42_violated`, witness #FF008B; exact conditions in `c42_analogous_panics_iff` and
  `c42_complement_panics_iff`).  `SchemeContent` and `SchemeFidelity` inherit the panic.
* `relative_temperature` panics for colours that are neither the input nor among its hues at the same chroma and tone.
* `analogous` with a count of 0 or less still returns one colour.
* The documentation of `raw_temperature` says -0.52, the code has -0.5.

Quantizers
* Wu loses one colour of its budget for every failed cut: `i -= 1` inside `for mut i in 1..max` has no effect on the
  loop (`c71_violated`, also in binary64).
* k-means sorts every row of its distance matrix and then indexes the sorted row by cluster number.  The
  pruning test therefore looks at the distance of the wrong cluster, and with three or more clusters a colour
  can stay with a farther centre for ever (`c74_violated`).
* When two clusters round to the same 8-bit colour, k-means reports the population of the first only
  (`c75_violated`).
* Wu panics for `max_colors <= 0` (`c47_panics_iff`); its squared moments overflow `i64` for some images of
  more than 6 876 129 opaque pixels (`c48_sharp`).  The `i -= 1` in its loop does not retry the box.
* Wsmeans reads its sorted distance matrix by position; `max_iterations = 0` returns nothing; it includes
  translucent pixels; it panics for negative `max_colors` and for 0 with pixels (`c50_panics_iff`);
  two clusters with the same final colour lose population.

Solver and CAM16
* `find_result_by_j` returns its last iterate without the convergence test.  That is harmless: the tone is
  still within 0.84 (`c26_tone`).
* Only black has CAM16 chroma 0; white has about 2.87 because the default conditions adapt only partly
  (`c68_*`).  "Gray" palettes therefore never have chroma 0.

Roles
* Text on the fixed roles can fall slightly under 4.5:1 (`c58_fixed_violated`); `on_surface_variant` on
  `surface_variant` falls under 3:1 at negative contrast in dark mode (`c58_surface_variant_violated`).
* `find_desired_chroma_by_tone` has no bound on its loop; for light schemes it is proved to end
  (`c56_search_ends_light`).
* In the legacy dark scheme `on_error_container` has tone 80.
