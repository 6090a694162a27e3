# status and note per property; theorems whose name does not start with cNN_ are listed in EXTRA
EXTRA = {'bits_channels': ['C01', 'C02'], 'bits_pack': ['C01', 'C02']}
NOTES = {
'C01': ('proved', 'All integers; bits_pack/bits_channels tie the arithmetic model to 64-bit two\'s complement.'),
'C02': ('proved', 'All integers.'),
'C03': ('proved', 'All integers, both hash settings.'),
'C04': ('proved', 'All strings; from_str_radix of the standard library is modelled.'),
'C05': ('proved', 'All integers.'),
'C14': ('proved', 'Every number type.'),
'C23': ('proved', 'Every number type, induction over histories of setters.'),
'C32': ('proved', 'Every number type, induction over histories of reads.'),
'C33': ('partial', 'Integer tones proved; fractional tones refuted with a witness (c33_violated).'),
'C34': ('proved', 'Every number type, all lists, all histories.'),
'C43': ('proved', 'Over the association-list model of the hash map; entries exact, keys distinct, total, order independence.'),
'C44': ('proved', ''),
'C48': ('proved', 'Bound 6876129 opaque pixels, shown sharp by an explicit image.'),
'C50': ('proved', 'Any arithmetic; random indices are any distinct indices.'),
'C56': ('partial', "Every role has a tone with a recursion depth of 3, whatever the scheme, if the search for the secondary container's tone (fidelity and content only) ends; the other roles need no such condition. Over the reals the search is proved to end in every light scheme, and in a dark scheme whose palette exceeds white's chroma at tone 30; the other dark schemes are missing."),
'C06': ('partial', 'Exact reals: proved in full. Binary64: range [0,360], error at most 2^-45 turn shift, exact for non-negative inputs (c06_binary64_partial); the half-open bound fails, exactly for the inputs of c06_violating_inputs (witness c06_violated).'),
'C07': ('proved', 'Exact reals; binary64: within 2^-44 of the circular distance, in [0,180], symmetric (c07_binary64). In binary64 hues closer than 2^-46 have difference 0 (c07_binary64_zero).'),
'C09': ('proved', 'Exact reals and integers; clamping and the endpoints of interpolation also in binary64.'),
'C17': ('proved', 'Exact reals; range, symmetry, extremes and monotonicity also in binary64, infinite tones included.'),
'C10': ('proved', 'Round trip and monotonicity over exact reals; range for every number type. Round trip and strict monotonicity also in binary64 (c10_binary64_*), assuming powf is accurate to 1e-13.'),
'C11': ('proved', 'Exact reals; monotonicity, range and endpoints of y_from_lstar in binary64 without assumptions (c11_binary64); the round trip in binary64 within a stated tolerance, assuming powf is accurate to 1e-13.'),
'C12': ('proved', 'Exact reals and binary64 (powf accurate to 1e-13), literal matrices, all colours.'),
'C13': ('proved', 'Exact reals and binary64 (powf accurate to 1e-13), literal matrices, all colours.'),
'C15': ('proved', 'Exact reals and binary64 (powf accurate to 1e-13).'),
'C18': ('proved', 'Exact reals; also in binary64 (powf accurate to 1e-13) for the ratios the library itself computes, ratios up to 100 when lightening.'),
'C19': ('proved', 'Exact reals; also in binary64 (powf accurate to 1e-13) for the ratios the library itself computes, ratios up to 100 when lightening.'),
'C20': ('proved', 'Exact reals; also in binary64 (powf accurate to 1e-13) for the ratios the library itself computes, ratios up to 100 when lightening.'),
'C21': ('proved', 'Exact reals; range and reaching the ratio also in binary64 (powf accurate to 1e-13).'),
'C45': ('proved', 'Volumes equal pixel counts and channel sums for every image, box, iteration order and arithmetic. Table of squares: exact over the reals, and in binary64 without rounding up to 10^10 opaque pixels (c45_binary64_squares).'),
'C46': ('proved', 'After any number of rounds; for exact reals and for binary64 (class WuArith, instances for both, NaN and infinities included).'),
'C49': ('proved', 'Over exact reals for every image, and in binary64 up to 10^10 opaque pixels, where every sum in the table of squares is exact (c49_binary64).'),
'C51': ('proved', 'For exact reals and for binary64; hash orders and random indices arbitrary.'),
'C69': ('proved', 'Over exact reals the cut is the best one (c69_best_cut), is declined exactly when nothing can be split (c69_no_cut) and never increases the spread (c69_not_worse). In binary64, for up to 10^10 opaque pixels, it is the best one up to 2^-48 of the sum of squared channels (c69_binary64).'),
'C70': ('proved', 'Over exact reals and in binary64 (up to 10^10 opaque pixels; there every cut is the best up to a relative error, while the choice of the box is exact, because the recorded variances are integers). Specification in Spec/Spread.lean.'),
'C71': ('partial', 'False as stated: create_boxes decrements the loop variable of a range loop after a failed cut, which has no effect, so every failed cut loses one colour. Witness: ff000000, ff070707, ffffffff, fffffff7 with 3 colours gives 2 (c71_violated, c71_violated_binary64). Proved: never more than the minimum; the shortfall is at most the number of final boxes with several colours in one cell; equality, and a lossless result when enough colours are requested, for images in which no two different colours share a cell.'),
'C35': ('partial', 'Reflexive, symmetric, and lawful within one kind of palette; transitivity and hash agreement refuted with witnesses. For core palettes: an equivalence consistent with hashing among those made from colours; every one of them, rebuilt from its own list of colours, is equal to what it was but hashes differently (c35_core_violated).'),
'C22': ('proved', 'Exact reals; in binary64 the four control values are met exactly and every level (infinities and NaN included) is within 1e-9 of the exact interpolation (c22_binary64_accurate).'),
'C55': ('proved', 'Generic over the role set, over the reals: any declared pair with both stated tones in [0,100] ends up at least its distance apart on the side the polarity asks for, outside [50,60), in [0,100]. In binary64 for distance 10, the only one the library declares, with 9.9999 instead of 10 (c55_binary64).'),
'C57': ('proved', 'For every scheme made by a variant and every scheme assembled from hue/chroma palettes: over the reals exactly, in binary64 up to 2e-5 and never NaN or infinite (c57_binary64, with the assumption PowOk on the accuracy of powf).'),
'C59': ('proved', 'Over the reals, for every scheme whose source and key colours have tones in [0,100], every contrast level; the hypothesis is discharged for all schemes the library makes (tonesInRange_made). In binary64 for all schemes the library makes, with 9.9999 instead of 10 (c59_binary64_*).'),
'C60': ('partial', "Bound proved for every history and number type; transparency proved for schemes made by the library's constructors or assembled from palettes given by hue and chroma (exact reals), and in binary64 for schemes made by the constructors with a contrast level other than negative zero (NaN and infinities included); violated when palettes were read before (c60_violated)."),
'C62': ('proved', 'Exact reals and binary64; palettes after any reads, and all Material roles except the error roles.'),
'C82': ('proved', 'Any number type; schemes as in C79.'),
'C47': ('proved', 'For exact reals and for binary64. Result list before it becomes the key set of a map; c47_distinct: its colours are distinct.'),
'C25': ('proved', 'Exact reals for every luminance and hue. In binary64 (with a correctly bounded pow): no table access is out of range for any doubles, NaN and infinities included; the search starts from points of the cube with the requested luminance within 1e-11; the point it ends at is finite, within 0.006 of the cube and has the requested luminance within 0.000021; and the colour returned has the requested tone within 0.4701.'),
'C26': ('proved', 'The tone is within 0.84 of the requested one for every hue, chroma and tone in [0,100], over exact reals, including the unchecked fifth round of the exact search. In binary64 it is within 0.846 for every finite hue, every finite chroma up to 1e50 and every tone in [0,100] (c26_binary64), for every math library with the accuracy named in Spec/Libm.lean. For arbitrary doubles as hue and chroma it is within 0.471 unless the colour is the unchecked last candidate of the exact search (c26_binary64_partial), and without exception when the search fails (c26_binary64_out_of_gamut) or the colour is gray (c26_binary64_gray).'),
'C16': ('proved', 'Exact reals with error bound 0.26; binary64 with error bound 0.2601 (powf accurate to 1e-13) and black and white for tones out of range up to 2^53 (c16_binary64_saturates).'),
'C76': ('proved', 'Exact reals, every scheme and contrast level; gaps of at least two tones, so the drawn colours of schemes made by the library are strictly ordered by luminance (c76_drawn). In binary64 with gaps of 1.99 tones (c76_binary64_*), and the drawn colours are strictly ordered too (c76_binary64_drawn).'),
'C78': ('proved', 'Exact reals, all pairs of colours and amounts; the end points for opaque colours. In binary64 the tone is kept up to 0.8462 and the contrast up to 7 %, for every amount, NaN included (c78_binary64_*).'),
'C79': ('proved', 'Exact reals; schemes made by the library or assembled from palettes given by hue and chroma, asked for the first time; c79_can_be_drawn (any number type) shows the hypothesis can be met. In binary64 within 0.8462, for schemes made by the library or assembled from finite palettes (c79_binary64).'),
'C81': ('proved', 'Exact reals, and binary64 up to 0.0004 (c81_binary64_tone_contrast) and 93.7 % (c81_binary64_solved); Spec/Wcag.lean is independent of the code.'),
'C58': ('partial', 'Text on accent roles, containers and the inverse surface has at least 4.5 at every level; on_background, on_surface and on_surface_variant against all surfaces as stated; fixed roles proved with 4.48 instead of 4.5. Accents, background, surfaces, the light surface variant and the fixed roles also in binary64, up to 1e-9 (c58_binary64_*). The full statement is false: c58_fixed_violated (light scheme, level 0.421) and c58_surface_variant_violated (dark scheme, level -1, contrast below 2.5).'),
'C80': ('proved', 'Exact reals, schemes as in C79, contrast measured by the WCAG 2.1 formula written down in Spec/Wcag.lean; in binary64 with the same bounds, and for the background too (c80_binary64_*). Text on the surface variant role is not included (see C58).'),
'C08': ('proved', 'Exact reals; in binary64 for finite angles of [0, 360] up to 1e-11 degrees (c08_binary64, c08_binary64_shorter).'),
'C31': ('proved', 'Exact reals, all colours; in binary64 the turn and its distances up to 2e-11 degrees (c31_binary64_hue, c31_binary64_harmonize; the latter for a sound maths library).'),
'C61': ('proved', 'Exact reals; a hue on a breakpoint is not turned (c61_outside). In binary64 too (c61_binary64_interval, c61_binary64_angle); c61_outside_any is for any arithmetic.'),
'C66': ('proved', 'Exact reals, and binary64 (exactly, no rounding is involved) for hues below 360 (c66_binary64).'),
'C77': ('proved', 'Exact reals and binary64, all tones from 0 to 100.'),
'C39': ('proved', 'Any arithmetic in which -1.0 >= 0.0 is false; that holds in binary64 (c39_binary64).'),
'C40': ('proved', 'Exact reals, and binary64: computed temperatures are within 1e-4 of the documented formula (c40_binary64_formula, assuming Libm.Sound and Libm.TempOk), order, extremes and relative temperatures are exact for the computed ones. relative_temperature panics exactly for colours that are not among those considered (c40_relative).'),
'C41': ('proved', 'Exact reals and binary64 (c41_binary64, |count - 1| below 2^53), hue below 359.5 (see C42).'),
'C67': ('proved', "Exact reals, where coldest and warmest temperatures differ (the code divides by the difference), and binary64 up to 1e-11 in relative temperature (c67_binary64); if they are equal binary64 gives the colour at the input's rounded hue (c67_binary64_equal)."),
'C36': ('proved', 'Minimality and stopping rule for exact reals; c36_any_tone (the key colour is the colour of the hue and chroma at a tone a whole number of at most 49 steps from 50) for any number type; c36_binary64: in double arithmetic the key colour misses the wanted chroma least among the tones tried, and the search stops early only on a rounded match.'),
'C37': ('proved', 'Exact reals, all colours and histories; c37_binary64_core and c37_binary64_content give the hues and chromas in double arithmetic (tertiary hue to within 1e-12).'),
'C38': ('proved', 'Exact reals; c38_binary64 and c38_binary64_characterisation in double arithmetic.'),
'C65': ('proved', 'Table for any core palette and number type; drawn tone and WCAG contrast of text roles for every seed, over exact reals and in binary64.'),
'C68': ('proved', 'Over the reals and in binary64 (assuming Libm.Sound, TempOk and CamOk).'),
'C85': ('proved', 'Exact reals. The points have exactly the requested luminance and lie in the gamut up to 3e-8. How close the two hues are is not claimed: near white the last bisection steps may stop early.'),
'C27': ('proved', 'Exact reals, all colours and all physical viewing conditions. In binary64 for every colour in the default viewing conditions: all coordinates are finite and not negative and the assertion holds (c27_binary64; black needs the assumption AtanZero on atan2 of two zeros). c27_binary64_partial is an earlier form with fewer assumptions on the math library.'),
'C83': ('proved', 'Binary64 against the same formulas over the reals; assumes Libm.Sound and TempOk (and CamOk for black and the uniform space). The hue of black is not covered: it is the value of atan2(0, 0). c83_hue_no_wrap: the computed hue is on the same side of 0 as the exact one, so no whole turn is lost.'),
'C52': ('proved', 'Length and membership for any arithmetic; absence of panics over exact reals and in binary64 (every map; uses that no computed hue reaches 360).'),
'C53': ('proved', 'Exact reals, total population nonzero (the code divides by it). In binary64 for non-negative counts with total 1..2^53: spacing up to 1e-13 degrees, shares up to 1e-9, maximality and largest spacing. c53_binary64_zero_counts shows what happens outside the quantifier: if all counts are zero the shares are NaN and the filter lets every colour of chroma 5 through.'),
'C54': ('proved', 'Exact reals; total population nonzero. Also independence of the hash order when scores differ. The same in binary64 (total 1..2^53) up to the rounding of the scores, 1e-7 plus 1e-15 of the chroma.'),
'C24': ('proved', 'Every number type; hue period over exact reals, and in binary64 for hues that differ by whole turns and are not multiples of 360 (where one may be -0); black and white for tones out of range also in binary64, for every hue and chroma, NaN included.'),
'C28': ('proved', 'Exact reals, literal matrices, all colours, every viewing condition with non-negative cones. In binary64 with every rounding error (Libm.Sound, TempOk, CamOk), all colours, standard viewing conditions: finite fields, colour back from its CAM16 coordinates and from J, C, h, injectivity.'),
'C29': ('proved', 'Exact reals and binary64 with every rounding error (Libm.Sound, TempOk, CamOk, ExpUp), all colours: both ends of blending, blending with itself for every finite amount, injectivity of the coordinates.'),
'C64': ('proved', 'Exact reals; panic condition and background for all doubles; degree of adaptation for all doubles (Libm.ExpLow). Positivity of the results: exact reals.'),
'C84': ('proved', 'Exact reals and binary64 with every rounding error (math library assumed accurate: Libm.Sound, Libm.TempOk; for blending also CamOk, ExpUp). The interval checks are by kernel evaluation over a cover of the gamut that is proved complete, not over samples. In binary64: solver, round trip, stability, setters, injectivity, palette and harmonising with itself, blending by hue with amount 0 or with itself.'),
'C30': ('proved', 'Exact reals, triangle inequality included. In binary64: symmetry for all coordinates including NaN and infinity and any math library; finite, not negative and zero exactly for equal colours (Libm.Sound, TempOk, CamOk, ExpUp, PowPos).'),
'C63': ('partial', "All variants proved, over the reals and in binary64 (c63_binary64_*: hues up to 2e-12 degrees, chromas exact; content and fidelity chromas up to a rounding error), except that the expressive variant's neutral palettes record a hue that may exceed 360 (c63_expressive_violated, c63_binary64_expressive_violated); their colours are proved. Content and fidelity cannot be built for some colours, characterised exactly over the reals."),
'C42': ('partial', 'The claim is false: proved panic conditions, in exact reals and in binary64, and the witness #FF008B (c42_violated, c42_binary64_violated); schemes built from the cache fail exactly when c42_binary64_schemes says. The rest is c42_no_panic_partial and c42_binary64_partial.'),
'C73': ('proved', 'Over exact reals (c73_means) and in binary64 for images of at most a hundred million pixels, where the reported colours have channels within one of those of the exact mean of their cluster (c73_binary64_means). The clusters are given by a function from colours to cluster numbers; which colours share a cluster is settled by C72 and C74.'),
'C75': ('partial', 'False as stated, over exact reals and in binary64: of several clusters whose centres round to the same colour only the first is counted. Witnesses: greys 2, 3, 4 with two colours starting from grey 3 twice report one colour with population 2 (c75_violated); ten dark pixels of six colours report one colour with population 5 in binary64, however many rounds are allowed (c75_binary64_violated). Proved if different clusters are given different colours, over exact reals (c75_separate_partial) and in any arithmetic, binary64 among them (c75_any_separate_partial); in general the populations are at most the numbers of pixels (C50).'),
'C74': ('partial', 'False as stated, over exact reals and in binary64: each row of the distance matrix is sorted, but then indexed by cluster number, so the pruning test skips a cluster because of the distance of another one. Witness: black twice and greys 10, 4, 3, starting from black, 10 and 4, maps grey 3 to grey 1 though grey 4 is returned and nearer, for any number of rounds (c74_violated; with grey 9 for 10 in binary64, c74_binary64_violated). Proved for at most two colours, where the sorted rows do no harm (c74_two_partial). Missing: any guarantee for three and more colours beyond C72.'),
'C72': ('proved', 'Over exact reals, for any number of rounds (c72_cost). In binary64, for images of at most a hundred million pixels, the centres stay finite and every further round adds at most 2/10^8 per pixel to the exact sum (c72_binary64_cost; exact values in Spec/ExactPoint.lean). c72_map, for any arithmetic, ties the centres to what the quantizer returns. Specification in Spec/KMeans.lean.'),
'C86': ('proved', 'Exact reals; in binary64 (c86_binary64_*) for coordinates up to 141 in size, which covers all blends of colours: coordinates are kept up to 1e-8, the hue is in [0, 360], the pace is even up to 1e-7, and before rounding to eight bits the blend in the opposite order is the same point up to 1e-7 (equality after rounding is not claimed there). Beyond that size binary64 is not covered.'),
}
