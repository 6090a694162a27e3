{"id": "C01", "title": "RGB packing and unpacking are inverse", "statement": "For channel values 0..255, packing red, green and blue into an ARGB integer and reading a channel back returns the channel that was packed; for arbitrary 64-bit channel values it returns the value modulo 256, so channels never bleed into each other. The packed colour is opaque (alpha 255) and lies in 0xFF000000..0xFFFFFFFF.", "quantifier": "every triple of 64-bit signed integers", "why_tests_cant": "There are 2^192 triples; masks and shifts go wrong only on specific bit patterns (negative or >255 channels).", "anchors": ["src/utils/color_utils.rs: argb_from_rgb, alpha_from_argb, red_from_argb, green_from_argb, blue_from_argb, is_opaque"]}
{"id": "C02", "title": "Unpacking then packing a colour forces alpha to 255 and changes nothing else", "statement": "For every integer colour, rebuilding it from its own red, green and blue gives the colour with the same low 24 bits and alpha 255; for an opaque 32-bit colour this is the identity. Hence packing is a bijection between channel triples and opaque colours.", "quantifier": "every 64-bit signed integer", "why_tests_cant": "2^64 inputs.", "anchors": ["src/utils/color_utils.rs: argb_from_rgb, red_from_argb, green_from_argb, blue_from_argb"]}
{"id": "C03", "title": "Hex formatting and parsing round-trip", "statement": "Formatting a colour gives '#' (optional) plus exactly six upper-case hexadecimal digits, and parsing that text gives back the low 24 bits of the colour (alpha is dropped). Two colours format equally only if their low 24 bits agree.", "quantifier": "every 64-bit colour and both settings of the leading-hash option", "why_tests_cant": "Digit padding and case errors show up only for particular channel values; tests format a handful of colours.", "anchors": ["src/utils/string_utils.rs: hex_from_argb, argb_from_hex"]}
{"id": "C04", "title": "Hex parsing accepts exactly the hexadecimal numerals that fit in 64 bits", "statement": "Parsing any string strips all leading '#', then succeeds exactly when the rest is an optional sign followed by one or more hexadecimal digits (either case) whose value fits a signed 64-bit integer, and returns that positional value; every other string yields None; it never panics.", "quantifier": "every string", "why_tests_cant": "Unbounded input space including signs, empty strings, repeated hashes and overflow.", "anchors": ["src/utils/string_utils.rs: argb_from_hex"]}
{"id": "C05", "title": "Integer degree sanitising is reduction modulo 360", "statement": "For every integer the sanitised angle lies in [0,360), is congruent to the input modulo 360, is unchanged by sanitising again and is the only integer with those properties.", "quantifier": "every 64-bit integer angle", "why_tests_cant": "Infinite/2^64 input space; sign handling of the remainder is the usual failure.", "anchors": ["src/utils/math_utils.rs: sanitize_degrees_int"]}
{"id": "C06", "title": "Real degree sanitising is reduction modulo 360", "statement": "For every finite angle the sanitised angle is in [0,360) and differs from the input by a whole number of turns (exact arithmetic). In IEEE double arithmetic the half-open bound promised by the documentation must also hold for every finite double.", "quantifier": "every real angle; every finite double", "why_tests_cant": "The floating-point failure needs a tiny negative input that sampling does not hit.", "anchors": ["src/utils/math_utils.rs: sanitize_degrees_double"]}
{"id": "C07", "title": "Degree difference is the circular distance", "statement": "For hues in [0,360) the difference is symmetric, lies in [0,180], is zero exactly for equal hues, equals the smallest absolute difference over all whole-turn shifts and satisfies the triangle inequality.", "quantifier": "all pairs/triples of hues", "why_tests_cant": "Metric laws quantify over triples of reals.", "anchors": ["src/utils/math_utils.rs: difference_degrees"]}
{"id": "C08", "title": "Rotation direction is the shorter way round", "statement": "The rotation direction between two angles is always +1 or -1, and turning from the first angle by the degree difference in that direction arrives at the second angle (modulo 360).", "quantifier": "all pairs of angles", "why_tests_cant": "Wrap-around and ties at 180 degrees are measure-zero cases for sampling.", "anchors": ["src/utils/math_utils.rs: rotation_direction, difference_degrees, sanitize_degrees_double"]}
{"id": "C09", "title": "Clamping, signum and interpolation obey their order laws", "statement": "Clamped values lie within the bounds, values already within are unchanged, clamping is idempotent and monotone; linear interpolation hits both endpoints and stays between them for amounts in [0,1]; signum is the sign.", "quantifier": "all numbers and all ordered bounds", "why_tests_cant": "Quantifies over all reals/integers.", "anchors": ["src/utils/math_utils.rs: clamp_int, clamp_double, lerp, signum"]}
{"id": "C10", "title": "8-bit channels survive linearisation", "statement": "Converting any 0..255 channel to linear light and back returns the same channel; linearisation is strictly increasing from 0 to 100; delinearisation of any number whatsoever (including NaN and infinities) lies in 0..255 and is monotone.", "quantifier": "every channel, every real (every double for the range claim)", "why_tests_cant": "Rounding boundaries of the inverse are between channels; range claim is over all doubles.", "anchors": ["src/utils/color_utils.rs: linearized, delinearized"]}
{"id": "C11", "title": "Luminance and tone conversions are exact inverses and strictly increasing", "statement": "Y to L* and L* to Y are mutually inverse on all real numbers of the domain [0,100], strictly increasing, and map 0 to 0 and 100 to 100.", "quantifier": "every real in the domain", "why_tests_cant": "Piecewise definitions can disagree only near the breakpoint.", "anchors": ["src/utils/color_utils.rs: y_from_lstar, lstar_from_y, lab_f, lab_invf"]}
{"id": "C12", "title": "XYZ round trip is lossless for every 8-bit colour", "statement": "Converting any colour to XYZ and back returns the same colour with alpha forced to 255.", "quantifier": "all 2^24 opaque colours (and any alpha)", "why_tests_cant": "16.7M colours; the inverse matrix is a rounded literal so the error margin must be bounded everywhere.", "anchors": ["src/utils/color_utils.rs: xyz_from_argb, argb_from_xyz"]}
{"id": "C13", "title": "L*a*b* round trip is lossless for every 8-bit colour", "statement": "Converting any colour to L*a*b* and back returns the same colour with alpha forced to 255.", "quantifier": "all 2^24 opaque colours (and any alpha)", "why_tests_cant": "Same as XYZ, with a piecewise cube root in between.", "anchors": ["src/utils/color_utils.rs: lab_from_argb, argb_from_lab"]}
{"id": "C14", "title": "Every colour producer returns an opaque 32-bit colour", "statement": "Whatever numbers are passed (including NaN, infinities, out of range values), every function that returns a colour from channels, linear RGB, XYZ, L*a*b*, tone, CAM16 or HCT returns a value in 0xFF000000..0xFFFFFFFF.", "quantifier": "all double inputs, any behaviour of the math library", "why_tests_cant": "Quantifies over all doubles including special values.", "anchors": ["src/utils/color_utils.rs: argb_from_linrgb, argb_from_xyz, argb_from_lab, argb_from_lstar", "src/hct/src/hct_solver.rs: solve_to_int", "src/hct/cam16.rs: viewed", "src/blend/blend.rs: cam16_ucs"]}
{"id": "C15", "title": "Tone of a colour is well behaved", "statement": "The tone of any colour lies in [0,100], ignores alpha, strictly increases when any channel increases, is 0 only for black and 100 only for white.", "quantifier": "all colours and all channel-wise comparisons", "why_tests_cant": "Monotonicity is a statement about all pairs of colours.", "anchors": ["src/utils/color_utils.rs: lstar_from_argb, xyz_from_argb"]}
{"id": "C16", "title": "Gray of a tone is gray, monotone and accurate", "statement": "The colour built from a tone has equal channels, is non-decreasing in the tone, saturates to black/white outside [0,100], has a tone within a small bound of the requested one for every tone in [0,100], and returns exactly the original gray when given that gray's tone.", "quantifier": "every real tone", "why_tests_cant": "Uncountably many tones; worst case error sits between gray levels.", "anchors": ["src/utils/color_utils.rs: argb_from_lstar, lstar_from_argb"]}
{"id": "C17", "title": "Contrast ratio is a symmetric ratio between 1 and 21", "statement": "For any two tones the contrast ratio is symmetric, between 1 and 21, equals 1 exactly when the clamped tones agree, and grows when the lighter tone gets lighter or the darker tone gets darker.", "quantifier": "all pairs of tones, in and out of range", "why_tests_cant": "All pairs of reals.", "anchors": ["src/contrast/contrast.rs: ratio_of_tones, ratio_of_ys"]}
{"id": "C18", "title": "lighter() is sound and complete", "statement": "For a tone and a ratio >= 1 the answer is either -1 or a tone in [0,100], not darker than the input, whose contrast with the input is at least the ratio; -1 is returned only when no tone at all reaches the ratio with the library's 0.4 safety margin; inputs outside [0,100] give -1.", "quantifier": "all tones and all ratios", "why_tests_cant": "Quantifies over the reals; -1 must be correct for every unreachable pair.", "anchors": ["src/contrast/contrast.rs: lighter"]}
{"id": "C19", "title": "darker() is sound and complete", "statement": "For a tone and a ratio >= 1 the answer is either -1 or a tone in [0,100], not lighter than the input, whose contrast with the input is at least the ratio; -1 is returned only when no tone at all reaches the ratio with the library's 0.4 safety margin; inputs outside [0,100] give -1.", "quantifier": "all tones and all ratios", "why_tests_cant": "Quantifies over the reals.", "anchors": ["src/contrast/contrast.rs: darker"]}
{"id": "C20", "title": "lighter_unsafe/darker_unsafe always return a usable tone", "statement": "The unsafe variants return the safe answer when there is one and 100 (respectively 0) otherwise; the result is always in [0,100].", "quantifier": "all tones and ratios, any arithmetic", "why_tests_cant": "All doubles including NaN.", "anchors": ["src/contrast/contrast.rs: lighter_unsafe, darker_unsafe"]}
{"id": "C21", "title": "Foreground tone meets the requested contrast whenever possible", "statement": "For a background tone in [0,100] the foreground tone reaches the requested ratio whenever either the lighter or the darker search succeeds; every ratio up to 4.5 is always reached; when the ratio is unreachable the loss against the best achievable contrast is at most 0.1.", "quantifier": "all background tones and all ratios", "why_tests_cant": "The claim that 4.5:1 is always reachable is a statement about all tones.", "anchors": ["src/dynamiccolor/dynamic_color.rs: foreground_tone", "src/contrast/contrast.rs: lighter_unsafe, darker_unsafe, ratio_of_tones"]}
{"id": "C22", "title": "Contrast curve interpolation is bounded, monotone and continuous", "statement": "A contrast curve returns its four control values at -1, 0, 0.5, 1, is constant outside [-1,1], continuous, lies between the extreme control values and is non-decreasing when the control values are.", "quantifier": "every curve and every contrast level", "why_tests_cant": "Continuity/monotonicity over the reals.", "anchors": ["src/dynamiccolor/src/contrast_curve.rs: ContrastCurve::get"]}
{"id": "C23", "title": "An HCT object always describes its own colour", "statement": "After any sequence of constructions and hue/chroma/tone assignments, the reported hue, chroma and tone are exactly those computed from the colour it reports, and the colour is opaque unless constructed from a raw integer. Assigning one of the three is building from the new value and the other two reported ones. Equality of HCT objects is equality of colours.", "quantifier": "every finite history of setter calls, any float behaviour", "why_tests_cant": "Histories are unbounded; stale cached fields only show after particular sequences.", "anchors": ["src/hct/hct.rs: Hct::from, from_int, set_hue, set_chroma, set_tone, set_internal_state"]}
{"id": "C24", "title": "HCT search never reports its not-found sentinel", "statement": "Solving for hue, chroma, tone always yields an opaque colour (never the internal 0 'not found' value), depends on the hue only modulo 360, and yields a pure gray when chroma < 0.0001 or tone is outside [0.0001, 99.9999].", "quantifier": "all doubles for hue, chroma, tone", "why_tests_cant": "All doubles.", "anchors": ["src/hct/src/hct_solver.rs: solve_to_int, find_result_by_j, bisect_to_limit", "src/hct/hct.rs: Hct::from"]}
{"id": "C25", "title": "Gamut-limit search stays in the RGB cube and on the requested luminance", "statement": "For any luminance in (0,100) and any target hue the bisection's segment endpoints are linear-RGB points inside [0,100]^3 whose luminance is the requested one (before the final averaging: exactly), array accesses stay in range and the returned colour's luminance differs only by 8-bit rounding.", "quantifier": "all luminances and hues", "why_tests_cant": "Index and geometric invariants over all reals and iterations.", "anchors": ["src/hct/src/hct_solver.rs: bisect_to_limit, bisect_to_segment, nth_vertex, set_coordinate, critical_plane_below"]}
{"id": "C26", "title": "HCT colour has the requested tone", "statement": "The colour found for hue, chroma, tone has an L* within a small bound of the requested tone for every tone in [0,100].", "quantifier": "all doubles for hue, chroma, tone", "why_tests_cant": "Uncountable input space, Newton convergence.", "anchors": ["src/hct/src/hct_solver.rs: solve_to_int", "src/hct/hct.rs: Hct::from"]}
{"id": "C27", "title": "CAM16 never trips its hue assertion and its hue is in [0,360)", "statement": "Computing CAM16 from any colour succeeds (the internal hue range assertion never fires) with hue in [0,360), and lightness, chroma, brightness, colourfulness, saturation non-negative.", "quantifier": "all XYZ inputs / all colours", "why_tests_cant": "Angles wrap at 0/360.", "anchors": ["src/hct/cam16.rs: from_xyz_in_viewing_conditions, from_int"]}
{"id": "C28", "title": "CAM16 appearance identifies the colour", "statement": "Computing CAM16 coordinates of any opaque colour in the default viewing conditions and converting back gives exactly the same colour; the same for the J,C,h constructor applied to its own coordinates.", "quantifier": "all 2^24 opaque colours", "why_tests_cant": "16.7M colours with rounded inverse matrices and non-integer powers.", "anchors": ["src/hct/cam16.rs: from_int, to_int, viewed, xyz_in_viewing_conditions, from_jch"]}
{"id": "C29", "title": "CAM16-UCS blending hits both endpoints and is opaque", "statement": "Blending by UCS with amount 0 returns the first colour and with amount 1 the second colour, for all opaque colours.", "quantifier": "all pairs of opaque colours", "why_tests_cant": "2^48 pairs.", "anchors": ["src/blend/blend.rs: cam16_ucs", "src/hct/cam16.rs: from_ucs"]}
{"id": "C30", "title": "CAM16 distance is a (scaled) metric", "statement": "The colour distance is non-negative, symmetric, zero exactly for equal UCS coordinates (so exactly for equal colours), satisfies the triangle inequality, and is increasing in the Euclidean UCS distance.", "quantifier": "all pairs of colours", "why_tests_cant": "All pairs.", "anchors": ["src/hct/cam16.rs: distance"]}
{"id": "C31", "title": "Harmonising rotates by at most 15 degrees, the short way", "statement": "Harmonising a colour keeps chroma and tone requests and requests a hue that is the design hue rotated towards the source hue by half the hue difference, at most 15 degrees, never overshooting the source hue.", "quantifier": "all pairs of colours", "why_tests_cant": "2^48 pairs; wrap-around.", "anchors": ["src/blend/blend.rs: harmonize"]}
{"id": "C32", "title": "Tonal palette lookups do not depend on history", "statement": "For a palette created from hue and chroma, reading a tone gives the HCT colour for that hue, chroma and tone regardless of which tones were read before, and reading does not change hue, chroma or key colour.", "quantifier": "every finite history of reads and every tone", "why_tests_cant": "Caches: unbounded histories.", "anchors": ["src/palettes/tonal_palette.rs: TonalPalette::get, of"]}
{"id": "C33", "title": "Fractional tones are not confused with cached integer tones", "statement": "Asking a palette for the HCT colour of a fractional tone gives the colour of that tone whatever was read before.", "quantifier": "every history and every tone", "why_tests_cant": "Needs a specific earlier read to populate the cache.", "anchors": ["src/palettes/tonal_palette.rs: TonalPalette::get_hct"]}
{"id": "C34", "title": "Palette lists round-trip", "statement": "A palette built from a list of 13 colours returns these colours in order whatever was read before; any other length is rejected; a core palette serialised to its list and rebuilt returns the same list.", "quantifier": "all lists and all histories", "why_tests_cant": "Unbounded.", "anchors": ["src/palettes/tonal_palette.rs: from_list, get_as_list", "src/palettes/core_palette.rs: as_list, from_list"]}
{"id": "C35", "title": "Palette equality is an equivalence consistent with hashing", "statement": "Equality of tonal palettes is reflexive, symmetric and transitive, and equal palettes hash equally.", "quantifier": "all triples of palettes of both kinds", "why_tests_cant": "Transitivity across the two representations needs a specific triple.", "anchors": ["src/palettes/tonal_palette.rs: impl PartialEq for TonalPalette, impl Hash for TonalPalette"]}
{"id": "C36", "title": "Key colour search is bounded and optimal among what it examined", "statement": "The key colour of a palette is the HCT colour of the palette's hue and chroma at a tone in [1,99] (or 50), found in at most 50 candidates, and its chroma is at least as close to the request as at tone 50.", "quantifier": "all hues and chromas", "why_tests_cant": "All doubles.", "anchors": ["src/palettes/tonal_palette.rs: create_key_color"]}
{"id": "C37", "title": "Core palette derives its six palettes from the seed as documented", "statement": "The accent palettes use the seed hue with chroma max(48, seed) / 16 / 24 at +60 degrees and neutral chroma 4 and 8 (content variant: seed, seed/3, seed/2, min(seed/12,4), min(seed/6,8)); error is hue 25 chroma 84.", "quantifier": "all seed colours", "why_tests_cant": "All 2^24 seeds.", "anchors": ["src/palettes/core_palette.rs: CorePalette::of, content_of"]}
{"id": "C38", "title": "Disliked colours are fixed to liked ones", "statement": "A colour is disliked exactly when its rounded hue is in 90..111, rounded chroma above 16 and rounded tone below 65; fixing leaves liked colours unchanged and returns, for disliked ones, the colour with tone 70 and the same hue and chroma request; the result is not disliked, so fixing is idempotent.", "quantifier": "all HCT colours", "why_tests_cant": "All colours; needs tone accuracy of the solver.", "anchors": ["src/dislike/dislike_analyzer.rs: is_disliked, fix_if_disliked"]}
{"id": "C39", "title": "Temperature cache answers do not depend on query order", "statement": "Any sequence of queries on a temperature cache returns the same answers as asking each query on a fresh cache.", "quantifier": "every finite sequence of queries", "why_tests_cant": "Six mutually dependent lazily filled caches.", "anchors": ["src/temperature/temperature_cache.rs: TemperatureCache"]}
{"id": "C40", "title": "Relative temperature is normalised", "statement": "Relative temperature of the coldest colour is 0, of the warmest 1, and lies in [0,1] for the input and every colour of the wheel; coldest and warmest are extremal.", "quantifier": "all inputs", "why_tests_cant": "All colours.", "anchors": ["src/temperature/temperature_cache.rs: relative_temperature, get_coldest, get_warmest, raw_temperature"]}
{"id": "C41", "title": "Analogous colours have the requested count and contain the input", "statement": "analogous(count, divisions) returns exactly max(count,1) colours, one of them being the input, all others from the hue wheel, and always terminates.", "quantifier": "all inputs, counts and divisions", "why_tests_cant": "All integers for count and division.", "anchors": ["src/temperature/temperature_cache.rs: analogous"]}
{"id": "C42", "title": "Temperature queries never panic", "statement": "Complement and analogous colours can be computed for every colour without a panic.", "quantifier": "every colour", "why_tests_cant": "The failing colours have hue in [359.5,360).", "anchors": ["src/temperature/temperature_cache.rs: analogous, get_complement, get_hcts_by_hue"]}
{"id": "C43", "title": "Counting quantizer counts exactly", "statement": "The map quantizer returns each distinct opaque pixel with its exact multiplicity and nothing else; the total equals the number of opaque pixels; it ignores the order of pixels.", "quantifier": "every pixel list", "why_tests_cant": "Unbounded lists.", "anchors": ["src/quantize/quantizer_map.rs: QuantizerMap::quantize"]}
{"id": "C44", "title": "Wu histogram indexing is collision free and in bounds", "statement": "The flattened 3-D histogram index is injective on 0..32 cubed and always inside the array.", "quantifier": "all index triples", "why_tests_cant": "35937 triples (finite but about all users).", "anchors": ["src/quantize/quantizer_wu.rs: get_index, construct_histogram"]}
{"id": "C45", "title": "Wu cumulative moments equal box sums", "statement": "After preprocessing, the inclusion-exclusion volume of any box equals the sum of the weights (resp. red, green, blue, squared) of the histogram cells inside, and bottom+top is the volume of the half box.", "quantifier": "all histograms and all boxes", "why_tests_cant": "All pixel lists and all boxes.", "anchors": ["src/quantize/quantizer_wu.rs: compute_moments, volume, bottom, top"]}
{"id": "C46", "title": "Wu boxes partition colour space and conserve weight", "statement": "At any point of box splitting the boxes are disjoint and cover all histogram cells, so the weights of the boxes add up to the number of opaque pixels.", "quantifier": "all pixel lists, all numbers of colours", "why_tests_cant": "Loop invariant over all inputs.", "anchors": ["src/quantize/quantizer_wu.rs: create_boxes, cut, maximize"]}
{"id": "C47", "title": "Wu returns at most the requested number of opaque in-range colours", "statement": "The Wu quantizer returns at most max_colors colours, each opaque with channels the integer mean of the pixels of its box (0..255), never divides by zero; it panics exactly for max_colors <= 0.", "quantifier": "all pixel lists, all max_colors", "why_tests_cant": "Unbounded.", "anchors": ["src/quantize/quantizer_wu.rs: QuantizerWu::quantize, create_result"]}
{"id": "C48", "title": "Wu arithmetic cannot overflow for images up to a stated size", "statement": "All i64 intermediate values stay within range for every image up to a stated number of pixels.", "quantifier": "all pixel lists up to the bound", "why_tests_cant": "Overflow needs millions of pixels.", "anchors": ["src/quantize/quantizer_wu.rs: maximize, variance, compute_moments"]}
{"id": "C49", "title": "Wu result does not depend on pixel order", "statement": "Permuting the input pixels does not change the result of Wu quantisation.", "quantifier": "all permutations of all pixel lists", "why_tests_cant": "Unbounded.", "anchors": ["src/quantize/quantizer_wu.rs: QuantizerWu::quantize"]}
{"id": "C50", "title": "Wsmeans result is within limits and conserves population", "statement": "Weighted k-means returns at most max_colors colours, all opaque, with positive populations whose sum is at most the number of pixels, at least one colour for a nonempty image when at least one round is allowed and none when no round is allowed; on request it maps exactly the colours of the image, each to one of the returned colours, and a returned population never exceeds the number of pixels mapped to that colour. It panics exactly for a negative max_colors, or max_colors 0 with a nonempty image.", "quantifier": "all pixel lists, starting clusters, iteration counts, random choices", "why_tests_cant": "Unbounded inputs and random seeds.", "anchors": ["src/quantize/quantizer_wsmeans.rs: QuantizerWsmeans::quantize"]}
{"id": "C51", "title": "Celebi quantizer composes Wu and Wsmeans within limits", "statement": "The Celebi quantizer returns at most max_colors colours, all opaque, populations at most the pixel count, at least one colour for a nonempty image, every input colour mapped to a returned colour on request, for any hash map iteration order; it panics exactly for max_colors at most 0.", "quantifier": "all pixel lists, all iteration orders, all random choices", "why_tests_cant": "Hash iteration order is nondeterministic.", "anchors": ["src/quantize/quantizer_celebi.rs: QuantizerCelebi::quantize"]}
{"id": "C52", "title": "Score returns between 1 and desired colours, all from the input", "statement": "Scoring returns at least one colour and at most max(1, desired); each is a key of the input or, only when nothing qualifies, the fallback colour.", "quantifier": "all population maps, all iteration orders, any arithmetic", "why_tests_cant": "Unbounded maps; hash order.", "anchors": ["src/score/score.rs: Score::score"]}
{"id": "C53", "title": "Scored colours are at least 15 degrees apart in hue and pass the filter", "statement": "All returned colours are pairwise at least 15 degrees of hue apart, and with filtering every returned non-fallback colour has chroma >= 5 and neighbourhood proportion > 1%; the spacing is the largest one in 15..90 at which the desired number could be selected.", "quantifier": "all population maps with a positive total count", "why_tests_cant": "Unbounded maps.", "anchors": ["src/score/score.rs: Score::score"]}
{"id": "C54", "title": "Scored colours are ranked by score", "statement": "The first returned colour has the highest score among qualifying colours, and returned colours are in non-increasing score order.", "quantifier": "all population maps with a positive total count", "why_tests_cant": "Sorting with a custom, inconsistent ordering instance.", "anchors": ["src/score/score.rs: Score::score, ScoredHCT"]}
{"id": "C55", "title": "Tone pairs keep their distance and avoid the awkward zone", "statement": "For every role with a tone-difference partner, after all contrast adjustments, both tones of the pair are at least the declared distance apart in the declared order and none of them lies in [50,60) unless the pair does not stay together.", "quantifier": "all schemes, contrast levels and pairs", "why_tests_cant": "Reals, many branches.", "anchors": ["src/dynamiccolor/dynamic_color.rs: DynamicColor::get_tone"]}
{"id": "C56", "title": "Every Material role can be evaluated for every scheme", "statement": "For every Material role and every scheme (any variant, contrast level, palettes), tone evaluation terminates without panic; backgrounds are acyclic.", "quantifier": "all roles, all schemes", "why_tests_cant": "Recursion through closures; all schemes.", "anchors": ["src/dynamiccolor/material_dynamic_colors.rs: MaterialDynamicColors", "src/dynamiccolor/dynamic_color.rs: get_tone"]}
{"id": "C57", "title": "Role tones are valid tones", "statement": "Every Material role's tone lies in [0,100] for every scheme with source tone in [0,100].", "quantifier": "all roles and schemes", "why_tests_cant": "All contrast levels and sources.", "anchors": ["src/dynamiccolor/dynamic_color.rs: get_tone", "src/dynamiccolor/material_dynamic_colors.rs: MaterialDynamicColors"]}
{"id": "C58", "title": "Text roles are readable on their surfaces", "statement": "For every scheme and contrast level >= 0, each on-X role has a contrast of at least 4.5 against X (tones), and at least 3.0 for negative contrast levels.", "quantifier": "all schemes, all contrast levels, dark and light", "why_tests_cant": "Repo tests sample 4 seeds x 5 levels; contrast levels are real numbers.", "anchors": ["src/dynamiccolor/material_dynamic_colors.rs: on_primary, on_surface, ...", "src/dynamiccolor/dynamic_color.rs: get_tone"]}
{"id": "C59", "title": "Primary/container and fixed/fixed-dim roles stay distinguishable", "statement": "For every scheme and contrast level, primary/secondary/tertiary/error and their containers differ by at least 10 in tone, and fixed roles are lighter than fixed-dim roles by at least 10.", "quantifier": "all schemes", "why_tests_cant": "All contrast levels and sources.", "anchors": ["src/dynamiccolor/material_dynamic_colors.rs: primary, primary_container, primary_fixed, primary_fixed_dim", "src/dynamiccolor/dynamic_color.rs: get_tone"]}
{"id": "C60", "title": "Dynamic colour cache is bounded and transparent", "statement": "A dynamic colour's cache never holds more than five entries after any sequence of queries, and cached answers equal freshly computed ones.", "quantifier": "all query sequences", "why_tests_cant": "Unbounded histories.", "anchors": ["src/dynamiccolor/dynamic_color.rs: get_hct"]}
{"id": "C61", "title": "Hue rotation table lookup is total and rotates as tabulated", "statement": "For a hue in [0,360) strictly inside a table interval the rotated hue is the hue plus that interval's rotation modulo 360; with a single rotation it is always applied; tables of different length are rejected; the result is a sanitised angle.", "quantifier": "all hues and all tables", "why_tests_cant": "All reals; interval boundaries.", "anchors": ["src/dynamiccolor/dynamic_scheme.rs: get_rotated_hue"]}
{"id": "C62", "title": "Monochrome schemes produce only grays", "statement": "Every colour of the accent and neutral palettes of a monochrome scheme has equal red, green and blue for every seed.", "quantifier": "all seeds, tones", "why_tests_cant": "All.", "anchors": ["src/scheme/scheme_monochrome.rs: SchemeMonochrome::new", "src/hct/src/hct_solver.rs: solve_to_int"]}
{"id": "C63", "title": "Scheme variants request the documented hue and chroma", "statement": "Each scheme variant's palettes carry exactly the documented hue offset and chroma for every source colour and the hue is a sanitised angle.", "quantifier": "all source colours", "why_tests_cant": "All.", "anchors": ["src/scheme/*.rs", "src/dynamiccolor/dynamic_scheme.rs: DynamicScheme"]}
{"id": "C64", "title": "Viewing conditions reject bad surrounds and stay finite", "statement": "Making viewing conditions panics exactly when the surround is outside [0,2]; the degree of adaptation is in [0,1] and the background tone is at least 0.1.", "quantifier": "all parameters", "why_tests_cant": "All reals.", "anchors": ["src/hct/viewing_conditions.rs: ViewingConditions::make"]}
{"id": "C65", "title": "Legacy light/dark schemes are tone tables of the core palette", "statement": "Each role of the legacy light/dark scheme is the core palette colour at the documented tone for every seed; on-colours contrast at least 4.5 with their surfaces by tone.", "quantifier": "all seeds", "why_tests_cant": "All 2^24 seeds.", "anchors": ["src/scheme/scheme.rs: Scheme::light, dark, light_content, dark_content"]}
{"id": "C66", "title": "Being between two angles means lying on the arc from one to the other", "statement": "For angles in [0,360), is_between(x,a,b) holds exactly when, turning upwards from a, x is met no later than b; when a = b it holds for every x.", "quantifier": "all angles", "why_tests_cant": "All reals; wrap-around.", "anchors": ["src/temperature/temperature_cache.rs: is_between"]}
{"id": "C67", "title": "The complement is the best temperature match on the opposite arc", "statement": "The complement of a colour is a wheel colour on the coldest-warmest arc that does not contain the colour, with relative temperature nearest to one minus the colour's; ties go to the first.", "quantifier": "all colours whose wheel is not uniformly warm", "why_tests_cant": "Optimality over a search of 360 candidates for every colour.", "anchors": ["src/temperature/temperature_cache.rs: get_complement"]}
{"id": "C68", "title": "Only black has no chroma", "statement": "Reading a colour as hue, chroma and tone gives chroma 0 exactly for black (red = green = blue = 0); every other colour, grays included, has a positive chroma.", "quantifier": "all 2^32 colours", "why_tests_cant": "All colours, in exact arithmetic; in floating point the smallest positive values cannot be told apart by sampling.", "anchors": ["src/hct/cam16.rs: from_int", "src/hct/hct.rs: Hct::from_int, get_chroma"]}
{"id": "C69", "title": "Wu cuts a box where the parts are most uniform", "statement": "When the Wu quantizer cuts a box of colour space in two, the cut leaves opaque pixels on both sides and, of all such cuts along any axis, gives the smallest total of squared distances of the pixels from the mean colour of their part (in binary64: up to a relative error of 2^-48 of the sum of squares); it declines to cut exactly when no cut leaves pixels on both sides.", "quantifier": "all images, all boxes", "why_tests_cant": "Optimality over all cut positions for every image.", "anchors": ["src/quantize/quantizer_wu.rs: cut, maximize, variance"]}
{"id": "C70", "title": "Wu splits the most spread-out box first", "statement": "The boxes whose mean colours the Wu quantizer returns are obtained from the whole colour space by repeatedly splitting, of the boxes that can be split, one with the largest sum of squared distances from the mean (rounded up to an integer).", "quantifier": "all images with an opaque pixel, all positive colour counts", "why_tests_cant": "A greedy choice repeated up to max_colors times, for every image.", "anchors": ["src/quantize/quantizer_wu.rs: create_boxes, cut, variance"]}
{"id": "C71", "title": "Wu returns as many colours as requested, if the image has them", "statement": "The Wu quantizer returns min(max_colors, n) colours, where n is the number of different 8x8x8 cells of colour space that contain opaque pixels of the image.", "quantifier": "all images, all positive colour counts", "why_tests_cant": "Depends on the whole history of cuts; the failing images are rare.", "anchors": ["src/quantize/quantizer_wu.rs: create_boxes, quantize"]}
{"id": "C72", "title": "More rounds of k-means never make the clustering worse", "statement": "The sum over all pixels of the squared L*a*b* distance to the centre of the pixel's cluster, whose 8-bit colour is the colour the pixel is mapped to, does not increase when the weighted k-means quantizer is allowed more rounds.", "quantifier": "all images, starting colours, colour counts, random choices, numbers of rounds", "why_tests_cant": "Monotonicity along unbounded iterations for every image.", "anchors": ["src/quantize/quantizer_wsmeans.rs: QuantizerWsmeans::quantize"]}
{"id": "C73", "title": "Every colour of k-means is the mean of its pixels", "statement": "If at least one round is allowed, the colours of the image fall into at most max_colors clusters such that every colour is mapped to the mean in L*a*b* of all pixels of its cluster, rounded to eight bits, and every reported colour is such a mean, reported with the number of pixels of the cluster.", "quantifier": "all images, starting colours, colour counts, random choices, positive numbers of rounds", "why_tests_cant": "Every image and every history of moves.", "anchors": ["src/quantize/quantizer_wsmeans.rs: QuantizerWsmeans::quantize", "src/quantize/src/point_provider_lab.rs"]}
{"id": "C74", "title": "Settled k-means maps every colour to the nearest centre", "statement": "When further rounds of the weighted k-means quantizer change nothing, every colour of the image is mapped to the cluster whose centre is nearest in L*a*b*.", "quantifier": "all images, starting colours, colour counts, random choices", "why_tests_cant": "A wrong pruning test only matters for rare configurations of three or more centres.", "anchors": ["src/quantize/quantizer_wsmeans.rs: QuantizerWsmeans::quantize (distance_to_index_matrix)"]}
{"id": "C75", "title": "Populations of k-means add up", "statement": "If at least one round is allowed, the population reported for a colour is the number of pixels mapped to it, and the populations add up to the number of pixels.", "quantifier": "all images, starting colours, colour counts, random choices, positive numbers of rounds", "why_tests_cant": "Needs two clusters whose centres round to the same colour, which random images rarely give.", "anchors": ["src/quantize/quantizer_wsmeans.rs: QuantizerWsmeans::quantize (color_to_count)"]}
{"id": "C76", "title": "Surfaces keep their order", "statement": "In every scheme and with every contrast level the surface roles are ordered: in a dark scheme container-lowest, dim (= surface = background), container-low, container, container-high, container-highest and bright get lighter from one to the next, each by at least two tones, and so do the colours they are drawn with; in a light scheme container-lowest, bright (= surface = background), container-low, ..., container-highest, dim get darker.", "quantifier": "all schemes, all real contrast levels", "why_tests_cant": "A continuum of contrast levels; wrong control values show only at some of them.", "anchors": ["src/dynamiccolor/material_dynamic_colors.rs: surface, surface_dim, surface_bright, surface_container_*"]}
{"id": "C77", "title": "Tones are adjusted so that a light foreground is readable", "statement": "enable_light_foreground changes a tone from 0 to 100 only if it rounds to 50..59, to 49; afterwards white has a contrast of at least 4.5 with a tone that prefers a light foreground, and black at least 6.5 with one that does not; doing it again changes nothing.", "quantifier": "all tones in [0,100]", "why_tests_cant": "A continuum of tones.", "anchors": ["src/dynamiccolor/dynamic_color.rs: enable_light_foreground, tone_prefers_light_foreground, tone_allows_light_foreground"]}
{"id": "C78", "title": "Harmonising and blending by hue keep tone and contrast", "statement": "A colour harmonised with or blended by hue towards another keeps its tone up to 0.84 and at least 93 percent of its WCAG contrast with any third colour; blending with amount 0 and 1 requests the hue of the first and of the second colour.", "quantifier": "all pairs of colours, all real amounts", "why_tests_cant": "2^48 pairs times a continuum.", "anchors": ["src/blend/blend.rs: hct_hue, harmonize"]}
{"id": "C79", "title": "Roles are drawn with the tone computed for them", "statement": "In every scheme made by the library the colour of a role is opaque and its tone differs from the tone computed for the role by at most 0.84.", "quantifier": "all schemes, all roles, all contrast levels", "why_tests_cant": "Every source colour, variant and contrast level.", "anchors": ["src/dynamiccolor/dynamic_color.rs: get_argb, get_hct, get_tone", "src/dynamiccolor/material_dynamic_colors.rs"]}
{"id": "C80", "title": "Text is readable in the colours drawn", "statement": "In every scheme made by the library, as drawn, text on an accent role, on a container, on a surface or on a fixed role has a WCAG contrast of at least 4.2 (less prominent text on surfaces and fixed roles: 4.2 from contrast level 0, else 2.8).", "quantifier": "all schemes, all text roles, all contrast levels", "why_tests_cant": "Every source colour, variant and contrast level, including the rounding to 8 bits.", "anchors": ["src/dynamiccolor/material_dynamic_colors.rs", "src/dynamiccolor/dynamic_color.rs: get_argb"]}
{"id": "C81", "title": "Contrast of tones is the WCAG contrast of colours", "statement": "The contrast ratio computed from the tones of two colours is the contrast ratio of WCAG 2.1 of the two colours, and for colours requested by hue, chroma and tone the drawn contrast is at least 93.8 percent of the contrast of the requested tones.", "quantifier": "all pairs of colours; all requests with tones in [0,100]", "why_tests_cant": "2^48 pairs.", "anchors": ["src/contrast/contrast.rs: ratio_of_tones", "src/utils/color_utils.rs: lstar_from_argb"]}
{"id": "C82", "title": "Roles are drawn from the palette of their family", "statement": "Every role belongs to one of the six families (primary, secondary, tertiary, error, neutral, neutral variant), and in every scheme made by the library it is drawn with the colour of hue and chroma of the palette of that family at the tone computed for the role; so roles of one family with equal tones have equal colours.", "quantifier": "all schemes, all roles, all contrast levels", "why_tests_cant": "Every source colour, variant and contrast level.", "anchors": ["src/dynamiccolor/material_dynamic_colors.rs", "src/dynamiccolor/dynamic_color.rs: get_argb"]}
{"id": "C83", "title": "Floating point hardly moves hue and chroma", "statement": "For every colour but black, the hue computed in binary64 is within 2e-4 degrees (around the circle) of the hue defined by CAM16, chroma, colourfulness and saturation have relative errors of at most 5e-6, lightness and brightness of at most 1e-10, and the uniform coordinates are accurate to 8e-6 of the distance from the neutral axis; so two platforms with different math libraries agree to twice that. Black has lightness, brightness, chroma and colourfulness exactly 0.", "quantifier": "all 2^32 colours, all math libraries with small errors", "why_tests_cant": "For grays the hue is the angle of a vector that nearly cancels; how much is lost cannot be settled by sampling, and the result depends on the platform's math library.", "anchors": ["src/hct/cam16.rs: from_int", "src/hct/hct.rs: Hct::from_int"]}
{"id": "C84", "title": "Requesting the hue, chroma and tone of a colour gives that colour", "statement": "For every opaque colour, requesting its own hue, chroma and tone returns exactly that colour; so requesting what was obtained changes nothing more, setting hue, chroma or tone to the present value changes nothing, hue, chroma and tone determine the colour, the palette of a colour contains it at its tone, and blending by hue with amount 0 gives the first colour.", "quantifier": "all 2^24 opaque colours (exact arithmetic, and doubles with every rounding error)", "why_tests_cant": "The solver stops after at most five Newton steps; that five are enough, and that the error then left never crosses a rounding boundary of a channel, must hold at every colour. The repo's own test of this (hct_round_trip_test.rs) is marked ignored, because it runs over all colours.", "anchors": ["src/hct/src/hct_solver.rs: solve_to_int, find_result_by_j", "src/hct/hct.rs: Hct::from, from_int, set_hue, set_chroma, set_tone", "src/palettes/tonal_palette.rs: get_hct", "src/blend/blend.rs: hct_hue, harmonize"]}
{"id": "C85", "title": "What cannot be reached is approached at the requested hue", "statement": "Every answer to a request whose chroma cannot be reached at its hue and tone is the colour of the middle of two points that have exactly the requested luminance, lie in the RGB gamut and whose hues enclose the requested hue: going round the hue circle from the hue of the first point, the requested hue comes before the hue of the second.", "quantifier": "all requests out of gamut: every real hue, chroma and tone", "why_tests_cant": "The search is a bisection on a circle, with wrap-around, that picks one of two halves at every step; one wrong comparison only shows for hues near the wrap-around or near the corners of the gamut.", "anchors": ["src/hct/src/hct_solver.rs: bisect_to_segment, bisect_to_limit, are_in_cyclic_order, sanitize_radians"]}
{"id": "C86", "title": "Blending is an even walk along a straight line", "statement": "An appearance made from coordinates of the uniform colour space has exactly these coordinates and a hue in [0, 360). Blending two colours by an amount t therefore gives the same colour as blending them in the opposite order by 1 - t, and before rounding to eight bits the blend is at t times the distance of both colours from the first and 1 - t times from the second.", "quantifier": "all coordinates with a lightness other than the pole 1700/7 of the formula, all viewing conditions, all pairs of colours, all amounts from 0 to 1", "why_tests_cant": "Every pair of colours and every real amount.", "anchors": ["src/hct/cam16.rs: from_ucs_in_viewing_conditions, from_jch_in_viewing_conditions", "src/blend/blend.rs: cam16_ucs"]}
