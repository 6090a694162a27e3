import json
P=[]
def p(title,statement,quant,why,anchors):
    P.append(dict(id="C%02d"%(len(P)+1),title=title,statement=statement,quantifier=quant,why_tests_cant=why,anchors=anchors))
CU="src/utils/color_utils.rs"; MU="src/utils/math_utils.rs"; SU="src/utils/string_utils.rs"; CT="src/contrast/contrast.rs"
HC="src/hct/hct.rs"; HS="src/hct/src/hct_solver.rs"; CA="src/hct/cam16.rs"; VC="src/hct/viewing_conditions.rs"
TP="src/palettes/tonal_palette.rs"; CP="src/palettes/core_palette.rs"; TC="src/temperature/temperature_cache.rs"
QM="src/quantize/quantizer_map.rs"; QW="src/quantize/quantizer_wu.rs"; QS="src/quantize/quantizer_wsmeans.rs"; QC="src/quantize/quantizer_celebi.rs"
SC="src/score/score.rs"; DC="src/dynamiccolor/dynamic_color.rs"; DS="src/dynamiccolor/dynamic_scheme.rs"; MD="src/dynamiccolor/material_dynamic_colors.rs"
CC="src/dynamiccolor/src/contrast_curve.rs"; BL="src/blend/blend.rs"; DI="src/dislike/dislike_analyzer.rs"; SD="src/scheme/scheme.rs"

p("RGB packing and unpacking are inverse","For channel values 0..255, packing red, green and blue into an ARGB integer and reading a channel back returns the channel that was packed; for arbitrary 64-bit channel values it returns the value modulo 256, so channels never bleed into each other. The packed colour is opaque (alpha 255) and lies in 0xFF000000..0xFFFFFFFF.",
  "every triple of 64-bit signed integers","There are 2^192 triples; masks and shifts go wrong only on specific bit patterns (negative or >255 channels).",[CU+": argb_from_rgb, alpha_from_argb, red_from_argb, green_from_argb, blue_from_argb, is_opaque"])
p("Unpacking then packing a colour forces alpha to 255 and changes nothing else","For every integer colour, rebuilding it from its own red, green and blue gives the colour with the same low 24 bits and alpha 255; for an opaque 32-bit colour this is the identity. Hence packing is a bijection between channel triples and opaque colours.",
  "every 64-bit signed integer","2^64 inputs.",[CU+": argb_from_rgb, red_from_argb, green_from_argb, blue_from_argb"])
p("Hex formatting and parsing round-trip","Formatting a colour gives '#' (optional) plus exactly six upper-case hexadecimal digits, and parsing that text gives back the low 24 bits of the colour (alpha is dropped). Two colours format equally only if their low 24 bits agree.",
  "every 64-bit colour and both settings of the leading-hash option","Digit padding and case errors show up only for particular channel values; tests format a handful of colours.",[SU+": hex_from_argb, argb_from_hex"])
p("Hex parsing accepts exactly the hexadecimal numerals that fit in 64 bits","Parsing any string strips all leading '#', then succeeds exactly when the rest is an optional sign followed by one or more hexadecimal digits (either case) whose value fits a signed 64-bit integer, and returns that positional value; every other string yields None; it never panics.",
  "every string","Unbounded input space including signs, empty strings, repeated hashes and overflow.",[SU+": argb_from_hex"])
p("Integer degree sanitising is reduction modulo 360","For every integer the sanitised angle lies in [0,360), is congruent to the input modulo 360, is unchanged by sanitising again and is the only integer with those properties.",
  "every 64-bit integer angle","Infinite/2^64 input space; sign handling of the remainder is the usual failure.",[MU+": sanitize_degrees_int"])
p("Real degree sanitising is reduction modulo 360","For every finite angle the sanitised angle is in [0,360) and differs from the input by a whole number of turns (exact arithmetic). In IEEE double arithmetic the half-open bound promised by the documentation must also hold for every finite double.",
  "every real angle; every finite double","The floating-point failure needs a tiny negative input that sampling does not hit.",[MU+": sanitize_degrees_double"])
p("Degree difference is the circular distance","For hues in [0,360) the difference is symmetric, lies in [0,180], is zero exactly for equal hues, equals the smallest absolute difference over all whole-turn shifts and satisfies the triangle inequality.",
  "all pairs/triples of hues","Metric laws quantify over triples of reals.",[MU+": difference_degrees"])
p("Rotation direction is the shorter way round","The rotation direction between two angles is always +1 or -1, and turning from the first angle by the degree difference in that direction arrives at the second angle (modulo 360).",
  "all pairs of angles","Wrap-around and ties at 180 degrees are measure-zero cases for sampling.",[MU+": rotation_direction, difference_degrees, sanitize_degrees_double"])
p("Clamping, signum and interpolation obey their order laws","Clamped values lie within the bounds, values already within are unchanged, clamping is idempotent and monotone; linear interpolation hits both endpoints and stays between them for amounts in [0,1]; signum is the sign.",
  "all numbers and all ordered bounds","Quantifies over all reals/integers.",[MU+": clamp_int, clamp_double, lerp, signum"])
p("8-bit channels survive linearisation","Converting any 0..255 channel to linear light and back returns the same channel; linearisation is strictly increasing from 0 to 100; delinearisation of any number whatsoever (including NaN and infinities) lies in 0..255 and is monotone.",
  "every channel, every real (every double for the range claim)","Rounding boundaries of the inverse are between channels; range claim is over all doubles.",[CU+": linearized, delinearized"])
p("Luminance and tone conversions are exact inverses and strictly increasing","Y to L* and L* to Y are mutually inverse on all real numbers of the domain [0,100], strictly increasing, and map 0 to 0 and 100 to 100.",
  "every real in the domain","Piecewise definitions can disagree only near the breakpoint.",[CU+": y_from_lstar, lstar_from_y, lab_f, lab_invf"])
p("XYZ round trip is lossless for every 8-bit colour","Converting any colour to XYZ and back returns the same colour with alpha forced to 255.",
  "all 2^24 opaque colours (and any alpha)","16.7M colours; the inverse matrix is a rounded literal so the error margin must be bounded everywhere.",[CU+": xyz_from_argb, argb_from_xyz"])
p("L*a*b* round trip is lossless for every 8-bit colour","Converting any colour to L*a*b* and back returns the same colour with alpha forced to 255.",
  "all 2^24 opaque colours (and any alpha)","Same as XYZ, with a piecewise cube root in between.",[CU+": lab_from_argb, argb_from_lab"])
p("Every colour producer returns an opaque 32-bit colour","Whatever numbers are passed (including NaN, infinities, out of range values), every function that returns a colour from channels, linear RGB, XYZ, L*a*b*, tone, CAM16 or HCT returns a value in 0xFF000000..0xFFFFFFFF.",
  "all double inputs, any behaviour of the math library","Quantifies over all doubles including special values.",[CU+": argb_from_linrgb, argb_from_xyz, argb_from_lab, argb_from_lstar",HS+": solve_to_int",CA+": viewed",BL+": cam16_ucs"])
p("Tone of a colour is well behaved","The tone of any colour lies in [0,100], ignores alpha, strictly increases when any channel increases, is 0 only for black and 100 only for white.",
  "all colours and all channel-wise comparisons","Monotonicity is a statement about all pairs of colours.",[CU+": lstar_from_argb, xyz_from_argb"])
p("Gray of a tone is gray, monotone and accurate","The colour built from a tone has equal channels, is non-decreasing in the tone, saturates to black/white outside [0,100], has a tone within a small bound of the requested one for every tone in [0,100], and returns exactly the original gray when given that gray's tone.",
  "every real tone","Uncountably many tones; worst case error sits between gray levels.",[CU+": argb_from_lstar, lstar_from_argb"])
p("Contrast ratio is a symmetric ratio between 1 and 21","For any two tones the contrast ratio is symmetric, between 1 and 21, equals 1 exactly when the clamped tones agree, and grows when the lighter tone gets lighter or the darker tone gets darker.",
  "all pairs of tones, in and out of range","All pairs of reals.",[CT+": ratio_of_tones, ratio_of_ys"])
p("lighter() is sound and complete","For a tone and a ratio >= 1 the answer is either -1 or a tone in [0,100], not darker than the input, whose contrast with the input is at least the ratio; -1 is returned only when no tone at all reaches the ratio with the library's 0.4 safety margin; inputs outside [0,100] give -1.",
  "all tones and all ratios","Quantifies over the reals; -1 must be correct for every unreachable pair.",[CT+": lighter"])
p("darker() is sound and complete","For a tone and a ratio >= 1 the answer is either -1 or a tone in [0,100], not lighter than the input, whose contrast with the input is at least the ratio; -1 is returned only when no tone at all reaches the ratio with the library's 0.4 safety margin; inputs outside [0,100] give -1.",
  "all tones and all ratios","Quantifies over the reals.",[CT+": darker"])
p("lighter_unsafe/darker_unsafe always return a usable tone","The unsafe variants return the safe answer when there is one and 100 (respectively 0) otherwise; the result is always in [0,100].",
  "all tones and ratios, any arithmetic","All doubles including NaN.",[CT+": lighter_unsafe, darker_unsafe"])
p("Foreground tone meets the requested contrast whenever possible","For a background tone in [0,100] the foreground tone reaches the requested ratio whenever either the lighter or the darker search succeeds; every ratio up to 4.5 is always reached; when the ratio is unreachable the loss against the best achievable contrast is at most 0.1.",
  "all background tones and all ratios","The claim that 4.5:1 is always reachable is a statement about all tones.",[DC+": foreground_tone",CT+": lighter_unsafe, darker_unsafe, ratio_of_tones"])
p("Contrast curve interpolation is bounded, monotone and continuous","A contrast curve returns its four control values at -1, 0, 0.5, 1, is constant outside [-1,1], continuous, lies between the extreme control values and is non-decreasing when the control values are.",
  "every curve and every contrast level","Continuity/monotonicity over the reals.",[CC+": ContrastCurve::get"])
p("An HCT object always describes its own colour","After any sequence of constructions and hue/chroma/tone assignments, the reported hue, chroma and tone are exactly those computed from the colour it reports, and the colour is opaque unless constructed from a raw integer. Assigning one of the three is building from the new value and the other two reported ones. Equality of HCT objects is equality of colours.",
  "every finite history of setter calls, any float behaviour","Histories are unbounded; stale cached fields only show after particular sequences.",[HC+": Hct::from, from_int, set_hue, set_chroma, set_tone, set_internal_state"])
p("HCT search never reports its not-found sentinel","Solving for hue, chroma, tone always yields an opaque colour (never the internal 0 'not found' value), depends on the hue only modulo 360, and yields a pure gray when chroma < 0.0001 or tone is outside [0.0001, 99.9999].",
  "all doubles for hue, chroma, tone","All doubles.",[HS+": solve_to_int, find_result_by_j, bisect_to_limit",HC+": Hct::from"])
p("Gamut-limit search stays in the RGB cube and on the requested luminance","For any luminance in (0,100) and any target hue the bisection's segment endpoints are linear-RGB points inside [0,100]^3 whose luminance is the requested one (before the final averaging: exactly), array accesses stay in range and the returned colour's luminance differs only by 8-bit rounding.",
  "all luminances and hues","Index and geometric invariants over all reals and iterations.",[HS+": bisect_to_limit, bisect_to_segment, nth_vertex, set_coordinate, critical_plane_below"])
p("HCT colour has the requested tone","The colour found for hue, chroma, tone has an L* within a small bound of the requested tone for every tone in [0,100].",
  "all doubles for hue, chroma, tone","Uncountable input space, Newton convergence.",[HS+": solve_to_int",HC+": Hct::from"])
p("CAM16 never trips its hue assertion and its hue is in [0,360)","Computing CAM16 from any colour succeeds (the internal hue range assertion never fires) with hue in [0,360), and lightness, chroma, brightness, colourfulness, saturation non-negative.",
  "all XYZ inputs / all colours","Angles wrap at 0/360.",[CA+": from_xyz_in_viewing_conditions, from_int"])
p("CAM16 appearance identifies the colour","Computing CAM16 coordinates of any opaque colour in the default viewing conditions and converting back gives exactly the same colour; the same for the J,C,h constructor applied to its own coordinates.",
  "all 2^24 opaque colours","16.7M colours with rounded inverse matrices and non-integer powers.",[CA+": from_int, to_int, viewed, xyz_in_viewing_conditions, from_jch"])
p("CAM16-UCS blending hits both endpoints and is opaque","Blending by UCS with amount 0 returns the first colour and with amount 1 the second colour, for all opaque colours.",
  "all pairs of opaque colours","2^48 pairs.",[BL+": cam16_ucs",CA+": from_ucs"])
p("CAM16 distance is a (scaled) metric","The colour distance is non-negative, symmetric, zero exactly for equal UCS coordinates (so exactly for equal colours), satisfies the triangle inequality, and is increasing in the Euclidean UCS distance.",
  "all pairs of colours","All pairs.",[CA+": distance"])
p("Harmonising rotates by at most 15 degrees, the short way","Harmonising a colour keeps chroma and tone requests and requests a hue that is the design hue rotated towards the source hue by half the hue difference, at most 15 degrees, never overshooting the source hue.",
  "all pairs of colours","2^48 pairs; wrap-around.",[BL+": harmonize"])
p("Tonal palette lookups do not depend on history","For a palette created from hue and chroma, reading a tone gives the HCT colour for that hue, chroma and tone regardless of which tones were read before, and reading does not change hue, chroma or key colour.",
  "every finite history of reads and every tone","Caches: unbounded histories.",[TP+": TonalPalette::get, of"])
p("Fractional tones are not confused with cached integer tones","Asking a palette for the HCT colour of a fractional tone gives the colour of that tone whatever was read before.",
  "every history and every tone","Needs a specific earlier read to populate the cache.",[TP+": TonalPalette::get_hct"])
p("Palette lists round-trip","A palette built from a list of 13 colours returns these colours in order whatever was read before; any other length is rejected; a core palette serialised to its list and rebuilt returns the same list.",
  "all lists and all histories","Unbounded.",[TP+": from_list, get_as_list",CP+": as_list, from_list"])
p("Palette equality is an equivalence consistent with hashing","Equality of tonal palettes is reflexive, symmetric and transitive, and equal palettes hash equally.",
  "all triples of palettes of both kinds","Transitivity across the two representations needs a specific triple.",[TP+": impl PartialEq for TonalPalette, impl Hash for TonalPalette"])
p("Key colour search is bounded and optimal among what it examined","The key colour of a palette is the HCT colour of the palette's hue and chroma at a tone in [1,99] (or 50), found in at most 50 candidates, and its chroma is at least as close to the request as at tone 50.",
  "all hues and chromas","All doubles.",[TP+": create_key_color"])
p("Core palette derives its six palettes from the seed as documented","The accent palettes use the seed hue with chroma max(48, seed) / 16 / 24 at +60 degrees and neutral chroma 4 and 8 (content variant: seed, seed/3, seed/2, min(seed/12,4), min(seed/6,8)); error is hue 25 chroma 84.",
  "all seed colours","All 2^24 seeds.",[CP+": CorePalette::of, content_of"])
p("Disliked colours are fixed to liked ones","A colour is disliked exactly when its rounded hue is in 90..111, rounded chroma above 16 and rounded tone below 65; fixing leaves liked colours unchanged and returns, for disliked ones, the colour with tone 70 and the same hue and chroma request; the result is not disliked, so fixing is idempotent.",
  "all HCT colours","All colours; needs tone accuracy of the solver.",[DI+": is_disliked, fix_if_disliked"])
p("Temperature cache answers do not depend on query order","Any sequence of queries on a temperature cache returns the same answers as asking each query on a fresh cache.",
  "every finite sequence of queries","Six mutually dependent lazily filled caches.",[TC+": TemperatureCache"])
p("Relative temperature is normalised","Relative temperature of the coldest colour is 0, of the warmest 1, and lies in [0,1] for the input and every colour of the wheel; coldest and warmest are extremal.",
  "all inputs","All colours.",[TC+": relative_temperature, get_coldest, get_warmest, raw_temperature"])
p("Analogous colours have the requested count and contain the input","analogous(count, divisions) returns exactly max(count,1) colours, one of them being the input, all others from the hue wheel, and always terminates.",
  "all inputs, counts and divisions","All integers for count and division.",[TC+": analogous"])
p("Temperature queries never panic","Complement and analogous colours can be computed for every colour without a panic.",
  "every colour","The failing colours have hue in [359.5,360).",[TC+": analogous, get_complement, get_hcts_by_hue"])
p("Counting quantizer counts exactly","The map quantizer returns each distinct opaque pixel with its exact multiplicity and nothing else; the total equals the number of opaque pixels; it ignores the order of pixels.",
  "every pixel list","Unbounded lists.",[QM+": QuantizerMap::quantize"])
p("Wu histogram indexing is collision free and in bounds","The flattened 3-D histogram index is injective on 0..32 cubed and always inside the array.",
  "all index triples","35937 triples (finite but about all users).",[QW+": get_index, construct_histogram"])
p("Wu cumulative moments equal box sums","After preprocessing, the inclusion-exclusion volume of any box equals the sum of the weights (resp. red, green, blue, squared) of the histogram cells inside, and bottom+top is the volume of the half box.",
  "all histograms and all boxes","All pixel lists and all boxes.",[QW+": compute_moments, volume, bottom, top"])
p("Wu boxes partition colour space and conserve weight","At any point of box splitting the boxes are disjoint and cover all histogram cells, so the weights of the boxes add up to the number of opaque pixels.",
  "all pixel lists, all numbers of colours","Loop invariant over all inputs.",[QW+": create_boxes, cut, maximize"])
p("Wu returns at most the requested number of opaque in-range colours","The Wu quantizer returns at most max_colors colours, each opaque with channels the integer mean of the pixels of its box (0..255), never divides by zero; it panics exactly for max_colors <= 0.",
  "all pixel lists, all max_colors","Unbounded.",[QW+": QuantizerWu::quantize, create_result"])
p("Wu arithmetic cannot overflow for images up to a stated size","All i64 intermediate values stay within range for every image up to a stated number of pixels.",
  "all pixel lists up to the bound","Overflow needs millions of pixels.",[QW+": maximize, variance, compute_moments"])
p("Wu result does not depend on pixel order","Permuting the input pixels does not change the result of Wu quantisation.",
  "all permutations of all pixel lists","Unbounded.",[QW+": QuantizerWu::quantize"])
p("Wsmeans result is within limits and conserves population","Weighted k-means returns at most max_colors colours, all opaque, with positive populations whose sum is at most the number of pixels, at least one colour for a nonempty image when at least one round is allowed and none when no round is allowed; on request it maps exactly the colours of the image, each to one of the returned colours, and a returned population never exceeds the number of pixels mapped to that colour. It panics exactly for a negative max_colors, or max_colors 0 with a nonempty image.",
  "all pixel lists, starting clusters, iteration counts, random choices","Unbounded inputs and random seeds.",[QS+": QuantizerWsmeans::quantize"])
p("Celebi quantizer composes Wu and Wsmeans within limits","The Celebi quantizer returns at most max_colors colours, all opaque, populations at most the pixel count, at least one colour for a nonempty image, every input colour mapped to a returned colour on request, for any hash map iteration order; it panics exactly for max_colors at most 0.",
  "all pixel lists, all iteration orders, all random choices","Hash iteration order is nondeterministic.",[QC+": QuantizerCelebi::quantize"])
p("Score returns between 1 and desired colours, all from the input","Scoring returns at least one colour and at most max(1, desired); each is a key of the input or, only when nothing qualifies, the fallback colour.",
  "all population maps, all iteration orders, any arithmetic","Unbounded maps; hash order.",[SC+": Score::score"])
p("Scored colours are at least 15 degrees apart in hue and pass the filter","All returned colours are pairwise at least 15 degrees of hue apart, and with filtering every returned non-fallback colour has chroma >= 5 and neighbourhood proportion > 1%; the spacing is the largest one in 15..90 at which the desired number could be selected.",
  "all population maps with a positive total count","Unbounded maps.",[SC+": Score::score"])
p("Scored colours are ranked by score","The first returned colour has the highest score among qualifying colours, and returned colours are in non-increasing score order.",
  "all population maps with a positive total count","Sorting with a custom, inconsistent ordering instance.",[SC+": Score::score, ScoredHCT"])
p("Tone pairs keep their distance and avoid the awkward zone","For every role with a tone-difference partner, after all contrast adjustments, both tones of the pair are at least the declared distance apart in the declared order and none of them lies in [50,60) unless the pair does not stay together.",
  "all schemes, contrast levels and pairs","Reals, many branches.",[DC+": DynamicColor::get_tone"])
p("Every Material role can be evaluated for every scheme","For every Material role and every scheme (any variant, contrast level, palettes), tone evaluation terminates without panic; backgrounds are acyclic.",
  "all roles, all schemes","Recursion through closures; all schemes.",[MD+": MaterialDynamicColors",DC+": get_tone"])
p("Role tones are valid tones","Every Material role's tone lies in [0,100] for every scheme with source tone in [0,100].",
  "all roles and schemes","All contrast levels and sources.",[DC+": get_tone",MD+": MaterialDynamicColors"])
p("Text roles are readable on their surfaces","For every scheme and contrast level >= 0, each on-X role has a contrast of at least 4.5 against X (tones), and at least 3.0 for negative contrast levels.",
  "all schemes, all contrast levels, dark and light","Repo tests sample 4 seeds x 5 levels; contrast levels are real numbers.",[MD+": on_primary, on_surface, ...",DC+": get_tone"])
p("Primary/container and fixed/fixed-dim roles stay distinguishable","For every scheme and contrast level, primary/secondary/tertiary/error and their containers differ by at least 10 in tone, and fixed roles are lighter than fixed-dim roles by at least 10.",
  "all schemes","All contrast levels and sources.",[MD+": primary, primary_container, primary_fixed, primary_fixed_dim",DC+": get_tone"])
p("Dynamic colour cache is bounded and transparent","A dynamic colour's cache never holds more than five entries after any sequence of queries, and cached answers equal freshly computed ones.",
  "all query sequences","Unbounded histories.",[DC+": get_hct"])
p("Hue rotation table lookup is total and rotates as tabulated","For a hue in [0,360) strictly inside a table interval the rotated hue is the hue plus that interval's rotation modulo 360; with a single rotation it is always applied; tables of different length are rejected; the result is a sanitised angle.",
  "all hues and all tables","All reals; interval boundaries.",[DS+": get_rotated_hue"])
p("Monochrome schemes produce only grays","Every colour of the accent and neutral palettes of a monochrome scheme has equal red, green and blue for every seed.",
  "all seeds, tones","All.",["src/scheme/scheme_monochrome.rs: SchemeMonochrome::new",HS+": solve_to_int"])
p("Scheme variants request the documented hue and chroma","Each scheme variant's palettes carry exactly the documented hue offset and chroma for every source colour and the hue is a sanitised angle.",
  "all source colours","All.",["src/scheme/*.rs",DS+": DynamicScheme"])
p("Viewing conditions reject bad surrounds and stay finite","Making viewing conditions panics exactly when the surround is outside [0,2]; the degree of adaptation is in [0,1] and the background tone is at least 0.1.",
  "all parameters","All reals.",[VC+": ViewingConditions::make"])
p("Legacy light/dark schemes are tone tables of the core palette","Each role of the legacy light/dark scheme is the core palette colour at the documented tone for every seed; on-colours contrast at least 4.5 with their surfaces by tone.",
  "all seeds","All 2^24 seeds.",[SD+": Scheme::light, dark, light_content, dark_content"])
TC="src/temperature/temperature_cache.rs"
p("Being between two angles means lying on the arc from one to the other","For angles in [0,360), is_between(x,a,b) holds exactly when, turning upwards from a, x is met no later than b; when a = b it holds for every x.",
  "all angles","All reals; wrap-around.",[TC+": is_between"])
p("The complement is the best temperature match on the opposite arc","The complement of a colour is a wheel colour on the coldest-warmest arc that does not contain the colour, with relative temperature nearest to one minus the colour's; ties go to the first.",
  "all colours whose wheel is not uniformly warm","Optimality over a search of 360 candidates for every colour.",[TC+": get_complement"])
p("Only black has no chroma","Reading a colour as hue, chroma and tone gives chroma 0 exactly for black (red = green = blue = 0); every other colour, grays included, has a positive chroma.",
  "all 2^32 colours","All colours, in exact arithmetic; in floating point the smallest positive values cannot be told apart by sampling.",["src/hct/cam16.rs: from_int","src/hct/hct.rs: Hct::from_int, get_chroma"])
p("Wu cuts a box where the parts are most uniform","When the Wu quantizer cuts a box of colour space in two, the cut leaves opaque pixels on both sides and, of all such cuts along any axis, gives the smallest total of squared distances of the pixels from the mean colour of their part (in binary64: up to a relative error of 2^-48 of the sum of squares); it declines to cut exactly when no cut leaves pixels on both sides.",
  "all images, all boxes","Optimality over all cut positions for every image.",[QW+": cut, maximize, variance"])
p("Wu splits the most spread-out box first","The boxes whose mean colours the Wu quantizer returns are obtained from the whole colour space by repeatedly splitting, of the boxes that can be split, one with the largest sum of squared distances from the mean (rounded up to an integer).",
  "all images with an opaque pixel, all positive colour counts","A greedy choice repeated up to max_colors times, for every image.",[QW+": create_boxes, cut, variance"])
p("Wu returns as many colours as requested, if the image has them","The Wu quantizer returns min(max_colors, n) colours, where n is the number of different 8x8x8 cells of colour space that contain opaque pixels of the image.",
  "all images, all positive colour counts","Depends on the whole history of cuts; the failing images are rare.",[QW+": create_boxes, quantize"])
p("More rounds of k-means never make the clustering worse","The sum over all pixels of the squared L*a*b* distance to the centre of the pixel's cluster, whose 8-bit colour is the colour the pixel is mapped to, does not increase when the weighted k-means quantizer is allowed more rounds.",
  "all images, starting colours, colour counts, random choices, numbers of rounds","Monotonicity along unbounded iterations for every image.",[QS+": QuantizerWsmeans::quantize"])
p("Every colour of k-means is the mean of its pixels","If at least one round is allowed, the colours of the image fall into at most max_colors clusters such that every colour is mapped to the mean in L*a*b* of all pixels of its cluster, rounded to eight bits, and every reported colour is such a mean, reported with the number of pixels of the cluster.",
  "all images, starting colours, colour counts, random choices, positive numbers of rounds","Every image and every history of moves.",[QS+": QuantizerWsmeans::quantize","src/quantize/src/point_provider_lab.rs"])
p("Settled k-means maps every colour to the nearest centre","When further rounds of the weighted k-means quantizer change nothing, every colour of the image is mapped to the cluster whose centre is nearest in L*a*b*.",
  "all images, starting colours, colour counts, random choices","A wrong pruning test only matters for rare configurations of three or more centres.",[QS+": QuantizerWsmeans::quantize (distance_to_index_matrix)"])
p("Populations of k-means add up","If at least one round is allowed, the population reported for a colour is the number of pixels mapped to it, and the populations add up to the number of pixels.",
  "all images, starting colours, colour counts, random choices, positive numbers of rounds","Needs two clusters whose centres round to the same colour, which random images rarely give.",[QS+": QuantizerWsmeans::quantize (color_to_count)"])
p("Surfaces keep their order","In every scheme and with every contrast level the surface roles are ordered: in a dark scheme container-lowest, dim (= surface = background), container-low, container, container-high, container-highest and bright get lighter from one to the next, each by at least two tones, and so do the colours they are drawn with; in a light scheme container-lowest, bright (= surface = background), container-low, ..., container-highest, dim get darker.",
  "all schemes, all real contrast levels","A continuum of contrast levels; wrong control values show only at some of them.",[MD+": surface, surface_dim, surface_bright, surface_container_*"])
p("Tones are adjusted so that a light foreground is readable","enable_light_foreground changes a tone from 0 to 100 only if it rounds to 50..59, to 49; afterwards white has a contrast of at least 4.5 with a tone that prefers a light foreground, and black at least 6.5 with one that does not; doing it again changes nothing.",
  "all tones in [0,100]","A continuum of tones.",[DC+": enable_light_foreground, tone_prefers_light_foreground, tone_allows_light_foreground"])
p("Harmonising and blending by hue keep tone and contrast","A colour harmonised with or blended by hue towards another keeps its tone up to 0.84 and at least 93 percent of its WCAG contrast with any third colour; blending with amount 0 and 1 requests the hue of the first and of the second colour.",
  "all pairs of colours, all real amounts","2^48 pairs times a continuum.",["src/blend/blend.rs: hct_hue, harmonize"])
p("Roles are drawn with the tone computed for them","In every scheme made by the library the colour of a role is opaque and its tone differs from the tone computed for the role by at most 0.84.",
  "all schemes, all roles, all contrast levels","Every source colour, variant and contrast level.",[DC+": get_argb, get_hct, get_tone",MD])
p("Text is readable in the colours drawn","In every scheme made by the library, as drawn, text on an accent role, on a container, on a surface or on a fixed role has a WCAG contrast of at least 4.2 (less prominent text on surfaces and fixed roles: 4.2 from contrast level 0, else 2.8).",
  "all schemes, all text roles, all contrast levels","Every source colour, variant and contrast level, including the rounding to 8 bits.",[MD,DC+": get_argb"])
p("Contrast of tones is the WCAG contrast of colours","The contrast ratio computed from the tones of two colours is the contrast ratio of WCAG 2.1 of the two colours, and for colours requested by hue, chroma and tone the drawn contrast is at least 93.8 percent of the contrast of the requested tones.",
  "all pairs of colours; all requests with tones in [0,100]","2^48 pairs.",["src/contrast/contrast.rs: ratio_of_tones","src/utils/color_utils.rs: lstar_from_argb"])
p("Roles are drawn from the palette of their family","Every role belongs to one of the six families (primary, secondary, tertiary, error, neutral, neutral variant), and in every scheme made by the library it is drawn with the colour of hue and chroma of the palette of that family at the tone computed for the role; so roles of one family with equal tones have equal colours.",
  "all schemes, all roles, all contrast levels","Every source colour, variant and contrast level.",[MD,DC+": get_argb"])
p("Floating point hardly moves hue and chroma","For every colour but black, the hue computed in binary64 is within 2e-4 degrees (around the circle) of the hue defined by CAM16, chroma, colourfulness and saturation have relative errors of at most 5e-6, lightness and brightness of at most 1e-10, and the uniform coordinates are accurate to 8e-6 of the distance from the neutral axis; so two platforms with different math libraries agree to twice that. Black has lightness, brightness, chroma and colourfulness exactly 0.",
  "all 2^32 colours, all math libraries with small errors","For grays the hue is the angle of a vector that nearly cancels; how much is lost cannot be settled by sampling, and the result depends on the platform's math library.",["src/hct/cam16.rs: from_int","src/hct/hct.rs: Hct::from_int"])
p("Requesting the hue, chroma and tone of a colour gives that colour","For every opaque colour, requesting its own hue, chroma and tone returns exactly that colour; so requesting what was obtained changes nothing more, setting hue, chroma or tone to the present value changes nothing, hue, chroma and tone determine the colour, the palette of a colour contains it at its tone, and blending by hue with amount 0 gives the first colour.",
  "all 2^24 opaque colours (exact arithmetic, and doubles with every rounding error)","The solver stops after at most five Newton steps; that five are enough, and that the error then left never crosses a rounding boundary of a channel, must hold at every colour. The repo's own test of this (hct_round_trip_test.rs) is marked ignored, because it runs over all colours.",[HS+": solve_to_int, find_result_by_j","src/hct/hct.rs: Hct::from, from_int, set_hue, set_chroma, set_tone","src/palettes/tonal_palette.rs: get_hct","src/blend/blend.rs: hct_hue, harmonize"])
p("What cannot be reached is approached at the requested hue","Every answer to a request whose chroma cannot be reached at its hue and tone is the colour of the middle of two points that have exactly the requested luminance, lie in the RGB gamut and whose hues enclose the requested hue: going round the hue circle from the hue of the first point, the requested hue comes before the hue of the second.",
  "all requests out of gamut: every real hue, chroma and tone","The search is a bisection on a circle, with wrap-around, that picks one of two halves at every step; one wrong comparison only shows for hues near the wrap-around or near the corners of the gamut.",[HS+": bisect_to_segment, bisect_to_limit, are_in_cyclic_order, sanitize_radians"])
p("Blending is an even walk along a straight line",
  "An appearance made from coordinates of the uniform colour space has exactly these coordinates and a hue in [0, 360). Blending two colours by an amount t therefore gives the same colour as blending them in the opposite order by 1 - t, and before rounding to eight bits the blend is at t times the distance of both colours from the first and 1 - t times from the second.",
  "all coordinates with a lightness other than the pole 1700/7 of the formula, all viewing conditions, all pairs of colours, all amounts from 0 to 1",
  "Every pair of colours and every real amount.",
  ["src/hct/cam16.rs: from_ucs_in_viewing_conditions, from_jch_in_viewing_conditions", "src/blend/blend.rs: cam16_ucs"])
json.dump
open("/verif/properties.jsonl","w").write("".join(json.dumps(x)+"\n" for x in P))
print(len(P))
