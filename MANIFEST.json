{
 "claims": [
  {
   "property": "C01",
   "status": "proved",
   "theorems": [
    "Mcu.Props.bits_channels",
    "Mcu.Props.bits_pack",
    "Mcu.Props.c01_channels",
    "Mcu.Props.c01_pack_unpack",
    "Mcu.Props.c01_pack_opaque",
    "Mcu.Props.c01_i64"
   ],
   "note": "All integers; bits_pack/bits_channels tie the arithmetic model to 64-bit two's complement."
  },
  {
   "property": "C02",
   "status": "proved",
   "theorems": [
    "Mcu.Props.bits_channels",
    "Mcu.Props.bits_pack",
    "Mcu.Props.c02_unpack_pack",
    "Mcu.Props.c02_opaque_identity",
    "Mcu.Props.c02_bijection"
   ],
   "note": "All integers."
  },
  {
   "property": "C03",
   "status": "proved",
   "theorems": [
    "Mcu.Props.c03_format",
    "Mcu.Props.c03_round_trip",
    "Mcu.Props.c03_injective"
   ],
   "note": "All integers, both hash settings."
  },
  {
   "property": "C04",
   "status": "proved",
   "theorems": [
    "Mcu.Props.c04_parse_decision",
    "Mcu.Props.c04_parse_none"
   ],
   "note": "All strings; from_str_radix of the standard library is modelled."
  },
  {
   "property": "C05",
   "status": "proved",
   "theorems": [
    "Mcu.Props.c05_sanitize_int",
    "Mcu.Props.c05_idempotent"
   ],
   "note": "All integers."
  },
  {
   "property": "C06",
   "status": "partial",
   "theorems": [
    "Mcu.Props.c06_sanitize_real",
    "Mcu.Props.c06_unique",
    "Mcu.Props.c06_fixed",
    "Mcu.Props.c06_idempotent",
    "Mcu.Props.c06_periodic",
    "Mcu.Props.Binary64.c06_binary64_partial",
    "Mcu.Props.Binary64.c06_violating_inputs",
    "Mcu.Props.Binary64.c06_violated",
    "Mcu.Props.Binary64.c06_binary64_fixed",
    "Mcu.Props.Binary64.c06_binary64_nan"
   ],
   "note": "Exact reals: proved in full. Binary64: range [0,360], error at most 2^-45 turn shift, exact for non-negative inputs (c06_binary64_partial); the half-open bound fails, exactly for the inputs of c06_violating_inputs (witness c06_violated)."
  },
  {
   "property": "C07",
   "status": "proved",
   "theorems": [
    "Mcu.Props.c07_circular_distance",
    "Mcu.Props.c07_symm",
    "Mcu.Props.c07_range",
    "Mcu.Props.c07_zero_iff",
    "Mcu.Props.c07_triangle",
    "Mcu.Props.Binary64.c07_binary64",
    "Mcu.Props.Binary64.c07_binary64_zero"
   ],
   "note": "Exact reals; binary64: within 2^-44 of the circular distance, in [0,180], symmetric (c07_binary64). In binary64 hues closer than 2^-46 have difference 0 (c07_binary64_zero)."
  },
  {
   "property": "C08",
   "status": "proved",
   "theorems": [
    "Mcu.Props.c08_unit",
    "Mcu.Props.c08_arrives",
    "Mcu.Props.c08_arrives_hues",
    "Mcu.Props.c08_positive_iff",
    "Mcu.Props.Binary64.c08_binary64",
    "Mcu.Props.Binary64.c08_binary64_shorter"
   ],
   "note": "Exact reals; in binary64 for finite angles of [0, 360] up to 1e-11 degrees (c08_binary64, c08_binary64_shorter)."
  },
  {
   "property": "C09",
   "status": "proved",
   "theorems": [
    "Mcu.Props.c09_clamp_int",
    "Mcu.Props.c09_clamp_int_monotone",
    "Mcu.Props.c09_clamp_int_idempotent",
    "Mcu.Props.c09_clamp_double",
    "Mcu.Props.c09_clamp_double_monotone",
    "Mcu.Props.c09_clamp_double_idempotent",
    "Mcu.Props.c09_lerp",
    "Mcu.Props.c09_lerp_monotone",
    "Mcu.Props.c09_signum",
    "Mcu.Props.Binary64.c09_binary64_clamp",
    "Mcu.Props.Binary64.c09_binary64_lerp"
   ],
   "note": "Exact reals and integers; clamping and the endpoints of interpolation also in binary64."
  },
  {
   "property": "C10",
   "status": "proved",
   "theorems": [
    "Mcu.Props.Binary64.c10_binary64_round_trip",
    "Mcu.Props.Binary64.c10_binary64_increasing",
    "Mcu.Props.c10_round_trip",
    "Mcu.Props.c10_endpoints",
    "Mcu.Props.c10_strictMono",
    "Mcu.Props.c10_range",
    "Mcu.Props.c10_delinearized_monotone",
    "Mcu.Props.c10_delinearized_ends"
   ],
   "note": "Round trip and monotonicity over exact reals; range for every number type. Round trip and strict monotonicity also in binary64 (c10_binary64_*), assuming powf is accurate to 1e-13."
  },
  {
   "property": "C11",
   "status": "proved",
   "theorems": [
    "Mcu.Props.Binary64.c11_binary64",
    "Mcu.Props.Binary64.c11_binary64_round_trip",
    "Mcu.Props.c11_lstar_y_lstar",
    "Mcu.Props.c11_y_lstar_y",
    "Mcu.Props.c11_strictMono",
    "Mcu.Props.c11_endpoints",
    "Mcu.Props.c11_range"
   ],
   "note": "Exact reals; monotonicity, range and endpoints of y_from_lstar in binary64 without assumptions (c11_binary64); the round trip in binary64 within a stated tolerance, assuming powf is accurate to 1e-13."
  },
  {
   "property": "C12",
   "status": "proved",
   "theorems": [
    "Mcu.Props.Binary64.c12_binary64_round_trip",
    "Mcu.Props.c12_xyz_round_trip",
    "Mcu.Props.c12_xyz_identity"
   ],
   "note": "Exact reals and binary64 (powf accurate to 1e-13), literal matrices, all colours."
  },
  {
   "property": "C13",
   "status": "proved",
   "theorems": [
    "Mcu.Props.Binary64.c13_binary64_round_trip",
    "Mcu.Props.c13_lab_round_trip",
    "Mcu.Props.c13_lab_identity"
   ],
   "note": "Exact reals and binary64 (powf accurate to 1e-13), literal matrices, all colours."
  },
  {
   "property": "C14",
   "status": "proved",
   "theorems": [
    "Mcu.Props.c14_color_utils",
    "Mcu.Props.c14_cam16",
    "Mcu.Props.c14_solver",
    "Mcu.Props.c14_hct",
    "Mcu.Props.c14_blend"
   ],
   "note": "Every number type."
  },
  {
   "property": "C15",
   "status": "proved",
   "theorems": [
    "Mcu.Props.Binary64.c15_binary64",
    "Mcu.Props.c15_range",
    "Mcu.Props.c15_ignores_alpha",
    "Mcu.Props.c15_strictly_monotone",
    "Mcu.Props.c15_extremes"
   ],
   "note": "Exact reals and binary64 (powf accurate to 1e-13)."
  },
  {
   "property": "C16",
   "status": "proved",
   "theorems": [
    "Mcu.Props.Binary64.c16_binary64_exact_on_grays",
    "Mcu.Props.Binary64.c16_binary64_accuracy",
    "Mcu.Props.Binary64.c16_binary64_saturates",
    "Mcu.Props.c16_gray",
    "Mcu.Props.c16_monotone",
    "Mcu.Props.c16_saturates",
    "Mcu.Props.c16_exact_on_grays",
    "Mcu.Props.c16_accuracy"
   ],
   "note": "Exact reals with error bound 0.26; binary64 with error bound 0.2601 (powf accurate to 1e-13) and black and white for tones out of range up to 2^53 (c16_binary64_saturates)."
  },
  {
   "property": "C17",
   "status": "proved",
   "theorems": [
    "Mcu.Props.Binary64.c17_binary64",
    "Mcu.Props.Binary64.c17_binary64_extremes",
    "Mcu.Props.Binary64.c17_binary64_monotone",
    "Mcu.Props.c17_symm",
    "Mcu.Props.c17_range",
    "Mcu.Props.c17_extremes",
    "Mcu.Props.c17_one_iff",
    "Mcu.Props.c17_one_iff_in_range",
    "Mcu.Props.c17_monotone",
    "Mcu.Props.c17_strictly_monotone"
   ],
   "note": "Exact reals; range, symmetry, extremes and monotonicity also in binary64, infinite tones included."
  },
  {
   "property": "C18",
   "status": "proved",
   "theorems": [
    "Mcu.Props.Binary64.c18_binary64_sound",
    "Mcu.Props.Binary64.c18_binary64_complete",
    "Mcu.Props.c18_sound",
    "Mcu.Props.c18_complete",
    "Mcu.Props.c18_out_of_range",
    "Mcu.Props.c18_answer"
   ],
   "note": "Exact reals; also in binary64 (powf accurate to 1e-13) for the ratios the library itself computes, ratios up to 100 when lightening."
  },
  {
   "property": "C19",
   "status": "proved",
   "theorems": [
    "Mcu.Props.Binary64.c19_binary64_sound",
    "Mcu.Props.Binary64.c19_binary64_complete",
    "Mcu.Props.c19_sound",
    "Mcu.Props.c19_complete",
    "Mcu.Props.c19_out_of_range",
    "Mcu.Props.c19_answer"
   ],
   "note": "Exact reals; also in binary64 (powf accurate to 1e-13) for the ratios the library itself computes, ratios up to 100 when lightening."
  },
  {
   "property": "C20",
   "status": "proved",
   "theorems": [
    "Mcu.Props.Binary64.c20_binary64",
    "Mcu.Props.c20_decision",
    "Mcu.Props.c20_range"
   ],
   "note": "Exact reals; also in binary64 (powf accurate to 1e-13) for the ratios the library itself computes, ratios up to 100 when lightening."
  },
  {
   "property": "C21",
   "status": "proved",
   "theorems": [
    "Mcu.Props.Binary64.c21_binary64_range",
    "Mcu.Props.Binary64.c21_binary64_meets_ratio",
    "Mcu.Props.Binary64.c21_binary64_always",
    "Mcu.Props.c21_range",
    "Mcu.Props.c21_meets_ratio",
    "Mcu.Props.c21_always_4_5",
    "Mcu.Props.c21_near_best"
   ],
   "note": "Exact reals; range and reaching the ratio also in binary64 (powf accurate to 1e-13)."
  },
  {
   "property": "C22",
   "status": "proved",
   "theorems": [
    "Mcu.Props.Binary64.c22_binary64_control_values",
    "Mcu.Props.Binary64.c22_binary64_accurate",
    "Mcu.Props.c22_spec",
    "Mcu.Props.c22_control_values",
    "Mcu.Props.c22_continuous",
    "Mcu.Props.c22_bounded",
    "Mcu.Props.c22_monotone"
   ],
   "note": "Exact reals; in binary64 the four control values are met exactly and every level (infinities and NaN included) is within 1e-9 of the exact interpolation (c22_binary64_accurate)."
  },
  {
   "property": "C23",
   "status": "proved",
   "theorems": [
    "Mcu.Props.c23_coherent",
    "Mcu.Props.c23_opaque",
    "Mcu.Props.c23_setters",
    "Mcu.Props.c23_from_int",
    "Mcu.Props.c23_equality"
   ],
   "note": "Every number type, induction over histories of setters."
  },
  {
   "property": "C24",
   "status": "proved",
   "theorems": [
    "Mcu.Props.Binary64.c24_binary64_black_white",
    "Mcu.Props.Binary64.c24_binary64_hue_mod_360",
    "Mcu.Props.c24_never_sentinel",
    "Mcu.Props.c24_gray",
    "Mcu.Props.c24_hue_sanitized",
    "Mcu.Props.c24_hue_mod_360",
    "Mcu.Props.c24_solve_to_cam",
    "Mcu.Props.c24_black_white"
   ],
   "note": "Every number type; hue period over exact reals, and in binary64 for hues that differ by whole turns and are not multiples of 360 (where one may be -0); black and white for tones out of range also in binary64, for every hue and chroma, NaN included."
  },
  {
   "property": "C25",
   "status": "proved",
   "theorems": [
    "Mcu.Props.Binary64.c25_binary64_no_panic",
    "Mcu.Props.Binary64.c25_binary64_segment",
    "Mcu.Props.Binary64.c25_binary64_segment_any",
    "Mcu.Props.Binary64.c25_binary64_limit",
    "Mcu.Props.Binary64.c25_binary64_color",
    "Mcu.Props.c25_segment",
    "Mcu.Props.c25_bisection",
    "Mcu.Props.c25_bisection_finishes",
    "Mcu.Props.c25_limit",
    "Mcu.Props.c25_color"
   ],
   "note": "Exact reals for every luminance and hue. In binary64 (with a correctly bounded pow): no table access is out of range for any doubles, NaN and infinities included; the search starts from points of the cube with the requested luminance within 1e-11; the point it ends at is finite, within 0.006 of the cube and has the requested luminance within 0.000021; and the colour returned has the requested tone within 0.4701."
  },
  {
   "property": "C26",
   "status": "proved",
   "theorems": [
    "Mcu.Props.Binary64.c26_binary64_clamped",
    "Mcu.Props.Binary64.c26_binary64",
    "Mcu.Props.Binary64.c26_binary64_partial",
    "Mcu.Props.Binary64.c26_binary64_out_of_gamut",
    "Mcu.Props.Binary64.c26_binary64_gray",
    "Mcu.Props.c26_tone",
    "Mcu.Props.c26_out_of_gamut",
    "Mcu.Props.c26_gray",
    "Mcu.Props.c26_clamped"
   ],
   "note": "The tone is within 0.84 of the requested one for every hue, chroma and tone in [0,100], over exact reals, including the unchecked fifth round of the exact search. In binary64 it is within 0.846 for every finite hue, every finite chroma up to 1e50 and every tone in [0,100] (c26_binary64), for every math library with the accuracy named in Spec/Libm.lean. For arbitrary doubles as hue and chroma it is within 0.471 unless the colour is the unchecked last candidate of the exact search (c26_binary64_partial), and without exception when the search fails (c26_binary64_out_of_gamut) or the colour is gray (c26_binary64_gray)."
  },
  {
   "property": "C27",
   "status": "proved",
   "theorems": [
    "Mcu.Props.Binary64.c27_binary64_partial",
    "Mcu.Props.Binary64.c27_binary64",
    "Mcu.Props.Binary64.c27_binary64_not_black",
    "Mcu.Props.c27_hue_assertion",
    "Mcu.Props.c27_nonneg_in",
    "Mcu.Props.c27_nonneg"
   ],
   "note": "Exact reals, all colours and all physical viewing conditions. In binary64 for every colour in the default viewing conditions: all coordinates are finite and not negative and the assertion holds (c27_binary64; black needs the assumption AtanZero on atan2 of two zeros). c27_binary64_partial is an earlier form with fewer assumptions on the math library."
  },
  {
   "property": "C28",
   "status": "proved",
   "theorems": [
    "Mcu.Props.Binary64.c28_binary64_fields",
    "Mcu.Props.Binary64.c28_binary64_round_trip",
    "Mcu.Props.Binary64.c28_binary64_jch",
    "Mcu.Props.Binary64.c28_binary64_injective",
    "Mcu.Props.c28_round_trip_in",
    "Mcu.Props.c28_round_trip",
    "Mcu.Props.c28_jch",
    "Mcu.Props.c28_injective"
   ],
   "note": "Exact reals, literal matrices, all colours, every viewing condition with non-negative cones. In binary64 with every rounding error (Libm.Sound, TempOk, CamOk), all colours, standard viewing conditions: finite fields, colour back from its CAM16 coordinates and from J, C, h, injectivity."
  },
  {
   "property": "C29",
   "status": "proved",
   "theorems": [
    "Mcu.Props.Binary64.c29_binary64_endpoints",
    "Mcu.Props.Binary64.c29_binary64_same",
    "Mcu.Props.Binary64.c29_binary64_injective",
    "Mcu.Props.c29_endpoints",
    "Mcu.Props.c29_same",
    "Mcu.Props.c29_opaque"
   ],
   "note": "Exact reals and binary64 with every rounding error (Libm.Sound, TempOk, CamOk, ExpUp), all colours: both ends of blending, blending with itself for every finite amount, injectivity of the coordinates."
  },
  {
   "property": "C30",
   "status": "proved",
   "theorems": [
    "Mcu.Props.Binary64.c30_binary64_symm",
    "Mcu.Props.Binary64.c30_binary64_colors",
    "Mcu.Props.c30_nonneg_symm",
    "Mcu.Props.c30_zero_iff",
    "Mcu.Props.c30_colors",
    "Mcu.Props.c30_increasing",
    "Mcu.Props.c30_triangle"
   ],
   "note": "Exact reals, triangle inequality included. In binary64: symmetry for all coordinates including NaN and infinity and any math library; finite, not negative and zero exactly for equal colours (Libm.Sound, TempOk, CamOk, ExpUp, PowPos)."
  },
  {
   "property": "C31",
   "status": "proved",
   "theorems": [
    "Mcu.Props.Binary64.c31_binary64_hue",
    "Mcu.Props.Binary64.c31_binary64_harmonize",
    "Mcu.Props.c31_hue",
    "Mcu.Props.c31_harmonize"
   ],
   "note": "Exact reals, all colours; in binary64 the turn and its distances up to 2e-11 degrees (c31_binary64_hue, c31_binary64_harmonize; the latter for a sound maths library)."
  },
  {
   "property": "C32",
   "status": "proved",
   "theorems": [
    "Mcu.Props.c32_history_independent",
    "Mcu.Props.c32_history_independent_from_hct",
    "Mcu.Props.c32_reads_keep_parameters",
    "Mcu.Props.c32_opaque"
   ],
   "note": "Every number type, induction over histories of reads."
  },
  {
   "property": "C33",
   "status": "partial",
   "theorems": [
    "Mcu.Props.c33_characterisation",
    "Mcu.Props.c33_integer_tones_partial",
    "Mcu.Props.c33_unread_tones_partial",
    "Mcu.Props.c33_violated"
   ],
   "note": "Integer tones proved; fractional tones refuted with a witness (c33_violated)."
  },
  {
   "property": "C34",
   "status": "proved",
   "theorems": [
    "Mcu.Props.c34_accepts",
    "Mcu.Props.c34_round_trip",
    "Mcu.Props.c34_get",
    "Mcu.Props.c34_core_accepts",
    "Mcu.Props.c34_core_from_list",
    "Mcu.Props.c34_core_round_trip"
   ],
   "note": "Every number type, all lists, all histories."
  },
  {
   "property": "C35",
   "status": "partial",
   "theorems": [
    "Mcu.Props.c35_core_partial",
    "Mcu.Props.c35_core_characterisation",
    "Mcu.Props.c35_core_violated",
    "Mcu.Props.c35_characterisation",
    "Mcu.Props.c35_refl_symm_partial",
    "Mcu.Props.c35_same_kind_partial",
    "Mcu.Props.c35_not_transitive",
    "Mcu.Props.c35_hash_disagrees"
   ],
   "note": "Reflexive, symmetric, and lawful within one kind of palette; transitivity and hash agreement refuted with witnesses. For core palettes: an equivalence consistent with hashing among those made from colours; every one of them, rebuilt from its own list of colours, is equal to what it was but hashes differently (c35_core_violated)."
  },
  {
   "property": "C36",
   "status": "proved",
   "theorems": [
    "Mcu.Props.Binary64.c36_binary64",
    "Mcu.Props.c36_any_tone",
    "Mcu.Props.c36_key_color",
    "Mcu.Props.c36_at_least_tone_50"
   ],
   "note": "Minimality and stopping rule for exact reals; c36_any_tone (the key colour is the colour of the hue and chroma at a tone a whole number of at most 49 steps from 50) for any number type; c36_binary64: in double arithmetic the key colour misses the wanted chroma least among the tones tried, and the search stops early only on a rounded match."
  },
  {
   "property": "C37",
   "status": "proved",
   "theorems": [
    "Mcu.Props.Binary64.c37_binary64_core",
    "Mcu.Props.Binary64.c37_binary64_content",
    "Mcu.Props.c37_core",
    "Mcu.Props.c37_content"
   ],
   "note": "Exact reals, all colours and histories; c37_binary64_core and c37_binary64_content give the hues and chromas in double arithmetic (tertiary hue to within 1e-12)."
  },
  {
   "property": "C38",
   "status": "proved",
   "theorems": [
    "Mcu.Props.Binary64.c38_binary64",
    "Mcu.Props.Binary64.c38_binary64_characterisation",
    "Mcu.Props.c38_characterisation",
    "Mcu.Props.c38_liked_unchanged",
    "Mcu.Props.c38_fixed",
    "Mcu.Props.c38_result_liked",
    "Mcu.Props.c38_idempotent"
   ],
   "note": "Exact reals; c38_binary64 and c38_binary64_characterisation in double arithmetic."
  },
  {
   "property": "C39",
   "status": "proved",
   "theorems": [
    "Mcu.Props.Binary64.c39_binary64",
    "Mcu.Props.c39_history",
    "Mcu.Props.c39_sequence"
   ],
   "note": "Any arithmetic in which -1.0 >= 0.0 is false; that holds in binary64 (c39_binary64)."
  },
  {
   "property": "C40",
   "status": "proved",
   "theorems": [
    "Mcu.Props.Binary64.c40_binary64_formula",
    "Mcu.Props.Binary64.c40_binary64_table",
    "Mcu.Props.Binary64.c40_binary64_extremes",
    "Mcu.Props.Binary64.c40_binary64_sorted",
    "Mcu.Props.Binary64.c40_binary64_order",
    "Mcu.Props.Binary64.c40_binary64_relative",
    "Mcu.Props.Binary64.c40_binary64_ends",
    "Mcu.Props.Binary64.c40_binary64_input",
    "Mcu.Props.c40_formula",
    "Mcu.Props.c40_extremes",
    "Mcu.Props.c40_sorted",
    "Mcu.Props.c40_relative",
    "Mcu.Props.c40_range",
    "Mcu.Props.c40_ends",
    "Mcu.Props.c40_input"
   ],
   "note": "Exact reals, and binary64: computed temperatures are within 1e-4 of the documented formula (c40_binary64_formula, assuming Libm.Sound and Libm.TempOk), order, extremes and relative temperatures are exact for the computed ones. relative_temperature panics exactly for colours that are not among those considered (c40_relative)."
  },
  {
   "property": "C41",
   "status": "proved",
   "theorems": [
    "Mcu.Props.Binary64.c41_binary64",
    "Mcu.Props.Binary64.c41_binary64_members",
    "Mcu.Props.c41_analogous",
    "Mcu.Props.c41_members"
   ],
   "note": "Exact reals and binary64 (c41_binary64, |count - 1| below 2^53), hue below 359.5 (see C42)."
  },
  {
   "property": "C42",
   "status": "partial",
   "theorems": [
    "Mcu.Props.Binary64.c42_binary64_analogous_iff",
    "Mcu.Props.Binary64.c42_binary64_complement_iff",
    "Mcu.Props.Binary64.c42_binary64_partial",
    "Mcu.Props.Binary64.c42_binary64_violated",
    "Mcu.Props.Binary64.c42_binary64_schemes",
    "Mcu.Props.c42_analogous_panics_iff",
    "Mcu.Props.c42_complement_panics_iff",
    "Mcu.Props.c42_violated",
    "Mcu.Props.c42_no_panic_partial"
   ],
   "note": "The claim is false: proved panic conditions, in exact reals and in binary64, and the witness #FF008B (c42_violated, c42_binary64_violated); schemes built from the cache fail exactly when c42_binary64_schemes says. The rest is c42_no_panic_partial and c42_binary64_partial."
  },
  {
   "property": "C43",
   "status": "proved",
   "theorems": [
    "Mcu.Props.c43_exact_counts",
    "Mcu.Props.c43_keys_nodup",
    "Mcu.Props.c43_entries",
    "Mcu.Props.c43_total",
    "Mcu.Props.c43_order_independent"
   ],
   "note": "Over the association-list model of the hash map; entries exact, keys distinct, total, order independence."
  },
  {
   "property": "C44",
   "status": "proved",
   "theorems": [
    "Mcu.Props.c44_injective",
    "Mcu.Props.c44_in_bounds",
    "Mcu.Props.c44_pixel_cell"
   ],
   "note": ""
  },
  {
   "property": "C45",
   "status": "proved",
   "theorems": [
    "Mcu.Props.c45_volume",
    "Mcu.Props.c45_squares",
    "Mcu.Props.c45_halves",
    "Mcu.Props.c45_half_pixels",
    "Mcu.Props.c45_half_pixels_gb",
    "Mcu.Props.c45_binary64_squares"
   ],
   "note": "Volumes equal pixel counts and channel sums for every image, box, iteration order and arithmetic. Table of squares: exact over the reals, and in binary64 without rounding up to 10^10 opaque pixels (c45_binary64_squares)."
  },
  {
   "property": "C46",
   "status": "proved",
   "theorems": [
    "Mcu.Props.c46_partition"
   ],
   "note": "After any number of rounds; for exact reals and for binary64 (class WuArith, instances for both, NaN and infinities included)."
  },
  {
   "property": "C47",
   "status": "proved",
   "theorems": [
    "Mcu.Props.c47_mean_range",
    "Mcu.Props.c47_result",
    "Mcu.Props.c47_panics_iff",
    "Mcu.Props.c47_colors",
    "Mcu.Props.c47_nonempty",
    "Mcu.Props.c47_distinct"
   ],
   "note": "For exact reals and for binary64. Result list before it becomes the key set of a map; c47_distinct: its colours are distinct."
  },
  {
   "property": "C48",
   "status": "proved",
   "theorems": [
    "Mcu.Props.c48_volumes",
    "Mcu.Props.c48_squares",
    "Mcu.Props.c48_tables",
    "Mcu.Props.c48_summands",
    "Mcu.Props.c48_sharp"
   ],
   "note": "Bound 6876129 opaque pixels, shown sharp by an explicit image."
  },
  {
   "property": "C49",
   "status": "proved",
   "theorems": [
    "Mcu.Props.c49_order_independent",
    "Mcu.Props.c49_binary64"
   ],
   "note": "Over exact reals for every image, and in binary64 up to 10^10 opaque pixels, where every sum in the table of squares is exact (c49_binary64)."
  },
  {
   "property": "C50",
   "status": "proved",
   "theorems": [
    "Mcu.Props.c50_panics_iff",
    "Mcu.Props.c50_length",
    "Mcu.Props.c50_colors",
    "Mcu.Props.c50_map",
    "Mcu.Props.c50_nonempty",
    "Mcu.Props.c50_no_rounds",
    "Mcu.Props.c50_population"
   ],
   "note": "Any arithmetic; random indices are any distinct indices."
  },
  {
   "property": "C51",
   "status": "proved",
   "theorems": [
    "Mcu.Props.c51_panics_iff",
    "Mcu.Props.c51_colors",
    "Mcu.Props.c51_map"
   ],
   "note": "For exact reals and for binary64; hash orders and random indices arbitrary."
  },
  {
   "property": "C52",
   "status": "proved",
   "theorems": [
    "Mcu.Props.Binary64.c52_binary64_no_panic",
    "Mcu.Props.c52_length",
    "Mcu.Props.c52_members",
    "Mcu.Props.c52_no_panic"
   ],
   "note": "Length and membership for any arithmetic; absence of panics over exact reals and in binary64 (every map; uses that no computed hue reaches 360)."
  },
  {
   "property": "C53",
   "status": "proved",
   "theorems": [
    "Mcu.Props.Binary64.c53_binary64_spacing",
    "Mcu.Props.Binary64.c53_binary64_filter",
    "Mcu.Props.Binary64.c53_binary64_maximal",
    "Mcu.Props.Binary64.c53_binary64_largest_spacing",
    "Mcu.Props.Binary64.c53_binary64_zero_counts",
    "Mcu.Props.c53_refinement",
    "Mcu.Props.c53_spacing",
    "Mcu.Props.c53_filter",
    "Mcu.Props.c53_maximal",
    "Mcu.Props.c53_largest_spacing"
   ],
   "note": "Exact reals, total population nonzero (the code divides by it). In binary64 for non-negative counts with total 1..2^53: spacing up to 1e-13 degrees, shares up to 1e-9, maximality and largest spacing. c53_binary64_zero_counts shows what happens outside the quantifier: if all counts are zero the shares are NaN and the filter lets every colour of chroma 5 through."
  },
  {
   "property": "C54",
   "status": "proved",
   "theorems": [
    "Mcu.Props.Binary64.c54_binary64_descending",
    "Mcu.Props.Binary64.c54_binary64_first",
    "Mcu.Props.Binary64.c54_binary64_order_independent",
    "Mcu.Props.c54_descending",
    "Mcu.Props.c54_first",
    "Mcu.Props.c54_order_independent"
   ],
   "note": "Exact reals; total population nonzero. Also independence of the hash order when scores differ. The same in binary64 (total 1..2^53) up to the rounding of the scores, 1e-7 plus 1e-15 of the chroma."
  },
  {
   "property": "C55",
   "status": "proved",
   "theorems": [
    "Mcu.Props.Binary64.c55_binary64",
    "Mcu.Props.c55_distance",
    "Mcu.Props.c55_range"
   ],
   "note": "Generic over the role set, over the reals: any declared pair with both stated tones in [0,100] ends up at least its distance apart on the side the polarity asks for, outside [50,60), in [0,100]. In binary64 for distance 10, the only one the library declares, with 9.9999 instead of 10 (c55_binary64)."
  },
  {
   "property": "C56",
   "status": "partial",
   "theorems": [
    "Mcu.Props.c56_total",
    "Mcu.Props.c56_total_without_search",
    "Mcu.Props.c56_acyclic",
    "Mcu.Props.c56_search_ends_light",
    "Mcu.Props.c56_search_ends_partial",
    "Mcu.Props.c56_total_light"
   ],
   "note": "Every role has a tone with a recursion depth of 3, whatever the scheme, if the search for the secondary container's tone (fidelity and content only) ends; the other roles need no such condition. Over the reals the search is proved to end in every light scheme, and in a dark scheme whose palette exceeds white's chroma at tone 30; the other dark schemes are missing."
  },
  {
   "property": "C57",
   "status": "proved",
   "theorems": [
    "Mcu.Props.Binary64.c57_binary64",
    "Mcu.Props.c57_range",
    "Mcu.Props.c57_made"
   ],
   "note": "For every scheme made by a variant and every scheme assembled from hue/chroma palettes: over the reals exactly, in binary64 up to 2e-5 and never NaN or infinite (c57_binary64, with the assumption PowOk on the accuracy of powf)."
  },
  {
   "property": "C58",
   "status": "partial",
   "theorems": [
    "Mcu.Props.Binary64.c58_binary64_fixed_partial",
    "Mcu.Props.Binary64.c58_binary64_accents",
    "Mcu.Props.Binary64.c58_binary64_surfaces",
    "Mcu.Props.Binary64.c58_binary64_background",
    "Mcu.Props.Binary64.c58_binary64_surface_variant_partial",
    "Mcu.Props.c58_accents",
    "Mcu.Props.c58_background",
    "Mcu.Props.c58_surfaces",
    "Mcu.Props.c58_surface_variant",
    "Mcu.Props.c58_fixed_partial",
    "Mcu.Props.c58_surface_variant_violated",
    "Mcu.Props.c58_fixed_violated"
   ],
   "note": "Text on accent roles, containers and the inverse surface has at least 4.5 at every level; on_background, on_surface and on_surface_variant against all surfaces as stated; fixed roles proved with 4.48 instead of 4.5. Accents, background, surfaces, the light surface variant and the fixed roles also in binary64, up to 1e-9 (c58_binary64_*). The full statement is false: c58_fixed_violated (light scheme, level 0.421) and c58_surface_variant_violated (dark scheme, level -1, contrast below 2.5)."
  },
  {
   "property": "C59",
   "status": "proved",
   "theorems": [
    "Mcu.Props.Binary64.c59_binary64_accents",
    "Mcu.Props.Binary64.c59_binary64_fixed",
    "Mcu.Props.c59_accents",
    "Mcu.Props.c59_fixed"
   ],
   "note": "Over the reals, for every scheme whose source and key colours have tones in [0,100], every contrast level; the hypothesis is discharged for all schemes the library makes (tonesInRange_made). In binary64 for all schemes the library makes, with 9.9999 instead of 10 (c59_binary64_*)."
  },
  {
   "property": "C60",
   "status": "partial",
   "theorems": [
    "Mcu.Props.c60_answers_any",
    "Mcu.Props.Binary64.c60_binary64_transparent",
    "Mcu.Props.c60_bounded",
    "Mcu.Props.c60_transparent",
    "Mcu.Props.c60_transparent_assembled",
    "Mcu.Props.c60_answers",
    "Mcu.Props.c60_violated"
   ],
   "note": "Bound proved for every history and number type; transparency proved for schemes made by the library's constructors or assembled from palettes given by hue and chroma (exact reals), and in binary64 for schemes made by the constructors with a contrast level other than negative zero (NaN and infinities included); violated when palettes were read before (c60_violated)."
  },
  {
   "property": "C61",
   "status": "proved",
   "theorems": [
    "Mcu.Props.Binary64.c61_binary64_interval",
    "Mcu.Props.Binary64.c61_outside_any",
    "Mcu.Props.Binary64.c61_binary64_angle",
    "Mcu.Props.c61_rejects",
    "Mcu.Props.c61_single",
    "Mcu.Props.c61_interval",
    "Mcu.Props.c61_first_interval",
    "Mcu.Props.c61_outside",
    "Mcu.Props.c61_angle"
   ],
   "note": "Exact reals; a hue on a breakpoint is not turned (c61_outside). In binary64 too (c61_binary64_interval, c61_binary64_angle); c61_outside_any is for any arithmetic."
  },
  {
   "property": "C62",
   "status": "proved",
   "theorems": [
    "Mcu.Props.Binary64.c62_binary64_palettes",
    "Mcu.Props.Binary64.c62_binary64_roles",
    "Mcu.Props.c62_palettes",
    "Mcu.Props.c62_roles"
   ],
   "note": "Exact reals and binary64; palettes after any reads, and all Material roles except the error roles."
  },
  {
   "property": "C63",
   "status": "partial",
   "theorems": [
    "Mcu.Props.Binary64.c63_binary64_tonal_spot",
    "Mcu.Props.Binary64.c63_binary64_rainbow",
    "Mcu.Props.Binary64.c63_binary64_neutral",
    "Mcu.Props.Binary64.c63_binary64_monochrome",
    "Mcu.Props.Binary64.c63_binary64_fruit_salad",
    "Mcu.Props.Binary64.c63_binary64_vibrant",
    "Mcu.Props.Binary64.c63_binary64_vibrant_breakpoints",
    "Mcu.Props.Binary64.c63_binary64_expressive_partial",
    "Mcu.Props.Binary64.c63_binary64_expressive_violated",
    "Mcu.Props.Binary64.c63_binary64_content",
    "Mcu.Props.Binary64.c63_binary64_fidelity",
    "Mcu.Props.c63_tonal_spot",
    "Mcu.Props.c63_rainbow",
    "Mcu.Props.c63_neutral",
    "Mcu.Props.c63_monochrome",
    "Mcu.Props.c63_fruit_salad",
    "Mcu.Props.c63_vibrant",
    "Mcu.Props.c63_vibrant_breakpoints",
    "Mcu.Props.c63_expressive_partial",
    "Mcu.Props.c63_expressive_violated",
    "Mcu.Props.c63_content",
    "Mcu.Props.c63_fidelity"
   ],
   "note": "All variants proved, over the reals and in binary64 (c63_binary64_*: hues up to 2e-12 degrees, chromas exact; content and fidelity chromas up to a rounding error), except that the expressive variant's neutral palettes record a hue that may exceed 360 (c63_expressive_violated, c63_binary64_expressive_violated); their colours are proved. Content and fidelity cannot be built for some colours, characterised exactly over the reals."
  },
  {
   "property": "C64",
   "status": "proved",
   "theorems": [
    "Mcu.Props.Binary64.c64_binary64_panics_iff",
    "Mcu.Props.Binary64.c64_binary64_background",
    "Mcu.Props.Binary64.c64_binary64_adaptation",
    "Mcu.Props.c64_panics_iff",
    "Mcu.Props.c64_adaptation",
    "Mcu.Props.c64_positive"
   ],
   "note": "Exact reals; panic condition and background for all doubles; degree of adaptation for all doubles (Libm.ExpLow). Positivity of the results: exact reals."
  },
  {
   "property": "C65",
   "status": "proved",
   "theorems": [
    "Mcu.Props.Binary64.c65_binary64_tone",
    "Mcu.Props.Binary64.c65_binary64_contrast",
    "Mcu.Props.c65_table",
    "Mcu.Props.c65_seed",
    "Mcu.Props.c65_contrast",
    "Mcu.Props.c65_color_tone",
    "Mcu.Props.c65_color_contrast"
   ],
   "note": "Table for any core palette and number type; drawn tone and WCAG contrast of text roles for every seed, over exact reals and in binary64."
  },
  {
   "property": "C66",
   "status": "proved",
   "theorems": [
    "Mcu.Props.Binary64.c66_binary64",
    "Mcu.Props.c66_between"
   ],
   "note": "Exact reals, and binary64 (exactly, no rounding is involved) for hues below 360 (c66_binary64)."
  },
  {
   "property": "C67",
   "status": "proved",
   "theorems": [
    "Mcu.Props.Binary64.c67_binary64",
    "Mcu.Props.Binary64.c67_binary64_equal",
    "Mcu.Props.c67_complement"
   ],
   "note": "Exact reals, where coldest and warmest temperatures differ (the code divides by the difference), and binary64 up to 1e-11 in relative temperature (c67_binary64); if they are equal binary64 gives the colour at the input's rounded hue (c67_binary64_equal)."
  },
  {
   "property": "C68",
   "status": "proved",
   "theorems": [
    "Mcu.Props.Binary64.c68_binary64_only_black",
    "Mcu.Props.c68_only_black",
    "Mcu.Props.c68_nonneg"
   ],
   "note": "Over the reals and in binary64 (assuming Libm.Sound, TempOk and CamOk)."
  },
  {
   "property": "C69",
   "status": "proved",
   "theorems": [
    "Mcu.Props.c69_best_cut",
    "Mcu.Props.c69_no_cut",
    "Mcu.Props.c69_not_worse",
    "Mcu.Props.c69_binary64"
   ],
   "note": "Over exact reals the cut is the best one (c69_best_cut), is declined exactly when nothing can be split (c69_no_cut) and never increases the spread (c69_not_worse). In binary64, for up to 10^10 opaque pixels, it is the best one up to 2^-48 of the sum of squared channels (c69_binary64)."
  },
  {
   "property": "C70",
   "status": "proved",
   "theorems": [
    "Mcu.Props.c70_greedy",
    "Mcu.Props.c70_binary64"
   ],
   "note": "Over exact reals and in binary64 (up to 10^10 opaque pixels; there every cut is the best up to a relative error, while the choice of the box is exact, because the recorded variances are integers). Specification in Spec/Spread.lean."
  },
  {
   "property": "C71",
   "status": "partial",
   "theorems": [
    "Mcu.Props.c71_violated",
    "Mcu.Props.c71_violated_binary64",
    "Mcu.Props.c71_at_most_partial",
    "Mcu.Props.c71_shortfall_partial",
    "Mcu.Props.c71_separate_colors_partial",
    "Mcu.Props.c71_separate_colors_binary64_partial",
    "Mcu.Props.c71_lossless_partial",
    "Mcu.Props.c71_lossless_binary64_partial"
   ],
   "note": "False as stated: create_boxes decrements the loop variable of a range loop after a failed cut, which has no effect, so every failed cut loses one colour. Witness: ff000000, ff070707, ffffffff, fffffff7 with 3 colours gives 2 (c71_violated, c71_violated_binary64). Proved: never more than the minimum; the shortfall is at most the number of final boxes with several colours in one cell; equality, and a lossless result when enough colours are requested, for images in which no two different colours share a cell."
  },
  {
   "property": "C72",
   "status": "proved",
   "theorems": [
    "Mcu.Props.Binary64.c72_binary64_cost",
    "Mcu.Props.c72_cost",
    "Mcu.Props.c72_map"
   ],
   "note": "Over exact reals, for any number of rounds (c72_cost). In binary64, for images of at most a hundred million pixels, the centres stay finite and every further round adds at most 2/10^8 per pixel to the exact sum (c72_binary64_cost; exact values in Spec/ExactPoint.lean). c72_map, for any arithmetic, ties the centres to what the quantizer returns. Specification in Spec/KMeans.lean."
  },
  {
   "property": "C73",
   "status": "proved",
   "theorems": [
    "Mcu.Props.Binary64.c73_binary64_means",
    "Mcu.Props.c73_means"
   ],
   "note": "Over exact reals (c73_means) and in binary64 for images of at most a hundred million pixels, where the reported colours have channels within one of those of the exact mean of their cluster (c73_binary64_means). The clusters are given by a function from colours to cluster numbers; which colours share a cluster is settled by C72 and C74."
  },
  {
   "property": "C74",
   "status": "partial",
   "theorems": [
    "Mcu.Props.Binary64.c74_binary64_violated",
    "Mcu.Props.c74_violated",
    "Mcu.Props.c74_two_partial"
   ],
   "note": "False as stated, over exact reals and in binary64: each row of the distance matrix is sorted, but then indexed by cluster number, so the pruning test skips a cluster because of the distance of another one. Witness: black twice and greys 10, 4, 3, starting from black, 10 and 4, maps grey 3 to grey 1 though grey 4 is returned and nearer, for any number of rounds (c74_violated; with grey 9 for 10 in binary64, c74_binary64_violated). Proved for at most two colours, where the sorted rows do no harm (c74_two_partial). Missing: any guarantee for three and more colours beyond C72."
  },
  {
   "property": "C75",
   "status": "partial",
   "theorems": [
    "Mcu.Props.Binary64.c75_any_separate_partial",
    "Mcu.Props.Binary64.c75_binary64_violated",
    "Mcu.Props.c75_violated",
    "Mcu.Props.c75_separate_partial"
   ],
   "note": "False as stated, over exact reals and in binary64: of several clusters whose centres round to the same colour only the first is counted. Witnesses: greys 2, 3, 4 with two colours starting from grey 3 twice report one colour with population 2 (c75_violated); ten dark pixels of six colours report one colour with population 5 in binary64, however many rounds are allowed (c75_binary64_violated). Proved if different clusters are given different colours, over exact reals (c75_separate_partial) and in any arithmetic, binary64 among them (c75_any_separate_partial); in general the populations are at most the numbers of pixels (C50)."
  },
  {
   "property": "C76",
   "status": "proved",
   "theorems": [
    "Mcu.Props.Binary64.c76_binary64_drawn",
    "Mcu.Props.Binary64.c76_binary64_dark",
    "Mcu.Props.Binary64.c76_binary64_light",
    "Mcu.Props.c76_dark",
    "Mcu.Props.c76_light",
    "Mcu.Props.c76_base",
    "Mcu.Props.c76_drawn"
   ],
   "note": "Exact reals, every scheme and contrast level; gaps of at least two tones, so the drawn colours of schemes made by the library are strictly ordered by luminance (c76_drawn). In binary64 with gaps of 1.99 tones (c76_binary64_*), and the drawn colours are strictly ordered too (c76_binary64_drawn)."
  },
  {
   "property": "C77",
   "status": "proved",
   "theorems": [
    "Mcu.Props.Binary64.c77_binary64",
    "Mcu.Props.c77_light_foreground"
   ],
   "note": "Exact reals and binary64, all tones from 0 to 100."
  },
  {
   "property": "C78",
   "status": "proved",
   "theorems": [
    "Mcu.Props.Binary64.c78_binary64_tone",
    "Mcu.Props.Binary64.c78_binary64_contrast",
    "Mcu.Props.c78_blend_tone",
    "Mcu.Props.c78_harmonize_tone",
    "Mcu.Props.c78_contrast",
    "Mcu.Props.c78_blend_ends"
   ],
   "note": "Exact reals, all pairs of colours and amounts; the end points for opaque colours. In binary64 the tone is kept up to 0.8462 and the contrast up to 7 %, for every amount, NaN included (c78_binary64_*)."
  },
  {
   "property": "C79",
   "status": "proved",
   "theorems": [
    "Mcu.Props.Binary64.c79_binary64",
    "Mcu.Props.c79_drawn",
    "Mcu.Props.c79_can_be_drawn"
   ],
   "note": "Exact reals; schemes made by the library or assembled from palettes given by hue and chroma, asked for the first time; c79_can_be_drawn (any number type) shows the hypothesis can be met. In binary64 within 0.8462, for schemes made by the library or assembled from finite palettes (c79_binary64)."
  },
  {
   "property": "C80",
   "status": "proved",
   "theorems": [
    "Mcu.Props.Binary64.c80_binary64_accents",
    "Mcu.Props.Binary64.c80_binary64_surfaces",
    "Mcu.Props.Binary64.c80_binary64_background",
    "Mcu.Props.Binary64.c80_binary64_fixed",
    "Mcu.Props.c80_accents",
    "Mcu.Props.c80_surfaces",
    "Mcu.Props.c80_fixed"
   ],
   "note": "Exact reals, schemes as in C79, contrast measured by the WCAG 2.1 formula written down in Spec/Wcag.lean; in binary64 with the same bounds, and for the background too (c80_binary64_*). Text on the surface variant role is not included (see C58)."
  },
  {
   "property": "C81",
   "status": "proved",
   "theorems": [
    "Mcu.Props.Binary64.c81_binary64_tone_contrast",
    "Mcu.Props.Binary64.c81_binary64_solved",
    "Mcu.Props.c81_tone_contrast",
    "Mcu.Props.c81_hct_contrast",
    "Mcu.Props.c81_solved"
   ],
   "note": "Exact reals, and binary64 up to 0.0004 (c81_binary64_tone_contrast) and 93.7 % (c81_binary64_solved); Spec/Wcag.lean is independent of the code."
  },
  {
   "property": "C82",
   "status": "proved",
   "theorems": [
    "Mcu.Props.c82_one_family",
    "Mcu.Props.c82_drawn",
    "Mcu.Props.c82_same_tone"
   ],
   "note": "Any number type; schemes as in C79."
  },
  {
   "property": "C83",
   "status": "proved",
   "theorems": [
    "Mcu.Props.Binary64.c83_hue",
    "Mcu.Props.Binary64.c83_chroma",
    "Mcu.Props.Binary64.c83_appearance",
    "Mcu.Props.Binary64.c83_uniform",
    "Mcu.Props.Binary64.c83_black",
    "Mcu.Props.Binary64.c83_platforms",
    "Mcu.Props.Binary64.c83_hue_no_wrap",
    "Mcu.Props.Binary64.c83_hue_far"
   ],
   "note": "Binary64 against the same formulas over the reals; assumes Libm.Sound and TempOk (and CamOk for black and the uniform space). The hue of black is not covered: it is the value of atan2(0, 0). c83_hue_no_wrap: the computed hue is on the same side of 0 as the exact one, so no whole turn is lost."
  },
  {
   "property": "C84",
   "status": "proved",
   "theorems": [
    "Mcu.Props.Binary64.c84_binary64_blend",
    "Mcu.Props.Binary64.c84_binary64_solve",
    "Mcu.Props.Binary64.c84_binary64_round_trip",
    "Mcu.Props.Binary64.c84_binary64_stable",
    "Mcu.Props.Binary64.c84_binary64_setters",
    "Mcu.Props.Binary64.c84_binary64_injective",
    "Mcu.Props.Binary64.c84_binary64_palette",
    "Mcu.Props.Binary64.c84_binary64_harmonize",
    "Mcu.Props.c84_solve",
    "Mcu.Props.c84_round_trip",
    "Mcu.Props.c84_stable",
    "Mcu.Props.c84_setters",
    "Mcu.Props.c84_injective",
    "Mcu.Props.c84_palette",
    "Mcu.Props.c84_blend"
   ],
   "note": "Exact reals and binary64 with every rounding error (math library assumed accurate: Libm.Sound, Libm.TempOk; for blending also CamOk, ExpUp). The interval checks are by kernel evaluation over a cover of the gamut that is proved complete, not over samples. In binary64: solver, round trip, stability, setters, injectivity, palette and harmonising with itself, blending by hue with amount 0 or with itself."
  },
  {
   "property": "C85",
   "status": "proved",
   "theorems": [
    "Mcu.Props.c85_sanitize",
    "Mcu.Props.c85_segment",
    "Mcu.Props.c85_enclosed",
    "Mcu.Props.c85_answer"
   ],
   "note": "Exact reals. The points have exactly the requested luminance and lie in the gamut up to 3e-8. How close the two hues are is not claimed: near white the last bisection steps may stop early."
  },
  {
   "property": "C86",
   "status": "proved",
   "theorems": [
    "Mcu.Props.Binary64.c86_binary64_coordinates",
    "Mcu.Props.Binary64.c86_binary64_even_pace",
    "Mcu.Props.Binary64.c86_binary64_swap",
    "Mcu.Props.c86_coordinates",
    "Mcu.Props.c86_swap",
    "Mcu.Props.c86_even_pace"
   ],
   "note": "Exact reals; in binary64 (c86_binary64_*) for coordinates up to 141 in size, which covers all blends of colours: coordinates are kept up to 1e-8, the hue is in [0, 360], the pace is even up to 1e-7, and before rounding to eight bits the blend in the opposite order is the same point up to 1e-7 (equality after rounding is not claimed there). Beyond that size binary64 is not covered."
  }
 ]
}