{
 "claims": [
  {
   "property": "C01",
   "status": "proved",
   "theorems": [
    "Barcoders.C01_ean13_new",
    "Barcoders.C01_ean13_accepts",
    "Barcoders.C01_ean13_new_no_panic"
   ],
   "note": ""
  },
  {
   "property": "C02",
   "status": "proved",
   "theorems": [
    "Barcoders.C02_ean13_scan"
   ],
   "note": ""
  },
  {
   "property": "C03",
   "status": "proved",
   "theorems": [
    "Barcoders.C03_ean13_check_optional",
    "Barcoders.C03_ean8_check_optional",
    "Barcoders.C03_upca_check_optional"
   ],
   "note": ""
  },
  {
   "property": "C04",
   "status": "proved",
   "theorems": [
    "Barcoders.C04_ean13_single_error",
    "Barcoders.C04_ean8_single_error",
    "Barcoders.C04_upca_single_error"
   ],
   "note": ""
  },
  {
   "property": "C05",
   "status": "proved",
   "theorems": [
    "Barcoders.C05_ean13_transposition",
    "Barcoders.C05_ean8_transposition",
    "Barcoders.C05_upca_transposition"
   ],
   "note": ""
  },
  {
   "property": "C06",
   "status": "proved",
   "theorems": [
    "Barcoders.C06_ean8_new",
    "Barcoders.C06_ean8_accepts",
    "Barcoders.C06_ean8_new_no_panic"
   ],
   "note": ""
  },
  {
   "property": "C07",
   "status": "proved",
   "theorems": [
    "Barcoders.C07_ean8_scan"
   ],
   "note": ""
  },
  {
   "property": "C08",
   "status": "proved",
   "theorems": [
    "Barcoders.C08_upca_new",
    "Barcoders.C08_upca_accepts",
    "Barcoders.C08_upca_new_no_panic"
   ],
   "note": ""
  },
  {
   "property": "C09",
   "status": "proved",
   "theorems": [
    "Barcoders.C09_upca_scan"
   ],
   "note": ""
  },
  {
   "property": "C10",
   "status": "proved",
   "theorems": [
    "Barcoders.C10_upca_is_ean13",
    "Barcoders.C10_upca_ean13_same_error"
   ],
   "note": ""
  },
  {
   "property": "C11",
   "status": "proved",
   "theorems": [
    "Barcoders.C11_eansupp_new",
    "Barcoders.C11_eansupp_accepts",
    "Barcoders.C11_eansupp_new_no_panic"
   ],
   "note": ""
  },
  {
   "property": "C12",
   "status": "proved",
   "theorems": [
    "Barcoders.C12_eansupp_scan"
   ],
   "note": ""
  },
  {
   "property": "C13",
   "status": "proved",
   "theorems": [
    "Barcoders.C13_code39_new",
    "Barcoders.C13_code39_with_checksum",
    "Barcoders.C13_code39_accepts",
    "Barcoders.C13_code39_no_panic"
   ],
   "note": ""
  },
  {
   "property": "C14",
   "status": "proved",
   "theorems": [
    "Barcoders.C14_code39_scan",
    "Barcoders.C14_code39_checksum_scan",
    "Barcoders.C14_code39_checksum_field"
   ],
   "note": ""
  },
  {
   "property": "C15",
   "status": "proved",
   "theorems": [
    "Barcoders.C15_code39_single_error",
    "Barcoders.C15_code39_check_order"
   ],
   "note": ""
  },
  {
   "property": "C16",
   "status": "proved",
   "theorems": [
    "Barcoders.C16_code93_new",
    "Barcoders.C16_code93_accepts",
    "Barcoders.C16_code93_no_panic"
   ],
   "note": ""
  },
  {
   "property": "C17",
   "status": "proved",
   "theorems": [
    "Barcoders.C17_code93_scan"
   ],
   "note": ""
  },
  {
   "property": "C18",
   "status": "proved",
   "theorems": [
    "Barcoders.C18_code93_single_error",
    "Barcoders.C18_code93_transposition"
   ],
   "note": ""
  },
  {
   "property": "C19",
   "status": "proved",
   "theorems": [
    "Barcoders.C19_code11_new",
    "Barcoders.C19_code11_accepts",
    "Barcoders.C19_code11_no_panic"
   ],
   "note": ""
  },
  {
   "property": "C20",
   "status": "proved",
   "theorems": [
    "Barcoders.C20_code11_scan",
    "Barcoders.C20_code11_check_characters"
   ],
   "note": ""
  },
  {
   "property": "C21",
   "status": "proved",
   "theorems": [
    "Barcoders.C21_code11_single_error"
   ],
   "note": ""
  },
  {
   "property": "C22",
   "status": "proved",
   "theorems": [
    "Barcoders.C22_codabar_new",
    "Barcoders.C22_codabar_accepts",
    "Barcoders.C22_codabar_errors",
    "Barcoders.C22_codabar_no_panic"
   ],
   "note": ""
  },
  {
   "property": "C23",
   "status": "partial",
   "theorems": [
    "Barcoders.C23_codabar_scan_partial",
    "Barcoders.C23_codabar_scan_plain_partial",
    "Barcoders.C23_codabar_b_c_swapped",
    "Barcoders.C23_codabar_plus_unreadable"
   ],
   "note": "Proved for strings without '+', up to exchanging the start/stop letters B and C; the full statement is false (C23_codabar_b_c_swapped, C23_codabar_plus_unreadable)."
  },
  {
   "property": "C24",
   "status": "proved",
   "theorems": [
    "Barcoders.C24_stf_new",
    "Barcoders.C24_stf_accepts",
    "Barcoders.C24_stf_no_panic",
    "Barcoders.C24_stf_scan"
   ],
   "note": ""
  },
  {
   "property": "C25",
   "status": "proved",
   "theorems": [
    "Barcoders.C25_itf_scan"
   ],
   "note": ""
  },
  {
   "property": "C26",
   "status": "partial",
   "theorems": [
    "Barcoders.C26_itf_new",
    "Barcoders.C26_itf_check_digit_partial",
    "Barcoders.C26_itf_check_digit_upto13_partial",
    "Barcoders.C26_itf_debug_panic_iff",
    "Barcoders.C26_itf_release_digit_iff",
    "Barcoders.C26_itf_debug_panics",
    "Barcoders.C26_itf_release_wrong_digit"
   ],
   "note": "Proved when the weighted sum is below 256 (always for at most 13 digits). Above, the claim is false; the exact behaviour is C26_itf_new, C26_itf_debug_panic_iff and C26_itf_release_digit_iff."
  },
  {
   "property": "C27",
   "status": "proved",
   "theorems": [
    "Barcoders.C27_code128_new",
    "Barcoders.C27_code128_new_no_panic"
   ],
   "note": ""
  },
  {
   "property": "C28",
   "status": "partial",
   "theorems": [
    "Barcoders.C28_code128_scan_regrouped_partial",
    "Barcoders.C28_code128_scan_partial",
    "Barcoders.C28_code128_scan_iff",
    "Barcoders.C28_code128_split_pair"
   ],
   "note": "Proved for accepted strings of at most 6489 characters: the reader reads the string with split digit pairs regrouped, and exactly the string iff no FNC1 splits a digit pair of set C. False otherwise (C28_code128_split_pair; longer strings: see C29)."
  },
  {
   "property": "C29",
   "status": "partial",
   "theorems": [
    "Barcoders.C29_code128_check_partial",
    "Barcoders.C29_code128_debug",
    "Barcoders.C29_code128_release",
    "Barcoders.C29_code128_panics",
    "Barcoders.C29_code128_wrong_check"
   ],
   "note": "Proved up to 6489 characters; beyond that false (C29_code128_panics, C29_code128_wrong_check). Exact behaviour for fewer than 2^31 characters: C29_code128_debug, C29_code128_release."
  },
  {
   "property": "C30",
   "status": "partial",
   "theorems": [
    "Barcoders.C30_constructors_no_panic_partial",
    "Barcoders.C30_itf_panics_iff_partial"
   ],
   "note": "Proved for every constructor except TF::interleaved in debug builds, which panics on odd-length digit strings whose weighted sum exceeds 255 (exact condition in C30_itf_panics_iff_partial)."
  },
  {
   "property": "C31",
   "status": "partial",
   "theorems": [
    "Barcoders.C31_encode_ok",
    "Barcoders.C31_code128_encode_ok_partial",
    "Barcoders.C31_stf_variant_panics",
    "Barcoders.C31_itf_variant_panics",
    "Barcoders.C31_ean2_variant_panics",
    "Barcoders.C31_ean5_variant_panics_release",
    "Barcoders.C31_ean5_variant_panics_debug"
   ],
   "note": "Proved for every symbology; for Code 128 up to 6489 characters (beyond that encode panics in debug builds, C29_code128_panics). The panic conditions of directly built 2-of-5 and EAN supplemental values are exact."
  },
  {
   "property": "C32",
   "status": "proved",
   "theorems": [
    "Barcoders.C32_ean_rows",
    "Barcoders.C32_supp_row",
    "Barcoders.C32_code39_row",
    "Barcoders.C32_code93_row",
    "Barcoders.C32_code11_row",
    "Barcoders.C32_codabar_row",
    "Barcoders.C32_stf_row",
    "Barcoders.C32_itf_row",
    "Barcoders.C32_code128_row"
   ],
   "note": ""
  },
  {
   "property": "C33",
   "status": "proved",
   "theorems": [
    "Barcoders.C33_ean_injective",
    "Barcoders.C33_supp_injective",
    "Barcoders.C33_text_injective",
    "Barcoders.C33_codabar_injective",
    "Barcoders.C33_itf_injective",
    "Barcoders.C33_code128_injective"
   ],
   "note": ""
  },
  {
   "property": "C34",
   "status": "proved",
   "theorems": [
    "Barcoders.C34_ean_not_reversed",
    "Barcoders.C34_text_not_reversed",
    "Barcoders.C34_tf_not_reversed",
    "Barcoders.C34_code128_not_reversed",
    "Barcoders.C34_codabar_not_reversed",
    "Barcoders.C34_codabar_mirror_image",
    "Barcoders.C34_supp_not_reversed"
   ],
   "note": "Codabar is included when the data carries start/stop letters; without them mirror images exist (C34_codabar_mirror_image)."
  },
  {
   "property": "C35",
   "status": "proved",
   "theorems": [
    "Barcoders.C35_ascii_output",
    "Barcoders.C35_ascii_panics_iff",
    "Barcoders.C35_ascii_read"
   ],
   "note": ""
  },
  {
   "property": "C36",
   "status": "proved",
   "theorems": [
    "Barcoders.C36_json_parses"
   ],
   "note": ""
  },
  {
   "property": "C37",
   "status": "proved",
   "theorems": [
    "Barcoders.C37_svg_parses",
    "Barcoders.C37_svg_debug_overflow",
    "Barcoders.C37_svg_release_wraps"
   ],
   "note": ""
  },
  {
   "property": "C38",
   "status": "proved",
   "theorems": [
    "Barcoders.C38_svg_shows_bars"
   ],
   "note": ""
  },
  {
   "property": "C39",
   "status": "proved",
   "theorems": [
    "Barcoders.C39_svg_colours",
    "Barcoders.C39_svg_document"
   ],
   "note": ""
  },
  {
   "property": "C40",
   "status": "proved",
   "theorems": [
    "Barcoders.C40_image_pixels"
   ],
   "note": ""
  },
  {
   "property": "C41",
   "status": "proved",
   "theorems": [
    "Barcoders.C41_image_rotations",
    "Barcoders.C41_image_read_rotated"
   ],
   "note": ""
  },
  {
   "property": "C42",
   "status": "proved",
   "theorems": [
    "Barcoders.C42_image_overflow_panics",
    "Barcoders.C42_image_too_large_panics",
    "Barcoders.C42_image_overflow_generate",
    "Barcoders.C42_image_never_wrong"
   ],
   "note": ""
  },
  {
   "property": "C43",
   "status": "proved",
   "theorems": [
    "Barcoders.C43_image_generate",
    "Barcoders.C43_image_constructors"
   ],
   "note": ""
  },
  {
   "property": "C44",
   "status": "proved",
   "theorems": [
    "Barcoders.C44_generators_agree"
   ],
   "note": "Image files: under the hypothesis that a decoder reads back what the codec wrote (the codecs are a dependency)."
  },
  {
   "property": "C45",
   "status": "proved",
   "theorems": [
    "Barcoders.C45_length_error_iff",
    "Barcoders.C45_limits_inclusive",
    "Barcoders.C45_huge_strings_accepted"
   ],
   "note": "The limits in bytes are exact; C45_huge_strings_accepted shows the 2^32 wrap-around accepting over-long strings."
  },
  {
   "property": "C46",
   "status": "partial",
   "theorems": [
    "Barcoders.C46_ean",
    "Barcoders.C46_text",
    "Barcoders.C46_tf",
    "Barcoders.C46_codabar_partial",
    "Barcoders.C46_code128_partial"
   ],
   "note": "Proved for EAN/UPC, supplementals, Code 39, Code 93, Code 11 and 2 of 5; Codabar without '+' and up to B/C, Code 128 up to 6489 characters and regrouping of split digit pairs (the full statement is false there: C23, C28, C29)."
  },
  {
   "property": "C47",
   "status": "proved",
   "theorems": [
    "Barcoders.C47_ean_distance",
    "Barcoders.C47_code39_distance",
    "Barcoders.C47_code93_distance",
    "Barcoders.C47_code128_distance",
    "Barcoders.C47_tf_distance",
    "Barcoders.C47_ean5_distance",
    "Barcoders.C47_ean2_clash",
    "Barcoders.C47_codabar_distance",
    "Barcoders.C47_code11_distance"
   ],
   "note": "EAN-2 is excluded; C47_ean2_clash shows two EAN-2 symbols one module apart."
  },
  {
   "property": "C48",
   "status": "proved",
   "theorems": [
    "Barcoders.C48_widest"
   ],
   "note": ""
  },
  {
   "property": "C49",
   "status": "proved",
   "theorems": [
    "Barcoders.C49_svg_builder",
    "Barcoders.C49_svg_builder_comm"
   ],
   "note": ""
  },
  {
   "property": "C50",
   "status": "proved",
   "theorems": [
    "Barcoders.C50_ean13_new_build",
    "Barcoders.C50_ean13_no_overflow",
    "Barcoders.C50_ean8_no_overflow",
    "Barcoders.C50_upca_no_overflow",
    "Barcoders.C50_eansupp_no_overflow"
   ],
   "note": ""
  },
  {
   "property": "C51",
   "status": "proved",
   "theorems": [
    "Barcoders.C51_itf_even",
    "Barcoders.C51_itf_odd_debug",
    "Barcoders.C51_itf_odd_release",
    "Barcoders.C51_itf_fails_from_15"
   ],
   "note": ""
  },
  {
   "property": "C52",
   "status": "proved",
   "theorems": [
    "Barcoders.C52_code128_short",
    "Barcoders.C52_code128_sharp",
    "Barcoders.C52_code128_debug_never_wrong",
    "Barcoders.C52_code128_release_symbols"
   ],
   "note": ""
  },
  {
   "property": "C53",
   "status": "proved",
   "theorems": [
    "Barcoders.C53_code128_same_symbol_iff"
   ],
   "note": ""
  },
  {
   "property": "C54",
   "status": "proved",
   "theorems": [
    "Barcoders.C54_codabar_scan",
    "Barcoders.C54_codabar_own_scan",
    "Barcoders.C54_codabar_scan_iff"
   ],
   "note": ""
  },
  {
   "property": "C55",
   "status": "proved",
   "theorems": [
    "Barcoders.C55_code128_extended",
    "Barcoders.C55_code128_transmitted",
    "Barcoders.C55_code128_plain",
    "Barcoders.C55_code128_shift"
   ],
   "note": ""
  },
  {
   "property": "C56",
   "status": "proved",
   "theorems": [
    "Barcoders.C56_code11_transposition"
   ],
   "note": ""
  },
  {
   "property": "C57",
   "status": "proved",
   "theorems": [
    "Barcoders.C57_code128_single_error",
    "Barcoders.C57_code128_start_error",
    "Barcoders.C57_code128_transposition",
    "Barcoders.C57_code128_rows"
   ],
   "note": ""
  },
  {
   "property": "C58",
   "status": "proved",
   "theorems": [
    "Barcoders.C58_symbologies_distinct",
    "Barcoders.C58_codabar_code11_clash",
    "Barcoders.C58_codabar_distinct",
    "Barcoders.C58_upca_ean13"
   ],
   "note": ""
  },
  {
   "property": "C59",
   "status": "proved",
   "theorems": [
    "Barcoders.C59_prefix_free",
    "Barcoders.C59_suffix_free",
    "Barcoders.C59_codabar_cut",
    "Barcoders.C59_supp_cut",
    "Barcoders.C59_itf_cut"
   ],
   "note": ""
  },
  {
   "property": "C60",
   "status": "proved",
   "theorems": [
    "Barcoders.C60_svg_release",
    "Barcoders.C60_svg_debug",
    "Barcoders.C60_svg_huge"
   ],
   "note": ""
  },
  {
   "property": "C61",
   "status": "proved",
   "theorems": [
    "Barcoders.C61_svg_xmlns_iff"
   ],
   "note": ""
  },
  {
   "property": "C62",
   "status": "proved",
   "theorems": [
    "Barcoders.C62_code39_check_by_hand",
    "Barcoders.C62_itf_digit_by_hand"
   ],
   "note": ""
  },
  {
   "property": "C63",
   "status": "proved",
   "theorems": [
    "Barcoders.C63_code93_usize",
    "Barcoders.C63_code11_usize",
    "Barcoders.C63_code39_usize"
   ],
   "note": ""
  },
  {
   "property": "C64",
   "status": "proved",
   "theorems": [
    "Barcoders.C64_ean13_jump",
    "Barcoders.C64_ean8_jump",
    "Barcoders.C64_upca_jump"
   ],
   "note": ""
  },
  {
   "property": "C65",
   "status": "proved",
   "theorems": [
    "Barcoders.C65_code93_two_errors",
    "Barcoders.C65_code93_two_errors_missed",
    "Barcoders.C65_code11_two_errors_missed"
   ],
   "note": ""
  },
  {
   "property": "C66",
   "status": "proved",
   "theorems": [
    "Barcoders.C66_two_widths",
    "Barcoders.C66_itf_widths",
    "Barcoders.C66_stf_widths",
    "Barcoders.C66_tf_no_ratio"
   ],
   "note": ""
  },
  {
   "property": "C67",
   "status": "proved",
   "theorems": [
    "Barcoders.C67_measure",
    "Barcoders.C67_ascii",
    "Barcoders.C67_image"
   ],
   "note": ""
  },
  {
   "property": "C68",
   "status": "proved",
   "theorems": [
    "Barcoders.C68_ean13_itf14",
    "Barcoders.C68_upca_itf14",
    "Barcoders.C68_ean8_itf14"
   ],
   "note": ""
  },
  {
   "property": "C69",
   "status": "proved",
   "theorems": [
    "Barcoders.C69_add_on",
    "Barcoders.C69_gap_needed"
   ],
   "note": ""
  },
  {
   "property": "C70",
   "status": "proved",
   "theorems": [
    "Barcoders.C70_codabar",
    "Barcoders.C70_code39",
    "Barcoders.C70_stf",
    "Barcoders.C70_itf"
   ],
   "note": ""
  },
  {
   "property": "C71",
   "status": "proved",
   "theorems": [
    "Barcoders.C71_constructors",
    "Barcoders.C71_encodings",
    "Barcoders.C71_generators"
   ],
   "note": ""
  },
  {
   "property": "C72",
   "status": "proved",
   "theorems": [
    "Barcoders.C72_default_ascii",
    "Barcoders.C72_default_json",
    "Barcoders.C72_default_svg",
    "Barcoders.C72_default_image",
    "Barcoders.C72_messages",
    "Barcoders.C72_svg_colors"
   ],
   "note": ""
  },
  {
   "property": "C73",
   "status": "proved",
   "theorems": [
    "Barcoders.C73_ean13_completion",
    "Barcoders.C73_ean8_completion",
    "Barcoders.C73_upca_completion"
   ],
   "note": ""
  },
  {
   "property": "C74",
   "status": "proved",
   "theorems": [
    "Barcoders.C74_ean5_single_error",
    "Barcoders.C74_ean2_single_error",
    "Barcoders.C74_ean2_unnoticed"
   ],
   "note": ""
  },
  {
   "property": "C75",
   "status": "proved",
   "theorems": [
    "Barcoders.C75_ean13",
    "Barcoders.C75_ean8",
    "Barcoders.C75_upca",
    "Barcoders.C75_supp",
    "Barcoders.C75_code39",
    "Barcoders.C75_code39_checked",
    "Barcoders.C75_code93",
    "Barcoders.C75_code11",
    "Barcoders.C75_codabar",
    "Barcoders.C75_code128",
    "Barcoders.C75_itf",
    "Barcoders.C75_stf"
   ],
   "note": ""
  },
  {
   "property": "C76",
   "status": "proved",
   "theorems": [
    "Barcoders.C76_retail",
    "Barcoders.C76_text"
   ],
   "note": ""
  },
  {
   "property": "C77",
   "status": "proved",
   "theorems": [
    "Barcoders.C77_retail",
    "Barcoders.C77_text",
    "Barcoders.C77_two_of_five",
    "Barcoders.C77_image"
   ],
   "note": ""
  },
  {
   "property": "C78",
   "status": "proved",
   "theorems": [
    "Barcoders.C78_same_image",
    "Barcoders.C78_image_made_iff"
   ],
   "note": ""
  },
  {
   "property": "C79",
   "status": "proved",
   "theorems": [
    "Barcoders.C79_ascii",
    "Barcoders.C79_one_set",
    "Barcoders.C79_digits",
    "Barcoders.C79_odd_digits"
   ],
   "note": ""
  },
  {
   "property": "C80",
   "status": "proved",
   "theorems": [
    "Barcoders.C80_latin",
    "Barcoders.C80_latched",
    "Barcoders.C80_agrees"
   ],
   "note": ""
  },
  {
   "property": "C81",
   "status": "proved",
   "theorems": [
    "Barcoders.C81_code39",
    "Barcoders.C81_code93",
    "Barcoders.C81_common"
   ],
   "note": ""
  },
  {
   "property": "C82",
   "status": "proved",
   "theorems": [
    "Barcoders.C82_retail",
    "Barcoders.C82_text",
    "Barcoders.C82_two_of_five"
   ],
   "note": ""
  },
  {
   "property": "C83",
   "status": "proved",
   "theorems": [
    "Barcoders.C83_code39",
    "Barcoders.C83_code11",
    "Barcoders.C83_codabar",
    "Barcoders.C83_code93",
    "Barcoders.C83_code128",
    "Barcoders.C83_ean8",
    "Barcoders.C83_upca",
    "Barcoders.C83_ean13",
    "Barcoders.C83_ean5",
    "Barcoders.C83_itf",
    "Barcoders.C83_stf",
    "Barcoders.C83_ean2_excepted"
   ],
   "note": ""
  },
  {
   "property": "C84",
   "status": "proved",
   "theorems": [
    "Barcoders.C84_ean13",
    "Barcoders.C84_ean8",
    "Barcoders.C84_upca",
    "Barcoders.C84_eansupp",
    "Barcoders.C84_code39",
    "Barcoders.C84_code93",
    "Barcoders.C84_code128",
    "Barcoders.C84_code11",
    "Barcoders.C84_codabar",
    "Barcoders.C84_itf",
    "Barcoders.C84_stf"
   ],
   "note": ""
  },
  {
   "property": "C85",
   "status": "proved",
   "theorems": [
    "Barcoders.C85_longest",
    "Barcoders.C85_longest_attained",
    "Barcoders.C85_always_drawn"
   ],
   "note": ""
  },
  {
   "property": "C86",
   "status": "proved",
   "theorems": [
    "Barcoders.C86_ean13_two_digits",
    "Barcoders.C86_ean8_two_digits",
    "Barcoders.C86_upca_two_digits",
    "Barcoders.C86_twins",
    "Barcoders.C86_jump_twins",
    "Barcoders.C86_phonetic",
    "Barcoders.C86_one_partner",
    "Barcoders.C86_one_partner_left"
   ],
   "note": ""
  },
  {
   "property": "C87",
   "status": "proved",
   "theorems": [
    "Barcoders.C87_retail",
    "Barcoders.C87_supp",
    "Barcoders.C87_supp_nine",
    "Barcoders.C87_code39",
    "Barcoders.C87_sixes",
    "Barcoders.C87_codabar",
    "Barcoders.C87_two_of_five"
   ],
   "note": ""
  },
  {
   "property": "C88",
   "status": "proved",
   "theorems": [
    "Barcoders.C88_stf_to_code11",
    "Barcoders.C88_code11_to_others",
    "Barcoders.C88_code39_to_others",
    "Barcoders.C88_code93_to_code39",
    "Barcoders.C88_shortest"
   ],
   "note": ""
  },
  {
   "property": "C89",
   "status": "proved",
   "theorems": [
    "Barcoders.C89_ascii_append",
    "Barcoders.C89_ascii_stretch",
    "Barcoders.C89_image_stretch",
    "Barcoders.C89_image_negative",
    "Barcoders.C89_image_append",
    "Barcoders.C89_image_margin",
    "Barcoders.C89_svg_append",
    "Barcoders.C89_svg_stretch"
   ],
   "note": ""
  },
  {
   "property": "C90",
   "status": "proved",
   "theorems": [
    "Barcoders.C90_ean13",
    "Barcoders.C90_ean8",
    "Barcoders.C90_upca",
    "Barcoders.C90_ean5",
    "Barcoders.C90_code39",
    "Barcoders.C90_code93",
    "Barcoders.C90_code128",
    "Barcoders.C90_longer_scratches"
   ],
   "note": ""
  },
  {
   "property": "C91",
   "status": "proved",
   "theorems": [
    "Barcoders.C91_image",
    "Barcoders.C91_svg",
    "Barcoders.C91_ascii"
   ],
   "note": ""
  },
  {
   "property": "C92",
   "status": "proved",
   "theorems": [
    "Barcoders.C92_pieces",
    "Barcoders.C92_gap_needed"
   ],
   "note": ""
  },
  {
   "property": "C93",
   "status": "proved",
   "theorems": [
    "Barcoders.C93_codabar_letters",
    "Barcoders.C93_codabar_data",
    "Barcoders.C93_letters_needed"
   ],
   "note": ""
  },
  {
   "property": "C94",
   "status": "proved",
   "theorems": [
    "Barcoders.C94_gs1",
    "Barcoders.C94_gs1_text",
    "Barcoders.C94_gs1_digits",
    "Barcoders.C94_odd_field"
   ],
   "note": ""
  },
  {
   "property": "C95",
   "status": "proved",
   "theorems": [
    "Barcoders.C95_code39_two_data",
    "Barcoders.C95_code39_data_and_check",
    "Barcoders.C95_code39_exchange",
    "Barcoders.C95_code128_two_data",
    "Barcoders.C95_code128_data_and_check",
    "Barcoders.C95_code128_exchange"
   ],
   "note": ""
  },
  {
   "property": "C96",
   "status": "proved",
   "theorems": [
    "Barcoders.C96_image",
    "Barcoders.C96_blot",
    "Barcoders.C96_ascii",
    "Barcoders.C96_ean",
    "Barcoders.C96_checked_text",
    "Barcoders.C96_one_module"
   ],
   "note": ""
  },
  {
   "property": "C97",
   "status": "proved",
   "theorems": [
    "Barcoders.C97_image",
    "Barcoders.C97_svg",
    "Barcoders.C97_read"
   ],
   "note": ""
  },
  {
   "property": "C98",
   "status": "proved",
   "theorems": [
    "Barcoders.C98_ean13",
    "Barcoders.C98_ean8",
    "Barcoders.C98_upca",
    "Barcoders.C98_code39",
    "Barcoders.C98_code93",
    "Barcoders.C98_code128",
    "Barcoders.C98_stf",
    "Barcoders.C98_itf",
    "Barcoders.C98_supp",
    "Barcoders.C98_code11",
    "Barcoders.C98_codabar"
   ],
   "note": ""
  },
  {
   "property": "C99",
   "status": "proved",
   "theorems": [
    "Barcoders.C99_isbn",
    "Barcoders.C99_issn",
    "Barcoders.C99_every_book",
    "Barcoders.C99_different_books"
   ],
   "note": ""
  },
  {
   "property": "C100",
   "status": "proved",
   "theorems": [
    "Barcoders.C100_code93",
    "Barcoders.C100_code128",
    "Barcoders.C100_ean13",
    "Barcoders.C100_ean8",
    "Barcoders.C100_upca",
    "Barcoders.C100_whole_module",
    "Barcoders.C100_whole_module_drawn"
   ],
   "note": ""
  },
  {
   "property": "C101",
   "status": "proved",
   "theorems": [
    "Barcoders.C101_retail",
    "Barcoders.C101_text",
    "Barcoders.C101_codabar",
    "Barcoders.C101_two_of_five",
    "Barcoders.C101_image",
    "Barcoders.C101_label"
   ],
   "note": ""
  },
  {
   "property": "C102",
   "status": "proved",
   "theorems": [
    "Barcoders.C102_stf",
    "Barcoders.C102_itf",
    "Barcoders.C102_tf_never_wrong",
    "Barcoders.C102_supp",
    "Barcoders.C102_supp_read"
   ],
   "note": ""
  },
  {
   "property": "C103",
   "status": "proved",
   "theorems": [
    "Barcoders.C103_unread",
    "Barcoders.C103_polarity"
   ],
   "note": ""
  },
  {
   "property": "C104",
   "status": "proved",
   "theorems": [
    "Barcoders.C104_retail",
    "Barcoders.C104_code93",
    "Barcoders.C104_code128",
    "Barcoders.C104_codabar",
    "Barcoders.C104_misread"
   ],
   "note": ""
  },
  {
   "property": "C105",
   "status": "proved",
   "theorems": [
    "Barcoders.C105_shortest",
    "Barcoders.C105_gs1",
    "Barcoders.C105_bounds"
   ],
   "note": ""
  },
  {
   "property": "C106",
   "status": "proved",
   "theorems": [
    "Barcoders.C106_upca",
    "Barcoders.C106_ean8",
    "Barcoders.C106_ean13",
    "Barcoders.C106_code39",
    "Barcoders.C106_code93",
    "Barcoders.C106_code128",
    "Barcoders.C106_code128_long",
    "Barcoders.C106_sharp"
   ],
   "note": ""
  },
  {
   "property": "C107",
   "status": "proved",
   "theorems": [
    "Barcoders.C107_svg",
    "Barcoders.C107_svg_visible",
    "Barcoders.C107_image",
    "Barcoders.C107_agree",
    "Barcoders.C107_holes"
   ],
   "note": ""
  },
  {
   "property": "C108",
   "status": "proved",
   "theorems": [
    "Barcoders.C108_pixels",
    "Barcoders.C108_noise",
    "Barcoders.C108_read",
    "Barcoders.C108_vote",
    "Barcoders.C108_sharp"
   ],
   "note": ""
  },
  {
   "property": "C109",
   "status": "proved",
   "theorems": [
    "Barcoders.C109_blur",
    "Barcoders.C109_focus"
   ],
   "note": ""
  },
  {
   "property": "C110",
   "status": "proved",
   "theorems": [
    "Barcoders.C110_image",
    "Barcoders.C110_reader",
    "Barcoders.C110_svg"
   ],
   "note": ""
  },
  {
   "property": "C111",
   "status": "proved",
   "theorems": [
    "Barcoders.C111_ascii",
    "Barcoders.C111_json",
    "Barcoders.C111_image",
    "Barcoders.C111_svg",
    "Barcoders.C111_shown",
    "Barcoders.C111_agree_iff"
   ],
   "note": ""
  },
  {
   "property": "C112",
   "status": "proved",
   "theorems": [
    "Barcoders.C112_numbers",
    "Barcoders.C112_code39",
    "Barcoders.C112_code11",
    "Barcoders.C112_code93",
    "Barcoders.C112_code128"
   ],
   "note": ""
  },
  {
   "property": "C113",
   "status": "proved",
   "theorems": [
    "Barcoders.C113_left_out",
    "Barcoders.C113_one_too_many",
    "Barcoders.C113_upca_as_ean13",
    "Barcoders.C113_ean13_as_upca"
   ],
   "note": ""
  },
  {
   "property": "C114",
   "status": "proved",
   "theorems": [
    "Barcoders.C114_ascii",
    "Barcoders.C114_json",
    "Barcoders.C114_svg",
    "Barcoders.C114_svg_symbol"
   ],
   "note": ""
  },
  {
   "property": "C115",
   "status": "proved",
   "theorems": [
    "Barcoders.C115_ascii",
    "Barcoders.C115_json",
    "Barcoders.C115_svg"
   ],
   "note": ""
  },
  {
   "property": "C116",
   "status": "proved",
   "theorems": [
    "Barcoders.C116_widths",
    "Barcoders.C116_narrowest",
    "Barcoders.C116_retail"
   ],
   "note": ""
  },
  {
   "property": "C117",
   "status": "proved",
   "theorems": [
    "Barcoders.C117_tables",
    "Barcoders.C117_look_up",
    "Barcoders.C117_ean13",
    "Barcoders.C117_ean8",
    "Barcoders.C117_upca",
    "Barcoders.C117_read_ean13",
    "Barcoders.C117_read_halves"
   ],
   "note": ""
  },
  {
   "property": "C118",
   "status": "proved",
   "theorems": [
    "Barcoders.C118_code39",
    "Barcoders.C118_code93",
    "Barcoders.C118_code11",
    "Barcoders.C118_code128",
    "Barcoders.C118_unchecked",
    "Barcoders.C118_retail"
   ],
   "note": ""
  },
  {
   "property": "C119",
   "status": "proved",
   "theorems": [
    "Barcoders.C119_ink",
    "Barcoders.C119_two_of_five",
    "Barcoders.C119_code39",
    "Barcoders.C119_codabar",
    "Barcoders.C119_overprint",
    "Barcoders.C119_others"
   ],
   "note": ""
  },
  {
   "property": "C120",
   "status": "proved",
   "theorems": [
    "Barcoders.C120_code39",
    "Barcoders.C120_code93",
    "Barcoders.C120_code128",
    "Barcoders.C120_retail",
    "Barcoders.C120_unchecked"
   ],
   "note": ""
  },
  {
   "property": "C121",
   "status": "proved",
   "theorems": [
    "Barcoders.C121_code39",
    "Barcoders.C121_code11",
    "Barcoders.C121_two_of_five",
    "Barcoders.C121_supp"
   ],
   "note": ""
  },
  {
   "property": "C122",
   "status": "proved",
   "theorems": [
    "Barcoders.C122_upca",
    "Barcoders.C122_ean8",
    "Barcoders.C122_ean13",
    "Barcoders.C122_ean5",
    "Barcoders.C122_code39",
    "Barcoders.C122_code93",
    "Barcoders.C122_code128",
    "Barcoders.C122_others",
    "Barcoders.C122_sharp"
   ],
   "note": ""
  },
  {
   "property": "C123",
   "status": "proved",
   "theorems": [
    "Barcoders.C123_numbers",
    "Barcoders.C123_code39",
    "Barcoders.C123_code93",
    "Barcoders.C123_code11",
    "Barcoders.C123_code128"
   ],
   "note": ""
  },
  {
   "property": "C124",
   "status": "proved",
   "theorems": [
    "Barcoders.C124_read",
    "Barcoders.C124_every",
    "Barcoders.C124_next",
    "Barcoders.C124_plain"
   ],
   "note": ""
  },
  {
   "property": "C125",
   "status": "proved",
   "theorems": [
    "Barcoders.C125_refused",
    "Barcoders.C125_blank",
    "Barcoders.C125_code128",
    "Barcoders.C125_code128_line"
   ],
   "note": ""
  },
  {
   "property": "C126",
   "status": "proved",
   "theorems": [
    "Barcoders.C126_code39",
    "Barcoders.C126_code11",
    "Barcoders.C126_codabar",
    "Barcoders.C126_code93",
    "Barcoders.C126_denser",
    "Barcoders.C126_double"
   ],
   "note": ""
  },
  {
   "property": "C127",
   "status": "proved",
   "theorems": [
    "Barcoders.C127_code128_sets",
    "Barcoders.C127_digits",
    "Barcoders.C127_itf",
    "Barcoders.C127_code128",
    "Barcoders.C127_text",
    "Barcoders.C127_codabar",
    "Barcoders.C127_same",
    "Barcoders.C127_errors"
   ],
   "note": ""
  },
  {
   "property": "C128",
   "status": "proved",
   "theorems": [
    "Barcoders.C128_upca",
    "Barcoders.C128_ean8",
    "Barcoders.C128_ean13",
    "Barcoders.C128_ean13_digits",
    "Barcoders.C128_halves_digits",
    "Barcoders.C128_addon",
    "Barcoders.C128_code39_ink",
    "Barcoders.C128_code39",
    "Barcoders.C128_code128",
    "Barcoders.C128_two_of_five"
   ],
   "note": ""
  },
  {
   "property": "C129",
   "status": "proved",
   "theorems": [
    "Barcoders.C129_kinds",
    "Barcoders.C129_ascii_json",
    "Barcoders.C129_image_numbers",
    "Barcoders.C129_svg_numbers",
    "Barcoders.C129_image_words",
    "Barcoders.C129_image_same",
    "Barcoders.C129_svg_name",
    "Barcoders.C129_svg_same"
   ],
   "note": ""
  },
  {
   "property": "C130",
   "status": "proved",
   "theorems": [
    "Barcoders.C130_ascii",
    "Barcoders.C130_image",
    "Barcoders.C130_svg",
    "Barcoders.C130_balanced"
   ],
   "note": ""
  },
  {
   "property": "C131",
   "status": "proved",
   "theorems": [
    "Barcoders.C131_retail",
    "Barcoders.C131_supp",
    "Barcoders.C131_code39",
    "Barcoders.C131_code93",
    "Barcoders.C131_code128",
    "Barcoders.C131_code11",
    "Barcoders.C131_code11_two",
    "Barcoders.C131_codabar",
    "Barcoders.C131_itf",
    "Barcoders.C131_stf"
   ],
   "note": ""
  },
  {
   "property": "C132",
   "status": "proved",
   "theorems": [
    "Barcoders.C132_numbers",
    "Barcoders.C132_check_digits",
    "Barcoders.C132_pictures",
    "Barcoders.C132_code39",
    "Barcoders.C132_code93",
    "Barcoders.C132_code11",
    "Barcoders.C132_code128"
   ],
   "note": ""
  },
  {
   "property": "C133",
   "status": "proved",
   "theorems": [
    "Barcoders.C133_numbers",
    "Barcoders.C133_code39",
    "Barcoders.C133_code11",
    "Barcoders.C133_code93",
    "Barcoders.C133_code128"
   ],
   "note": ""
  },
  {
   "property": "C134",
   "status": "proved",
   "theorems": [
    "Barcoders.C134_code93_near",
    "Barcoders.C134_code93_adjacent",
    "Barcoders.C134_code11_near",
    "Barcoders.C134_code11_adjacent"
   ],
   "note": ""
  },
  {
   "property": "C135",
   "status": "proved",
   "theorems": [
    "Barcoders.C135_code93",
    "Barcoders.C135_code11_two",
    "Barcoders.C135_code11_one"
   ],
   "note": ""
  },
  {
   "property": "C136",
   "status": "proved",
   "theorems": [
    "Barcoders.C136_numbers",
    "Barcoders.C136_code39",
    "Barcoders.C136_code11",
    "Barcoders.C136_code128",
    "Barcoders.C136_code93",
    "Barcoders.C136_code93_sharp",
    "Barcoders.C136_code11_two"
   ],
   "note": ""
  },
  {
   "property": "C137",
   "status": "proved",
   "theorems": [
    "Barcoders.C137_code93_which",
    "Barcoders.C137_code93_count",
    "Barcoders.C137_code93_short",
    "Barcoders.C137_code93_nineteen",
    "Barcoders.C137_code11_which",
    "Barcoders.C137_code11_count"
   ],
   "note": ""
  }
 ]
}