# Axioms of the property theorems

Output of `#print axioms`, grouped (`tools/gen_axioms.py`).

## none

* C26_itf_debug_panics
* C26_itf_release_wrong_digit
* C49_svg_builder_comm

## propext

* C100_whole_module
* C108_sharp
* C117_look_up
* C117_tables
* C28_code128_split_pair
* C43_image_constructors
* C43_image_generate
* C49_svg_builder
* C55_code128_shift
* C71_constructors
* C71_encodings
* C78_same_image

## propext, Quot.sound

* C106_code128_long
* C111_image
* C31_ean5_variant_panics_release
* C31_stf_variant_panics
* C35_ascii_output
* C42_image_overflow_generate
* C42_image_overflow_panics
* C42_image_too_large_panics
* C80_agrees

## propext, Classical.choice, Quot.sound

* C01_ean13_accepts
* C01_ean13_new
* C01_ean13_new_no_panic
* C02_ean13_scan
* C03_ean13_check_optional
* C03_ean8_check_optional
* C03_upca_check_optional
* C04_ean13_single_error
* C04_ean8_single_error
* C04_upca_single_error
* C05_ean13_transposition
* C05_ean8_transposition
* C05_upca_transposition
* C06_ean8_accepts
* C06_ean8_new
* C06_ean8_new_no_panic
* C07_ean8_scan
* C08_upca_accepts
* C08_upca_new
* C08_upca_new_no_panic
* C09_upca_scan
* C100_code128
* C100_code93
* C100_ean13
* C100_ean8
* C100_upca
* C100_whole_module_drawn
* C101_codabar
* C101_image
* C101_label
* C101_retail
* C101_text
* C101_two_of_five
* C102_itf
* C102_stf
* C102_supp
* C102_supp_read
* C102_tf_never_wrong
* C103_polarity
* C103_unread
* C104_codabar
* C104_code128
* C104_code93
* C104_misread
* C104_retail
* C105_bounds
* C105_gs1
* C105_shortest
* C106_code128
* C106_code39
* C106_code93
* C106_ean13
* C106_ean8
* C106_sharp
* C106_upca
* C107_agree
* C107_holes
* C107_image
* C107_svg
* C107_svg_visible
* C108_noise
* C108_pixels
* C108_read
* C108_vote
* C109_blur
* C109_focus
* C10_upca_ean13_same_error
* C10_upca_is_ean13
* C110_image
* C110_reader
* C110_svg
* C111_agree_iff
* C111_ascii
* C111_json
* C111_shown
* C111_svg
* C112_code11
* C112_code128
* C112_code39
* C112_code93
* C112_numbers
* C113_ean13_as_upca
* C113_left_out
* C113_one_too_many
* C113_upca_as_ean13
* C114_ascii
* C114_json
* C114_svg
* C114_svg_symbol
* C115_ascii
* C115_json
* C115_svg
* C116_narrowest
* C116_retail
* C116_widths
* C117_ean13
* C117_ean8
* C117_read_ean13
* C117_read_halves
* C117_upca
* C118_code11
* C118_code128
* C118_code39
* C118_code93
* C118_retail
* C118_unchecked
* C119_codabar
* C119_code39
* C119_ink
* C119_others
* C119_overprint
* C119_two_of_five
* C11_eansupp_accepts
* C11_eansupp_new
* C11_eansupp_new_no_panic
* C120_code128
* C120_code39
* C120_code93
* C120_retail
* C120_unchecked
* C121_code11
* C121_code39
* C121_supp
* C121_two_of_five
* C122_code128
* C122_code39
* C122_code93
* C122_ean13
* C122_ean5
* C122_ean8
* C122_others
* C122_sharp
* C122_upca
* C123_code11
* C123_code128
* C123_code39
* C123_code93
* C123_numbers
* C124_every
* C124_next
* C124_plain
* C124_read
* C125_blank
* C125_code128
* C125_code128_line
* C125_refused
* C126_codabar
* C126_code11
* C126_code39
* C126_code93
* C126_denser
* C126_double
* C127_codabar
* C127_code128
* C127_code128_sets
* C127_digits
* C127_errors
* C127_itf
* C127_same
* C127_text
* C128_addon
* C128_code128
* C128_code39
* C128_code39_ink
* C128_ean13
* C128_ean13_digits
* C128_ean8
* C128_halves_digits
* C128_two_of_five
* C128_upca
* C129_ascii_json
* C129_image_numbers
* C129_image_same
* C129_image_words
* C129_kinds
* C129_svg_name
* C129_svg_numbers
* C129_svg_same
* C12_eansupp_scan
* C130_ascii
* C130_balanced
* C130_image
* C130_svg
* C131_codabar
* C131_code11
* C131_code11_two
* C131_code128
* C131_code39
* C131_code93
* C131_itf
* C131_retail
* C131_stf
* C131_supp
* C132_check_digits
* C132_code11
* C132_code128
* C132_code39
* C132_code93
* C132_numbers
* C132_pictures
* C133_code11
* C133_code128
* C133_code39
* C133_code93
* C133_numbers
* C134_code11_adjacent
* C134_code11_near
* C134_code93_adjacent
* C134_code93_near
* C135_code11_one
* C135_code11_two
* C135_code93
* C136_code11
* C136_code11_two
* C136_code128
* C136_code39
* C136_code93
* C136_code93_sharp
* C136_numbers
* C137_code11_count
* C137_code11_which
* C137_code93_count
* C137_code93_nineteen
* C137_code93_short
* C137_code93_which
* C13_code39_accepts
* C13_code39_new
* C13_code39_no_panic
* C13_code39_with_checksum
* C14_code39_checksum_field
* C14_code39_checksum_scan
* C14_code39_scan
* C15_code39_check_order
* C15_code39_single_error
* C16_code93_accepts
* C16_code93_new
* C16_code93_no_panic
* C17_code93_scan
* C18_code93_single_error
* C18_code93_transposition
* C19_code11_accepts
* C19_code11_new
* C19_code11_no_panic
* C20_code11_check_characters
* C20_code11_scan
* C21_code11_single_error
* C22_codabar_accepts
* C22_codabar_errors
* C22_codabar_new
* C22_codabar_no_panic
* C23_codabar_b_c_swapped
* C23_codabar_plus_unreadable
* C23_codabar_scan_partial
* C23_codabar_scan_plain_partial
* C24_stf_accepts
* C24_stf_new
* C24_stf_no_panic
* C24_stf_scan
* C25_itf_scan
* C26_itf_check_digit_partial
* C26_itf_check_digit_upto13_partial
* C26_itf_debug_panic_iff
* C26_itf_new
* C26_itf_release_digit_iff
* C27_code128_new
* C27_code128_new_no_panic
* C28_code128_scan_iff
* C28_code128_scan_partial
* C28_code128_scan_regrouped_partial
* C29_code128_check_partial
* C29_code128_debug
* C29_code128_panics
* C29_code128_release
* C29_code128_wrong_check
* C30_constructors_no_panic_partial
* C30_itf_panics_iff_partial
* C31_code128_encode_ok_partial
* C31_ean2_variant_panics
* C31_ean5_variant_panics_debug
* C31_encode_ok
* C31_itf_variant_panics
* C32_codabar_row
* C32_code11_row
* C32_code128_row
* C32_code39_row
* C32_code93_row
* C32_ean_rows
* C32_itf_row
* C32_stf_row
* C32_supp_row
* C33_codabar_injective
* C33_code128_injective
* C33_ean_injective
* C33_itf_injective
* C33_supp_injective
* C33_text_injective
* C34_codabar_mirror_image
* C34_codabar_not_reversed
* C34_code128_not_reversed
* C34_ean_not_reversed
* C34_supp_not_reversed
* C34_text_not_reversed
* C34_tf_not_reversed
* C35_ascii_panics_iff
* C35_ascii_read
* C36_json_parses
* C37_svg_debug_overflow
* C37_svg_parses
* C37_svg_release_wraps
* C38_svg_shows_bars
* C39_svg_colours
* C39_svg_document
* C40_image_pixels
* C41_image_read_rotated
* C41_image_rotations
* C42_image_never_wrong
* C44_generators_agree
* C45_huge_strings_accepted
* C45_length_error_iff
* C45_limits_inclusive
* C46_codabar_partial
* C46_code128_partial
* C46_ean
* C46_text
* C46_tf
* C47_codabar_distance
* C47_code11_distance
* C47_code128_distance
* C47_code39_distance
* C47_code93_distance
* C47_ean2_clash
* C47_ean5_distance
* C47_ean_distance
* C47_tf_distance
* C48_widest
* C50_ean13_new_build
* C50_ean13_no_overflow
* C50_ean8_no_overflow
* C50_eansupp_no_overflow
* C50_upca_no_overflow
* C51_itf_even
* C51_itf_fails_from_15
* C51_itf_odd_debug
* C51_itf_odd_release
* C52_code128_debug_never_wrong
* C52_code128_release_symbols
* C52_code128_sharp
* C52_code128_short
* C53_code128_same_symbol_iff
* C54_codabar_own_scan
* C54_codabar_scan
* C54_codabar_scan_iff
* C55_code128_extended
* C55_code128_plain
* C55_code128_transmitted
* C56_code11_transposition
* C57_code128_rows
* C57_code128_single_error
* C57_code128_start_error
* C57_code128_transposition
* C58_codabar_code11_clash
* C58_codabar_distinct
* C58_symbologies_distinct
* C58_upca_ean13
* C59_codabar_cut
* C59_itf_cut
* C59_prefix_free
* C59_suffix_free
* C59_supp_cut
* C60_svg_debug
* C60_svg_huge
* C60_svg_release
* C61_svg_xmlns_iff
* C62_code39_check_by_hand
* C62_itf_digit_by_hand
* C63_code11_usize
* C63_code39_usize
* C63_code93_usize
* C64_ean13_jump
* C64_ean8_jump
* C64_upca_jump
* C65_code11_two_errors_missed
* C65_code93_two_errors
* C65_code93_two_errors_missed
* C66_itf_widths
* C66_stf_widths
* C66_tf_no_ratio
* C66_two_widths
* C67_ascii
* C67_image
* C67_measure
* C68_ean13_itf14
* C68_ean8_itf14
* C68_upca_itf14
* C69_add_on
* C69_gap_needed
* C70_codabar
* C70_code39
* C70_itf
* C70_stf
* C71_generators
* C72_default_ascii
* C72_default_image
* C72_default_json
* C72_default_svg
* C72_messages
* C72_svg_colors
* C73_ean13_completion
* C73_ean8_completion
* C73_upca_completion
* C74_ean2_single_error
* C74_ean2_unnoticed
* C74_ean5_single_error
* C75_codabar
* C75_code11
* C75_code128
* C75_code39
* C75_code39_checked
* C75_code93
* C75_ean13
* C75_ean8
* C75_itf
* C75_stf
* C75_supp
* C75_upca
* C76_retail
* C76_text
* C77_image
* C77_retail
* C77_text
* C77_two_of_five
* C78_image_made_iff
* C79_ascii
* C79_digits
* C79_odd_digits
* C79_one_set
* C80_latched
* C80_latin
* C81_code39
* C81_code93
* C81_common
* C82_retail
* C82_text
* C82_two_of_five
* C83_codabar
* C83_code11
* C83_code128
* C83_code39
* C83_code93
* C83_ean13
* C83_ean2_excepted
* C83_ean5
* C83_ean8
* C83_itf
* C83_stf
* C83_upca
* C84_codabar
* C84_code11
* C84_code128
* C84_code39
* C84_code93
* C84_ean13
* C84_ean8
* C84_eansupp
* C84_itf
* C84_stf
* C84_upca
* C85_always_drawn
* C85_longest
* C85_longest_attained
* C86_ean13_two_digits
* C86_ean8_two_digits
* C86_jump_twins
* C86_one_partner
* C86_one_partner_left
* C86_phonetic
* C86_twins
* C86_upca_two_digits
* C87_codabar
* C87_code39
* C87_retail
* C87_sixes
* C87_supp
* C87_supp_nine
* C87_two_of_five
* C88_code11_to_others
* C88_code39_to_others
* C88_code93_to_code39
* C88_shortest
* C88_stf_to_code11
* C89_ascii_append
* C89_ascii_stretch
* C89_image_append
* C89_image_margin
* C89_image_negative
* C89_image_stretch
* C89_svg_append
* C89_svg_stretch
* C90_code128
* C90_code39
* C90_code93
* C90_ean13
* C90_ean5
* C90_ean8
* C90_longer_scratches
* C90_upca
* C91_ascii
* C91_image
* C91_svg
* C92_gap_needed
* C92_pieces
* C93_codabar_data
* C93_codabar_letters
* C93_letters_needed
* C94_gs1
* C94_gs1_digits
* C94_gs1_text
* C94_odd_field
* C95_code128_data_and_check
* C95_code128_exchange
* C95_code128_two_data
* C95_code39_data_and_check
* C95_code39_exchange
* C95_code39_two_data
* C96_ascii
* C96_blot
* C96_checked_text
* C96_ean
* C96_image
* C96_one_module
* C97_image
* C97_read
* C97_svg
* C98_codabar
* C98_code11
* C98_code128
* C98_code39
* C98_code93
* C98_ean13
* C98_ean8
* C98_itf
* C98_stf
* C98_supp
* C98_upca
* C99_different_books
* C99_every_book
* C99_isbn
* C99_issn
