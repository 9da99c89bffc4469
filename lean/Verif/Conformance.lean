import Verif.Model.Ean13
import Verif.Model.Ean8
import Verif.Model.Upca
import Verif.Model.EanSupp
import Verif.Model.Code39
import Verif.Model.Code93
import Verif.Model.Code11
import Verif.Model.Codabar
import Verif.Model.TF
import Verif.Model.Code128
import Verif.Model.Ascii
import Verif.Model.Json
import Verif.Model.Svg

/-!
# The model against the expected values in the repository's own unit tests

Generated by `tools/gen_conformance.py`. `#guard` evaluates the model; nothing here is a proof.
-/

namespace Barcoders.Conformance

/-- `collapse_vec` of the tests. -/
def collapse (o : Outcome (List Nat)) : Option String :=
  match o with
  | .ok l => some (String.ofList (l.map (fun n => Char.ofNat (48 + n))))
  | _ => none

/-- The error of a result. -/
def errOf {α : Type} (o : Outcome α) : Option Error :=
  match o with
  | .err e => some e
  | _ => none

/-- The text of a result. -/
def text (o : Outcome (List Char)) : Option String :=
  match o with
  | .ok l => some (String.ofList l)
  | _ => none

-- `src/sym/ean13.rs` test `new_ean13`
#guard (Ean13.new .debug "123456123456".toList).isOk
-- `src/sym/ean13.rs` test `new_bookland`
#guard (Ean13.new .debug "978456123456".toList).isOk
-- `src/sym/ean13.rs` test `invalid_data_ean13`
#guard errOf (Ean13.new .debug "1234er123412".toList) == some .character
-- `src/sym/ean13.rs` test `invalid_len_ean13`
#guard errOf (Ean13.new .debug "1111112222222333333".toList) == some .length
-- `src/sym/ean13.rs` test `invalid_checksum_ean13`
#guard errOf (Ean13.new .debug "8801051294881".toList) == some .checksum
-- `src/sym/ean13.rs` test `ean13_encode_as_bookland`
#guard collapse (Ean13.new .debug "978345612345".toList >>= Ean13.encode .debug) == some "10101110110001001010000101000110111001010111101010110011011011001000010101110010011101001110101"
#guard collapse (Ean13.new .debug "978118999561".toList >>= Ean13.encode .debug) == some "10101110110001001011001100110010001001000101101010111010011101001001110101000011001101001110101"
-- `src/sym/ean13.rs` test `ean13_encode`
#guard collapse (Ean13.new .debug "750103131130".toList >>= Ean13.encode .debug) == some "10101100010100111001100101001110111101011001101010100001011001101100110100001011100101110100101"
#guard collapse (Ean13.new .debug "983465123499".toList >>= Ean13.encode .debug) == some "10101101110100001001110101011110111001001100101010110110010000101011100111010011101001000010101"
-- `src/sym/ean8.rs` test `new_ean8`
#guard (Ean8.new .debug "1234567".toList).isOk
-- `src/sym/ean8.rs` test `invalid_data_ean8`
#guard errOf (Ean8.new .debug "1234er1".toList) == some .character
-- `src/sym/ean8.rs` test `invalid_len_ean8`
#guard errOf (Ean8.new .debug "1111112222222333333".toList) == some .length
-- `src/sym/ean8.rs` test `invalid_checksum_ean8`
#guard errOf (Ean8.new .debug "88023020".toList) == some .checksum
-- `src/sym/ean8.rs` test `ean8_encode`
#guard collapse (Ean8.new .debug "5512345".toList >>= Ean8.encode .debug) == some "1010110001011000100110010010011010101000010101110010011101000100101"
#guard collapse (Ean8.new .debug "9834651".toList >>= Ean8.encode .debug) == some "1010001011011011101111010100011010101010000100111011001101010000101"
-- `src/sym/upca.rs` test `new_upca`
#guard (Upca.new .debug "72527273070".toList).isOk
-- `src/sym/upca.rs` test `invalid_data_upca`
#guard errOf (Upca.new .debug "012345612a45".toList) == some .character
-- `src/sym/upca.rs` test `invalid_len_upca`
#guard errOf (Upca.new .debug "1234561234589".toList) == some .length
-- `src/sym/upca.rs` test `invalid_checksum_upca`
#guard errOf (Upca.new .debug "725272730705".toList) == some .checksum
-- `src/sym/upca.rs` test `valid_checksum_upca`
#guard (Upca.new .debug "725272730706".toList).isOk
-- `src/sym/upca.rs` test `upce_encode`
#guard collapse (Upca.new .debug "72527273070".toList >>= Upca.encode .debug) == some "10101110110010011011000100100110111011001001101010100010010000101110010100010011100101010000101"
#guard collapse (Upca.new .debug "738312014094".toList >>= Upca.encode .debug) == some "10101110110111101011011101111010011001001001101010111001011001101011100111001011101001011100101"
#guard collapse (Upca.new .debug "095421076611".toList >>= Upca.encode .debug) == some "10100011010001011011000101000110010011001100101010111001010001001010000101000011001101100110101"
-- `src/sym/ean_supp.rs` test `new_ean2`
#guard (EanSupp.new "12".toList).isOk
-- `src/sym/ean_supp.rs` test `new_ean5`
#guard (EanSupp.new "12345".toList).isOk
-- `src/sym/ean_supp.rs` test `invalid_data_ean2`
#guard errOf (EanSupp.new "AT".toList) == some .character
-- `src/sym/ean_supp.rs` test `invalid_len_ean2`
#guard errOf (EanSupp.new "123".toList) == some .length
-- `src/sym/ean_supp.rs` test `ean2_encode`
#guard collapse (EanSupp.new "34".toList >>= EanSupp.encode .debug) == some "10110100001010100011"
-- `src/sym/ean_supp.rs` test `ean5_encode`
#guard collapse (EanSupp.new "51234".toList >>= EanSupp.encode .debug) == some "10110110001010011001010011011010111101010011101"
-- `src/sym/code39.rs` test `new_code39`
#guard (Code39.new "12345".toList).isOk
-- `src/sym/code39.rs` test `invalid_data_code39`
#guard errOf (Code39.new "1212s".toList) == some .character
-- `src/sym/code39.rs` test `invalid_len_code39`
#guard errOf (Code39.new "".toList) == some .length
-- `src/sym/code39.rs` test `code39_encode`
#guard collapse (Code39.new "1234".toList >>= Code39.encode) == some "10010110110101101001010110101100101011011011001010101010011010110100101101101"
#guard collapse (Code39.new "983RD512".toList >>= Code39.encode) == some "100101101101010110010110101101001011010110110010101011010101100101010110010110110100110101011010010101101011001010110100101101101"
#guard collapse (Code39.new "TEST8052".toList >>= Code39.encode) == some "100101101101010101101100101101011001010101101011001010101101100101101001011010101001101101011010011010101011001010110100101101101"
-- `src/sym/code39.rs` test `code39_encode_with_checksum`
#guard collapse (Code39.withChecksum "1234".toList >>= Code39.encode) == some "100101101101011010010101101011001010110110110010101010100110101101101010010110100101101101"
#guard collapse (Code39.withChecksum "983RD512".toList >>= Code39.encode) == some "1001011011010101100101101011010010110101101100101010110101011001010101100101101101001101010110100101011010110010101101011011010010100101101101"
-- `src/sym/code93.rs` test `invalid_length_code93`
#guard errOf (Code93.new "".toList) == some .length
-- `src/sym/code93.rs` test `invalid_data_code93`
#guard errOf (Code93.new "lowerCASE".toList) == some .character
-- `src/sym/code93.rs` test `code93_encode`
#guard collapse (Code93.new "TEST93".toList >>= Code93.encode) == some "1010111101101001101100100101101011001101001101000010101010000101011101101001000101010111101"
#guard collapse (Code93.new "FLAM".toList >>= Code93.encode) == some "1010111101100010101010110001101010001010011001001011001010011001010111101"
#guard collapse (Code93.new "99".toList >>= Code93.encode) == some "1010111101000010101000010101101100101000101101010111101"
#guard collapse (Code93.new "1111111111111111111111".toList >>= Code93.encode) == some "1010111101010010001010010001010010001010010001010010001010010001010010001010010001010010001010010001010010001010010001010010001010010001010010001010010001010010001010010001010010001010010001010010001010010001000101101110010101010111101"
-- `src/sym/code11.rs` test `invalid_length_code11`
#guard errOf (Code11.new "".toList) == some .length
-- `src/sym/code11.rs` test `invalid_data_code11`
#guard errOf (Code11.new "NOTDIGITS".toList) == some .character
-- `src/sym/code11.rs` test `code11_encode_less_than_10_chars`
#guard collapse (Code11.new "123-45".toList >>= Code11.encode) == some "1011001011010110100101101100101010110101011011011011010110110101011001"
#guard collapse (Code11.new "666".toList >>= Code11.encode) == some "10110010100110101001101010011010110010101011001"
#guard collapse (Code11.new "12-9".toList >>= Code11.encode) == some "10110010110101101001011010110101101010100110101011001"
-- `src/sym/code11.rs` test `code11_encode_more_than_10_chars`
#guard collapse (Code11.new "1234-5678-4321".toList >>= Code11.encode) == some "101100101101011010010110110010101011011010110101101101010011010101001101101001010110101011011011001010100101101101011011011010100110101011001"
-- `src/sym/codabar.rs` test `invalid_length_codabar`
#guard errOf (Codabar.new "".toList) == some .length
-- `src/sym/codabar.rs` test `invalid_data_codabar`
#guard errOf (Codabar.new "A12345G".toList) == some .character
-- `src/sym/codabar.rs` test `codabar_encode`
#guard collapse (Codabar.new "A1234B".toList >>= (fun x => Outcome.ok (Codabar.encode x))) == some "1011001001010101100101010010110110010101010110100101010010011"
#guard collapse (Codabar.new "A40156B".toList >>= (fun x => Outcome.ok (Codabar.encode x))) == some "10110010010101101001010101001101010110010110101001010010101101010010011"
-- `src/sym/tf.rs` test `new_itf`
#guard (TF.interleaved .debug "12345679".toList).isOk
-- `src/sym/tf.rs` test `new_stf`
#guard (TF.standard "12345".toList).isOk
-- `src/sym/tf.rs` test `invalid_data_itf`
#guard errOf (TF.interleaved .debug "1234er123412".toList) == some .character
-- `src/sym/tf.rs` test `invalid_data_stf`
#guard errOf (TF.standard "WORDUP".toList) == some .character
-- `src/sym/tf.rs` test `itf_raw_data`
-- `src/sym/tf.rs` test `itf_encode`
#guard collapse (TF.interleaved .debug "1234567".toList >>= TF.encode) == some "10101110100010101110001110111010001010001110100011100010101010100011100011101101"
-- `src/sym/tf.rs` test `stf_encode`
#guard collapse (TF.standard "1234567".toList >>= TF.encode) == some "110110101110101010111010111010101110111011101010101010111010111011101011101010101110111010101010101110111011010110"
-- `src/sym/code128.rs` test `new_code128`
#guard (Code128.new "À !! Ć0201".toList).isOk
#guard (Code128.new "À!!  \" ".toList).isOk
-- `src/sym/code128.rs` test `invalid_length_code128`
#guard errOf (Code128.new "".toList) == some .length
-- `src/sym/code128.rs` test `invalid_data_code128`
#guard errOf (Code128.new "À☺ ".toList) == some .character
#guard errOf (Code128.new "ÀHELLOĆ12352".toList) == some .character
#guard errOf (Code128.new "HELLO".toList) == some .character
-- `src/sym/code128.rs` test `code128_encode`
#guard collapse (Code128.new "ÀHELLO".toList >>= Code128.encode .debug) == some "110100001001100010100010001101000100011011101000110111010001110110110100010001100011101011"
#guard collapse (Code128.new "ÀXYĆ2199".toList >>= Code128.encode .debug) == some "110100001001110001011011101101000101110111101101110010010111011110100111011001100011101011"
#guard collapse (Code128.new "ƁxyZÀ199!*1".toList >>= Code128.encode .debug) == some "1101001000011110010010110110111101110110001011101011110100111001101110010110011100101100110011011001100100010010011100110100101111001100011101011"
-- `src/sym/code128.rs` test `code128_encode_special_chars`
#guard collapse (Code128.new "ÀB\u0006".toList >>= Code128.encode .debug) == some "110100001001000101100010110000100100110100001100011101011"
-- `src/sym/code128.rs` test `code128_encode_fnc_chars`
#guard collapse (Code128.new "ĆŹ4218402050À0".toList >>= Code128.encode .debug) == some "110100111001111010111010110111000110011100101100010100011001001110110001011101110101111010011101100101011110001100011101011"
-- `src/sym/code128.rs` test `code128_encode_longhand`
#guard collapse (Code128.new "\u00c0HELLO".toList >>= Code128.encode .debug) == some "110100001001100010100010001101000100011011101000110111010001110110110100010001100011101011"
#guard collapse (Code128.new "\u00c0XY\u01062199".toList >>= Code128.encode .debug) == some "110100001001110001011011101101000101110111101101110010010111011110100111011001100011101011"
#guard collapse (Code128.new "\u0181xyZ\u00c0199!*1".toList >>= Code128.encode .debug) == some "1101001000011110010010110110111101110110001011101011110100111001101110010110011100101100110011011001100100010010011100110100101111001100011101011"
-- `src/generators/ascii.rs` test `ean_13_as_ascii`
#guard text ((Ean13.new .debug "750103131130".toList >>= Ean13.encode .debug) >>= Ascii.generate Ascii.new) == some "# # ##   # #  ###  ##  # #  ### #### # ##  ## # # #    # ##  ## ##  ## #    # ###  # ### #  # #\n# # ##   # #  ###  ##  # #  ### #### # ##  ## # # #    # ##  ## ##  ## #    # ###  # ### #  # #\n# # ##   # #  ###  ##  # #  ### #### # ##  ## # # #    # ##  ## ##  ## #    # ###  # ### #  # #\n# # ##   # #  ###  ##  # #  ### #### # ##  ## # # #    # ##  ## ##  ## #    # ###  # ### #  # #\n# # ##   # #  ###  ##  # #  ### #### # ##  ## # # #    # ##  ## ##  ## #    # ###  # ### #  # #\n# # ##   # #  ###  ##  # #  ### #### # ##  ## # # #    # ##  ## ##  ## #    # ###  # ### #  # #\n# # ##   # #  ###  ##  # #  ### #### # ##  ## # # #    # ##  ## ##  ## #    # ###  # ### #  # #\n# # ##   # #  ###  ##  # #  ### #### # ##  ## # # #    # ##  ## ##  ## #    # ###  # ### #  # #\n# # ##   # #  ###  ##  # #  ### #### # ##  ## # # #    # ##  ## ##  ## #    # ###  # ### #  # #\n# # ##   # #  ###  ##  # #  ### #### # ##  ## # # #    # ##  ## ##  ## #    # ###  # ### #  # #"
-- `src/generators/ascii.rs` test `ean_13_as_ascii_small_height_double_width`
#guard text ((Ean13.new .debug "750103131130".toList >>= Ean13.encode .debug) >>= Ascii.generate { height := 6, xdim := 2 : Ascii.ASCII }) == some "##  ##  ####      ##  ##    ######    ####    ##  ##    ######  ########  ##  ####    ####  ##  ##  ##        ##  ####    ####  ####    ####  ##        ##  ######    ##  ######  ##    ##  ##\n##  ##  ####      ##  ##    ######    ####    ##  ##    ######  ########  ##  ####    ####  ##  ##  ##        ##  ####    ####  ####    ####  ##        ##  ######    ##  ######  ##    ##  ##\n##  ##  ####      ##  ##    ######    ####    ##  ##    ######  ########  ##  ####    ####  ##  ##  ##        ##  ####    ####  ####    ####  ##        ##  ######    ##  ######  ##    ##  ##\n##  ##  ####      ##  ##    ######    ####    ##  ##    ######  ########  ##  ####    ####  ##  ##  ##        ##  ####    ####  ####    ####  ##        ##  ######    ##  ######  ##    ##  ##\n##  ##  ####      ##  ##    ######    ####    ##  ##    ######  ########  ##  ####    ####  ##  ##  ##        ##  ####    ####  ####    ####  ##        ##  ######    ##  ######  ##    ##  ##\n##  ##  ####      ##  ##    ######    ####    ##  ##    ######  ########  ##  ####    ####  ##  ##  ##        ##  ####    ####  ####    ####  ##        ##  ######    ##  ######  ##    ##  ##"
-- `src/generators/ascii.rs` test `ean_8_as_ascii`
#guard text ((Ean8.new .debug "1234567".toList >>= Ean8.encode .debug) >>= Ascii.generate Ascii.new) == some "# #  ##  #  #  ## #### # #   ## # # #  ### # #    #   #  ###  # # #\n# #  ##  #  #  ## #### # #   ## # # #  ### # #    #   #  ###  # # #\n# #  ##  #  #  ## #### # #   ## # # #  ### # #    #   #  ###  # # #\n# #  ##  #  #  ## #### # #   ## # # #  ### # #    #   #  ###  # # #\n# #  ##  #  #  ## #### # #   ## # # #  ### # #    #   #  ###  # # #\n# #  ##  #  #  ## #### # #   ## # # #  ### # #    #   #  ###  # # #\n# #  ##  #  #  ## #### # #   ## # # #  ### # #    #   #  ###  # # #\n# #  ##  #  #  ## #### # #   ## # # #  ### # #    #   #  ###  # # #\n# #  ##  #  #  ## #### # #   ## # # #  ### # #    #   #  ###  # # #\n# #  ##  #  #  ## #### # #   ## # # #  ### # #    #   #  ###  # # #"
-- `src/generators/ascii.rs` test `ean_8_as_ascii_small_height_double_width`
#guard text ((Ean8.new .debug "1234567".toList >>= Ean8.encode .debug) >>= Ascii.generate { height := 5, xdim := 2 : Ascii.ASCII }) == some "##  ##    ####    ##    ##    ####  ########  ##  ##      ####  ##  ##  ##    ######  ##  ##        ##      ##    ######    ##  ##  ##\n##  ##    ####    ##    ##    ####  ########  ##  ##      ####  ##  ##  ##    ######  ##  ##        ##      ##    ######    ##  ##  ##\n##  ##    ####    ##    ##    ####  ########  ##  ##      ####  ##  ##  ##    ######  ##  ##        ##      ##    ######    ##  ##  ##\n##  ##    ####    ##    ##    ####  ########  ##  ##      ####  ##  ##  ##    ######  ##  ##        ##      ##    ######    ##  ##  ##\n##  ##    ####    ##    ##    ####  ########  ##  ##      ####  ##  ##  ##    ######  ##  ##        ##      ##    ######    ##  ##  ##"
-- `src/generators/ascii.rs` test `code_39_as_ascii`
#guard text ((Code39.new "TEST8052".toList >>= Code39.encode) >>= Ascii.generate Ascii.new) == some "#  # ## ## # # # ## ##  # ## # ##  # # # ## # ##  # # # ## ##  # ## #  # ## # # #  ## ## # ## #  ## # # # ##  # # ## #  # ## ## #\n#  # ## ## # # # ## ##  # ## # ##  # # # ## # ##  # # # ## ##  # ## #  # ## # # #  ## ## # ## #  ## # # # ##  # # ## #  # ## ## #\n#  # ## ## # # # ## ##  # ## # ##  # # # ## # ##  # # # ## ##  # ## #  # ## # # #  ## ## # ## #  ## # # # ##  # # ## #  # ## ## #\n#  # ## ## # # # ## ##  # ## # ##  # # # ## # ##  # # # ## ##  # ## #  # ## # # #  ## ## # ## #  ## # # # ##  # # ## #  # ## ## #\n#  # ## ## # # # ## ##  # ## # ##  # # # ## # ##  # # # ## ##  # ## #  # ## # # #  ## ## # ## #  ## # # # ##  # # ## #  # ## ## #\n#  # ## ## # # # ## ##  # ## # ##  # # # ## # ##  # # # ## ##  # ## #  # ## # # #  ## ## # ## #  ## # # # ##  # # ## #  # ## ## #\n#  # ## ## # # # ## ##  # ## # ##  # # # ## # ##  # # # ## ##  # ## #  # ## # # #  ## ## # ## #  ## # # # ##  # # ## #  # ## ## #\n#  # ## ## # # # ## ##  # ## # ##  # # # ## # ##  # # # ## ##  # ## #  # ## # # #  ## ## # ## #  ## # # # ##  # # ## #  # ## ## #\n#  # ## ## # # # ## ##  # ## # ##  # # # ## # ##  # # # ## ##  # ## #  # ## # # #  ## ## # ## #  ## # # # ##  # # ## #  # ## ## #\n#  # ## ## # # # ## ##  # ## # ##  # # # ## # ##  # # # ## ##  # ## #  # ## # # #  ## ## # ## #  ## # # # ##  # # ## #  # ## ## #"
-- `src/generators/ascii.rs` test `code_39_as_ascii_small_height_double_weight`
#guard text ((Code39.new "1234".toList >>= Code39.encode) >>= Ascii.generate { height := 7, xdim := 2 : Ascii.ASCII }) == some "##    ##  ####  ####  ##  ####  ##    ##  ##  ####  ##  ####    ##  ##  ####  ####  ####    ##  ##  ##  ##  ##    ####  ##  ####  ##    ##  ####  ####  ##\n##    ##  ####  ####  ##  ####  ##    ##  ##  ####  ##  ####    ##  ##  ####  ####  ####    ##  ##  ##  ##  ##    ####  ##  ####  ##    ##  ####  ####  ##\n##    ##  ####  ####  ##  ####  ##    ##  ##  ####  ##  ####    ##  ##  ####  ####  ####    ##  ##  ##  ##  ##    ####  ##  ####  ##    ##  ####  ####  ##\n##    ##  ####  ####  ##  ####  ##    ##  ##  ####  ##  ####    ##  ##  ####  ####  ####    ##  ##  ##  ##  ##    ####  ##  ####  ##    ##  ####  ####  ##\n##    ##  ####  ####  ##  ####  ##    ##  ##  ####  ##  ####    ##  ##  ####  ####  ####    ##  ##  ##  ##  ##    ####  ##  ####  ##    ##  ####  ####  ##\n##    ##  ####  ####  ##  ####  ##    ##  ##  ####  ##  ####    ##  ##  ####  ####  ####    ##  ##  ##  ##  ##    ####  ##  ####  ##    ##  ####  ####  ##\n##    ##  ####  ####  ##  ####  ##    ##  ##  ####  ##  ####    ##  ##  ####  ####  ####    ##  ##  ##  ##  ##    ####  ##  ####  ##    ##  ####  ####  ##"
-- `src/generators/ascii.rs` test `codabar_as_ascii`
#guard text ((Codabar.new "A98B".toList >>= (fun x => Outcome.ok (Codabar.encode x))) >>= Ascii.generate Ascii.new) == some "# ##  #  # ## #  # # #  ## # # # #  #  ##\n# ##  #  # ## #  # # #  ## # # # #  #  ##\n# ##  #  # ## #  # # #  ## # # # #  #  ##\n# ##  #  # ## #  # # #  ## # # # #  #  ##\n# ##  #  # ## #  # # #  ## # # # #  #  ##\n# ##  #  # ## #  # # #  ## # # # #  #  ##\n# ##  #  # ## #  # # #  ## # # # #  #  ##\n# ##  #  # ## #  # # #  ## # # # #  #  ##\n# ##  #  # ## #  # # #  ## # # # #  #  ##\n# ##  #  # ## #  # # #  ## # # # #  #  ##"
-- `src/generators/ascii.rs` test `codabar_as_ascii_small_height_double_weight`
#guard text ((Codabar.new "A40156B".toList >>= (fun x => Outcome.ok (Codabar.encode x))) >>= Ascii.generate { height := 7, xdim := 2 : Ascii.ASCII }) == some "##  ####    ##    ##  ##  ####  ##    ##  ##  ##  ##    ####  ##  ##  ####    ##  ####  ##  ##    ##  ##    ##  ##  ####  ##  ##    ##    ####\n##  ####    ##    ##  ##  ####  ##    ##  ##  ##  ##    ####  ##  ##  ####    ##  ####  ##  ##    ##  ##    ##  ##  ####  ##  ##    ##    ####\n##  ####    ##    ##  ##  ####  ##    ##  ##  ##  ##    ####  ##  ##  ####    ##  ####  ##  ##    ##  ##    ##  ##  ####  ##  ##    ##    ####\n##  ####    ##    ##  ##  ####  ##    ##  ##  ##  ##    ####  ##  ##  ####    ##  ####  ##  ##    ##  ##    ##  ##  ####  ##  ##    ##    ####\n##  ####    ##    ##  ##  ####  ##    ##  ##  ##  ##    ####  ##  ##  ####    ##  ####  ##  ##    ##  ##    ##  ##  ####  ##  ##    ##    ####\n##  ####    ##    ##  ##  ####  ##    ##  ##  ##  ##    ####  ##  ##  ####    ##  ####  ##  ##    ##  ##    ##  ##  ####  ##  ##    ##    ####\n##  ####    ##    ##  ##  ####  ##    ##  ##  ##  ##    ####  ##  ##  ####    ##  ####  ##  ##    ##  ##    ##  ##  ####  ##  ##    ##    ####"
-- `src/generators/ascii.rs` test `code_128_as_ascii`
#guard text ((Code128.new "ÀHELLO".toList >>= Code128.encode .debug) >>= Ascii.generate Ascii.new) == some "## #    #  ##   # #   #   ## #   #   ## ### #   ## ### #   ### ## ## #   #   ##   ### # ##\n## #    #  ##   # #   #   ## #   #   ## ### #   ## ### #   ### ## ## #   #   ##   ### # ##\n## #    #  ##   # #   #   ## #   #   ## ### #   ## ### #   ### ## ## #   #   ##   ### # ##\n## #    #  ##   # #   #   ## #   #   ## ### #   ## ### #   ### ## ## #   #   ##   ### # ##\n## #    #  ##   # #   #   ## #   #   ## ### #   ## ### #   ### ## ## #   #   ##   ### # ##\n## #    #  ##   # #   #   ## #   #   ## ### #   ## ### #   ### ## ## #   #   ##   ### # ##\n## #    #  ##   # #   #   ## #   #   ## ### #   ## ### #   ### ## ## #   #   ##   ### # ##\n## #    #  ##   # #   #   ## #   #   ## ### #   ## ### #   ### ## ## #   #   ##   ### # ##\n## #    #  ##   # #   #   ## #   #   ## ### #   ## ### #   ### ## ## #   #   ##   ### # ##\n## #    #  ##   # #   #   ## #   #   ## ### #   ## ### #   ### ## ## #   #   ##   ### # ##"
-- `src/generators/ascii.rs` test `code_128_as_ascii_small_height_double_weight`
#guard text ((Code128.new "ÀHELLO".toList >>= Code128.encode .debug) >>= Ascii.generate { height := 7, xdim := 2 : Ascii.ASCII }) == some "####  ##        ##    ####      ##  ##      ##      ####  ##      ##      ####  ######  ##      ####  ######  ##      ######  ####  ####  ##      ##      ####      ######  ##  ####\n####  ##        ##    ####      ##  ##      ##      ####  ##      ##      ####  ######  ##      ####  ######  ##      ######  ####  ####  ##      ##      ####      ######  ##  ####\n####  ##        ##    ####      ##  ##      ##      ####  ##      ##      ####  ######  ##      ####  ######  ##      ######  ####  ####  ##      ##      ####      ######  ##  ####\n####  ##        ##    ####      ##  ##      ##      ####  ##      ##      ####  ######  ##      ####  ######  ##      ######  ####  ####  ##      ##      ####      ######  ##  ####\n####  ##        ##    ####      ##  ##      ##      ####  ##      ##      ####  ######  ##      ####  ######  ##      ######  ####  ####  ##      ##      ####      ######  ##  ####\n####  ##        ##    ####      ##  ##      ##      ####  ##      ##      ####  ######  ##      ####  ######  ##      ######  ####  ####  ##      ##      ####      ######  ##  ####\n####  ##        ##    ####      ##  ##      ##      ####  ##      ##      ####  ######  ##      ####  ######  ##      ######  ####  ####  ##      ##      ####      ######  ##  ####"
-- `src/generators/ascii.rs` test `ean2_as_ascii`
#guard text ((EanSupp.new "34".toList >>= EanSupp.encode .debug) >>= Ascii.generate Ascii.new) == some "# ## #    # # #   ##\n# ## #    # # #   ##\n# ## #    # # #   ##\n# ## #    # # #   ##\n# ## #    # # #   ##\n# ## #    # # #   ##\n# ## #    # # #   ##\n# ## #    # # #   ##\n# ## #    # # #   ##\n# ## #    # # #   ##"
-- `src/generators/ascii.rs` test `ean5_as_ascii`
#guard text ((EanSupp.new "50799".toList >>= EanSupp.encode .debug) >>= Ascii.generate Ascii.new) == some "# ## ##   # # #  ### #  #   # #   # ## #   # ##\n# ## ##   # # #  ### #  #   # #   # ## #   # ##\n# ## ##   # # #  ### #  #   # #   # ## #   # ##\n# ## ##   # # #  ### #  #   # #   # ## #   # ##\n# ## ##   # # #  ### #  #   # #   # ## #   # ##\n# ## ##   # # #  ### #  #   # #   # ## #   # ##\n# ## ##   # # #  ### #  #   # #   # ## #   # ##\n# ## ##   # # #  ### #  #   # #   # ## #   # ##\n# ## ##   # # #  ### #  #   # #   # ## #   # ##\n# ## ##   # # #  ### #  #   # #   # ## #   # ##"
-- `src/generators/ascii.rs` test `itf_as_ascii`
#guard text ((TF.interleaved .debug "12345".toList >>= TF.encode) >>= Ascii.generate Ascii.new) == some "# # ### #   # # ###   ### ### #   # #   ### # ### #   #   ## #\n# # ### #   # # ###   ### ### #   # #   ### # ### #   #   ## #\n# # ### #   # # ###   ### ### #   # #   ### # ### #   #   ## #\n# # ### #   # # ###   ### ### #   # #   ### # ### #   #   ## #\n# # ### #   # # ###   ### ### #   # #   ### # ### #   #   ## #\n# # ### #   # # ###   ### ### #   # #   ### # ### #   #   ## #\n# # ### #   # # ###   ### ### #   # #   ### # ### #   #   ## #\n# # ### #   # # ###   ### ### #   # #   ### # ### #   #   ## #\n# # ### #   # # ###   ### ### #   # #   ### # ### #   #   ## #\n# # ### #   # # ###   ### ### #   # #   ### # ### #   #   ## #"
-- `src/generators/ascii.rs` test `code_93_as_ascii`
#guard text ((Code93.new "TEST93".toList >>= Code93.encode) >>= Ascii.generate Ascii.new) == some "# # #### ## #  ## ##  #  # ## # ##  ## #  ## #    # # # #    # # ### ## #  #   # # # #### #\n# # #### ## #  ## ##  #  # ## # ##  ## #  ## #    # # # #    # # ### ## #  #   # # # #### #\n# # #### ## #  ## ##  #  # ## # ##  ## #  ## #    # # # #    # # ### ## #  #   # # # #### #\n# # #### ## #  ## ##  #  # ## # ##  ## #  ## #    # # # #    # # ### ## #  #   # # # #### #\n# # #### ## #  ## ##  #  # ## # ##  ## #  ## #    # # # #    # # ### ## #  #   # # # #### #\n# # #### ## #  ## ##  #  # ## # ##  ## #  ## #    # # # #    # # ### ## #  #   # # # #### #\n# # #### ## #  ## ##  #  # ## # ##  ## #  ## #    # # # #    # # ### ## #  #   # # # #### #\n# # #### ## #  ## ##  #  # ## # ##  ## #  ## #    # # # #    # # ### ## #  #   # # # #### #\n# # #### ## #  ## ##  #  # ## # ##  ## #  ## #    # # # #    # # ### ## #  #   # # # #### #\n# # #### ## #  ## ##  #  # ## # ##  ## #  ## #    # # # #    # # ### ## #  #   # # # #### #"
-- `src/generators/ascii.rs` test `code_93_as_ascii_small_height_double_weight`
#guard text ((Code93.new "TEST93".toList >>= Code93.encode) >>= Ascii.generate { height := 7, xdim := 2 : Ascii.ASCII }) == some "##  ##  ########  ####  ##    ####  ####    ##    ##  ####  ##  ####    ####  ##    ####  ##        ##  ##  ##  ##        ##  ##  ######  ####  ##    ##      ##  ##  ##  ########  ##\n##  ##  ########  ####  ##    ####  ####    ##    ##  ####  ##  ####    ####  ##    ####  ##        ##  ##  ##  ##        ##  ##  ######  ####  ##    ##      ##  ##  ##  ########  ##\n##  ##  ########  ####  ##    ####  ####    ##    ##  ####  ##  ####    ####  ##    ####  ##        ##  ##  ##  ##        ##  ##  ######  ####  ##    ##      ##  ##  ##  ########  ##\n##  ##  ########  ####  ##    ####  ####    ##    ##  ####  ##  ####    ####  ##    ####  ##        ##  ##  ##  ##        ##  ##  ######  ####  ##    ##      ##  ##  ##  ########  ##\n##  ##  ########  ####  ##    ####  ####    ##    ##  ####  ##  ####    ####  ##    ####  ##        ##  ##  ##  ##        ##  ##  ######  ####  ##    ##      ##  ##  ##  ########  ##\n##  ##  ########  ####  ##    ####  ####    ##    ##  ####  ##  ####    ####  ##    ####  ##        ##  ##  ##  ##        ##  ##  ######  ####  ##    ##      ##  ##  ##  ########  ##\n##  ##  ########  ####  ##    ####  ####    ##    ##  ####  ##  ####    ####  ##    ####  ##        ##  ##  ##  ##        ##  ##  ######  ####  ##    ##      ##  ##  ##  ########  ##"
-- `src/generators/ascii.rs` test `code_11_as_ascii`
#guard text ((Code11.new "12-9".toList >>= Code11.encode) >>= Ascii.generate Ascii.new) == some "# ##  # ## # ## #  # ## # ## # ## # # #  ## # # ##  #\n# ##  # ## # ## #  # ## # ## # ## # # #  ## # # ##  #\n# ##  # ## # ## #  # ## # ## # ## # # #  ## # # ##  #\n# ##  # ## # ## #  # ## # ## # ## # # #  ## # # ##  #\n# ##  # ## # ## #  # ## # ## # ## # # #  ## # # ##  #\n# ##  # ## # ## #  # ## # ## # ## # # #  ## # # ##  #\n# ##  # ## # ## #  # ## # ## # ## # # #  ## # # ##  #\n# ##  # ## # ## #  # ## # ## # ## # # #  ## # # ##  #\n# ##  # ## # ## #  # ## # ## # ## # # #  ## # # ##  #\n# ##  # ## # ## #  # ## # ## # ## # # #  ## # # ##  #"
-- `src/generators/json.rs` test `ean_13_as_json`
#guard text ((Ean13.new .debug "750103131130".toList >>= Ean13.encode .debug) >>= Json.generate Json.new) == some "{\"height\":10,\"xdim\":1,\"encoding\":[1,0,1,0,1,1,0,0,0,1,0,1,0,0,1,1,1,0,0,1,1,0,0,1,0,1,0,0,1,1,1,0,1,1,1,1,0,1,0,1,1,0,0,1,1,0,1,0,1,0,1,0,0,0,0,1,0,1,1,0,0,1,1,0,1,1,0,0,1,1,0,1,0,0,0,0,1,0,1,1,1,0,0,1,0,1,1,1,0,1,0,0,1,0,1]}"
-- `src/generators/json.rs` test `ean_13_as_json_small_height_double_width`
#guard text ((Ean13.new .debug "750103131130".toList >>= Ean13.encode .debug) >>= Json.generate { height := 6, xdim := 2 : Json.JSON }) == some "{\"height\":6,\"xdim\":2,\"encoding\":[1,0,1,0,1,1,0,0,0,1,0,1,0,0,1,1,1,0,0,1,1,0,0,1,0,1,0,0,1,1,1,0,1,1,1,1,0,1,0,1,1,0,0,1,1,0,1,0,1,0,1,0,0,0,0,1,0,1,1,0,0,1,1,0,1,1,0,0,1,1,0,1,0,0,0,0,1,0,1,1,1,0,0,1,0,1,1,1,0,1,0,0,1,0,1]}"
-- `src/generators/json.rs` test `ean_8_as_json`
#guard text ((Ean8.new .debug "1234567".toList >>= Ean8.encode .debug) >>= Json.generate Json.new) == some "{\"height\":10,\"xdim\":1,\"encoding\":[1,0,1,0,0,1,1,0,0,1,0,0,1,0,0,1,1,0,1,1,1,1,0,1,0,1,0,0,0,1,1,0,1,0,1,0,1,0,0,1,1,1,0,1,0,1,0,0,0,0,1,0,0,0,1,0,0,1,1,1,0,0,1,0,1,0,1]}"
-- `src/generators/json.rs` test `ean_8_as_json_small_height_double_width`
#guard text ((Ean8.new .debug "1234567".toList >>= Ean8.encode .debug) >>= Json.generate { height := 5, xdim := 2 : Json.JSON }) == some "{\"height\":5,\"xdim\":2,\"encoding\":[1,0,1,0,0,1,1,0,0,1,0,0,1,0,0,1,1,0,1,1,1,1,0,1,0,1,0,0,0,1,1,0,1,0,1,0,1,0,0,1,1,1,0,1,0,1,0,0,0,0,1,0,0,0,1,0,0,1,1,1,0,0,1,0,1,0,1]}"
-- `src/generators/json.rs` test `code_93_as_json`
#guard text ((Code93.new "MONKEYMAGIC".toList >>= Code93.encode) >>= Json.generate Json.new) == some "{\"height\":10,\"xdim\":1,\"encoding\":[1,0,1,0,1,1,1,1,0,1,0,1,0,0,1,1,0,0,1,0,0,1,0,1,1,0,0,1,0,1,0,0,0,1,1,0,1,0,0,0,1,1,0,1,0,1,1,0,0,1,0,0,1,0,1,0,0,1,1,0,1,1,0,1,0,1,0,0,1,1,0,0,1,1,0,1,0,1,0,0,0,1,0,1,1,0,1,0,0,0,1,0,1,1,0,0,0,1,0,1,1,0,1,0,0,0,1,0,1,0,0,1,1,0,1,1,0,1,0,1,0,0,1,0,0,0,1,0,1,0,1,1,1,1,0,1]}"
-- `src/generators/json.rs` test `code_93_as_json_small_height_double_weight`
#guard text ((Code93.new "1234".toList >>= Code93.encode) >>= Json.generate { height := 7, xdim := 2 : Json.JSON }) == some "{\"height\":7,\"xdim\":2,\"encoding\":[1,0,1,0,1,1,1,1,0,1,0,1,0,0,1,0,0,0,1,0,1,0,0,0,1,0,0,1,0,1,0,0,0,0,1,0,1,0,0,1,0,1,0,0,0,1,0,0,0,1,1,0,1,0,1,0,1,0,0,0,0,1,0,1,0,1,0,1,1,1,1,0,1]}"
-- `src/generators/json.rs` test `code_39_as_json`
#guard text ((Code39.new "TEST8052".toList >>= Code39.encode) >>= Json.generate Json.new) == some "{\"height\":10,\"xdim\":1,\"encoding\":[1,0,0,1,0,1,1,0,1,1,0,1,0,1,0,1,0,1,1,0,1,1,0,0,1,0,1,1,0,1,0,1,1,0,0,1,0,1,0,1,0,1,1,0,1,0,1,1,0,0,1,0,1,0,1,0,1,1,0,1,1,0,0,1,0,1,1,0,1,0,0,1,0,1,1,0,1,0,1,0,1,0,0,1,1,0,1,1,0,1,0,1,1,0,1,0,0,1,1,0,1,0,1,0,1,0,1,1,0,0,1,0,1,0,1,1,0,1,0,0,1,0,1,1,0,1,1,0,1]}"
-- `src/generators/json.rs` test `code_39_as_json_small_height_double_weight`
#guard text ((Code39.new "1234".toList >>= Code39.encode) >>= Json.generate { height := 7, xdim := 2 : Json.JSON }) == some "{\"height\":7,\"xdim\":2,\"encoding\":[1,0,0,1,0,1,1,0,1,1,0,1,0,1,1,0,1,0,0,1,0,1,0,1,1,0,1,0,1,1,0,0,1,0,1,0,1,1,0,1,1,0,1,1,0,0,1,0,1,0,1,0,1,0,1,0,0,1,1,0,1,0,1,1,0,1,0,0,1,0,1,1,0,1,1,0,1]}"
-- `src/generators/json.rs` test `codabar_as_json`
#guard text ((Codabar.new "A98B".toList >>= (fun x => Outcome.ok (Codabar.encode x))) >>= Json.generate Json.new) == some "{\"height\":10,\"xdim\":1,\"encoding\":[1,0,1,1,0,0,1,0,0,1,0,1,1,0,1,0,0,1,0,1,0,1,0,0,1,1,0,1,0,1,0,1,0,1,0,0,1,0,0,1,1]}"
-- `src/generators/json.rs` test `codabar_as_json_small_height_double_weight`
#guard text ((Codabar.new "A40156B".toList >>= (fun x => Outcome.ok (Codabar.encode x))) >>= Json.generate { height := 7, xdim := 2 : Json.JSON }) == some "{\"height\":7,\"xdim\":2,\"encoding\":[1,0,1,1,0,0,1,0,0,1,0,1,0,1,1,0,1,0,0,1,0,1,0,1,0,1,0,0,1,1,0,1,0,1,0,1,1,0,0,1,0,1,1,0,1,0,1,0,0,1,0,1,0,0,1,0,1,0,1,1,0,1,0,1,0,0,1,0,0,1,1]}"
-- `src/generators/json.rs` test `code_128_as_json`
#guard text ((Code128.new "ÀHELLO".toList >>= Code128.encode .debug) >>= Json.generate Json.new) == some "{\"height\":10,\"xdim\":1,\"encoding\":[1,1,0,1,0,0,0,0,1,0,0,1,1,0,0,0,1,0,1,0,0,0,1,0,0,0,1,1,0,1,0,0,0,1,0,0,0,1,1,0,1,1,1,0,1,0,0,0,1,1,0,1,1,1,0,1,0,0,0,1,1,1,0,1,1,0,1,1,0,1,0,0,0,1,0,0,0,1,1,0,0,0,1,1,1,0,1,0,1,1]}"
-- `src/generators/json.rs` test `code_128_as_json_small_height_double_weight`
#guard text ((Code128.new "ÀHELLO".toList >>= Code128.encode .debug) >>= Json.generate { height := 7, xdim := 2 : Json.JSON }) == some "{\"height\":7,\"xdim\":2,\"encoding\":[1,1,0,1,0,0,0,0,1,0,0,1,1,0,0,0,1,0,1,0,0,0,1,0,0,0,1,1,0,1,0,0,0,1,0,0,0,1,1,0,1,1,1,0,1,0,0,0,1,1,0,1,1,1,0,1,0,0,0,1,1,1,0,1,1,0,1,1,0,1,0,0,0,1,0,0,0,1,1,0,0,0,1,1,1,0,1,0,1,1]}"
-- `src/generators/json.rs` test `ean2_as_json`
#guard text ((EanSupp.new "34".toList >>= EanSupp.encode .debug) >>= Json.generate Json.new) == some "{\"height\":10,\"xdim\":1,\"encoding\":[1,0,1,1,0,1,0,0,0,0,1,0,1,0,1,0,0,0,1,1]}"
-- `src/generators/json.rs` test `ean5_as_json`
#guard text ((EanSupp.new "50799".toList >>= EanSupp.encode .debug) >>= Json.generate Json.new) == some "{\"height\":10,\"xdim\":1,\"encoding\":[1,0,1,1,0,1,1,0,0,0,1,0,1,0,1,0,0,1,1,1,0,1,0,0,1,0,0,0,1,0,1,0,0,0,1,0,1,1,0,1,0,0,0,1,0,1,1]}"
-- `src/generators/json.rs` test `itf_as_json`
#guard text ((TF.interleaved .debug "12345".toList >>= TF.encode) >>= Json.generate Json.new) == some "{\"height\":10,\"xdim\":1,\"encoding\":[1,0,1,0,1,1,1,0,1,0,0,0,1,0,1,0,1,1,1,0,0,0,1,1,1,0,1,1,1,0,1,0,0,0,1,0,1,0,0,0,1,1,1,0,1,0,1,1,1,0,1,0,0,0,1,0,0,0,1,1,0,1]}"
-- `src/generators/json.rs` test `code11_as_json`
#guard text ((Code11.new "111-999-8".toList >>= Code11.encode) >>= Json.generate Json.new) == some "{\"height\":10,\"xdim\":1,\"encoding\":[1,0,1,1,0,0,1,0,1,1,0,1,0,1,1,0,1,1,0,1,0,1,1,0,1,1,0,1,0,1,1,0,1,0,1,1,0,1,0,1,1,0,1,0,1,0,1,1,0,1,0,1,0,1,1,0,1,0,1,0,1,0,1,1,0,1,0,1,1,0,1,0,0,1,0,1,0,1,0,1,1,0,1,0,1,1,0,0,1]}"
-- `src/generators/svg.rs` test `ean_13_as_svg`
#guard (text ((Ean13.new .debug "750103131130".toList >>= Ean13.encode .debug) >>= Svg.generate .debug (Svg.new 80))).map String.utf8ByteSize == some 2890
-- `src/generators/svg.rs` test `colored_ean_13_as_svg`
#guard (text ((Ean13.new .debug "750103131130".toList >>= Ean13.encode .debug) >>= Svg.generate .debug { height := 80, xdim := 1, foreground := ⟨0, 0, 255, 255⟩, background := ⟨255, 0, 0, 255⟩, xmlns := none : Svg.SVG })).map String.utf8ByteSize == some 2890
-- `src/generators/svg.rs` test `colored_semi_transparent_ean_13_as_svg`
#guard (text ((Ean13.new .debug "750103131130".toList >>= Ean13.encode .debug) >>= Svg.generate .debug { height := 70, xdim := 1, foreground := ⟨0, 0, 255, 128⟩, background := ⟨255, 0, 0, 128⟩, xmlns := none : Svg.SVG })).map String.utf8ByteSize == some 3940
-- `src/generators/svg.rs` test `ean_8_as_svg`
#guard (text ((Ean8.new .debug "9998823".toList >>= Ean8.encode .debug) >>= Svg.generate .debug ((Svg.new 80).setXmlns "http://www.w3.org/2000/svg".toList))).map String.utf8ByteSize == some 1956
-- `src/generators/svg.rs` test `code39_as_svg`
#guard (text ((Code39.new "IGOT99PROBLEMS".toList >>= Code39.encode) >>= Svg.generate .debug ((Svg.new 80).setXmlns "http://www.w3.org/2000/svg".toList))).map String.utf8ByteSize == some 6574
-- `src/generators/svg.rs` test `code93_as_svg`
#guard (text ((Code93.new "IGOT99PROBLEMS".toList >>= Code93.encode) >>= Svg.generate .debug ((Svg.new 80).setXmlns "http://www.w3.org/2000/svg".toList))).map String.utf8ByteSize == some 4493
-- `src/generators/svg.rs` test `codabar_as_svg`
#guard (text ((Codabar.new "A12----34A".toList >>= (fun x => Outcome.ok (Codabar.encode x))) >>= Svg.generate .debug ((Svg.new 80).setXmlns "http://www.w3.org/2000/svg".toList))).map String.utf8ByteSize == some 2985
-- `src/generators/svg.rs` test `code128_as_svg`
#guard (text ((Code128.new "ÀHIĆ345678".toList >>= Code128.encode .debug) >>= Svg.generate .debug ((Svg.new 80).setXmlns "http://www.w3.org/2000/svg".toList))).map String.utf8ByteSize == some 2758
-- `src/generators/svg.rs` test `ean_2_as_svg`
#guard (text ((EanSupp.new "78".toList >>= EanSupp.encode .debug) >>= Svg.generate .debug ((Svg.new 80).setXmlns "http://www.w3.org/2000/svg".toList))).map String.utf8ByteSize == some 760
-- `src/generators/svg.rs` test `itf_as_svg`
#guard (text ((TF.interleaved .debug "1234123488993344556677118".toList >>= TF.encode) >>= Svg.generate .debug { height := 80, xdim := 1, foreground := Svg.Color.white, background := Svg.Color.black, xmlns := none : Svg.SVG })).map String.utf8ByteSize == some 7123
-- `src/generators/svg.rs` test `code11_as_svg`
#guard (text ((Code11.new "9988-45643201".toList >>= Code11.encode) >>= Svg.generate .debug { height := 80, xdim := 1, foreground := Svg.Color.white, background := Svg.Color.black, xmlns := none : Svg.SVG })).map String.utf8ByteSize == some 4219

/-! The picture in the README (`media/code39_1istheloneliestnumber.png`). -/

#guard collapse (Code39.new "1ISTHELONELIESTNUMBER".toList >>= Code39.encode) == some "1001011011010110100101011010110100110101011010110010101011011001011010100110101101011001010101101010011011010110100101010110100110110101100101010110101001101011010011010110101100101010110101100101010110110010101011010011011001010101101101101010010101101001011011010110010101101010110010100101101101"

end Barcoders.Conformance
