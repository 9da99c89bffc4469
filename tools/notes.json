{
 "C23": {
  "status": "partial",
  "note": "Proved for strings without '+', up to exchanging the start/stop letters B and C; the full statement is false (C23_codabar_b_c_swapped, C23_codabar_plus_unreadable)."
 },
 "C26": {
  "status": "partial",
  "note": "Proved when the weighted sum is below 256 (always for at most 13 digits). Above, the claim is false; the exact behaviour is C26_itf_new, C26_itf_debug_panic_iff and C26_itf_release_digit_iff."
 },
 "C28": {
  "status": "partial",
  "note": "Proved for accepted strings of at most 6489 characters: the reader reads the string with split digit pairs regrouped, and exactly the string iff no FNC1 splits a digit pair of set C. False otherwise (C28_code128_split_pair; longer strings: see C29)."
 },
 "C29": {
  "status": "partial",
  "note": "Proved up to 6489 characters; beyond that false (C29_code128_panics, C29_code128_wrong_check). Exact behaviour for fewer than 2^31 characters: C29_code128_debug, C29_code128_release."
 },
 "C30": {
  "status": "partial",
  "note": "Proved for every constructor except TF::interleaved in debug builds, which panics on odd-length digit strings whose weighted sum exceeds 255 (exact condition in C30_itf_panics_iff_partial)."
 },
 "C31": {
  "status": "partial",
  "note": "Proved for every symbology; for Code 128 up to 6489 characters (beyond that encode panics in debug builds, C29_code128_panics). The panic conditions of directly built 2-of-5 and EAN supplemental values are exact."
 },
 "C34": {
  "status": "proved",
  "note": "Codabar is included when the data carries start/stop letters; without them mirror images exist (C34_codabar_mirror_image)."
 },
 "C45": {
  "status": "proved",
  "note": "The limits in bytes are exact; C45_huge_strings_accepted shows the 2^32 wrap-around accepting over-long strings."
 },
 "C47": {
  "status": "proved",
  "note": "EAN-2 is excluded; C47_ean2_clash shows two EAN-2 symbols one module apart."
 },
 "C44": {
  "status": "proved",
  "note": "Image files: under the hypothesis that a decoder reads back what the codec wrote (the codecs are a dependency)."
 },
 "C46": {
  "status": "partial",
  "note": "Proved for EAN/UPC, supplementals, Code 39, Code 93, Code 11 and 2 of 5; Codabar without '+' and up to B/C, Code 128 up to 6489 characters and regrouping of split digit pairs (the full statement is false there: C23, C28, C29)."
 }
}