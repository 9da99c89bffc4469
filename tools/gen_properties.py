#!/usr/bin/env python3
"""Writes properties.jsonl (kept as a script so the list stays valid JSON)."""
import json, os
P = []
def add(id, title, statement, quantifier, why, anchors):
    P.append(dict(id=id, title=title, statement=statement, quantifier=quantifier, why_tests_cant=why, anchors=anchors))

EAN13 = "src/sym/ean13.rs"; EAN8 = "src/sym/ean8.rs"; UPCA = "src/sym/upca.rs"; SUPP = "src/sym/ean_supp.rs"
C39 = "src/sym/code39.rs"; C93 = "src/sym/code93.rs"; C11 = "src/sym/code11.rs"; CB = "src/sym/codabar.rs"
TF = "src/sym/tf.rs"; C128 = "src/sym/code128.rs"; SYM = "src/sym.rs: Parse::parse"; H = "src/sym/helpers.rs"
ASC = "src/generators/ascii.rs"; JSN = "src/generators/json.rs"; SVG = "src/generators/svg.rs"; IMG = "src/generators/image.rs"

add("C01", "EAN-13 constructor accepts exactly the valid numbers",
    "EAN13::new(s) succeeds exactly when s is 12 ASCII digits, or 13 ASCII digits whose last digit is the GS1 check digit of the first twelve; otherwise it returns Length when the UTF-8 byte length is not 12 or 13, else Character when some character is not an ASCII digit, else Checksum. It never panics.",
    "every Unicode string shorter than 4 GiB, debug and release builds", "10^13 digit strings and unboundedly many other strings; the precedence of the three errors depends on byte length versus characters.",
    [EAN13+": EAN13::new, EAN13::checksum_digit", SYM, H+": modulo_10_checksum"])
add("C02", "EAN-13 symbols scan back to the number",
    "A standard EAN-13 scanner (element widths, L/G parity for the leading digit, GS1 check) applied to EAN13::new(s).encode() reads the thirteen digits: the first twelve of s followed by their GS1 check digit.",
    "every accepted string, debug and release builds", "10^12 symbols; each combines a parity pattern, two tables and a checksum.",
    [EAN13+": EAN13::encode, ENCODINGS, PARITY", H])
add("C03", "Supplying the check digit never changes an EAN/UPC symbol",
    "For EAN-13, EAN-8 and UPC-A, the symbol built from the data with its correct check digit appended is identical to the one built from the data alone.",
    "every accepted data string without check digit", "Ranges over all 10^12 / 10^7 / 10^11 inputs.",
    [EAN13+": EAN13::new", EAN8+": EAN8::new", UPCA+": UPCA::new"])
add("C04", "Every single-digit error is rejected",
    "If a full-length (check digit included) EAN-13, EAN-8 or UPC-A number is accepted, then changing exactly one digit, at any position, to any other digit makes new return Err(Checksum).",
    "every accepted full-length number, every position, every replacement digit", "13*9*10^12 cases.",
    [H+": modulo_10_checksum", EAN13+": EAN13::new", EAN8+": EAN8::new", UPCA+": UPCA::new"])
add("C05", "Adjacent transpositions are rejected exactly when they can be",
    "If a full-length EAN-13, EAN-8 or UPC-A number is accepted, swapping two adjacent digits gives a number that is accepted if and only if the two digits differ by 0 or 5; otherwise Err(Checksum).",
    "every accepted full-length number and adjacent position", "12*10^12 cases.",
    [H+": modulo_10_checksum", EAN13+": EAN13::new", EAN8+": EAN8::new", UPCA+": UPCA::new"])
add("C06", "EAN-8 constructor accepts exactly the valid numbers",
    "EAN8::new(s) succeeds exactly when s is 7 ASCII digits, or 8 ASCII digits with a correct GS1 check digit; the error is Length, then Character, then Checksum as for EAN-13. It never panics.",
    "every Unicode string shorter than 4 GiB, both builds", "Unbounded input space.",
    [EAN8+": EAN8::new", SYM])
add("C07", "EAN-8 symbols scan back to the number",
    "A standard EAN-8 scanner applied to EAN8::new(s).encode() reads the first seven digits of s followed by their GS1 check digit.",
    "every accepted string, both builds", "10^7 symbols.", [EAN8+": EAN8::encode", EAN13+": ENCODINGS"])
add("C08", "UPC-A constructor accepts exactly the valid numbers",
    "UPCA::new(s) succeeds exactly when s is 11 ASCII digits, or 12 ASCII digits with a correct check digit; the error is Length, then Character, then Checksum. It never panics.",
    "every Unicode string shorter than 4 GiB, both builds", "Unbounded input space.", [UPCA+": UPCA::new", SYM])
add("C09", "UPC-A symbols scan back to the number",
    "A standard UPC-A scanner applied to UPCA::new(s).encode() reads the first eleven digits of s followed by their check digit.",
    "every accepted string, both builds", "10^11 symbols.", [UPCA+": UPCA::encode, ENCODINGS"])
add("C10", "UPC-A is EAN-13 with a leading zero",
    "For every string s, UPCA::new(s) and EAN13::new(\"0\"+s) succeed or fail with the same error, and when they succeed their symbols are identical.",
    "every Unicode string shorter than 4 GiB minus one byte, both builds", "Two independently written modules with their own tables must agree on every input.",
    [UPCA, EAN13])
add("C11", "EAN supplementals accept exactly 2 or 5 digits",
    "EANSUPP::new(s) yields an EAN-2 for two ASCII digits, an EAN-5 for five; otherwise Length if the byte length is outside 2..=5, else Character if a character is not a digit, else Length. It never panics.",
    "every Unicode string shorter than 4 GiB, both builds", "Unbounded input space, three-stage error precedence.", [SUPP+": EANSUPP::new", SYM])
add("C12", "EAN-2 and EAN-5 symbols scan back to the digits",
    "A scanner that reads each digit with its L/G parity and verifies the parity pattern (value mod 4 for EAN-2, 3/9-weighted checksum for EAN-5) reads back exactly the digits of s from EANSUPP::new(s).encode().",
    "every accepted string, both builds", "The parity pattern is a function of all digits at once.", [SUPP+": EANSUPP::encode, parity, checksum_digit"])
add("C13", "Code 39 constructor accepts exactly the Code 39 alphabet",
    "Code39::new(s) and Code39::with_checksum(s) succeed exactly when s is 1 to 256 characters all from 0-9 A-Z - . space $ / + %; otherwise Length if the byte length is outside 1..=256, else Character. They never panic.",
    "every Unicode string shorter than 4 GiB", "Unbounded input space.", [C39+": Code39::new, Code39::with_checksum", SYM])
add("C14", "Code 39 symbols scan back to the data",
    "A standard Code 39 scanner (nine elements, three wide; start/stop *; one-module gaps) reads from encode() exactly s for Code39::new(s), and s followed by its modulo-43 check character for with_checksum(s); setting the public checksum field on an existing barcode has the same effect.",
    "every accepted string of any length, both settings of checksum", "Unbounded data; per-character framing must compose at every length.", [C39+": Code39::encode, payload, checksum_char"])
add("C15", "Code 39 check character detects every single substitution",
    "Replace any one data character of a checksummed Code 39 symbol by any other valid character: the modulo-43 verifying scanner rejects the result. The check character does not depend on the order of the data.",
    "every accepted string, position and replacement", "Number-theoretic fact over all data.", [C39+": checksum_char"])
add("C16", "Code 93 constructor accepts exactly its alphabet",
    "Code93::new(s) succeeds exactly when s is 1 to 256 characters from the 47 supported ones; otherwise Length (byte length outside 1..=256) else Character. It never panics.",
    "every Unicode string shorter than 4 GiB", "Unbounded input space.", [C93+": Code93::new", SYM])
add("C17", "Code 93 symbols scan back to the data with valid C and K",
    "A standard Code 93 scanner that checks the start/stop characters, the termination bar and both modulo-47 check characters (weights 1..20 and 1..15 from the right) reads exactly s from Code93::new(s).encode().",
    "every accepted string of any length", "The two weighted checks wrap at 20 and 15 and depend on the whole string.", [C93+": encode, checksum_char, c_checksum_char, k_checksum_char"])
add("C18", "Code 93 checks detect substitutions and adjacent transpositions",
    "In any Code 93 symbol, replacing one data character by another valid one, or swapping two unequal adjacent data characters, is rejected by the verifying scanner.",
    "every accepted string, position and replacement", "Number-theoretic fact over all data.", [C93+": checksum_char"])
add("C19", "Code 11 constructor accepts exactly digits and dash",
    "Code11::new(s) succeeds exactly when s is 1 to 256 characters from 0-9 and -; otherwise Length else Character. It never panics.",
    "every Unicode string shorter than 4 GiB", "Unbounded input space.", [C11+": Code11::new", SYM])
add("C20", "Code 11 symbols scan back to the data with valid check characters",
    "A standard Code 11 scanner checking C always and K exactly when the data is longer than 10 characters reads exactly s from Code11::new(s).encode().",
    "every accepted string of any length", "Variable-width characters; the presence of K depends on the length.", [C11+": encode, checksum_char"])
add("C21", "Code 11 check detects every single substitution",
    "In any Code 11 symbol, replacing one data character by another valid one is rejected by the verifying scanner.",
    "every accepted string, position and replacement", "Number-theoretic fact over all data.", [C11+": checksum_char"])
add("C22", "Codabar constructor accepts exactly its alphabet",
    "Codabar::new(s) succeeds exactly when s is 1 to 256 characters from 0-9 - $ : / . + A B C D; otherwise Length else Character. It never panics.",
    "every Unicode string shorter than 4 GiB", "Unbounded input space.", [CB+": Codabar::new, Unit::from_char", SYM])
add("C23", "Codabar symbols scan back to the data",
    "A standard Codabar scanner (seven elements per character, one-module gaps, AIM element table) reads exactly s from Codabar::new(s).encode().",
    "every accepted string of any length", "Characters have different widths, so framing must hold for every sequence.", [CB+": Codabar::encode, Unit::lookup"])
add("C24", "Standard 2 of 5 symbols scan back to the digits",
    "TF::standard(s) succeeds exactly for 1 to 256 ASCII digits, and a 2-of-5 scanner (two wide bars of five, weights 1-2-4-7-P) reads exactly s from encode().",
    "every Unicode string shorter than 4 GiB", "Unbounded data.", [TF+": TF::standard, stf_payload, char_encoding, WIDTHS"])
add("C25", "Interleaved 2 of 5 symbols scan back to the digits",
    "An ITF scanner (first digit of each pair in bars, second in spaces, two wide of five) reads from TF::interleaved(s).encode() the digits of s when their number is even, and s followed by one further digit when it is odd.",
    "every accepted string for which construction does not panic, both builds", "Unbounded data, pairwise interleaving.", [TF+": TF::interleaved, itf_payload, interleave"])
add("C26", "Interleaved 2 of 5 appends the GS1 check digit to odd-length data",
    "For odd-length digit data TF::interleaved(s) appends the GS1 modulo-10 check digit, without panicking.",
    "every odd-length digit string up to 256 digits, both builds", "The sum is accumulated in u8: whether it overflows depends on all digits.", [TF+": TF::interleaved", H+": modulo_10_checksum"])
add("C27", "Code 128 constructor accepts exactly the well-formed data",
    "Code128::new(s) returns Length exactly when s has fewer than 2 bytes; otherwise it succeeds exactly when s starts with a code-set character, every following character is encodable in the set then in force, a set is never switched to itself, digits in set C come in pairs and no switch splits a pair; otherwise Character. It never panics.",
    "every Unicode string", "Stateful tokenizer over unbounded strings.", [C128+": Code128::new, Code128::parse, CharacterSet::lookup"])
add("C28", "Code 128 symbols scan back to the data",
    "A standard Code 128 symbol reader, writing its symbols in the library's notation, reads exactly s from Code128::new(s).encode().",
    "every accepted string", "Stateful decoding over unbounded strings and all set switches.", [C128+": Code128::encode, parse, CHARS"])
add("C29", "Code 128 check symbol is the standard modulo-103 sum",
    "The symbol before the stop pattern of Code128::new(s).encode() is the standard weighted modulo-103 check character, without panicking.",
    "every accepted string, both builds", "The weighted sum is accumulated in i32 and the data length is unbounded.", [C128+": checksum_value, checksum_encoding"])
add("C30", "Constructors never panic",
    "No constructor of any symbology panics on any string.",
    "every Unicode string including ones over 4 GiB, both builds", "Universal over strings.", [SYM, EAN13, EAN8, UPCA, SUPP, C39, C93, C11, CB, TF, C128])
add("C31", "Encoding a constructed barcode never panics",
    "For every symbology, encode() of a value obtained from a constructor never panics; for the publicly constructible enum variants of 2-of-5 and EAN supplementals, the exact condition under which encode() panics is known.",
    "every accepted string; every directly built variant value; both builds", "Universal over values.", [EAN13, EAN8, UPCA, SUPP, C39, C93, C11, CB, TF, C128])
add("C32", "Encodings are bars and spaces of a known length",
    "Every encoding consists only of 0 and 1, starts with a bar, ends with a bar (Standard 2 of 5 ends with a space), and has the exact length its symbology prescribes: 95 (EAN-13, UPC-A), 67 (EAN-8), 20/47 (EAN-2/5), 13n+25 (Code 39, n characters with check), 9n+37 (Code 93), 14n+16 (STF), 9n+8 (ITF, n digits with check), 11n+24 (Code 128, n symbols with start); Code 11 and Codabar lengths are the sum of the standard character widths and one-module gaps.",
    "every accepted string", "Universal over values and lengths.", [H+": join_slices, join_iters", EAN13, EAN8, UPCA, SUPP, C39, C93, C11, CB, TF, C128])
add("C33", "Different data never give the same bars",
    "Within a symbology and constructor, two accepted inputs give the same encoding only if they carry the same data: the same string, except for EAN/UPC the same digits up to an optional check digit, for Interleaved 2 of 5 up to the digit completing an odd number, and for Code 128 up to the place of an FNC1 written inside a digit pair.",
    "every pair of accepted strings", "Quantifies over pairs of unbounded inputs.", [EAN13, EAN8, UPCA, SUPP, C39, C93, C11, CB, TF, C128])
add("C34", "No symbol is another symbol read backwards",
    "For EAN-13, EAN-8, UPC-A, EAN-2/EAN-5, Code 39, Code 93, Code 11, Code 128, ITF and STF, the reversal of one encoding is never the encoding of any accepted data, so a symbol read right to left cannot be taken for another one. The same holds for Codabar data with start/stop letters.",
    "every pair of accepted strings", "Quantifies over pairs of unbounded inputs.", [EAN13, EAN8, UPCA, SUPP, C39, C93, C11, CB, C128, TF])
add("C35", "ASCII output is height identical rows of xdim-wide modules",
    "ASCII.generate(bits) is height lines separated by single newlines with no trailing newline, each line having each module repeated xdim times as '#' for 1 and space for 0; from the output, the height and xdim (both positive) the bits can be read back; it panics exactly when some value exceeds 1.",
    "every height, xdim and byte slice", "Unbounded sizes.", [ASC+": ASCII::generate, generate_row"])
add("C36", "JSON output is valid JSON carrying the same data",
    "JSON.generate(bits) is a JSON object that parses to exactly height, xdim and the array of bits (with every nonzero byte as 1), including the empty slice.",
    "every height, xdim and byte slice", "Unbounded sizes; trailing-comma handling at length zero and above.", [JSN+": JSON::generate"])
add("C37", "SVG output parses to the right rectangles",
    "If len*xdim fits in u32 and the xmlns consists of XML characters other than quote, <, &, tab and line breaks, SVG.generate(bits) parses as one svg element with view box 0 0 len*xdim height whose children are a full-size background rectangle followed by one foreground rectangle per 1-module, in order, at x = i*xdim, of width xdim and full height.",
    "every configuration and byte slice", "Unbounded sizes, string formatting.", [SVG+": SVG::generate, SVG::rect"])
add("C38", "SVG picture shows the bars",
    "Under the conditions of C37, painting the SVG rectangles in order, the topmost rectangle at column x is a foreground one exactly when module x / xdim is 1, and the background one otherwise, for every column of the view box.",
    "every configuration, byte slice and column", "Unbounded sizes; overlap and gaps between rectangles.", [SVG+": SVG::generate"])
add("C39", "SVG colours are written faithfully",
    "The fill attribute is # and six lower-case hex digits that read back as the red, green and blue bytes; the opacity attribute is alpha/255 to two decimals (within 1/200), omitted exactly when that is 1.00, i.e. alpha 254 or 255.",
    "every RGBA colour", "Float formatting and hex conversion over all bytes.", [SVG+": Color::to_hex, to_opacity, ToHex"])
add("C40", "Image pixels show the bars",
    "generate_buffer with rotation zero produces an image of width len*xdim and given height where pixel (x,y) is the foreground colour exactly when byte x / xdim is nonzero and the background colour otherwise.",
    "every configuration and byte slice whose width fits in u32 and whose picture fits in memory (4*width*height < 2^63)", "Unbounded sizes and nested loops.", [IMG+": place_pixels, generate_buffer"])
add("C41", "Image rotations are rotations",
    "Rotation ninety/one-eighty/two-seventy give the unrotated picture turned clockwise by that angle: sizes swap for 90 and 270, and every pixel moves to the rotated position; the barcode can be read along the rotated axis.",
    "every configuration and byte slice whose width fits in u32 and whose picture fits in memory (4*width*height < 2^63)", "Unbounded sizes.", [IMG+": place_pixels, Rotation"])
add("C42", "Image generation never yields a wrong picture on overflow",
    "If len*xdim does not fit in u32 the image generator panics in debug and release builds (when height and xdim are nonzero); it never returns a truncated or garbled image: whenever an image is returned, each of its pixels is right and, if its height is nonzero, so is its size.",
    "every configuration and byte slice, both builds", "Overflow sizes cannot be exercised in a test.", [IMG+": place_pixels"])
add("C43", "Image generate reports errors as documented",
    "Image.generate returns Err(Generate) for the ImageBuffer variant, and otherwise exactly the bytes the image codec produced for the picture of generate_buffer in the variant's own format, or Err(Generate) when the codec fails.",
    "every configuration, byte slice and codec behaviour", "Quantifies over codec behaviours.", [IMG+": generate"])
add("C44", "All generators draw the same barcode",
    "For any 0/1 slice, the modules read from the ASCII, JSON, SVG and image outputs are all equal to the slice.",
    "every 0/1 slice and configuration with positive height and xdim and width within u32", "Relates four independent renderers over unbounded inputs.", [ASC, JSN, SVG, IMG])
add("C45", "Length limits are inclusive and measured in bytes modulo 2^32",
    "Code 39, Code 93, Code 11, Codabar and 2 of 5 return Length exactly if the number of bytes modulo 2^32 is not between 1 and 256. So, of the strings of their own characters shorter than 4 GiB, they accept exactly those of 1 to 256 characters (interleaved 2 of 5 in release builds; debug builds may panic, see C26).",
    "every string", "The limit is written as a half-open range but compared inclusively; the length is cast to u32.", [SYM])
add("C46", "Text to picture to text",
    "For every symbology, an accepted string can be recovered from the output of each generator by reading the modules back and scanning them.",
    "every accepted string and generator configuration", "Composition over unbounded inputs.", [ASC, JSN, SVG, IMG, EAN13, C39, C93, C128])
add("C47", "No single misread module turns one symbol into another",
    "Two different EAN-13, UPC-A, EAN-8, EAN-5, Code 39, Code 93, Code 11, Codabar, 2 of 5 or Code 128 symbols of the same symbology and equal length never differ in exactly one module. (EAN-2 is not protected: 23 and 93 are one module apart.)",
    "every pair of accepted strings", "Quantifies over pairs of unbounded inputs.", [EAN13, EAN8, UPCA, SUPP, C39, C93, C11, CB, TF, C128])
add("C48", "No element is wider than its symbology allows",
    "No bar or space is wider than 4 modules in EAN-13/EAN-8/UPC-A/EAN-2/EAN-5/Code 93/Code 128 symbols, 2 in Code 39, Code 11 and Codabar, 3 in 2 of 5.",
    "every accepted string", "Runs may merge across character boundaries anywhere in the data.", [EAN13, EAN8, UPCA, C39, C93, C11, CB, TF, C128])
add("C49", "SVG builder calls are independent and the last call wins",
    "Calling xdim, foreground, background and xmlns in any order on SVG::new(h) gives the same generator; each call only changes its own setting and repeated calls keep the last value.",
    "every sequence of builder calls", "All sequences of calls.", [SVG+": SVG::new, xmlns, xdim, foreground, background"])
add("C50", "Checksum arithmetic does not overflow",
    "Within every constructor and encode of EAN-13, EAN-8, UPC-A, EAN-2 and EAN-5, the u8 checksum arithmetic never overflows, so debug and release builds give identical results.",
    "every accepted string", "Depends on the maximal weighted sum over all inputs.", [H+": modulo_10_checksum", SUPP+": checksum_digit, parity"])
add("C51", "ITF padding, exactly",
    "Even-length data of 2 to 256 digits always encodes and scans to itself. Odd-length data in debug builds is completed by the GS1 check digit or panics in the constructor; in release builds it is always completed by a digit, computed from the low eight bits of the weighted sum. Every odd length from 15 on has data that panics in debug and gets a wrong digit in release.",
    "every digit string of 1 to 256 digits, both builds", "The failing inputs depend on the sum of all digits; needs all lengths.", [TF+": TF::interleaved, checksum_digit", H+": modulo_10_checksum"])
add("C52", "Code 128: how long the data may be",
    "Up to 6489 characters encode never panics and gives a symbol that scans. For every longer length (below 2^30) an accepted string exists on which debug builds panic. In debug builds a symbol that is returned always scans to the (regrouped) data; in release builds all symbols but the check symbol are right.",
    "every accepted string and length (debug builds: strings below 2^31 characters)", "Overflow needs strings longer than anyone tests, at an exact threshold.", [C128+": Code128::checksum_value, encode"])
add("C53", "Code 128: which strings share a symbol",
    "Two accepted strings (at most 6489 characters) give the same symbol exactly when they agree after moving FNC1 characters that split a digit pair of set C in front of that pair.",
    "every pair of accepted strings", "Pairs of unbounded inputs.", [C128+": Code128::parse, encode"])
add("C54", "Codabar: what a standard scanner reads",
    "A standard scanner reads nothing if the data contains '+', and otherwise the data with B and C exchanged; it reads exactly the data iff the data has no '+', B or C. A scanner using the library's own chart reads back every accepted string.",
    "every accepted string", "Unbounded strings; every position.", [CB+": CHARS, encode"])
add("C55", "Code 128: what a scanner transmits",
    "The transmitted message is the data without code-set characters, FNC2 and FNC3, FNC1 as GS except in first position, FNC4 adding 128 to the following character (two in a row: to all until the next two), and SHIFT acting on the symbol rather than on the character the user wrote.",
    "every accepted string of at most 6489 characters", "The reader state interacts with the encoder's state over unbounded strings.", [C128+": CHARS, parse, encode"])
add("C56", "Code 11 catches adjacent transpositions",
    "A symbol that reads as the text of an encoded string with two unequal adjacent data characters exchanged is rejected by a reader that checks the check characters.",
    "every accepted string and position", "All positions and lengths; weights wrap around.", [C11+": c_checksum_char, k_checksum_char, checksum_char"])
add("C57", "Code 128: which symbol errors are caught",
    "Replacing one data symbol by another passes the check exactly when its position is a multiple of 103; replacing the start symbol and exchanging two unequal adjacent data symbols are always caught. Any row of modules that reads like a symbol with one of these errors, or with another check symbol, is rejected by a reader.",
    "every accepted string of at most 6489 characters and every position", "Position arithmetic modulo 103 for unbounded lengths.", [C128+": Code128::checksum_value"])
add("C58", "Symbologies cannot be confused",
    "No two symbologies ever draw the same row of modules, except that every UPC-A symbol is the EAN-13 symbol of the same digits with a leading zero, and that some Codabar strings beginning with '$' (no start letter) draw a Code 11 symbol.",
    "every pair of symbologies and accepted strings", "Quantifies over pairs of unbounded inputs of eleven symbologies.", [EAN13, EAN8, UPCA, SUPP, C39, C93, C11, CB, TF, C128])
add("C59", "A symbol is not a shorter symbol with something appended or prepended",
    "No symbol is a proper beginning of another symbol of the same symbology except in Codabar and the EAN supplementals, and none is a proper end of another one except in Codabar and Interleaved 2 of 5; so a partially covered symbol cannot be read as a complete one. In the excepted symbologies it does happen.",
    "every pair of accepted strings", "Quantifies over pairs of unbounded inputs.", [EAN13, EAN8, UPCA, SUPP, C39, C93, C11, CB, TF, C128])
add("C60", "SVG pictures too large for 32 bits",
    "SVG generation in release builds never panics and computes the width and all bar positions modulo 2^32; in debug builds it panics exactly when modules times xdim reaches 2^32 (for fewer than 2^32 modules). A slice of 2^32 or more modules is silently cut to its length modulo 2^32 in release builds, and can be in debug builds.",
    "every module slice, every xdim, both builds", "Needs products around 2^32; the failing inputs are too large to test.", [SVG+": SVG::generate, rect, width"])
add("C61", "SVG name space is written unescaped",
    "The document has the name space given to xmlns(..) exactly when every character of it stands for itself between double quotes: an XML character other than the double quote, <, &, tab and line breaks.",
    "every name space string, every module slice whose width fits in u32, both builds", "All strings; the reader decides whether some later part of the output repairs the damage.", [SVG+": SVG::generate, xmlns"])
add("C62", "Adding the check character by hand gives the same symbol",
    "Code39::with_checksum(s) draws the same modules as Code39::new(s + c) for exactly one character c, the modulo-43 check character of the standard, and TF::interleaved of an odd number of digits draws the same modules as TF::interleaved of the digits followed by one digit.",
    "every accepted string of at most 255 characters", "All strings and all candidate characters.", [C39+": Code39::with_checksum, checksum_char, encode", TF+": TF::interleaved"])
add("C63", "usize checksum sums cannot overflow",
    "The weighted sums of Code 93, Code 11 and Code 39 stay below 2^18, 2^15 and 2^14 for all accepted data, so no usize overflow is possible on any platform with at least that word size (32-bit included).",
    "every accepted string shorter than 4 GiB", "Bound over all strings of up to 256 bytes.", [C93+": checksum_char", C11+": checksum_char", C39+": checksum_char"])
add("C64", "EAN/UPC never notice an exchange of digits an even distance apart",
    "If a full-length EAN-13, EAN-8 or UPC-A number is accepted, exchanging two of its digits with an odd number of digits between them (for instance abc to cba) gives a number that is accepted too.",
    "every accepted full-length number, every such pair of positions", "All positions and digits; complements C05.", [H+": modulo_10_checksum", EAN13+": EAN13::new", EAN8+": EAN8::new", UPCA+": UPCA::new"])
add("C65", "Two wrong characters in Code 93 and Code 11",
    "With up to 14 data characters a Code 93 symbol with any one or two characters misread (check characters included) is rejected by a verifying reader; from 15 characters on some pairs of errors are not detected. Code 11 misses some pairs of errors at every length from two on, with one check character or two.",
    "every accepted string, every pair of positions, every replacement", "About 10^26 strings times all pairs of errors; the bound 14 is exact.", [C93+": c_checksum_char, k_checksum_char, checksum_char", C11+": c_checksum_char, k_checksum_char, checksum_char"])
add("C66", "Narrow and wide elements",
    "Code 39, Code 11 and Codabar symbols use exactly two element widths, 1 and 2 modules, and both occur in every symbol. Both 2 of 5 symbologies use 1 and 3 modules for data but 2 modules for the wide elements of their start and stop patterns, so no single wide-to-narrow ratio describes a whole symbol.",
    "every accepted string of the five symbologies", "A statement about every element of every symbol.", [C39+": encode", C11+": encode", CB+": encode", TF+": encode"])
add("C67", "Symbols can be read without knowing the module size",
    "Every symbol of every symbology has an element of one module. So whatever xdim a picture was generated with, measuring the narrowest run of a row gives xdim, and dividing by it gives the encoded modules: for every row of ASCII output and every scan line of an image in any rotation.",
    "every symbol of all eleven kinds, every positive xdim and height, rotation and pair of different colours (images: sizes that fit)", "All symbols and all sizes; one symbol without a narrow element would be read at the wrong scale.", [ASC+": ASCII::generate", IMG+": Image::generate_buffer", SYM])
add("C68", "An article number is the same number in every GS1 symbology",
    "Twelve digits drawn as EAN-13 and, with a leading zero, as Interleaved 2 of 5, scan to the same 14-digit number with the same check digit; likewise eleven digits as UPC-A, EAN-13 and ITF-14, and seven digits as EAN-8 and ITF-14.",
    "every digit string of length 12, 11 or 7, both builds", "10^12 numbers; check digits are computed by different code (u32 sums in EAN, u8 sums in ITF).", [EAN13+": checksum_digit", EAN8+": checksum_digit", UPCA+": checksum_digit", TF+": interleaved, checksum_digit"])
add("C69", "An add-on can stand beside its main symbol",
    "The bars of an EAN-13, UPC-A or EAN-8 symbol, any positive number of light modules and the bars of an EAN-2 or EAN-5 symbol, in one row, are read as the main number, the width of the gap and the add-on number. Without a gap the row cannot be read.",
    "every accepted pair of strings, every gap", "10^12 times 10^5 pairs.", [EAN13+": encode", EAN8+": encode", UPCA+": encode", SUPP+": encode"])
add("C70", "Symbols are built character by character",
    "The symbol of the concatenation of two accepted strings is made of the two symbols: Codabar with one narrow space between them; Code 39 without check character, Standard 2 of 5 and Interleaved 2 of 5 (even numbers of digits) with the stop pattern of the first and the start pattern of the second cut away.",
    "every pair of accepted strings of together at most 256 characters", "All pairs of strings; a character drawn differently at the seam, or depending on its position, would be noticed only there.", [C39+": payload", CB+": encode", TF+": stf_payload, itf_payload"])
add("C71", "Debug and release builds agree until the first overflow",
    "Whenever a constructor, encode or generate in a build with overflow checks does not stop with an overflow panic, the build without overflow checks returns exactly the same value, error or panic.",
    "every string, every value of the types (also those built directly from the public variants), every generator setting, every byte sequence", "Tests run in one profile; the other profile is never compared on all inputs.", [H+": modulo_10_checksum", SUPP+": checksum_digit, parity", C128+": checksum_value", SVG+": generate", IMG+": place_pixels"])
add("C72", "Default pictures and messages",
    "The generators made by their constructors draw: text of ten equal lines with one character per module; JSON with height 10 and xdim 1; an SVG one unit per module wide, of the given height, opaque black on opaque white, without name space; an image of one pixel per module, the given height, opaque black on opaque white, not rotated. An SVG with Color::black() and Color::white() as foreground and background shows opaque black on opaque white, and the negative with the two exchanged. The messages of different errors differ and name what is wrong.",
    "every drawn symbol (text, JSON), all bytes that fit (SVG, images), every height", "All symbols and all heights.", [ASC+": ASCII::new", JSN+": JSON::new", SVG+": SVG::new, Color::black, Color::white", IMG+": gif, png, webp, image_buffer", "src/error.rs: Display"])
add("C73", "A number can be completed in exactly one way",
    "After 12 (EAN-13), 7 (EAN-8) or 11 (UPC-A) digits there is exactly one character, a digit, with which the longer string is accepted too, and both strings then give the same barcode.",
    "every string of 12, 7 or 11 digits and every following character", "All numbers and all Unicode characters.", [EAN13+": new", EAN8+": new", UPCA+": new", H+": modulo_10_checksum"])
add("C74", "One misread character of an add-on",
    "If a scanner misreads exactly one character of an EAN-5 symbol, in its digit, its number set or both, the number sets no longer fit and the symbol is rejected. For EAN-2 a misread digit (in the right number set) is accepted exactly if the first digit keeps its parity, or the second its value modulo 4.",
    "every accepted add-on, every position, every wrong character", "All pairs of an add-on and a misreading.", [SUPP+": parity, checksum_digit, payload"])
add("C75", "A scanner reads nothing but what the library draws",
    "Every row of modules from which a scanner of the standard reads a number or a text (of a length the library accepts) is, module by module, the row that encode returns for it: EAN-13, EAN-8, UPC-A, add-ons, Code 39 with and without check character, Code 93, Code 11, Code 128, and Codabar with B and C exchanged and without +. For the 2 of 5 codes, where scanners accept other ratios, the narrow/wide pattern is the same.",
    "every row of modules, every text read from it", "All rows of modules: the converse of a round trip. A symbol with a second, equally readable drawing (an alternative pattern, a redundant mode change, a padded guard) cannot be found by encoding examples.", [EAN13+": encode", EAN8+": encode", UPCA+": encode", SUPP+": encode", C39+": encode", C93+": encode", C11+": encode", CB+": encode", TF+": encode", C128+": encode"])
add("C76", "Upside down, a symbol is not misread",
    "The modules of a symbol in reverse order, without the light modules before the first bar, are not read as anything by the scanner for its kind; so a scanner that tries both directions finds exactly one number or text.",
    "every accepted string of every kind but Codabar (for which see C34), Code 128 up to 6489 characters", "All symbols; a guard or a code set that is symmetric for some data only would be noticed only there.", [EAN13+": encode", EAN8+": encode", UPCA+": encode", SUPP+": encode", C39+": encode", C93+": encode", C11+": encode", TF+": encode", C128+": encode"])
add("C77", "One reader for every magnification and every direction",
    "A reader that knows only the kind of symbol, takes the narrowest element as one module, and tries a line from the left and then from the right, gets the encoded number or text from a symbol drawn at any module width, between quiet zones of any size, and held either way round; so from every line across the bars of a generated image, in both directions, whatever the rotation, module width and colours.",
    "every accepted string of every kind but Codabar, Code 128 up to 6489 characters; all module widths, quiet zones, rotations, colours and heights (within the sizes of C40)", "Symbols times widths times quiet zones times rotations are unbounded, and the wrong direction must fail for all of them.", [EAN13+": encode", EAN8+": encode", UPCA+": encode", SUPP+": encode", C39+": encode", C93+": encode", C11+": encode", TF+": encode", C128+": encode", IMG+": generate_buffer"])
add("C78", "Images on 32-bit targets",
    "An image or file made on a 32-bit target is the one made on a 64-bit target with the same settings and bytes. On each target an image with at least one row and one pixel per module is made exactly if its width fits 32 bits and its bytes fit the largest allocation of the target (2^31 or 2^63); otherwise the call panics, in both builds.",
    "every generator setting, every byte sequence, both word sizes, both builds", "Tests run on one machine, with pictures that fit it.", [IMG+": place_pixels, generate, generate_buffer"])
add("C79", "Every ASCII text fits in a Code 128 symbol",
    "Every ASCII text of up to 2162 characters, control characters and DEL included, can be written for Code128::new (control characters between code set changes, DEL as ÷) and is transmitted unchanged by a scanner. Printable text after Ɓ and capitals and control characters after À take 11 modules per character and 35 more; an even number of digits after Ć takes 11 per two digits and 35 more.",
    "every ASCII text within the length limits, both builds", "All texts over 128 characters; the meaning of one character depends on the code set selected before it.", [C128+": parse, encode"])
add("C80", "Latin-1 text in Code 128",
    "Every text of up to 1622 characters below U+0100 can be written for Code128::new with FNC4 (ż) before the characters from 128 on, and a scanner that knows FNC4 transmits exactly the text. Text from U+00A0 to U+00FE takes one symbol per character after two FNC4. Such a scanner agrees with the one of C55 wherever that one transmits anything.",
    "every Latin-1 text within the length limit, both builds", "All texts over 256 characters; FNC4 has different symbol values in sets A and B.", [C128+": parse, encode"])
add("C81", "Full ASCII text in Code 39 and Code 93",
    "Every nonempty ASCII text of up to 128 characters, written with the shift pairs of full ASCII mode ($A … %Z, in Code 93 with the four shift characters written ( ) [ ]), is accepted, with and without Code 39 check character, and a scanner in full ASCII mode reads exactly the text.",
    "every ASCII text of 1 to 128 characters", "All texts; needs the four Code 93 shift characters to have the patterns and check values of the standard.", [C39+": new, with_checksum, encode", C93+": new, encode"])
add("C82", "Symbols survive ink spread",
    "If the ink of all bars runs by any amount less than a module (or all bars lose as much), a reader that takes half the sum of the narrowest bar and the narrowest space as the module still gets the encoded number or text, at every magnification, with any quiet zones, from both ends.",
    "every accepted string of every kind but Codabar (Code 128 up to 6489 characters), every module width, every amount of spread below it, all quiet zones, both directions", "Symbols times widths times amounts of ink. It needs a bar and a space of exactly one module in every symbol.", [EAN13+": encode", EAN8+": encode", UPCA+": encode", SUPP+": encode", C39+": encode", C93+": encode", C11+": encode", TF+": encode", C128+": encode"])
add("C83", "One wrong module is never misread",
    "If exactly one module of a symbol is inverted (a speck in a space, a void in a bar), anywhere in it, the scanner for its kind reads nothing at all: EAN-13, EAN-8, UPC-A, five-digit add-ons, Code 39 with and without check character, Code 93, Code 11, Code 128 and Codabar. From an Interleaved or Standard 2 of 5 symbol it reads nothing or the number that was encoded. Two-digit add-ons are excepted: one module can turn 01 into 04.",
    "every accepted string of every kind but two-digit add-ons (Code 128 up to 6489 characters), every module", "Symbols times positions. A pattern table, number set or check digit that is wrong in one place puts two symbols one module apart.", [EAN13+": encode", EAN8+": encode", UPCA+": encode", SUPP+": encode", C39+": encode", C93+": encode", C11+": encode", CB+": encode", TF+": encode", C128+": encode"])
add("C84", "One misjudged bar or space is never misread",
    "If exactly one bar or space of a symbol has another width than it should, by any amount, the scanner for its kind reads nothing: EAN-13, EAN-8, UPC-A, add-ons of two and five digits, Code 39 with and without check character, Code 93, Code 11 and Code 128. From a 2 of 5 symbol it reads nothing or the number that was encoded. A Codabar symbol with start and stop characters is not read as any other text with start and stop characters.",
    "every accepted string of every kind (Code 128 up to 6489 characters; Codabar with start and stop characters), every element, every wrong width", "Symbols times elements times widths. It needs all patterns of a kind to have the same total, or check characters that notice every single change.", [EAN13+": encode", EAN8+": encode", UPCA+": encode", SUPP+": encode", C39+": encode", C93+": encode", C11+": encode", CB+": encode", TF+": encode", C128+": encode"])
add("C85", "Everything that is accepted can be drawn",
    "The longest symbols have 95 modules (EAN-13, UPC-A), 67 (EAN-8), 47 (add-ons), 3366 (Code 39), 2341 (Code 93), 2079 (Code 11), 3327 (Codabar), 3600 (Standard 2 of 5), 2312 (Interleaved 2 of 5) and 71403 (Code 128 up to 6489 characters); no accepted string gives more and some string gives as many. So for every accepted string encode succeeds, and then every generator does: ASCII and JSON with any settings, SVG with modules up to 60000 units, images with modules up to 60000 pixels and fewer than 2^29 rows, in debug and release builds.",
    "every accepted string of fewer than 2^32 bytes (Code 128 up to 6489 characters), every generator setting within the bounds, both builds", "All strings times all settings. The overflow limits of the generators are far from anything a test would draw.", [EAN13+": encode", EAN8+": encode", UPCA+": encode", SUPP+": encode", C39+": encode", C93+": encode", C11+": encode", CB+": encode", TF+": encode", C128+": encode", ASC+": generate", JSN+": generate", SVG+": generate", IMG+": generate, generate_buffer"])
add("C86", "Two wrong digits of an article number: exactly which go unnoticed",
    "Change two digits of an accepted complete EAN-13, EAN-8 or UPC-A number, at any two places, to any other digits. The constructor accepts the result exactly when the changes, weighted 1 or 3 by their distance from the right end, cancel modulo ten; otherwise it returns Err(Checksum). So for every wrong digit exactly one digit at any other given place makes the number acceptable again; twin errors (aa typed as bb) and jump twins (aca as bcb) go unnoticed exactly when the digits differ by 5; phonetic errors (1x heard as x0, or back) are always noticed.",
    "every accepted complete number, every two places, every pair of replacement digits, both builds", "A weight on the wrong side (3,1,3 from the left for an even-length number) still passes single-digit tests; which double errors are caught is a statement about all pairs of places and digits.", [EAN13+": new, checksum", EAN8+": new", UPCA+": new"])
add("C87", "Lost bars and filled spaces are never misread",
    "Let some bars of a symbol not be printed, or some of its spaces be filled, so that each disappears into its neighbours (or into the margin). No scanner reads what is left, whatever the widths: for EAN-13, EAN-8 and UPC-A after any number of losses, for add-ons up to eight (nine can turn EAN-5 into EAN-2), for Code 39, Interleaved and Standard 2 of 5 up to four, for Codabar up to three, for Code 93, Code 11 and Code 128 up to two.",
    "every accepted string (Code 128 up to 6489 characters), every choice of the lost elements, both builds", "All symbols times all sets of lost elements. It holds because every character of a symbology has the same number of bars and spaces, so one table entry with a missing bar would break it.", [EAN13+": encode", EAN8+": encode", UPCA+": encode", SUPP+": encode", C39+": encode", C93+": encode", C11+": encode", CB+": encode", TF+": encode", C128+": encode"])
add("C88", "Text can be moved between symbologies",
    "The alphabets are nested and so are the symbols. Every text Standard 2 of 5 accepts is accepted by Code 11 and read back from its Code 11 symbol. Every text Code 11 accepts is accepted by Codabar and Code 39 and read back from both. Every text Code 39 accepts is accepted by Code 93 and, after the set B letter, by Code 128, and read back from both. A text Code 93 accepts is accepted by Code 39 exactly when it contains none of ()[]. Of the three symbols of one text, Code 93 is shorter than Code 39 from four characters on, Code 128 shorter than Code 39 from six, and Code 93 shorter than Code 128 from two.",
    "All accepted strings (below 4 GiB); both build profiles for Code 128.", "The claim relates constructors of different modules, which the unit tests only exercise separately, and ranges over every accepted string.", [C11+": new, encode", CB+": new, encode", C39+": new, encode", C93+": new, encode", C128+": new, encode", TF+": standard"])
add("C89", "Pictures of related slices are related",
    "Appending two slices puts their pictures one behind the other in the direction of reading: every text line is the line for the first followed by the line for the second; the image is made of the two images (to the right, downwards, to the left or upwards, by rotation); the SVG bars are those of the first and, moved by its width, those of the second. So zeros around a slice add exactly that much background (a quiet zone). Repeating every module k times is the same as k times the xdim: the same text, the same image and file bytes, the same SVG picture. Exchanging bars and spaces is the same as exchanging the colours of an image.",
    "all slices (0/1 where stated), heights, xdims, colours, rotations, both builds, sizes that fit; text pictures without size limits and also when they panic", "Relations between several calls for all slices and options; tests compare single outputs with recorded ones.", [ASC+": generate", SVG+": generate", IMG+": generate, generate_buffer, place_pixels"])
add("C90", "A short scratch is never misread",
    "Overwrite a stretch of a symbol with anything (a scratch, a blot, a strip of tape): the result is the undamaged symbol or is unreadable, never another valid symbol, as long as the stretch is at most 3 modules in EAN-13, 5 in EAN-8, UPC-A, EAN-5 and Code 128, 7 in Code 39 with check character and 12 in Code 93. The lengths are exact: one module more can turn a valid symbol into another one, and in Code 11 two modules can.",
    "all texts (Code 93: at most 29 characters, Code 128: at most 102 data characters), both builds, every place and every content of the stretch", "Quantifies over all texts, all places and all contents of the damage; needs the distances between all pairs of characters together with the check equations.", [EAN13+": encode", EAN8+": encode", UPCA+": encode", SUPP+": encode", C39+": encode, checksum_char", C93+": encode, checksum_char", C128+": encode, checksum_value"])
add("C91", "The bars can be crossed anywhere",
    "A reader's beam need not follow a line of pixels: any path across the bars - slanted, bent or shaking, with any number of samples per pixel, at any height inside the picture, in either direction and on paper of any width - gives the data of the symbol. This holds for generated images in all four rotations, for SVG pictures and for text pictures.",
    "all texts of all symbologies read by a hand-held reader (C77), both builds, all module widths and heights within the size limits, all colours that differ, all four rotations, all paths, all sampling rates, all quiet zones", "There are infinitely many paths and sampling rates; a test compares stored picture files or single pixels.", [IMG+": place_pixels, rotate_90, rotate_180, rotate_270", SVG+": generate, rect", ASC+": generate, generate_row"])
add("C92", "Several symbols in one line can be told apart",
    "Any number of symbols of any kinds and module widths printed side by side, with white of more than four modules of every one of them in between, can be cut apart at the white: the pieces are the symbols in order, and a hand-held reader reads each of them from either end. Four modules of white would not do: some symbols contain as much.",
    "all lists of symbols of all kinds, all module widths, all gaps and quiet zones of at least the given size", "Quantifies over all lists of texts and gaps; needs that no space of any symbol of any kind is wider than four modules and that every row begins and ends in a bar.", [EAN13+": encode", EAN8+": encode", UPCA+": encode", SUPP+": encode", C39+": encode", C93+": encode", C11+": encode", CB+": encode", TF+": encode", C128+": encode"])
add("C93", "Codabar data between start and stop letters",
    "A Codabar text with at least one of the letters A to D cannot be read backwards, so a hand-held reader (and one that copes with ink spread) reads it from either end at any magnification: with B and C exchanged if there is no '+', and exactly with the library's own chart. If the data is framed by two letters as the standard demands and has no '+', a standard reader gets exactly the data. Without the letters the direction is lost: 00 turned round reads as 33.",
    "every accepted string with a start or stop letter; all module widths, quiet zones, both directions, every ink spread below a module", "Quantifies over all texts and prints; whether a turned symbol is another symbol needs all characters of both charts.", [CB+": new, encode, Unit::lookup"])
add("C94", "GS1-128 fields",
    "GS1 element strings - application identifier and data, fixed-length fields by the GS1 table, a separator after the others - written for Code128::new behind a code-set character and FNC1 (Ź), with Ź as separator, give a symbol from which a GS1-128 reader gets exactly the fields: for printable fields after Ɓ, for digit fields of even length after Ć, and for any other choice of code sets with the same message. A digit field of odd length before a separator in set C is accepted but silently changes the fields.",
    "all lists of well-formed fields within 6487 characters, both builds", "Quantifies over all lists of fields; field boundaries depend on the order of FNC1 and digit pairs, which the library changes.", [C128+": new, parse, encode, checksum_value"])
add("C95", "Two wrong characters in Code 39 and Code 128: exactly which go unnoticed",
    "Change any two characters of a checksummed Code 39 symbol: the verifying reader accepts the result exactly when the check values of the new ones have the same sum modulo 43 as those of the old ones (with the check character counted negatively). So data characters can be exchanged without being noticed, a data character and a different check character cannot. Change any two data symbols of a Code 128 symbol: the check accepts exactly when the changes, multiplied by the positions, cancel modulo 103; a data symbol and the check symbol likewise; a wrong check symbol alone is always caught. Exchanging two unequal data symbols is noticed unless their distance is a multiple of 103.",
    "every accepted string (Code 128 up to 6489 characters), every two places, every replacement, both builds", "The pairs of errors are far too many to try, and the exact condition includes that every other pair is caught.", [C39+": checksum_char, encode", C128+": checksum_value, encode"])
add("C96", "Damaged pictures still read",
    "Overwrite pixels of a generated image with any colours (or characters of a text picture with any others), in every line across the bars one stretch of at most n module widths, and leave one line whole. Then a reader that tries all lines, sampling one cell of each module, gets the data, and no line is misread. In particular a blot up to n modules wide that does not cover the full height does no harm. n is 3 for EAN-13, 5 for EAN-8, UPC-A, EAN-5 and Code 128, 7 for Code 39 with check character, 12 for Code 93, and 1 for Code 39 without check character, Code 11, Codabar and 2 of 5.",
    "every accepted string (Code 93: 29, Code 128: 102 data characters for the long stretches; Codabar without +), every damage, all module widths, heights, colours and rotations, both builds", "The damage ranges over all pixel patterns in all lines of all pictures.", [IMG+": generate_buffer", ASC+": generate", EAN13+": encode", EAN8+": encode", UPCA+": encode", SUPP+": encode", C39+": encode", C93+": encode", C11+": encode", CB+": encode", TF+": encode", C128+": encode"])
add("C97", "Pictures can be resized",
    "Show a generated image at any other size - by a whole or a broken factor, larger or smaller, each new pixel taking the colour of any old pixel that it overlaps - or draw a generated SVG picture with any number of pixels. If there are at least two pixels for every module across the bars, sampling every line in the middle of the modules gives exactly the encoded row, so a scanner reads the data. This holds in all four rotations.",
    "all rows of modules, all xdims, heights, colours that differ, rotations, both builds, sizes that fit; every new size and every choice of the overlapping pixels", "Ranges over all sizes and all ways of rounding; the boundaries between bars fall on all fractions of a pixel.", [IMG+": generate_buffer", SVG+": generate"])
add("C98", "A symbol can be read by a beam of changing speed",
    "A pen drawn across the bars by hand goes faster in one place and slower in another. Take a line across any symbol of EAN-13, EAN-8, UPC-A, an add-on, Code 39, Code 93, Code 128 or two of five (both kinds), in which every character (guard, pair) has a scale of its own, as large or small as it may be compared with the others, and in which every single bar and space is wrong by less than an eighth of the module of its character, in any direction. A reader that knows only how many elements and modules make a character, divides each character by its own length and rounds, recovers the modules that encode gave exactly, so that it reads the same text. Code 11 and Codabar, whose characters differ in length, are read the same way by calling an element narrow or wide, whichever of the narrowest and the widest element of its character it is nearer to.",
    "for every accepted text, every line, every scale of each of its characters and every error below the tolerance", "Tests compare the modules with literals; they do not see that every character of every table has the same number of elements and modules as the others, which is what this reading relies on, nor can they try all scales and errors.", [EAN13+": encode, ENCODINGS, guards", EAN8+": encode", SUPP+": encode", C39+": encode, CHARS", C93+": encode, CHARS", C128+": encode, CHARS", TF+": interleave, encode", C11+": encode", CB+": encode"])
add("C99", "Books and journals in EAN-13",
    "The documentation offers EAN-13 for Bookland. Take any ten-character ISBN, drop its check character and put 978 in front: the result is accepted, and from the symbol a reader gets the whole ISBN back, the check character (0 to 9 or X) included. Likewise an ISSN behind 977 with any two digits following. Conversely every accepted number that begins with 978 is that of exactly one ISBN, which its symbol gives; different ISBNs have different symbols.",
    "all ISBNs and ISSNs, all accepted numbers that begin with 978, both builds", "There are a thousand million books; tests draw one or two.", [EAN13+": new, encode"])
add("C100", "Symbols can be read by like edges, however the ink runs",
    "Ink that runs widens the bars at the cost of the spaces, but leaves the distance from the left edge of a bar to the left edge of the next one alone. Take a line across any Code 93 or Code 128 symbol in which every character has its own scale and its own amount of ink, too much or too little without limit, and in which every element is wrong by less than a sixteenth of the module of its character besides. A reader that looks at the distances between like edges only, as the reference decode algorithm of the standard does, recovers the modules that encode gave exactly. In EAN-13, EAN-8 and UPC-A, where 1 and 7, and 2 and 8, have the same distances, it does so with up to a quarter of a module of ink, which may differ from digit to digit, by looking at two of the four widths as well; a whole module of ink turns a 1 into a 7.",
    "every accepted text, every line, every scale, every amount of ink of each of its characters and every error below the tolerance", "Tests compare modules with literals; that no two characters of a table have the same distances is a property of the whole table, and no test can try all amounts of ink.", [C93+": encode, CHARS", C128+": encode, CHARS", EAN13+": encode, ENCODINGS", EAN8+": encode", UPCA+": encode"])
add("C101", "A reader that is told nothing reads one thing only",
    "A reader that is not told the symbology, the module width or the direction, tries the scanner of every symbology from both ends of the line and reports everything it can read, reports exactly one thing for a symbol of the library: the right symbology with the right number or text. A UPC-A symbol is reported as the EAN-13 number with a leading zero. The same holds for every line across the bars of a generated image, in both directions. On a label with any number of symbols of different kinds, cut at the white between them, the reader reports one reading per symbol, in order, and in the opposite order when the label is upside down.",
    "every accepted string of every kind, Code 128 up to 6489 characters, Codabar when its data stands between start and stop letters and has no +; all module widths, quiet zones and directions; all rotations, colours and heights within the sizes of C40", "A test tries a few symbols with a few scanners. That no scanner of ten reads any symbol of another symbology, forwards or backwards, is a statement about all pairs of symbologies and all texts.", [EAN13, EAN8, UPCA, SUPP, C39, C93, C11, CB, TF, C128, IMG])
add("C102", "Values of the public enum variants",
    "TF::Standard(v) and TF::Interleaved(v), built directly from a vector of decimal digits of any length (an even one for Interleaved), encode to a symbol that is read back as exactly v; with any other vector encode() panics (C31), so a 2 of 5 symbol that is drawn at all is read back as exactly v. EANSUPP::EAN2 with two digits and EANSUPP::EAN5 with five are read back as v. With any other vector an add-on that is drawn at all is either unreadable or read as the first five digits of v; three or four digits are never read.",
    "all vectors of values, of every length; both build profiles", "A test wraps a few vectors. Lengths outside the constructor's limits, and add-ons whose parity row is longer or shorter than the data, are infinitely many cases.", [TF, SUPP])
add("C103", "Light bars on dark paper are not misread",
    "A symbol printed with its two colours exchanged, with margins of more than two modules in the colour of the paper, is read by none of the scanners of C101, from either end. A reader that tries the picture and its negative therefore reports a symbol exactly once, whether it is printed dark on light or light on dark.",
    "every symbol for which C101 gives the one reading; all module widths, all margins of more than two modules, both directions", "A test inverts a few pictures. That no inverted symbol of any text is a symbol of any of ten symbologies needs a proof.", [EAN13, EAN8, UPCA, SUPP, C39, C93, C11, CB, TF, C128, IMG])
add("C104", "A beam that crosses a part of a symbol reads nothing",
    "Suppose a reader sees white paper, some stretch of a line across a printed symbol, and white paper again: the beam is slanted and leaves the symbol through its upper or lower edge, or the symbol is torn. The stretch may begin and end anywhere, in the middle of a bar too, and the reader does not know the width of a module and may be held either way round. For EAN-13, EAN-8, UPC-A, Code 93 and Code 128, and for Codabar data framed by two letters, the reader gets a text only if the stretch is the whole symbol: a part is never read as another text. For Code 128 this does not use the check character. For Code 39, with or without the check character, Code 11, both kinds of 2 of 5, the EAN add-ons and Codabar text with further letters inside there are texts of which a part is read as another text.",
    "for every encodable text of the first group, every module width, every stretch of the row and every margin; for the second group, existence of such a text", "The number of stretches grows with the square of the length of the row, for each of infinitely many texts; a test tries a few cuts.", [EAN13, EAN8, UPCA, SUPP, C39, C93, C11, CB, TF, C128])
add("C105", "The shortest Code 128 symbol for a text",
    "Code 128 can write the same text in many ways: in set A, B or C, switching between them, or with SHIFT; and FNC1 after the first symbol stands for the group separator U+001D. For every ASCII text of at most 2162 characters there is a data string, computed by a rule stated apart from the code, that Code128::new accepts, whose symbol a scanner reads as exactly that text, and whose symbol has the least number of modules possible: no data string, in either build, gives a shorter symbol from which a scanner receives the same text. The same holds of GS1-128 symbols, those with FNC1 in front. In particular no symbol carries more than two characters of the text, and without digits no more than one.",
    "all ASCII texts of at most 2162 characters; all competing data strings, of any length, in debug and release builds (the bounds: all drawn symbols and received texts)", "Minimality compares one symbol with every data string the constructor accepts; a test compares it with the few alternatives its author thought of.", [C128])
add("C106", "How many wrong modules are harmless",
    "If up to three modules of a UPC-A or EAN-8 symbol, of a Code 39 symbol with check character, or of a Code 128 symbol with at most 102 symbols between start and check are wrong, at any places, or up to two modules of a Code 93 symbol of at most fourteen characters, a reader reads nothing rather than something else. With up to three wrong modules an EAN-13 symbol can only be read as a number with another leading digit, and with one not at all. These numbers cannot be improved: symbols that are four (Code 93: three, EAN-13: two) modules apart exist, and two modules are enough in a Code 128 symbol with 103 symbols.",
    "every accepted string within the stated lengths, every choice of wrong modules, both builds", "A symbol of 95 modules has 138415 triples of wrong modules, and the claim is about every number; tests flip a few modules of a few symbols.", [EAN13, EAN8, UPCA, C39, C93, C128])
add("C107", "What is seen of translucent colours",
    "On a page of any colour, a place of an SVG picture shows the background over the page and, at a bar, the foreground over that, with opacities that are alpha/255 to the nearest hundredth. So bars and spaces look the same exactly if the foreground has alpha 0 or 1 or the very colour seen in the space; a background of alpha 254 or 255 hides the page. A pixel of an image is shown directly over the page. With an opaque foreground and an opaque or fully transparent background both pictures look the same everywhere, on every page; with a fully transparent foreground the image shows the page in its bars and the SVG picture its background.",
    "all colours, pages, bits, sizes that fit, both builds", "The page and both colours range over all values; the result depends on the order of the painted rectangles and on the rounding of every alpha.", [SVG, IMG])
add("C108", "Pictures survive noise",
    "The colour of every pixel of a generated image may change by less than half the distance of foreground and background (summed over the four channels), in any way. If every pixel is then taken for the nearer of the two colours, every line across the bars still shows the modules, each as wide as before, and a hand-held reader gets the data in both directions. If the pixels of a module vote, fewer than half of the pixels of each module may moreover have any colour at all. Both bounds are sharp.",
    "all 0/1 rows, module widths, heights, colours that differ, rotations, both builds, sizes that fit, every noise within the bounds", "The noise is an arbitrary function on the pixels; tests can only try some.", [IMG])
add("C109", "Pictures out of focus",
    "Lay a generated image on paper of its background colour and take the mean of the colours at any samples, weighted in any way. If more than half of the weight lies in one module, the mean is nearer to the foreground than to the background exactly if that module is a bar. So the picture may be smeared over windows one pixel narrower than two modules: the means around the modules still give the whole symbol.",
    "all 0/1 rows, module widths, heights, colours that differ, rotations, both builds, sizes that fit, all lists of samples", "The samples and weights are arbitrary; a test would fix one lens.", [IMG])
add("C110", "What a camera makes of the colours",
    "Let a camera call places dark or light by their colour, in any way at all. If it tells the foreground of a generated image from the background, every line across the bars is the symbol or its negative, each module as wide as asked for; with quiet zones of the background colour a reader that tries both polarities then gets the data and nothing else, in both directions. Otherwise it sees one even surface. An SVG picture, on a page of any colour and with colours of any opacity, likewise gives the symbol in all lines, or its negative in all lines, or one even surface.",
    "all 0/1 rows, drawn symbols, module widths, heights, rotations, pages, colours (for images: two different ones), both builds, sizes that fit, every function from colours to dark and light", "The camera is an arbitrary function of the colour; red lasers and grey-scale thresholds are two of them.", [IMG, SVG])
add("C111", "Slices with other values than 0 and 1",
    "The generators take any bytes. If some byte is neither 0 nor 1, the text generator panics, whatever its settings, and otherwise it never does. The JSON generator writes 1, and the image generators draw a bar, for every byte but 0; the SVG generator draws a bar for 1 only. So all pictures of a slice show that slice exactly if it consists of zeros and ones.",
    "all slices, settings, both builds, 32 and 64 bits (images), every codec", "Tests feed the generators with encoded symbols or short hand-made slices of zeros and ones.", [ASC, JSN, SVG, IMG])
add("C112", "One illegible digit or character can be found again",
    "If one digit of a complete EAN-13, EAN-8 or UPC-A number is illegible, whichever it is, there is exactly one character with which the number is accepted. If one data character printed under a checksummed Code 39 symbol (up to 256 characters), or under a Code 11 symbol of up to ten data characters, is illegible, exactly one character fits the others and the check character, whatever these are. In a Code 93 symbol of up to 14 data characters even two illegible characters, check characters included, can be found again: no two symbols agree in all other characters. In a Code 128 symbol one illegible data symbol can be found again from the others and the check symbol, unless its position is a multiple of 103.",
    "all remaining digits and characters, all places, both builds", "Tests check a few known check digits; that a missing digit always has one and only one value is a statement about all numbers and places.", [EAN13, EAN8, UPCA, C39, C93, C11, C128])
add("C113", "A digit left out, a digit too many, and the wrong kind of number",
    "If a digit is left out of an accepted complete EAN-13, EAN-8 or UPC-A number, what is left is always accepted, as a number without its check digit; the symbol is the right one exactly if all digits that followed the one left out were equal to it. A complete number with one more character anywhere is rejected with Length. A complete UPC-A number given to EAN13::new is accepted; the symbol reads as the 12 digits and a new check digit, and is the UPC-A symbol only if all digits are zero. An EAN-13 number given to UPCA::new is rejected with Length if it has 13 digits; if it has 12, it is accepted exactly if its last digit happens to be the check digit of the others, and is rejected with Checksum otherwise.",
    "all accepted numbers, all places, both builds", "That a typing error goes unnoticed for every number, and the few in which it does no harm, cannot be seen from examples.", [EAN13, EAN8, UPCA])
add("C114", "A picture tells how it was made",
    "Two JSON texts are equal exactly if height, xdim and the slices (zero or not) are. Two symbols drawn as text with positive height and xdim are equal exactly if heights, xdims and symbols are. Two SVG documents whose widths fit, one of them with positive xdim, are equal exactly if the xmlns strings (whatever they contain, even quotes), the heights, the painted backgrounds and the bars are: either nothing is 1 and the total widths agree, or the values that are 1, the xdims and the painted foregrounds agree. Colours are painted alike exactly if red, green and blue agree and the opacities have the same nearest hundredth. So an SVG document of a symbol with positive xdim determines the symbol, the height, the xdim, the xmlns and the colours as painted.",
    "all settings, slices and symbols of every symbology, both builds", "That no two of infinitely many combinations of settings give the same document is not testable; a forgotten separator or a rounded value would collide for special settings only.", [ASC, JSN, SVG])
add("C115", "Which characters the generators write, and how many",
    "The text generator writes #, blanks and line ends only: height * (n * xdim + 1) - 1 characters for n modules, with height - 1 line ends. The JSON generator writes printable ASCII, at most 2n + 73 characters (heights and xdims below 2^64) and at least 2n + 34. The SVG generator writes printable ASCII if the given xmlns is printable ASCII; with k bars a document is between 55k + 98 and 103k + 173 characters longer than the xmlns, also in release builds in which positions wrap around.",
    "all slices of any bytes, all settings, both builds", "Bounds on the size of the output and on its characters are about all inputs; a test sees a few documents.", [ASC, JSN, SVG])
add("C116", "Which symbology prints a number in the least space",
    "Of the symbols of the same 2 to 254 digits (an even number) in the seven symbologies that take any digits (Interleaved 2 of 5, Code 128 after Ć, Code 93, Code 11, Codabar between start and stop letters, Code 39, Standard 2 of 5), all of which exist, Interleaved 2 of 5 is the narrowest up to six digits and Code 128 from ten digits on; at eight they take 80 and 79 modules and Code 11 between 78 and 87. EAN-8 (67 modules for 8 digits) and EAN-13 and UPC-A (95 for 12) are narrower than all seven.",
    "All digit strings of even length from 2 to 254, both builds.", "The comparison is over all digit strings of each length; the width of Code 11 depends on the digits and on its check characters.", [C11, C39, C93, CB, TF, C128, EAN13, EAN8, UPCA])
add("C117", "The published EAN and UPC tables",
    "The public constants of ean13 and upca (ENCODINGS and the guards) are the number sets A, B and C of the standard. Every EAN-13, EAN-8 and UPC-A encoding is exactly guards and table patterns put together in the standard order, and no pattern stands twice in a table; so a program that cuts an encoding into cells of seven modules and looks each up in the published table gets the digits, and for EAN-13 the sets, which tell the leading digit.",
    "All accepted EAN-13, EAN-8 and UPC-A data, both builds; all entries of the tables.", "The claim is about every number; a test compares a few rows. It ties the public constants to what encode draws.", [EAN13, EAN8, UPCA])
add("C118", "A character lost, or seen twice",
    "Let the modules of one whole data character be missing from a symbol, or come twice, so that what is left has the right shape. Code 39 with check character notices this exactly if the character is not a 0. Code 93 (up to 14 characters; 13 for a doubled one) fails to notice exactly if the character is a 0 and the values of the characters before it add up to a multiple of 47, as for leading zeros. Code 11 (up to 10 or 9 characters) and Code 128 fail to notice exactly if the value times the place and the values on the one side add up to a multiple of 11 or 103; the last blank of a text in set A or B is such a case. Whenever the change is not noticed the changed text is read, in Code 128 as far as the symbols that are left spell a text. Code 39 without check character and both kinds of 2 of 5 never notice. In EAN-13, EAN-8 and UPC-A no loss and no repetition of any stretch of modules leaves anything readable.",
    "every accepted string within the stated lengths (Code 128: 6489 characters), every character of it, both builds; EAN and UPC: every stretch", "There are too many texts and places; which losses go unnoticed depends on sums over the rest of the text.", [EAN13, EAN8, UPCA, C39, C93, C11, TF, C128])
add("C119", "Ink that is only added, or only lost",
    "A pen stroke, a stain or a second label printed on top only makes modules dark; wear only makes them light. The number of dark modules of a symbol is fixed by the text in a simple way: 9 for every digit and 10 for the frame in Standard 2 of 5; 9 for every pair of digits and 5 in Interleaved 2 of 5; 7 for every character drawn (check, start and stop characters too) in Code 39, but 5 for $, /, + and %; 5 for every digit, dash, dollar sign and letter in Codabar. Hence no ink, however much and wherever, turns a 2 of 5 symbol into another symbol of the same kind, nor a Code 39 symbol in which none of $, /, +, % is drawn, nor a Codabar symbol of digits, dashes and dollar signs between two letters into another of that form; nor can ink be lost so that one is left; and two different symbols printed on top of each other (2 of 5, or such Code 39 symbols) are never a third. In all other cases (EAN-13, UPC-A, EAN-8, add-ons, Code 93, Code 11, Code 128, the rest of Code 39 and Codabar) there are pairs of texts where ink alone turns one symbol into the other.",
    "every pair of accepted strings, every set of modules made dark; existence of pairs for the other symbologies; both builds", "the sets of modules that may be inked are exponentially many, and the pairs of texts unbounded", [TF, C39, CB, EAN13, EAN8, UPCA, SUPP, C93, C11, C128])
add("C120", "Parts of two labels are not read as one, unless the check comes out",
    "A reader that puts a symbol together from several passes, or a label half covered by another, can join the front of one symbol to the rear of another. If both are cut between characters, the result is read exactly in these cases. UPC-A and EAN-8 (any cut between two digits or at the centre) and EAN-13 (cut at the centre or to the right of it): if the front digits of the first and the rear digits of the second together are a valid number. Code 39 with check character: if the values of the characters kept of the first and of those they replace in the second add up to the same modulo 43. Code 93 and Code 128: if the text put together has the check characters of the second label. Otherwise nothing is read. Code 39 without check character and both kinds of 2 of 5 never notice: every front fits every rear.",
    "every pair of accepted strings (Code 128 up to 6489 characters), every pair of cuts between characters, both builds", "the pairs of labels and cuts are unbounded, and a test can only show single mixtures that are or are not noticed", [EAN13, EAN8, UPCA, C39, C93, C128, TF])
add("C121", "A part of a symbol is never read as another text of the same length",
    "Code 39, Code 11, Standard and Interleaved 2 of 5 and the add-ons can be read from a part of the symbol (C104 shows this happens). But a reader that knows how many characters to expect is safe: whatever stretch of the printed row a beam crosses, at whatever module width, with whatever white paper before and behind it, and from either end, if something with as many characters as the symbol encodes is read, then it is the text the symbol encodes. This holds for a Code 39 symbol with check character both for the reader that verifies and strips it and for the one that reports it as a character.",
    "for all accepted texts of the five symbologies, all contiguous parts of the row, all module widths and quiet zones, both directions", "there are quadratically many parts of each of infinitely many symbols, at every module width; a test can try a few cuts", [C39, C11, TF, SUPP])
add("C122", "Wrong and illegible modules can be put right",
    "Let a row be received in which some modules are illegible and up to e of the others wrong. If twice e plus the number of illegible modules is at most three, no two different UPC-A symbols fit the row, no two EAN-8 symbols, no two Code 39 symbols with check character and no two Code 128 symbols: one wrong module, even with one illegible one besides, or three illegible ones, can be put right without doubt. For Code 93 the sum may be two. In every symbology but the two-digit add-ons one illegible module can be filled in. When a stretch of the symbol is covered up altogether and the rest is right, a single symbol fits as long as the stretch has at most 3 modules in EAN-13, 5 in EAN-8, UPC-A, five-digit add-ons and Code 128, 7 in Code 39 with check character and 12 in Code 93. The sums cannot be raised: with four in UPC-A, EAN-8, Code 39 with check character and Code 128, three in Code 93 and two in EAN-13, however made up, some rows fit two symbols.",
    "all pairs of accepted inputs of the same kind, all received rows, all positions of wrong, illegible or covered modules; Code 93 of up to 14 characters (29 for the covered stretch); Code 128 symbols of up to 1157 modules", "Every pair of symbols against every damaged row; tests draw single symbols.", [EAN13, EAN8, UPCA, SUPP, C39, C93, C11, CB, TF, C128])
add("C123", "Whether an error is noticed depends on the error alone",
    "Take two correct EAN-13, EAN-8 or UPC-A numbers with check digit and make the same error in both, that is, change the digit at each place by the same amount modulo 10. Then the constructor either rejects both wrong numbers or accepts both. Likewise for the characters read from a Code 39 symbol with check character (modulo 43), a Code 93 symbol (modulo 47) and a Code 11 symbol (modulo 11), whose check characters count as places too: a scanner either rejects both wrong readings or accepts both. In Code 128 (modulo 103) this holds of the check symbol comparison, with start symbol and check symbol among the places and the check symbols read below 103. So the errors that slip through are the same ones for every label of a length, and can be listed once.",
    "all pairs of accepted inputs of equal length, all errors in any number of places; Code 128 of up to 6489 characters", "Pairs of inputs and all errors on them; a test shows one error on one number.", [EAN13, EAN8, UPCA, C39, C93, C11, C128])
add("C124", "Serial numbers",
    "Write a number with leading zeros to 12 digits for EAN-13, 7 for EAN-8 or 11 for UPC-A. It is accepted, and the symbol is read as ten times the number plus a check digit. Every symbol there is belongs to exactly one such number, so there are exactly 10^12, 10^7 and 10^11 different symbols. From one number to the next the check digit goes down, modulo 10, by 3 if the number does not end in 9, by 4 if it ends in one 9, and by 2(j+1) plus 1 for even j if it ends in exactly j nines; so consecutive numbers never have the same check digit, except (EAN-13 and UPC-A) after a number ending in exactly nine nines. Numbers of 2 or 5 digits as add-ons, of 1 to 256 digits in Standard 2 of 5 and of an even number of digits in Interleaved 2 of 5 are read as they are.",
    "all numbers below the stated limits, both builds; all accepted strings for the converse", "There are 10^12 numbers, and that none is left out or drawn twice needs all of them.", [EAN13, EAN8, UPCA, SUPP, TF])
add("C125", "Input that was not tidied up",
    "A string that contains, anywhere, a control character (line end, tab), a character beyond ASCII (no-break space, byte order mark, digits of other scripts) or a lower case letter is refused with Length or Character by every constructor except Code128::new; nothing is trimmed and case is never folded. A blank is refused too, except in Code 39 and Code 93, where it becomes part of the data and is read back. Code128::new accepts beyond ASCII only the marks of its notation; and when it accepts s, it accepts s followed by one more character exactly if that character belongs to the code set in force at the end of s or selects another code set: so a line end is accepted, as data, exactly in set A, and a blank in sets A and B.",
    "all Unicode strings (also beyond 4 GiB), all characters, all positions, both builds", "All strings and all Unicode characters.", [EAN13, EAN8, UPCA, SUPP, C39, C93, C11, CB, TF, C128])
add("C126", "What the documentation says of the symbologies",
    "Code 39 and Code 11 are discrete (and so is Codabar, for texts without +): if every space between two characters of a symbol is given any other width, a reader that does not look at these spaces still reads the text. (In Codabar, as with narrow spaces, B and C come out exchanged, see C54.) Code 93 is continuous: n characters make n + 4 cells of nine modules that begin with a bar and end with a space, and one last bar, with nothing between the cells. Code 93 is denser than Code 39 exactly from four characters on (equal at three), and always denser than Code 39 with check character. Code 128 has double density for digits: apart from the 35 modules of start, check and stop, an even number of digits takes half the modules in set C that it takes in set A or B.",
    "every accepted string; every choice of widths of the spaces between characters; every even number of digits", "The words discrete, continuous, denser and double density are claims about all texts (and all gap widths) at once; a test compares single symbols.", [C39, C11, CB, C93, C128])
add("C127", "What {:?} shows of a barcode",
    "The Debug text of a barcode (in a log, say) tells what will be drawn. The numbers it lists are, for EAN-13, EAN-8, UPC-A, EAN-2 and EAN-5, the digits of the number without check digit; for Standard 2 of 5 the digits of the text; for Interleaved 2 of 5 the digits a scanner reads, the added one included; for Code 128 the values of the symbol characters before the check character, each with the code set in force when a reader comes to it. The characters it quotes are, for Code 39, Code 93 and Code 11, the text, and the Code 39 text ends by telling whether a check character is drawn. The words it lists for Codabar are the names of the characters. Two barcodes with the same Debug text, of whatever types and however made, have the same type and the same symbol. The four errors are told apart by {:?} and by {}.",
    "every accepted string, every value of the public types, both builds", "A test compares the text of one value with a literal; that the text determines type and symbol is a statement about all pairs of values.", [EAN13, EAN8, UPCA, SUPP, C39, C93, C11, CB, TF, C128])
add("C128", "An odd number of wrong modules",
    "If any odd number of modules of a symbol is wrong (dark instead of light or the other way round, 1, 3, 5, ... up to all of them, at any places), a reader reads nothing rather than something else: UPC-A, EAN-8, five-digit add-ons, Code 39 with and without check character, and Code 128 of any length. For EAN-13 the only exception is that a number beginning with 0 and one beginning with another digit can be confused. The reason can be used by hand: the dark modules of one left digit of UPC-A or EAN-8 are odd in number and those of a right digit even, which tells which way round the symbol is held; the parities of the six left digits of an EAN-13 symbol tell its leading digit, which has no bars of its own. A Code 39 symbol has seven dark modules per character (five for $ / + %), and a 2 of 5 symbol a number of dark modules that depends on nothing but the number of digits.",
    "every accepted string, every choice of an odd number of modules, both builds", "There are 2^94 ways to change an odd number of modules of one EAN-13 symbol; C106 settles at most three wrong modules, and tests none.", [EAN13, EAN8, UPCA, SUPP, C39, C128, TF])
add("C129", "What {:?} shows of a generator",
    "The text that format!(\"{:?}\", g) writes of a generator (in a log, say) tells which generator it is and all its settings: the first word is ASCII, JSON, SVG or the image variant; the numbers in it are the height and xdim of an ASCII or JSON generator, and the height, xdim, foreground and background of an image or SVG generator, in this order; the word after \"rotation\" of an image generator is its rotation; the string in the text of an SVG generator, with the escapes taken back, is its name space, and there is a string only if there is a name space. So two image or SVG generators written alike are alike in every setting and draw the same pictures.",
    "every ASCII, JSON, SVG and image generator, with every height, xdim, rotation and pair of colours; name spaces of printable ASCII characters, line feeds, carriage returns, tabs and NULs", "All settings of a picture at once: eight colour bytes and two 32-bit numbers; tests can only compare some texts.", [ASC, JSN, SVG, IMG])
add("C130", "How much of a picture is dark",
    "A picture takes ink in proportion to the dark modules of the symbol: the text generator writes height * xdim number signs for every dark module, the image generators colour as many pixels in the foreground colour (whichever way the picture is turned, if the two colours differ), and the rectangles after the background of an SVG document, one for every dark module, have as much area together. And whatever is printed, in any symbology, at least a third of the modules of a symbol are dark and at least a quarter are light, so that no symbol is almost white or almost black.",
    "every slice of zeros and ones and all settings for which a picture is returned (SVG: widths below 2^32); every accepted string of every symbology, both builds", "The proportion of dark modules depends on every character and on the check characters; tests look at a few symbols, and count nothing.", [EAN13, EAN8, UPCA, SUPP, C39, C93, C11, CB, TF, C128, ASC, SVG, IMG])
add("C131", "Modules lost or too many",
    "A printer drops a column of dots or prints one twice; a reader loses count. A row that has lost some modules of a symbol, or in which some have come in, anywhere and of any colour, is not read if the numbers are not equal: for EAN-13, EAN-8 and UPC-A always, for add-ons if the length has changed by at most 26 modules, for Code 39 (with and without check character) by at most 12, for Code 93 by at most 8, for Code 128 by at most 10. Code 11 characters differ in width, and there the loss or gain of two modules can turn 1 into 0, but with one module missing or one too many nothing is read. One module missing or too many never turns a 2 of 5 symbol into another number, nor a Codabar symbol with start and stop characters into another text with start and stop characters.",
    "every accepted string of every kind (Code 128 up to 6489 characters), every row of a length within the stated distance; Code 11, Codabar, 2 of 5: every place and colour of the module", "A test removes one module of one symbol; here modules are lost and added at any places at once, and the row that results is arbitrary.", [EAN13, EAN8, UPCA, SUPP, C39, C93, C11, CB, TF, C128])
add("C132", "How many wrong readings pass",
    "How good a check is can be told by counting. Of the 10^13 strings of 13 digits, EAN-13 accepts exactly 10^12, one in ten (EAN-8: 10^7 of 8 digits, UPC-A: 10^11 of 12), and every check digit from 0 to 9 completes the same number of strings, so none is more likely than another. There are exactly 10^12, 10^7 and 10^11 different EAN-13, EAN-8 and UPC-A pictures. Of the 43^(n+1) rows of modules that read as n + 1 Code 39 characters, with_checksum draws exactly 43^n, and new draws all. Of the 47^(n+2) rows that read as n + 2 Code 93 characters, 47^n are drawn, one in 2209. Of the 11^L rows that read as L Code 11 characters, 11^(L-1) are drawn for L from 2 to 11, none for L = 12, 11^(L-2) for L from 13. Of the 3 * 103^(n+1) rows that read as a start symbol of Code 128 and n + 1 symbols below 103, 3 * 103^n are drawn, one in 103.",
    "all strings of the stated lengths, all rows of modules that read as the stated number of characters (Code 39: n from 1 to 255; Code 93: n from 1 to 256; Code 11: up to 256 data characters; Code 128: n up to 3244, strings of up to 6489 characters), both builds", "The count runs over all strings or rows of a length, from ten million up; no test can go through them, and a sample only estimates it.", [EAN13, EAN8, UPCA, C39, C93, C11, C128])
add("C133", "Any number of wrong characters",
    "However many digits of a number are misread, and whichever they are, the check lets one reading in ten pass: of the 10^k strings of digits that agree with a given string of 13 digits except in k given places (k at least 1), EAN-13 accepts exactly 10^(k-1), whether the given string is a valid number or not; the same for EAN-8 and UPC-A. Of the 43^k readings of a Code 39 symbol with check character that differ in k given places at most, check character included, exactly 43^(k-1) are drawn by the library; of the 11^k readings of a Code 11 symbol of up to ten characters, 11^(k-1); of the 47^k readings of a Code 93 symbol of up to 14 characters with k at least 2, exactly 47^(k-2), so that of the ways to misread any three or more characters one in 2209 is overlooked; of the 103^k readings of a Code 128 symbol (start symbol aside), 103^(k-1), unless all the k places are data symbols 103, 206, and so on.",
    "every string or reading of the stated length (valid or not), every set of places; Code 128: up to 3244 data symbols; both builds", "The number of readings grows as the power of the number of places, up to 10^13 for EAN-13; the claim is about each of the 2^13 sets of places.", [EAN13, EAN8, UPCA, C39, C93, C11, C128])
add("C134", "Two wrong characters near each other",
    "In a Code 93 symbol of any length, two misread characters (check characters included) with one, two, three, four or six characters between them are always noticed, and so are two side by side, unless the number of characters to their right, check characters counted, leaves 30 when divided by 60; there the misreading passes if and only if the left value plus fifteen times the right value is unchanged modulo 47, so each wrong character has exactly one wrong companion that hides it. In a Code 11 symbol with two check characters, two misread characters with eight or nine characters between them are always noticed, and two side by side are, unless the number of characters to their right leaves 41, 54 or 82 to 89 when divided by 90; there it passes if and only if the sum weighted as for the first check character is unchanged modulo 11.",
    "every accepted text, every place, every two wrong characters; Code 11: texts of more than ten characters", "C65 settles Code 93 up to 14 characters only, beyond which some pairs escape; which distances are safe at every length and where the first unsafe neighbours are follows from the two weight cycles (20 and 15, 10 and 9) together, and the texts concerned are too many to try.", [C93, C11])
add("C135", "Two characters exchanged in Code 93 and Code 11",
    "Exchange any two unequal characters of a Code 93 symbol, check characters included: the verifying reader accepts the result if and only if both are data characters and their distance is a multiple of 60. In Code 11 with two check characters it accepts if and only if the right one of the two is not the last check character and the distance is a multiple of 90. In Code 11 with one check character it never accepts, with one exception: in a text of exactly ten characters the first character and the check character can be exchanged and nothing is noticed.",
    "every accepted text of any length, every two places", "C18 and C56 settle neighbours only; at other distances the answer depends on both weight cycles and the modulus together, and the exception for ten characters is one place in one length.", [C93, C11])
add("C136", "Whether one wrong character can be put right",
    "A check digit tells that a digit is wrong, not which one: a string of 13 digits that EAN-13 refuses can be turned into an accepted one by changing one digit in exactly thirteen ways, one for each place (EAN-8: eight, UPC-A: twelve). In the same way a reading of a checksummed Code 39 symbol, or of a Code 11 symbol with one check character, whose check fails has one correction in each place, check character included, and a reading of n Code 128 data symbols and a check symbol (behind the right start symbol) has n + 1 - n/103 corrections, none of them in the 103rd, 206th, ... data symbol. The two check characters of Code 93 do tell which character is wrong, up to fourteen data characters: whatever was read, at most one symbol of the library differs from it in one character or none. From fifteen characters on, and in Code 11 with two check characters at every length, there are readings that differ in one character from each of two symbols.",
    "every reading of the stated lengths (valid or not), every two symbols; Code 128: up to 3244 data symbols; both builds", "The claim counts the accepted strings among the neighbours of every refused string, and compares every reading with all symbols near it.", [EAN13, EAN8, UPCA, C39, C11, C93, C128])
add("C137", "Two wrong characters anywhere in Code 93 and Code 11",
    "For Code 93 of any length, and Code 11 of any length with two check characters, it is known exactly which pairs of wrong characters, at any two places, check characters included, go unnoticed. With fixed weights for each place counted from the right end, a reading in which at most two characters differ from the drawn ones passes exactly if two weighted sums of the changes vanish modulo 47 (11). So of the 2208 (120) ways of getting the characters at two given places wrong, exactly 46 (10) pass if the weights of the two places are proportional modulo 47 (11), and none if they are not. In Code 93 with up to eighteen data characters (not with nineteen) the only two places that can hide each other's errors are those with 10 and 16 characters to their right.",
    "every symbol (Code 11: of more than ten characters), every two places in it, every pair of characters put there; both builds", "The claim decides every double misreading of every symbol and counts those that pass; the accident that a sampled pair is noticed says nothing about the others.", [C93, C11])
with open(os.path.join(os.path.dirname(__file__), "..", "properties.jsonl"), "w") as f:
    for p in P: f.write(json.dumps(p, ensure_ascii=False) + "\n")
print(len(P))
