# Formal model of buntine/barcoders in Lean 4

## Layout

* `lean/Verif/Model/*.lean` – the model. One file per Rust module; every definition cites file and lines.
* `lean/Verif/Spec/*.lean` – independent specifications: scanners working on bar/space element widths, check-digit
  equations, a JSON reader, an SVG reader, picture semantics. Nothing in `Spec` mentions the model.
* `lean/Verif/Lemmas/*.lean` – helper lemmas.
* `lean/Verif/Props/*.lean` – the property theorems (named `Cnn_...`) and, next to them, `example`s showing that concrete
  inputs meet the hypotheses.
* `lean/Verif/Conformance.lean` – the expected values of the unit tests in `/repo` and the picture in its README, checked against the model with `#guard`.
  These are tests of the model (evaluated, not proved); no theorem uses them.
* `properties.jsonl`, `MANIFEST.json`, `AXIOMS.md` – the claims, which theorems prove them, the axioms they rest on.
  Written by `tools/gen_properties.py`, `tools/gen_manifest.py`, `tools/gen_axioms.py`.
* `seeded/LOG.jsonl` – wrong programs tried against the theorems.

## Trusted base

1. **Lean's kernel** (4.33.0). No Mathlib module is imported. No `sorry`, `admit`, `native_decide`, `bv_decide`, no own axioms.
   `decide +kernel` is used for finite tables: the kernel evaluates the decision procedure.
2. **Axioms**: at most `propext`, `Classical.choice`, `Quot.sound`. `AXIOMS.md` lists them theorem by theorem.
3. **The reading of the code**: that each definition in `Model` does what the cited lines of `/repo` do. The code was not run.
   The unit tests of the repository (116 expected values) and the picture in its README agree with the model in `Conformance.lean`.
   `tools/check_sources.py` compares the citations (230) and constant tables (30) of the model with the text of `/repo`.
4. **The specifications** in `Spec` (about 3000 lines): that they are what the standards and the English claims say.

### How Rust is modelled

* `&str` is `List Char` (Lean's `Char` is a Unicode scalar value, as in Rust); `str::len` is the sum of the UTF-8 sizes;
  `data.len() as u32` is taken modulo 2^32.
* A computation is an `Outcome α`: `ok`, `err e` (a returned `Err`) or `panic p`. Indexing, slicing, `unwrap`, `expect` and
  overflowing arithmetic are explicit panics.
* `u8`, `u32`, `i32` arithmetic takes a `Build` (`debug`: overflow panics; `release`: wraps). Theorems quantify over both.
* `usize` arithmetic is unbounded. C63 shows that the only `usize` sums depending on data stay far below 2^32;
  the other `usize` values are lengths of existing slices and vectors.
* `Vec<u8>`/slices are lists. Values of module slices are arbitrary `Nat`s in the generators (Rust: `u8`; so the theorems are
  slightly more general).
* Loops are structural recursions or folds; `&mut` accumulators are returned. Constant tables are copied.
* The `f64` quotient `a / 255.0` printed with two decimals (SVG opacity) is modelled exactly: the quotient is rounded to the
  nearest 53-bit mantissa, ties to even, and the printed value is its exact decimal expansion rounded half to even.
  Trusted: that Rust's division and `{:.2}` formatting do this (IEEE 754, `core::fmt`).
* A run out of memory is not modelled, except for the capacity check of `ImageBuffer::new`.

### What is modelled

All functions of `src/sym.rs`, `src/sym/*.rs`, `src/generators/*.rs`, and `src/error.rs`: constructors, checksums, `encode`,
all four generators, builder methods, public enum variants built directly (`TF::Standard`, `TF::Interleaved`,
`EANSUPP::EAN2/EAN5`), `Error`'s `Display` text, the `{:?}` text of barcodes, errors and generators (of name spaces: printable
ASCII, line feed, carriage return, tab and NUL).

### What is not modelled

* The `image` crate (a dependency, not in `/repo`). `ImageBuffer::new`, `put_pixel`, `rotate90/180/270` follow their
  documentation; `write_to` (GIF, PNG, WebP codecs) is an arbitrary function that may fail. C44's theorem about image files
  assumes a decoder inverting that function.
* `impl std::error::Error`, derived `Clone`/`PartialEq`, `{:#?}` (the `{:?}` text is modelled, see C127 and C129), the Cargo features (`std`, `no_std` and the generator
  switches only select which code is compiled), doc comments and tests.
* The constant `PARITY` of `src/sym/upca.rs`, which the code never uses.
* `Bookland`/`JAN`: type aliases of `EAN13`; they are the same type, there is nothing to model. (No prefix is checked.)
* 16-bit targets. (`image` generators take the word size of the target as an argument, 64 bits unless said otherwise; only the largest allocation depends on it. C78 is about 32-bit targets.)

## Method

A symbol is described by its element widths. For each symbology `Lemmas` prove `encode x = ok (paint ws)` for an explicit list of
widths `ws`, and `elements (paint ws) = some ws`, so that scanners can be evaluated on `ws` by induction over the data. Finite
facts about tables are checked with `decide`; everything about strings is by induction.

Constructors are described completely (*decision theorems*): the result as a function of the string, for all strings (below 4 GiB
where `as u32` truncates; the truncation itself is C45).

## Properties

| Property | What is modelled and how it is proved |
|---|---|
| C01 C06 C08 C11 C13 C16 C19 C22 | decision theorems for the constructors |
| C02 C07 C09 C12 | scanners on element widths with the standard's width tables; `encode` paints these widths |
| C03 C10 | equality of symbols from the decision theorems |
| C04 C05 C64 | GS1 weighted sum modulo 10, arithmetic by `omega` |
| C14 C17 C20 C24 C25 | scanners by groups of elements; induction over the data |
| C15 C18 C21 C56 C65 | weighted sums modulo the primes 43, 47, 11; two equations in two unknowns for C65 |
| C23 (partial), C54 | as C14; '+' is drawn wrongly and B/C are exchanged, so the claim is restricted; C54 is the exact behaviour |
| C26 (partial), C51 | the added digit under the no-overflow guard; C51 is the exact behaviour for both builds |
| C27 | inductive grammar of well-formed data, equivalence with the tokenizer by induction over its state |
| C28 (partial), C53 | decoder with code-set state; exact up to digit pairs split by FNC1, which C53 characterises |
| C29 (partial), C52 | `i32` weighted sum bounded by its length; threshold 6489 exact |
| C30 C31 (partial) | from decision theorems; exact panic conditions for ITF and Code 128 |
| C32 C48 | shape of width lists |
| C33 C34 C47 C58 C59 | injectivity from the scanners; reversal, distance, prefixes, suffixes from the width lists |
| C35–C39 C60 C61 | readers of ASCII art, JSON and SVG in `Spec`; round trips by induction over modules; a state machine for XML tags |
| C40–C43 | image model with a pixel function; loop invariant over three nested folds |
| C44 C46 | composition of generators, readers and scanners |
| C45 | decision theorems at the limits, and the 2^32 truncation |
| C49 | builder records |
| C50 C63 | bounds on weighted sums |
| C55 C57 | a transmitting Code 128 reader (message semantics of ISO/IEC 15417); position arithmetic modulo 103 |
| C66 C67 | element widths of all kinds; narrowest run of a row as the unit |
| C68 C69 C70 | composition of decision theorems, scanners and width lists |
| C71 | a relation between the two profiles, preserved by every step of the model |
| C72 C73 | consequences of the generator theorems and of the decision theorems |
| C74 | the add-on scanner split into reading characters and testing their sets |
| C77 | C76 and C67: a drawn row begins and ends in a bar (but for the last space of Standard 2 of 5), so the quiet zone can be cut off |
| C78 | the word size enters only in `Buffer.new`; case split on the two limits |
| C79 | the written text is in the strict form of C28, so C55 gives the message and C32 the length |
| C80 | a second reader with FNC4 states; symbols and notation are compared symbol by symbol (`decide` over states and values) |
| C81 | a table of pairs; every ASCII character is written as itself or as a pair (`decide` over 128), then C13/C14, C16/C17 |
| C82 | printed widths are `x·(u−1)+p` for bars and `x·(u−1)+q` for spaces with `p+q=2x`; `unspread` inverts this |
| C83 | inverting one module moves one edge by one module or adds or takes two elements (`one_off`); the lengths a scanner accepts exclude the latter, and the pattern tables have no two entries one moved edge apart, except where the check digit, number sets or guards settle it |
| C84 | in most kinds the number of elements determines the total width (`Rigid`); in Code 11 one changed element changes one character and the check characters notice; in the 2 of 5 codes the number of wide elements is determined; in Codabar one changed element makes a start or stop character of a datum or the reverse |
| C85 | the row lengths of C32 with the length limits of the constructors; then the success conditions of C35, C36, C37, C41, C43 |
| C86 | the constructor decision of C01, C06, C08; the weighted sum with two digits singled out is linear in them |
| C87 | the number of elements of a readable row modulo the size of a character group; a lost element takes two away |
| C88 | Inclusion of the specification alphabets, the acceptance theorems C13, C16, C19, C22, C24 and the scans C14, C17, C20, C23, C79; lengths from C32. |
| C89 | `Props/Layout.lean`: from C35 (text), C37/C38 (SVG) and the closed form of `place_pixels` behind C40/C41. |
| C90 | `Props/Scratch.lean` with `Spec/Scratch.lean` (`Scratched n ms ms'`) and `Lemmas/Scratch.lean`: a stretch shorter than a character touches one character or two neighbours; `fixed_cases` bounds how far they agree from the left and the right; the check equations exclude the rest. `C90_longer_scratches` gives the counterexamples one module later. |
| C91 | `Props/Beam.lean` with `Spec/Beam.lean` (`beam`, `paperLine`, `ReadsBoth`, `charAt`). The premise `Readable` is what C77 proves of every kind of symbol; `beam_cells` shows that the samples are the row with wider modules. |
| C92 | `Props/Pieces.lean` with `Spec/Pieces.lean` (`pieces`, `labelLine`). `printed_core`: every row is bars and spaces below the cutting width between two bars; induction over the symbols. `C92_gap_needed` is an EAN-8 that four modules cut in four. |
| C93 | `Props/CodabarFrame.lean` with `Spec/CodabarFrame.lean` (`codabarData`, `scanCodabarData`). `codabar_backwards`: a letter turned round is in neither chart; the rest is C77's and C82's machinery (`HasCore`). |
| C94 | `Props/Gs1Fields.lean` with `Spec/Gs1Fields.lean` (`gs1Lengths`, `gs1Fields`, `gs1Join`, `scanGs1`). `gs1_join`: fields are read back from the message; C28 and C55 give the message. `C94_odd_field` is the silent change. |
| C95 | The sum of the check values is linear in each character; C14 and C29 give the sum of the drawn symbol, `mul_cancel_103` (103 is prime) the exchange. |
| C96 | Sampling every xdim-th cell turns a damaged stretch of n*xdim cells into one of n modules (index arithmetic); C90 and C83 say that such a row is unreadable or unchanged; the whole line gives the data. |
| C97 | `Props/Resize.lean` with `Spec/Resize.lean` (`Overlap`, `Resized`, `centres`). `centre_module`: a pixel over the middle of a module and at most half a module wide overlaps no other module (inequalities between products); the pixels themselves by C40 and C38. |
| C98 | `Unsteady` (Spec/Speed.lean) relates the true widths to the measured ones, part by part: some scale x and error d with 8 d < x. Each part of each symbol has a fixed number of elements k and modules n and no element w with (2 w + 1) k > 6 n (tables by `decide`), so rounding p n / total gives w back (`round_part`, linear arithmetic after naming the products). Code 11 and Codabar, whose characters differ in length, are read by two widths (`inTwoWidths`, threshold halfway between the narrowest and the widest element of the character; every character has both widths). |
| C99 | Spec/Bookland.lean: ISBN and ISSN by their modulo 11 rule, `completeBook` finds the check character by trying the eleven candidates. Proof: C01 and C02, and that the weighted sum determines the check character (weight 1, values 0 to 10). |
| C100 | `UnevenInk` (Spec/LikeEdges.lean) relates true and measured widths part by part with a scale x, ink t with alternating sign, and an error d, 16 d < x. Neighbouring pairs are free of t (`inked_pairs`), so is the sum of an even part (`inked_sum`); `round_part` of C98 then gives the pair sums in modules, and the charts have no two characters with equal pair sums (`decide`). For EAN the pairs with equal sums differ by two modules in the first and third element (`digit_apart`). |
| C101 | `everyReading` (Spec/EveryReading.lean) tries ten scanners in two directions. `Look` lists what the first and last few elements of a row must be for each scanner to succeed; no two lists agree, forwards or reversed (omega). The Interleaved 2 of 5 scanner rejects elements wider than three modules, as the standard does; without that limit it could read some Code 93 rows. `C101_label` joins this with the cutting of C92; a line of white and odd cores is again such a line when turned round (`coreLine_reverse`). |
| C102 | Extends `C31` (when these values panic); with it, a 2 of 5 symbol that is drawn is always read back as the values given. The rows are the painted widths of the digits that meet a parity (`supp_encode_zip`); an add-on scanner returns the digits it sees or nothing (`scanAddOn_only`). |
| C103 | `negative` and `eitherPolarity` in Spec/Negative.lean. The inverted line is the elements of the row between two wide elements; of all scanners only Standard 2 of 5 starts with a wide bar, and the elements behind it do not fit (`not_look`, by omega from the `Look` of C101). With margins that are no multiple of the module the line cannot be measured at all. |
| C104 | `crossing` and `OnlyWhole` in Spec/Part.lean. The part is cut into elements; all but the first and last are those of the symbol, scaled (`Seen`, Lemmas/Part.lean). `C104_retail` by the number of elements; `C104_code93`: a bar of four modules occurs in the start and stop character only; `C104_code128`: sums of widths fix the offset of a start and a stop pattern; `C104_codabar`: pairs of characters; `C104_misread`: the counterexamples |
| C105 | `Spec/Code128Shortest.lean` computes, for every rest of the text and each code set in force, the shortest list of symbols; `C105_shortest` shows by induction over any transmitted list of symbols that none is shorter, and that the computed one is accepted, drawn and received. A group separator is FNC1 except at the very beginning, where `plans_least_first` shows that set A is best. `C105_gs1` is the same for symbols with FNC1 in front. `C105_bounds` gives the rules of thumb. The length bound keeps the checksum of the longest notation inside `i32`. |
| C106 | `DifferIn` (`Spec/Shape.lean`) counts the modules in which two rows differ. Characters of one width at distance at least two (Code 93: one), and check characters that notice one (Code 93: two) wrong characters, add up (`dist_changes`); by C75 whatever is read was drawn from the number read. The examples and `C106_code128_long` show that the bounds are attained. |
| C107 | Spec/Translucent.lean lays layers over each other with exact fractions (`Rat`); `paintedAt` folds over all rectangles of the document that cover a place. |
| C108 | Spec/Noise.lean has the distance of colours and the vote; the theorem is about the model of `generate_buffer` with arbitrary changed pixels. |
| C109 | Spec/Blur.lean has the sum of colours and the paper around the picture; a weight is a multiplicity in the list of samples. |
| C110 | Any `Color → Bool` (images) or `Seen → Bool` (SVG); combines C40, C103 and C107. |
| C111 | Equations between the outputs for a slice and for its two simplifications; the reading side uses the readers of C44. |
| C112 | Accepted inputs and readings of symbols with the readers of C02 to C28; existence by solving the congruence, uniqueness because the weight is invertible. |
| C113 | Constructors and encoders before and after the change of the text; equality of symbols through C33. |
| C114 | Equality of outputs against equality of settings. Text through C67, JSON through the parser of C36, SVG through the reader of C37 once the xmlns is split off: the rest of the document contains the letter B only once. |
| C115 | Counting the characters of the model's output, with the number of decimal digits bounded through the toolchain's lemma. |
| C116 | `DigitSymbols` lists what the seven constructors and encoders give for one number. The widths come from C32 and C79, the comparison from arithmetic. |
| C117 | Spec/Tables.lean has the look-up reader and the modules of given widths; the tables are compared with the widths of Spec/Ean.lean, the rows with the public constants. |
| C118 | `Spec/Skipped.lean` (`withoutStretch`, `stretchTwice`), `Props/Skipped.lean`. The cell structure of the drawn rows shows that cutting a cell gives the row of the shorter text; the weighted sums then change by the value times its place plus the plain sum of the values that move up. For Code 11, whose characters differ in width, the theorem is about any row that reads as the changed characters. |
| C119 | Spec/Ink counts dark modules and compares rows module by module. The ink of a symbol is the sum over its characters, so symbols of one length have the same ink, and a row that only gained ink and has as much as before is the same row. |
| C120 | Spec/Splice joins rows of modules at given offsets. Both prefixes end at the same colour, so the joined row is the painting of the joined element widths; the scanners then decide by the check characters alone. |
| C121 | Spec/Expected defines OnlyItsText with the hand scanner of Spec/HandScan on a part of the row. The number of characters settles the number of elements, so the part shows every element, and only the outer bars may be cut; the start pattern settles the unit and the width of the outer bars, and read from the other end it does not fit. For the add-ons, which have no closing guard, the digits' seven modules settle the last bar, and read backwards only 90 and 99990 would fit, which no choice of number sets confirms. |
| C122 | `Spec/Correct` has the received row (`none` for an illegible module), `Fits` and `Covered`. Two symbols that fit a row differ in at most 2e + f modules (`dist_le_of_row`), so C106, C90 and C47 apply; `row_between` builds the row for the converse (`C122_sharp`). |
| C123 | `Spec/SameError` says what the same error is. All checks are linear in the digits or character values, so the weighted sums of the four readings agree (`cyclicSum_same`, `positionSum_same`); C14, C17, C20 and C28 say that the drawn symbols verify. |
| C124 | `Spec/Serial` has numerals and the number digits denote. Every digit string is a numeral (`numeral_of_digits`); the decision theorems and scans of C01–C12, C24, C51 do the rest. The check digit of the successor by induction over the trailing nines (`altSum_next`). |
| C125 | `Spec/Untidy` has the untidy characters and the code set in force (`lastSet`). Decision theorems for every string; for Code 128 the run of the tokenizer on `s ++ t` is the run on `s` and then on `t` in the last code set (`run128_append`). |
| C126 | Spec/Discrete.lean states the gap-blind readers and `SameButGaps`; the strict readers of C14, C20, C23 give the groups, and a group with another gap is read alike. Code 93 by the cells of the painted widths; densities from the lengths of C32. |
| C127 | Model/Debug.lean models the derived `Debug` of the barcode types and of `Error` (`{:?}` only); Spec/DebugText.lean reads numbers, quoted characters and words out of such a text. The readers invert the writers, which gives injectivity. `Spec.code128Sets` says which code set a reader is in at each value; the library's loop keeps the same state (`parse_sets`). |
| C128 | `Spec.darkModules` counts, `Spec.OddlyWrong` is `DifferIn` an odd number. A row that is read is the row of a number or text (C75, C106 lemmas), all characters of the alphabet have a number of dark modules of one parity (decided over the table), so rows of one length differ in an even number of modules. The digits of EAN/UPC through `cellsFrom` and `lookUp` of C117. |
| C129 | `Model/DebugGenerators` writes what `derive(Debug)` writes, field by field; the reader is `numbersIn`/`wordsIn` of C127 and `Spec.stringIn` for quoted strings. Text cut into digit-free pieces and numbers (`numbersIn_pieces`). |
| C130 | dark modules counted in cells; a row made of balanced cells is balanced |
| C131 | `Spec.Slipped` compares lengths, `Spec.OneMissing` removes one module. Where every character has the same width, a row that is read has a length with a fixed remainder (`Measured`). Otherwise one module more makes one run longer (C84), or adds two runs, or one at the end (`missing_elements`), and the number of runs is fixed modulo the size of a character (`Counted` of C87). |
| C132 | `Spec.Exactly n P`: a list without repetition of length `n` has exactly the members with `P` (`exactly_unique`: no two counts). There are size(A)^n lists of length n over A (`exactly_lists`); a relation that is single-valued both ways keeps the count (`exactly_choice`). The readers of C14, C17, C19 and C29 turn rows into texts and back. |
| C133 | `Spec.AgreeOff` keeps everything but some places. `exactly_separable`: if code words that agree off `r` places are equal, and there are size(A)^(L-r) of them (C132), any contents of the other places belong to exactly one code word (pigeonhole, `exactly_onto`), so the words that agree with a given sequence off `k` places number size(A)^(k-r). That no two agree off one or two places is C112, C15, C21. |
| C134 | `twoChecks_two`: the two check equations in the two differences. Both are zero unless the determinant of the four weights vanishes modulo 47 or 11 (`independent_zero`). The weights repeat with period 60 or 90 (`independent_all`), so one period decides, by evaluation in the kernel. |
| C135 | From `code93_two_wrong` and `code11_two_wrong` (C134) with opposite differences: both differences of weights must vanish modulo 47 or 11, which are prime (`cancel47`, `cancel11`). With one check character there is one equation (`oneCheck_sum`), where the check character has weight -1, which is 10 modulo 11, the weight of the tenth character from the right. |
| C136 | `OneWrong` (Spec/Correction): different, and equal off one place. From C133 with one place the correction in each place is unique, and corrections in different places differ, as the reading itself does not pass (`exactly_one_wrong`). Code 93 from C112: two symbols within one character of a reading agree off two places. Sharpness from C65. |
| C137 | `placeWeights` and `CanHide` (Spec/TwoWrong) state the weights without the check-character code. The `which` theorems come from the linear form of the two checks (`twoChecks_two`, C134). For the counts: weights not proportional make the two equations independent; if they are proportional the second follows from the first, and the first can be solved for the right character, as its weight has an inverse (`count_wrong_pairs`). |
| C75 C76 | injectivity of the scanners (`Lemmas/ScanInj`), with the round trips; guards at both ends |
| C62 | equality of symbols with the check character written by hand |

Partial properties are false of the code as stated. For each there is a theorem with the suffix `_partial` for the part that
holds, a theorem with a concrete witness for the negation, and a later property with the exact behaviour (C51–C54). `MANIFEST.json`
has a note per property.

## What the proofs found in the code

Each item is a theorem (name in brackets).

* `TF::interleaved` with an odd number of digits uses `u8` sums: from 15 digits on it can panic (debug) or add a wrong digit
  (release) [C26, C30, C51].
* `Code128::checksum_value` uses `i32`: data longer than 6489 characters can panic (debug) or get a wrong check symbol (release)
  [C29, C52].
* Code 128: an FNC1 between the two digits of a set-C pair is moved in front of the pair, so different strings share a symbol
  [C28, C53]; SHIFT is emitted but the next character is still looked up in the current set [C55].
* Codabar: '+' has the wrong bars, letters B and C are exchanged [C23, C54]. Without start/stop letters symbols may be mirror
  images or parts of each other, or equal to Code 11 symbols [C34, C58, C59].
* Strings of 2^32 + n bytes pass the length checks of length n [C45].
* SVG: the name space is not escaped [C61]; widths from 2^32 on wrap in release builds, and 2^32 modules are cut silently [C60].
* EAN-2 `23` and `93` differ in one module [C47], and a misread EAN-2 digit is often not noticed [C74]; EAN-2 `20` is the beginning of EAN-5 `20000` [C59]; ITF `12` is the end of ITF
  `3312` [C59].
* `Image::image_buffer(..).generate(..)` always fails, and overflowing sizes panic in both builds [C42, C43].
* The generators disagree on module values above 1: ASCII panics [C35], JSON and images show a bar [C36, C40], SVG shows a
  space [C37]. `encode` never produces such values [C32].

* Both 2 of 5 symbologies draw wide elements of data with 3 modules but those of start and stop with 2 [C66]. The scanners of C24
  and C25 accept either.

Read from the code, not a theorem: the SVG example in the README lacks the `xmlns` field.

## Testing the theorems against wrong programs

Mutants are edits of one definition in `Model`, in a scratch copy. For each, every module is elaborated with failing proofs turned
into errors, and the set of theorems whose proof (or a lemma used by it) no longer checks is recorded. Because a proof can also
break without its claim being false, a second run evaluates executable versions of the claims C01 to C89 on the mutant and records
which are falsified by a concrete input (field `falsified_by_evaluation`). Not every mutant has been evaluated; where the field is
missing, and for the claims from C90 on, which properties a mutant breaks was decided by reading the edit (field
`properties_broken_by_reading`). A theorem that still proves while its claim is false is too weak and gets tightened.
`seeded/LOG.jsonl` has a line per mutant. In the last rounds only the files that state the properties a mutant breaks, and what they
import, were elaborated; those lines have a field `rebuilt`.
