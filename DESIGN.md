# A Lean 4 model of rawloader

## What this is

`lean/Verif` contains a model of the rawloader crate (source in `/repo`, pinned commit) written function by function in Lean 4,
and theorems about it. `properties.jsonl` lists the properties, `MANIFEST.json` maps each property to theorems.

## Layout

| path | content |
| --- | --- |
| `Verif/Rust.lean` | semantics of the Rust subset used: panics, checked/wrapping arithmetic, slices, loops |
| `Verif/Model/*.lean` | the model, one file per source file; every definition cites the file and lines it models |
| `Verif/Spec/*.lean` | small specifications, written without using the model |
| `Verif/Lemmas/*.lean` | helper lemmas |
| `Verif/Props/*.lean` | property theorems and, next to each, a concrete instance |

## Modelling conventions

* A Rust computation is a value of `M α = Except Stop α`; `Stop.panic` is a panic (index out of range, slice out of range,
  overflow in a checked build, `unwrap` of `None`), `Stop.err s` is a returned `Err(s)`, `Stop.fuel` means that a loop with
  an explicit step budget is still running (only for loops whose termination is itself a property).
* Unsigned integers are `Nat`, signed ones `Int`; wrap-around is explicit (`% 2^n`). Bytes in buffers are `UInt8`.
* `Build.debug` / `Build.release`: the crate's dev profile checks overflow (panic), the release profile wraps. Functions whose
  behaviour differs take the build as a parameter and theorems quantify over it. Where an operation provably cannot
  overflow, the theorem says so or the definition's comment says why.
* `usize` is 64 bit. Additions and products of `usize` values are not bounded in the model (an overflow would need
  2^64-sized operands); subtractions are checked. Memory is unbounded (`vec![0; n]` always succeeds).
* `Vec`/slices are `List`. `HashMap` is an association list.
* Parallel iterators are modelled as a set of row tasks; a schedule is any interleaving of their steps.
* `f32` is `Rust.F32` (`Verif/F32.lean`): NaN, signed infinities, signed zeros and exact rational finite values; each operation is
  the exact rational operation followed by round-to-nearest-even to binary32, with gradual underflow and overflow to infinity.
  `Lemmas/F32.lean` proves that the rounding is to a nearest representable number, is monotone and is exact on representable
  numbers. NaN payloads are not modelled. The `libm` functions (`cbrt`, `powf`) are parameters.
* Matrix code is written once over an `Arith` record; instantiated with `F32` it is the code, with a field it is the
  subject of the exact theorems (which are then marked partial with respect to rounding).

## Plan per property

* **C01** decode never unwinds into the caller: model decode_safe over the M monad with catch_unwind; prove result is never panic and Ok iff inner Ok.
* **C02** Format sniffing is safe on files of any length: model Buffer::new and the five probes over byte lists; prove no panic for any list by case analysis on the padded length.
* **C03** Format dispatch is decided by the documented priority: model get_decoder as in the code over a parsed TIFF tree; specify as a priority table; prove equality and DNG priority.
* **C04** Unrecognisable and empty files are rejected with an error: from the dispatch model, all probes false; empty file evaluated with symbolic database.
* **C05** Headerless files are recognised exactly by size: model RawLoader::new folding over cameras; prove lookup = last matching entry.
* **C06** Uncompressed multi-byte reads follow the byte order: model readers on byte lists; prove equal to positional value (Horner) and reversal law.
* **C07** Clamping to a bit depth saturates: model on Int with arithmetic shifts; saturation is FALSE above the range (arithmetic shift yields -1): prove negation plus the part that holds (range, negative side, and 16-bit after `as u16`).
* **C08** 12-bit big-endian packed rasters are unpacked exactly: model chunk zipping; specification is a bit-stream field reader; prove for all sizes by induction over chunks.
* **C09** 12-bit little-endian packed rasters are unpacked exactly: same as C08 with LSB-first field reader.
* **C10** 10-bit packed rasters are unpacked exactly: same; plain 10-bit decoder is FALSE for every third sample of four: negation plus partial.
* **C11** Unpacked 12/14/16-bit rasters are read exactly: same with 16-bit words.
* **C12** 12-bit rasters with control bytes skip exactly the control bytes: same with fifteen-byte groups; control byte independence as a corollary.
* **C13** Interlaced 12-bit rasters put each stored field line on its image line: same with row permutation.
* **C14** Decoded rasters have exactly width*height samples and fit their bit depth: length lemma and bit bounds for every decoder without any hypothesis on the buffer; zero fill.
* **C15** Parallel row decoding is schedule independent: small-step interleaving semantics of row tasks; confluence proved by induction on schedules.
* **C16** MSB-first bit reader returns consecutive bit fields: invariant relating (pos,bits,nbits) to a cursor in the abstract bit stream; induction over the read sequence.
* **C17** LSB-first bit reader returns consecutive bit fields: same.
* **C18** JPEG bit reader removes stuffing and zero-fills at a marker: same with unstuffed stream.
* **C19** Sign extension of an n-bit field is two's complement: arithmetic on Int.
* **C20** Huffman tables decode the canonical code: specification: canonical code assignment as in T.81 Annex C; prove table decode = spec decode.
* **C21** Fast Huffman lookup agrees with bit-by-bit decoding: prove huff_decode = huff_len;huff_diff on abstract streams; state precisely the exception (category 16).
* **C22** Malformed Huffman tables never corrupt memory or hang: total model; the `ul > 256` off-by-one gives a panic: negation/witness, and no out-of-range after success.
* **C23** Lossless JPEG strips decode to the encoded image: encoder in the specification, decode model; induction over the sample sequence.
* **C24** Lossless JPEG headers are validated before decoding: total model of the marker loop with a decreasing measure.
* **C25** TIFF parsing terminates on cyclic and hostile directory graphs: total functions with explicit depth fuel mirroring the code's depth check; bounds on tree depth and widths.
* **C26** TIFF tag lookup returns the first match in document order: model find_*; specification by preorder listing of the tree.
* **C27** TIFF values are the stored bytes: model TiffEntry::new/get_*; prove data length and component offsets.
* **C28** CIFF parsing terminates and lookup is depth-first: as C25/C26.
* **C29** MRW block walk terminates: step-budget model; prove termination in the checked build; in the wrapping build FALSE: a file on which every budget is exhausted.
* **C30** Camera lookup finds the database entry for make, model and mode: fold over database; specification = last match in expansion list.
* **C31** CFA pattern is periodic and matches its name: model the 48x48 expansion including in-place update; prove color_at formula.
* **C32** Shifting a CFA moves the pattern origin: from C31-style formula on shift.
* **C33** Cropping keeps colours aligned with pixels: composition of crop map and shift.
* **C34** CFA names are validated: case analysis.
* **C35** Orientation transforms move each pixel where EXIF says: model flips/transposes on abstract pixels; specification as coordinate map.
* **C36** Orientation transforms form the dihedral group: algebra of the coordinate maps.
* **C37** The float pipeline starts from the cropped sensor area: abstract pixels; RGB branch is FALSE (offset not multiplied by 3): negation plus partial.
* **C38** Demosaic keeps the measured colour of each pixel: exact F32 model; measured channel exact, missing channels the rounded mean of the samples in the 3x3 window.
* **C39** Requested output size is respected: rounding model with relative error bound.
* **C40** Gamma conversion never indexes out of the table: model of f32 with NaN/inf and rounding.
* **C41** The tone curve passes through its knots and is clamped at the end: ordered field.
* **C42** Colour matrix inversion is an inverse: field; positive definiteness for pivots.
* **C43** Sony decryption is a stream cipher: model on byte lists; keystream lemma.
* **C44** Dithered curve lookup stays near the curve and never overflows: Nat arithmetic bounds.
* **C45** Fuji diagonal rotation keeps every pixel: injectivity and range by omega; odd sizes panic: witness.
* **C46** Leaf/MOS line de-interleaving is a permutation of rows: bijection on rows.
* **C47** Canon vertical slices are reassembled without loss: bijection on indices.
* **C48** Sony ARW1 decoding writes every pixel: coverage for even height, FALSE for odd: negation plus partial.
* **C49** DNG tiles cover the image exactly: arithmetic of tile indices.
* **C50** Decoded images are consistent with their dimensions: per-decoder length theorems composed.

* **C51** White-balanced white: exact field; follows from the left inverse property and the row normalisation.
* **C52** Monotone tone curve: exact ordered field; Hermite form, tangents in the monotonicity region, convex combination of four monotone cubics. For the knots the pipeline uses, the f32 evaluation is bounded too: every operation is within a relative rounding of the exact one, so the computed curve is within 2^-18 of rising; two neighbouring floats show that it is not exactly rising.
* **C53** Output range: the gamma table is indexed within bounds for every float, so range and order follow from those of `powf` on the table.
* **C54** JPEG marker search: specification by a predicate "a marker starts here"; induction over the remaining bytes.
* **C55** Position of the 32-bit reader: invariant of C16 extended with the loaded bytes.
* **C56** Canon's subsampled JPEGs: encoder in the specification; invariant "the blocks so far are in the buffer" over the block loops.
* **C57** Leaf's strips: encoder in the specification; the strip offsets found by the marker search are the ones the encoder used.
* **C58** Hasselblad's pairs: encoder in the specification over the word-swapped stream.
* **C59** Requests that do not fit: case analysis over the header.
* **C60** Pentax's pairs: the stored table is sorted back into a canonical code (selection by smallest code); invariant over pairs and rows.
* **C61** Nikon's pairs: as C60, with the table of each row, the curve of the maker note and the generator state as part of the invariant. Negation: a split row starting with symbol 57.
* **C62** The LSB-first reader as a stream (C16), a loop invariant over the sixteen samples of a group that counts the distances read so far, groups and blocks by foldChunks_ok, lines by decodeThreaded_eq. The encoder writes a group as one 128-bit number; its fields are recovered by arithmetic on digits.
* **C63** Spec/TiffDir.lean defines a tree of directories and what it means that bytes store it, with no reference to the model. Induction on the number of levels, a loop invariant over the fields of a directory saying that what has been collected holds the fields seen so far; the lookup theorems carry C26 over to the stored tree.
* **C64** As C63, with the layout in Spec/Ciff.lean; the sixteen zero bytes the library appends to the file do not matter.
* **C65** The group layout is specified by its fields (Spec/Rw2.lean), packed into a 128-bit number. Proved: the field widths always add up to 128, the reader gives 8 or fewer bits at any bit of a group, hence each sample in turn; strips of five rows and the skipping of earlier blocks. Every 128-bit number is a group, so nothing else can stop the decoder.
* **C66** An encoder with explicit prefixes and JPEG style differences (Spec/Srw.lean). The 1024 table entries are described as intervals and matched with the prefixes; then an invariant over the pixels: what has been written, both predictors, and the bits still to be read.
* **C67** An encoder with its own memory of magnitude, mean and run (Spec/Orf.lean). Proved: the loop for the number of low bits ends at the number of digits, the table finds the unary prefix, bounds on mean and magnitude for all images in range, then an invariant over pixels and rows.
* **C68** Spec/WholeFile.lean says what the directories of a file state about camera and picture; tiff_open_and_look (C63) carries this over to the parsed tree, the sixteen bytes of padding keep the layout, and the round trips of C08, C60, C65 and C67 give the samples. Spec/CrwFile.lean does the same for CIFF files (C64, C70), with the seven places the white balance may come from. `BlacksOf` gives the black levels, also for cameras with masked areas (C69).
* **C69** The loops list the masked pixels of each colour in order (Spec/Black.lean). Sums of integers below 2^24 are exact, and the quotient of such a sum cannot be rounded up to the next integer (nearest representable neighbour). For all sums an induction over the additions carries the relative error. The witness is evaluated from the last exact sum on.
* **C70** The encoder (Spec/Crw.lean) writes blocks of 64 coefficients with run/size symbols. Each expanded 2^max-entry table is shown to map every continuation of a code to its symbol, for arbitrary sources that list canonical codes; the three shipped sources are checked by evaluation. The byte stuffing is undone by the JPEG reader (C18), the blocks are then read by induction, carrying the accumulated difference and the two line predictors.
* **C71** The encoder (Spec/Srw1.lean) takes the choices of direction and bit numbers as a parameter. The picture under construction is kept as a raster of a function, so that even and odd samples can be filled in separately; the reader is kept before the bits that are still to come. Groups, lines and the final exchange are inductions over the loops.
* **C72** The encoder (Spec/Srw3.lean) takes the choices of all blocks as a parameter; legality says that references are known samples and that prediction, scale and difference lead to the sample. The picture under construction is a raster of a function: done lines, predictions of a block, then the samples in the order of the differences. The reader stands before the bits to come; its position after a line gives the start of the next one.
* **C73** The encoder (Spec/Iiq.lean) takes the choices as a parameter. The line is an induction over its columns with the last samples and the numbers of bits of both parities, the reader standing before the bits to come; rows are independent (decode_threaded). The table is an induction over its entries: each of the six variables holds the value of the last entry with its tag. The opening of the file is that of C68.
* **C74** The encoder (Spec/Dcr.lean) writes the differences of a segment into one number, from the lowest bits up, and the number into words. The invariant of the loop over a segment: bit buffer plus 2^bits times the number still in the stream is the number of the differences to come, and the words still in the stream are an even number that just covers them. That gives the place of the next segment; rows and segments follow by induction. The opening of the file is that of C68.
* **C75** The loops of two sources run side by side (Lemmas/Average.lean): the weights are the same, and for each colour 0 <= sum <= sum' <= weight * 2^k holds after every sample because rounding is monotone and commutes with powers of two; the weight cannot pass 2^24, where adding 1 has no effect. The ends of a cell are within half a pixel of the exact ones (Lemmas/Skips.lean), weights lie from 2^-48 to 1. The factor meant for the last row and column of a cell is never used.
* **C76** Spec/SonyFile.lean describes where the white balance is stored (private area, key, encrypted directory); Props/ArwFile.lean proves that `getWb` finds it (C43 for the key stream, a version of C63 for directories in a part of a file) and composes it with C12, C09, C48 and C62 for the pixels.
* **C77** Spec/NikonFile.lean describes the versions of the white balance and the cipher, with the key stream in closed form; Props/NefFile.lean proves that `serial`, `decryptStep` and `getWb` follow it and composes them with C08, C09, C12, C13 and C61 for the pixels, and with C63 for the directories.
* **C78** Spec/DngFile.lean describes which directory holds the picture and the fields about it; Props/DngFile.lean proves that the filtered list of directories begins with it, reads every field in the types it can have, and composes this with C08, C10, C11, C23, C31, C44 and C49 for the samples and with C63 for the directories.
* **C79** Spec/WideDir.lean describes the directory of the wide picture; Lemmas/Listed.lean proves that the filtered list of directories begins with it, Lemmas/Reals.lean reads fields with fractions, and Props/SmallFile.lean composes these with the sample formats and C63.
* **C80** Spec/MrwFile.lean describes the blocks; Props/OtherFile.lean proves by induction over them that the loop of mrw.rs keeps what the last block of each kind says, reads the directory with C63, and composes this, the headers of the other formats and the choice by size (C05) with the sample formats.
* **C81** Spec/Cr2File.lean states where the picture is, which sample of the JPEG each sample of the picture is, and the colours of a small pixel. Props/Cr2File.lean composes C63, C23 or C56, C47 and for curves C44, and turns the arithmetic of convert_to_rgb into the stated colours, with no overflow.
* **C82** Spec/FujiFile.lean states the layout of the file and the packings. Lemmas/FujiOpen.lean proves that new_file reads the three parts; Lemmas/Positions.lean carries the position each directory counts from through the proof of C63. Props/RafFile.lean composes these with C08 to C14 and C45.
* **C83** Spec/SamsungFile.lean states where the levels are and the seven ways to store the samples. Props/SrwFile.lean composes the read directories with their positions (C82), C08 to C14, C66, C71 and C72.
* **C84** Spec/LeafFile.lean states the XMP text, the section of neutral values and the ways to store the samples. Lemmas/Utf8.lean proves that encoded characters are accepted by the model of from_utf8. Props/MosFile.lean composes C02, C46, C57, C63 and the packed words.
* **C85** Model/Shipped.lean has the texts of the files and Model/TomlText.lean reads them. Every file is checked by a computation in the kernel (Lemmas/ShippedFiles*.lean, generated), whose meaning is proved in Lemmas/ShippedCheck.lean; Props/Shipped.lean composes it with C30. That the names are distinct is checked with different remainders modulo a number.
* **C86** Part of the check of C85, composed with the dispatch of C03 for the Coolpix. The matrices satisfy the hypothesis of C42 and C51.
* **C87** Part of the check of C85, composed with C05, C31, C69 and C80.
* **C88** Lemmas/Fx.lean repeats the matrix code with integers (a finite binary32 number is a multiple of 2^-149) in a form the kernel computes fast; Lemmas/FxOps.lean and Lemmas/FxMatrix.lean prove that it gives exactly the numbers of the model. Lemmas/FxCheck.lean compares the result with the exact colour; the comparison of the three unit colours settles all colours by linearity. Lemmas/ShippedMatrices*.lean (generated) run this for the 315 different matrices, and Lemmas/ShippedFiles*.lean check that every camera has one of them.
* **C89** Lemmas/Between.lean follows single precision numbers in intervals with representable ends, which survive rounding; Props/WhitePixel.lean takes white from XYZ through Lab, the tone curve (C52), back, the sRGB matrix, the gamma table and the byte in such intervals, for every `cbrt` and `powf` with the stated accuracy. Lemmas/Level.lean bounds the error of the matrix product and shows that samples at the white level become exactly 1; Props/WhiteCast.lean puts the stages together for whole pictures with the demosaicing of C38 and the matrices of C88. The colour is 255, 248, 243: the program divides XYZ by the D65 white (`image.rs:128` and `171`) and never multiplies by it again, so white is not neutral.
* **C90** Props/BlackPicture.lean: samples at the black level become zeros of either sign (levelled_black), a sum of products with a zero factor is a zero (dot4_zero), and from there the stages are constants that the kernel evaluates (black_lab, black_tone, black_rec709, black_gamma, black_byte). full_size_pixels gives the four channels, as for C89.
* **C91** Props/FlatField.lean: a mean of equal numbers below 65536 is exact, so the demosaiced picture has the same four values everywhere (flat_pixels, from full_size_pixels of C89); every later stage works pixel by pixel, and its result depends only on these values and on the four fields compared in SameColours.
* **C92** Props/PixelLocal.lean: the sets over which C38 takes means are moved to positions relative to the pixel (measuring_image), so the four channels are a function of the neighbourhood (local_pixels); the later stages work pixel by pixel and finalRotate_place says where each pixel goes.
* **C93** Model/Program.lean follows main of bin/rawloader.rs; Spec/Ppm.lean is a reader of portable pixmaps; Props/Program.lean proves that what is written reads back (decimal_reads by induction over the digits) and an invariant for the loop over the samples.
* **C94** Props/CutOut.lean: convert gives the same buffer (C37), shift the same array of colours (C31, C32), and nothing after these looks at sizes, crops or the name of the pattern; turnName is the pattern that begins at the corner of the crop.
* **C95** Props/RotateLast.lean: the decoder of the turned picture is shown to be the decoder of the upright picture with exchanged limits followed by the final rotation (decoder_rotates); the placement law of the rotation (specification exifPlace of C35) then moves every pixel.
* **C96** Props/MonoCurve.lean: the converted buffer has the sample in three channels and zero in the fourth (gofloat_mono of C37), the demosaicing passes it on, and the remaining stages act on each pixel alone; the curve is chosen before the picture, so it cannot depend on anything else.
* **C97** Props/FitsAlready.lean: the rounded quotient of a side and a limit exceeds 1 only if the side exceeds the limit (targetSize_spec of C39); below that the code neither takes the scaling demosaic nor scales afterwards.
* **C98** Props/BalanceRatio.lean: the coefficients are used only divided by the second one; the quotient of two exact products is the rounding of the same rational number, and which coefficients count as ordinary does not change.
* **C99** Props/BitDepth.lean: a demosaiced value is a sample or the rounded mean of at most nine, so it is at least 1/9 or zero and its rounding commutes with the power of two; so does the difference from the black level, being exact when it is tiny; the quotient by the range does not see the factor.
* **C100** Props/MonoClip.lean: the factors of the balance are all 1 for a monochrome picture (mono_mul), so a sample at or above the white level becomes exactly 1 (levelled_white of C89) whatever it was; everything later is the same function of equal buffers.
* **C101** Props/FourthChannel.lean: the inverted matrix has a zero column for a channel without a row (C88), a number times zero is a zero of some sign (C90), adding it changes at most the sign of a zero, and xyz_to_lab does not tell zeros apart.
* **C102** Props/OnePicture.lean: the rotation at the end takes each value from a place that does not depend on the values (finalRotate_source), so it commutes with a map over the values; gamma is such a map (C40), and so is the conversion to bytes.

## Trusted base

* Lean 4.33.0's kernel. The theorems depend on no axioms beyond `propext`, `Classical.choice` and `Quot.sound`; `Verif/Axioms.lean`
  prints the axioms of every theorem in `MANIFEST.json`. There is no `sorry`, no axiom of our own, no `native_decide`, no
  `bv_decide`. `decide +kernel` is used for concrete instances and for facts about fixed tables (it is checked by the kernel).
* The specifications in `Verif/Spec`: encoders and layouts written down from the format, not from the decoder.
* The correspondence between the Rust source and the model. The source cannot be run here, so it is by reading; each definition
  cites the lines it stands for, and says where it is simpler than the code.

### Modelled

| source | model | remarks |
| --- | --- | --- |
| `lib.rs` (`decode`), `decoders/mod.rs` | `Model/Loader.lean`, `Model/Camera.lean` | `decode_safe` with `catch_unwind`, dispatch, camera database, hints, orientation |
| `decoders/image.rs` | `Model/Camera.lean`, `Model/Matrix.lean`, `Model/Process.lean` | construction with measured black levels, colour matrices, conversion entry points |
| `decoders/basics.rs`, `packed.rs`, `pumps.rs` | `Model/Basics.lean`, `Packed.lean`, `Pumps.lean` | all functions |
| `decoders/ljpeg/*` | `Model/Huffman.lean`, `Model/Ljpeg.lean` | all functions |
| `decoders/tiff.rs`, `ciff.rs`, `cfa.rs` | `Model/Tiff.lean`, `Ciff.lean`, `Cfa.lean` | all functions |
| every decoder in `decoders/` | `Model/Dec/*.lean` | `image` and all that it calls; the small ones share `Simple.lean` |
| `imageops/*` | `Model/Process.lean`, `Pipeline.lean`, `Curves.lean`, `OpBuffer.lean`, `Matrix.lean` | the whole pipeline, in exact binary32 |
| `data/cameras/*/*.toml`, `data/cameras/join.rs` | `Model/Shipped.lean`, `Model/TomlText.lean`, `Spec/Shipped.lean` | the files verbatim, a reader for them, and joining them in any order |
| `bin/rawloader.rs` | `Model/Program.lean` | `main` on its arguments, the answers of the operating system and the decoder |
| `rayon` parallel rows | `Model/Parallel.lean` | interleavings of row tasks (C15); everywhere else rows run in order, which C15 justifies |

### Not modelled

* `bin/benchmark.rs`, printing and timing (`println!`, `do_timing`), `Debug` implementations. Of what `bin/rawloader.rs` prints only the four numbers it computes are modelled, and errors while writing are not.
* The TOML parser: the database is a list of tables with typed values, as `update_from_toml` sees it. The files in `data/cameras` are in the model (C85 to C87), read by a reader of our own for the part of TOML that they use (`Model/TomlText.lean`).
* Reading the file: `decode_safe` takes the bytes, or the error text of the operating system.
* Parsing decimal numbers into `f32` (Leaf's metadata): a parameter. `libm` (`cbrt`, `powf`): parameters.
* Stack overflow, exhausted memory, `abort`. Arithmetic on `usize` above 2^64, unless a comment says otherwise.
* The unspecified result of `f32 as i32` out of range in compilers before 1.45: modelled as saturating, which is what they do now.
* The compiler and the standard library. The crate denies `unsafe_code` (`lib.rs:75`), so there is no undefined behaviour of its own to model.

## What the code does that a user might not expect

Each of these is a theorem about the model, unless marked *read*, which means that it was noticed while modelling.

| where | what | theorem |
| --- | --- | --- |
| `basics.rs` `clampbits` | above the range the result is -1, not the maximum | `clampbits_not_saturating` |
| `packed.rs` `decode_10le` | every third sample of four has wrong low bits | `decode_10le_wrong` |
| `pumps.rs` JPEG reader | panics on segments below four bytes, or ending with a lone 0xff | `jpeg_reader_short`, `jpeg_reader_trailing` |
| `huffman.rs` | a table of 256 symbols panics or loses its last symbol; sparse tables panic while being built | `huffman_build_panics_*`, `huffman_last_symbol_refused` |
| `huffman.rs` | fast and slow decoding differ for category 16 with long codes | `huffman_fast_disagrees` |
| `ljpeg/mod.rs` | scans naming an undefined table are accepted; a short table segment underflows | `ljpeg_undefined_table_accepted`, `ljpeg_short_dht_panics` |
| `dng.rs` | 16-bit words of big endian files are read in the wrong order; files without a white level and lossy files are refused; a file without a full picture panics | `dng_big_endian_swapped`, `dng_white_required`, `dng_lossy_refused`, `dng_no_picture` |
| `dng.rs` | with two or three black levels, only the first is used; uncompressed strips after the first are taken to follow it | `dng_file` |
| `dng.rs` | without a colour matrix the matrix from sRGB to XYZ is stored where one from XYZ to the camera belongs, so greys are right and colours are not | *read* (`DngMatrix` in `dng_file` states the numbers) |
| `tiff.rs` | values of type UNDEFINED are read as words; the bare marker FUJIFILM panics | `tiff_undefined_misread`, `fuji_header_unchecked` |
| `tiff.rs` | `find_ifds_with_tag` lists the directories below the first level twice | *read* |
| `mrw.rs` | in release builds a block length of 0xfffffff8 loops forever | `mrw_release_hangs`, `decode_hangs` |
| `lib.rs` | the camera database is loaded outside of `catch_unwind` | `decode_entry` |
| `image.rs` | measured black levels are added up in `f32` and drift for large areas | `black_drifts` |
| `gofloat.rs` | cropped three-component images are read from the wrong place | `gofloat_rgb_wrong` |
| `curves.rs` | the base curve falls in the last place | `base_curve_dips` |
| `imageops` | a very thin strip panics when scaled | `to_rgb_thin_panics` |
| `demosaic.rs` | rows are spaced by the horizontal scale and columns by the vertical one, so the last rows or columns of a scaled picture may be black | `scale_last_column_black` |
| `demosaic.rs` | the weights meant for the last row and column of a cell are never used: the loops stop before them | *read* (C75 does not depend on them) |
| `cr2.rs` | two-line slices of unequal width lose columns; some files give fewer samples than the size says | `cr2_pairs_unequal`, `cr2_short` |
| `arw.rs` | ARW1 with odd heights leaves rows unwritten | `arw1_odd_height_loses_rows` |
| `arw.rs` | curves that are steep from the start underflow | `sony_curve_steep` |
| `dng.rs` | tiles that do not fit the JPEG components panic or lose samples | `dng_tiles_uneven`, `dng_tiles_four` |
| `nef.rs` | a serial number of 2^64 and more in the maker note panics in checked builds | `nikon_serial` |
| `nef.rs` | behind the split row of lossy files symbols are misread | `nef_split_panics`, `nef_split_wrong` |
| `rw2.rs` | one group in every block of a split file is torn | `pana_torn_group` |
| `pef.rs`, `orf.rs` | odd widths panic; Olympus samples above 46340 overflow | `pef_odd_width`, `orf_even`, `orf_overflow` |
| `crw.rs` | pictures whose pixel count is not a multiple of 64 are never decoded | `crw_sixty_four` |
| `srw.rs` | odd heights (first compression) and widths not divisible by 16 (third) are never decoded | `srw1_odd_height`, `srw3_width` |
| `srw.rs` | the scale of the third compression is reset in three of four blocks | Spec/Srw3.lean, `srw3_roundtrip` |
| `dcr.rs` | the dithering generator starts at 0 and stays there, so every sample comes out below its curve | `kodak_roundtrip` |
| `raf.rs` | rotated images with odd crops panic | `fuji_rotation_plain_partial`, `fuji_rotation_alt_partial` |
| `x3f.rs` | every image ends in an error | `x3f_refused` |
| `mrw.rs` | blocks that begin in the last 20 bytes before the picture are skipped; a last block of levels of exactly 12 bytes is one | `MrwLayout` in `mrw_file` |
| `ciff.rs` | value types 0x0800 and 0x3800 panic; a heap shorter than four bytes underflows | *read* |
| `mod.rs` | a mode of a camera replaces only the values it lists | *read* |
| `data/cameras` | ten names are listed by two files; for eight of them the settings differ, so that the order of the files decides | `shipped_order_matters` |
| `data/cameras`, `nrw.rs` | the levels of the Coolpix P330 and B700 are given for a mode that is never asked for: white level 0 | `coolpix_white_zero` |
| `bin/rawloader.rs` | the sum, mean, least and greatest sample it prints are taken over `width * height` samples, one third of the data of a picture with three samples per pixel | `statistics_right` |

## Testing the theorems

`seeded/LOG.jsonl` records edits of the model that resemble programming errors, one per line, with the theorems that failed. A
theorem counts as failed if its own proof, or that of a lemma it depends on, no longer checks. Where an edit made an English claim
false and nothing failed, the theorem was tightened, and the line says so.

Earlier versions of the log counted a theorem as failed also when its file merely imported a file that no longer checked. These
theorems are now listed separately, under `not_reached`, by comparing with the constants each proof uses: for them the edit shows
nothing. Dependence is taken from the present proofs, which for old lines may differ from those at the time. Lines with the
field `rerun` were tried again with every failing proof replaced by a placeholder in the scratch copy, so that all files were reached;
there `survived` lists theorems of the claim that still check and use no failing lemma.
