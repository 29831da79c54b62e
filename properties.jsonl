{"id": "C01", "title": "decode never unwinds into the caller", "statement": "For every file content, the entry point rawloader::decode returns Ok or Err; a panic anywhere in the decoder is turned into an Err, and an Ok result is exactly the image the inner decoder produced.", "quantifier": "every byte sequence used as file content, every camera database", "why_tests_cant": "a fuzz corpus only visits some crashing inputs; the claim is over every input that makes an inner step panic", "anchors": ["src/lib.rs:decode", "src/decoders/mod.rs:RawLoader::decode_safe", "src/decoders/mod.rs:RawLoader::decode"]}
{"id": "C02", "title": "Format sniffing is safe on files of any length", "statement": "Looking at the magic bytes to decide whether a file is MRW, CIFF, ARRI, X3F or TIFF never reads out of bounds, for any file length including zero, because sixteen zero bytes are appended on load; and the recorded file size stays the original length.", "quantifier": "every byte sequence, in particular those shorter than the longest magic", "why_tests_cant": "the risk is in each length 0..15 combined with each prefix, and in the padding constant being large enough for every probe", "anchors": ["src/decoders/mod.rs:Buffer::new", "src/decoders/mrw.rs:is_mrw", "src/decoders/ciff.rs:is_ciff", "src/decoders/ari.rs:is_ari", "src/decoders/x3f.rs:is_x3f", "src/decoders/tiff.rs:TiffIFD::new_file"]}
{"id": "C03", "title": "Format dispatch is decided by the documented priority", "statement": "Given any file, the decoder used is the first match in the order MRW, CIFF, ARRI, X3F, TIFF (inside TIFF: DNG version tag, Kodak DCS560C, camera make, Hasselblad camera library), raw file size; two formats can never both be used and a DNG is never decoded as its camera's native format.", "quantifier": "every file content and every parsed directory tree", "why_tests_cant": "the number of combinations of magic bytes, makes and tags is unbounded", "anchors": ["src/decoders/mod.rs:RawLoader::get_decoder"]}
{"id": "C04", "title": "Unrecognisable and empty files are rejected with an error", "statement": "A file with no known magic number that is not a parseable TIFF and whose size matches no headerless camera always yields Err, and the empty file always yields Err.", "quantifier": "every byte sequence and every camera database", "why_tests_cant": "quantifies over all garbage files", "anchors": ["src/decoders/mod.rs:RawLoader::get_decoder", "src/decoders/mod.rs:RawLoader::new"]}
{"id": "C05", "title": "Headerless files are recognised exactly by size", "statement": "A file without any recognised header is decoded as a headerless raw precisely when the camera database has an entry whose positive filesize equals the file length, and the camera used is the last such entry in the database.", "quantifier": "every camera database and every file length", "why_tests_cant": "ranges over all databases", "anchors": ["src/decoders/mod.rs:RawLoader::new", "src/decoders/mod.rs:RawLoader::get_decoder"]}
{"id": "C06", "title": "Uncompressed multi-byte reads follow the byte order", "statement": "Reading a 16/32-bit value at an offset gives the positional value of the bytes in the requested byte order, and big-endian reading of data equals little-endian reading of the byte-reversed data; an out-of-range read is a panic and never a made-up value.", "quantifier": "every buffer, every offset, both byte orders", "why_tests_cant": "all byte values and offsets", "anchors": ["src/decoders/basics.rs:BEu16", "src/decoders/basics.rs:LEu16", "src/decoders/basics.rs:BEu32", "src/decoders/basics.rs:LEu32", "src/decoders/basics.rs:Endian"]}
{"id": "C07", "title": "Clamping to a bit depth saturates", "statement": "Clamping a predicted sample to n bits leaves values in [0,2^n-1] untouched, sends negative values to 0 and larger values to 2^n-1.", "quantifier": "every 32-bit signed value and every bit depth from 1 to 16", "why_tests_cant": "2^32 values times 16 depths; overflow happens only on data nobody has in a test corpus", "anchors": ["src/decoders/basics.rs:clampbits"]}
{"id": "C08", "title": "12-bit big-endian packed rasters are unpacked exactly", "statement": "For an uncompressed 12-bit MSB-first packed raster, sample (row,col) of the image is the 12-bit field number row*width+col of the bit stream, in either plain, byte-swapped-16 or byte-swapped-32 storage.", "quantifier": "every even width (multiple of four / eight for the swapped layouts), every height, every sufficiently long buffer", "why_tests_cant": "all widths, heights and contents", "anchors": ["src/decoders/packed.rs:decode_12be", "src/decoders/packed.rs:decode_12be_msb16", "src/decoders/packed.rs:decode_12be_msb32"]}
{"id": "C09", "title": "12-bit little-endian packed rasters are unpacked exactly", "statement": "For an uncompressed 12-bit LSB-first packed raster, sample (row,col) is the 12-bit little-endian field number row*width+col of the strip.", "quantifier": "every even width, every height, every sufficiently long buffer", "why_tests_cant": "all widths, heights and contents", "anchors": ["src/decoders/packed.rs:decode_12le"]}
{"id": "C10", "title": "10-bit packed rasters are unpacked exactly", "statement": "For an uncompressed 10-bit packed raster (plain or byte-swapped-16), sample (row,col) is the 10-bit field number row*width+col of the bit stream.", "quantifier": "every width divisible by four (eight), every height, every sufficiently long buffer", "why_tests_cant": "all widths, heights and contents", "anchors": ["src/decoders/packed.rs:decode_10le", "src/decoders/packed.rs:decode_10le_lsb16"]}
{"id": "C11", "title": "Unpacked 12/14/16-bit rasters are read exactly", "statement": "For a raster stored one sample per 16-bit word, sample (row,col) is the word's value in the stored byte order reduced to the low 12/14 bits (or shifted right by four for left-aligned data), including the variant with extra lines interleaved that must be skipped.", "quantifier": "every width >= 1, height, buffer", "why_tests_cant": "all widths, heights and contents", "anchors": ["src/decoders/packed.rs:decode_12be_unpacked", "src/decoders/packed.rs:decode_12le_unpacked", "src/decoders/packed.rs:decode_12be_unpacked_left_aligned", "src/decoders/packed.rs:decode_12le_unpacked_left_aligned", "src/decoders/packed.rs:decode_14le_unpacked", "src/decoders/packed.rs:decode_14be_unpacked", "src/decoders/packed.rs:decode_16le", "src/decoders/packed.rs:decode_16be", "src/decoders/packed.rs:decode_16le_skiplines"]}
{"id": "C12", "title": "12-bit rasters with control bytes skip exactly the control bytes", "statement": "In the layout with one control byte after every ten samples, sample (row,col) is the right 12-bit field of its fifteen-byte group and control bytes never influence the image.", "quantifier": "every width divisible by ten, every height, every sufficiently long buffer and every value of the control bytes", "why_tests_cant": "independence from control bytes is over all their values", "anchors": ["src/decoders/packed.rs:decode_12be_wcontrol", "src/decoders/packed.rs:decode_12le_wcontrol"]}
{"id": "C13", "title": "Interlaced 12-bit rasters put each stored field line on its image line", "statement": "In the two-field layouts even image rows come from the first field and odd rows from the second field, each exactly once, whatever the height parity.", "quantifier": "every even width, every height, every buffer", "why_tests_cant": "all heights including odd ones", "anchors": ["src/decoders/packed.rs:decode_12be_interlaced", "src/decoders/packed.rs:decode_12be_interlaced_unaligned"]}
{"id": "C14", "title": "Decoded rasters have exactly width*height samples and fit their bit depth", "statement": "Whenever unpacking an uncompressed raster succeeds the result holds exactly width*height samples and each sample is below 2^bits for the bit depth; if input data runs out the missing samples are zero, never stale or out-of-bounds data.", "quantifier": "every buffer, width and height, including truncated buffers", "why_tests_cant": "all truncation points", "anchors": ["src/decoders/packed.rs", "src/decoders/basics.rs:decode_threaded"]}
{"id": "C15", "title": "Parallel row decoding is schedule independent", "statement": "The result of decoding rows in parallel is the same for every order and interleaving of the row tasks on the worker threads; if some row panics the whole decode panics in every schedule.", "quantifier": "every schedule (interleaving) of row tasks, every row function", "why_tests_cant": "schedules are unbounded and not controllable from a test", "anchors": ["src/decoders/basics.rs:decode_threaded", "src/decoders/basics.rs:decode_threaded_multiline", "src/imageops/mod.rs:OpBuffer::mutate_lines", "src/imageops/mod.rs:OpBuffer::process_into_new"]}
{"id": "C16", "title": "MSB-first bit reader returns consecutive bit fields", "statement": "Any sequence of bit reads of 0..32 bits on the MSB-first readers returns consecutive fields of the bit stream (plain bytes, or byte-swapped 32-bit words), independent of how the reads are split, and peeking never changes what is read later.", "quantifier": "every buffer, every sequence of read sizes", "why_tests_cant": "internal 64-bit refill state couples all previous reads", "anchors": ["src/decoders/pumps.rs:BitPumpMSB", "src/decoders/pumps.rs:BitPumpMSB32", "src/decoders/pumps.rs:BitPump"]}
{"id": "C17", "title": "LSB-first bit reader returns consecutive bit fields", "statement": "Any sequence of bit reads of 0..32 bits on the LSB-first reader returns consecutive little-endian fields of the byte stream, independent of how the reads are split.", "quantifier": "every buffer, every sequence of read sizes", "why_tests_cant": "internal refill state couples all previous reads", "anchors": ["src/decoders/pumps.rs:BitPumpLSB"]}
{"id": "C18", "title": "JPEG bit reader removes stuffing and zero-fills at a marker", "statement": "Bits read from an entropy-coded JPEG segment are exactly the bits of the segment with stuffed zero bytes removed, up to the first marker or the end, followed by zeros forever.", "quantifier": "every segment and every sequence of read sizes up to 32 bits", "why_tests_cant": "fast and slow refill paths depend on where the FF bytes fall relative to the refill boundary", "anchors": ["src/decoders/pumps.rs:BitPumpJPEG"]}
{"id": "C19", "title": "Sign extension of an n-bit field is two's complement", "statement": "Reading an n-bit signed field gives the two's-complement value of those n bits.", "quantifier": "every n from 1 to 31 and every field value", "why_tests_cant": "all values", "anchors": ["src/decoders/pumps.rs:BitPump::get_ibits_sextended"]}
{"id": "C20", "title": "Huffman tables decode the canonical code", "statement": "For every well-formed JPEG Huffman specification with at most 255 symbols, decoding a bit stream that starts with the canonical code of symbol s yields s and consumes exactly that code's length; bit patterns that are no prefix of a code are an error. (With 256 symbols the last one is refused when its code is longer than all others and than 8 bits.)", "quantifier": "every table whose lengths form a prefix code with at most 255 symbols of length at most 16, for which building does not run out of symbols (see C22), and every continuation of the bit stream", "why_tests_cant": "number of tables and continuations is astronomical", "anchors": ["src/decoders/ljpeg/huffman.rs:HuffTable::initialize", "src/decoders/ljpeg/huffman.rs:HuffTable::huff_len"]}
{"id": "C21", "title": "Fast Huffman lookup agrees with bit-by-bit decoding", "statement": "The precomputed 13-bit lookup used to decode sample differences gives the same difference, the same error and the same number of consumed bits as the plain code-then-difference decoding.", "quantifier": "every well-formed table and every bit stream", "why_tests_cant": "depends on all 2^13 table slots for all tables", "anchors": ["src/decoders/ljpeg/huffman.rs:HuffTable::huff_decode", "src/decoders/ljpeg/huffman.rs:HuffTable::huff_diff"]}
{"id": "C22", "title": "Malformed Huffman tables never corrupt memory or hang", "statement": "Building a Huffman table from any file contents either succeeds, is reported as an error or panics (which decode turns into Err); building terminates and, when it succeeds, looking up a symbol never indexes outside the tables: it gives one of the table's symbols or an error.", "quantifier": "every length-count vector and symbol list", "why_tests_cant": "all malformed tables", "anchors": ["src/decoders/ljpeg/huffman.rs:HuffTable::initialize"]}
{"id": "C23", "title": "Lossless JPEG strips decode to the encoded image", "statement": "For every image with two interleaved components, encoding it as a lossless JPEG file (predictor 1, any point transform, any well-formed Huffman tables covering the categories that occur, any component ids) and decoding the file, also only the first rows and columns of it into a tile of a larger buffer, gives back the image bit for bit and leaves the rest of the buffer unchanged; the same for three and four components (four only without tile placement). The data must be at least four bytes long, and the width a multiple of the number of components.", "quantifier": "every image size and contents, every well-formed table", "why_tests_cant": "round trip over all images", "anchors": ["src/decoders/ljpeg/decompressors.rs:decode_ljpeg_2components", "src/decoders/ljpeg/decompressors.rs:decode_ljpeg_3components", "src/decoders/ljpeg/decompressors.rs:decode_ljpeg_4components", "src/decoders/ljpeg/huffman.rs:HuffTable::huff_diff"]}
{"id": "C24", "title": "Lossless JPEG headers: what is accepted", "statement": "Header parsing of a lossless JPEG terminates on every input. It accepts only streams that begin with start-of-image and contain an SOF3 frame header (1 to 4 components, precision 12 to 16, nonzero width, consistent segment length) followed by a scan header for as many components; width, height, precision, predictor, point transform and the start of the data are exactly what those bytes say. It does not check that the height is nonzero or that the Huffman tables in use were defined: the first difference read through an undefined table panics.", "quantifier": "every byte sequence", "why_tests_cant": "all malformed headers", "anchors": ["src/decoders/ljpeg/mod.rs:LjpegDecompressor::new_full", "src/decoders/ljpeg/mod.rs:SOFInfo::parse_sof", "src/decoders/pumps.rs:ByteStream::skip_to_marker"]}
{"id": "C25", "title": "TIFF parsing terminates on cyclic and hostile directory graphs", "statement": "Parsing the TIFF directory structure terminates for every file, with at most 100 chained directories, sub-directory nesting below the depth limit, and at most 4000 entries per directory, even when offsets form cycles.", "quantifier": "every byte sequence", "why_tests_cant": "offset graphs are arbitrary", "anchors": ["src/decoders/tiff.rs:TiffIFD::new_file", "src/decoders/tiff.rs:TiffIFD::new"]}
{"id": "C26", "title": "TIFF tag lookup returns the first match in document order", "statement": "Looking up a tag returns a value stored under that tag: the one of the directory itself if present, otherwise the first one in depth-first order of sub-directories; and nothing only if no directory in the tree has the tag. Listing directories with a tag lists all and only those directories.", "quantifier": "every directory tree and tag", "why_tests_cant": "all trees", "anchors": ["src/decoders/tiff.rs:TiffIFD::find_entry", "src/decoders/tiff.rs:TiffIFD::find_ifds_with_tag", "src/decoders/tiff.rs:TiffIFD::find_first_ifd"]}
{"id": "C27", "title": "TIFF values are the stored bytes", "statement": "A parsed TIFF entry carries exactly count*size(type) bytes, taken inline when they fit in four bytes and from the stored offset otherwise, and reading component i gives the value at i*size(type) in the file's byte order; the same logical file in both byte orders parses to the same values.", "quantifier": "every entry, every count, every type, both byte orders", "why_tests_cant": "all counts and types", "anchors": ["src/decoders/tiff.rs:TiffEntry::new", "src/decoders/tiff.rs:TiffEntry::get_u32", "src/decoders/tiff.rs:TiffEntry::get_force_u16"]}
{"id": "C28", "title": "CIFF parsing terminates and lookup is depth-first", "statement": "Parsing the CIFF heap of any file terminates with nesting below the depth limit, and looking up a tag returns the first match in depth-first order.", "quantifier": "every byte sequence", "why_tests_cant": "arbitrary offset graphs", "anchors": ["src/decoders/ciff.rs:CiffIFD::new", "src/decoders/ciff.rs:CiffIFD::find_entry"]}
{"id": "C29", "title": "MRW block walk terminates", "statement": "Reading the block list of a Minolta MRW file terminates for every file.", "quantifier": "every byte sequence, both overflow-checking and wrapping builds", "why_tests_cant": "needs a specific block length in an otherwise valid file", "anchors": ["src/decoders/mrw.rs:MrwDecoder::new"]}
{"id": "C30", "title": "Camera lookup finds the database entry for make, model and mode", "statement": "Looking up a camera by make, model and mode returns the last database entry whose make, model and mode (or one of its aliases and modes) match exactly, with mode settings overriding the camera's base settings; if there is none the result is an error naming the camera.", "quantifier": "every camera database", "why_tests_cant": "all databases with overlapping aliases and modes", "anchors": ["src/decoders/mod.rs:RawLoader::new", "src/decoders/mod.rs:RawLoader::check_supported_with_everything", "src/decoders/mod.rs:Camera::update_from_toml"]}
{"id": "C31", "title": "CFA pattern is periodic and matches its name", "statement": "For an accepted pattern name, the colour at (row,col) is the colour of the pattern's character at (row mod height, col mod width), for all rows and columns.", "quantifier": "every accepted pattern string of length 4, 16, 36 or 144 and all coordinates", "why_tests_cant": "all coordinates and all patterns", "anchors": ["src/decoders/cfa.rs:CFA::new", "src/decoders/cfa.rs:CFA::color_at"]}
{"id": "C32", "title": "Shifting a CFA moves the pattern origin", "statement": "The colour at (row,col) of the pattern shifted by (x,y) is the colour at (row+y, col+x) of the original; shifts compose additively and a shift by the pattern size is the identity.", "quantifier": "every pattern, every shift, all coordinates", "why_tests_cant": "all shifts and coordinates", "anchors": ["src/decoders/cfa.rs:CFA::shift"]}
{"id": "C33", "title": "Cropping keeps colours aligned with pixels", "statement": "The pattern returned for the cropped image gives each pixel of the cropped area the same colour as the pixel has in the full sensor area.", "quantifier": "every pattern, every crop, all coordinates", "why_tests_cant": "all crops", "anchors": ["src/decoders/image.rs:RawImage::cropped_cfa", "src/imageops/gofloat.rs:convert"]}
{"id": "C34", "title": "CFA names are validated", "statement": "A CFA is built exactly for names of length 0, 4, 16, 36 or 144 whose characters are known colours; colour indexes are always below 4.", "quantifier": "every string", "why_tests_cant": "all strings", "anchors": ["src/decoders/cfa.rs:CFA::new", "src/decoders/cfa.rs:CFA::new_from_tag"]}
{"id": "C35", "title": "Orientation transforms move each pixel where EXIF says", "statement": "Applying an orientation moves the pixel at each source position to the position defined by EXIF for that orientation value, with width and height swapped exactly for the four transposing orientations; no pixel is lost or duplicated.", "quantifier": "every image size and contents, every orientation value", "why_tests_cant": "all sizes", "anchors": ["src/imageops/transform.rs:rotate_buffer", "src/decoders/mod.rs:Orientation::from_u16", "src/decoders/mod.rs:Orientation::to_flips"]}
{"id": "C36", "title": "Orientation transforms form the dihedral group", "statement": "Each flip is its own inverse, rotating by 90 degrees four times is the identity, rotating by 90 and 270 cancel, and transpose and transverse are involutions on the image.", "quantifier": "every image", "why_tests_cant": "all images", "anchors": ["src/imageops/transform.rs:rotate_buffer"]}
{"id": "C37", "title": "The float pipeline starts from the cropped sensor area", "statement": "The first pipeline stage yields an image whose pixel (row,col) comes from the sensor pixel (row+top, col+left), for mono, Bayer and RGB images.", "quantifier": "every image size, crop and pixel format", "why_tests_cant": "all crops", "anchors": ["src/imageops/gofloat.rs:convert"]}
{"id": "C38", "title": "Demosaic keeps the measured colour of each pixel", "statement": "Full-size demosaic leaves the channel that was measured at each pixel exactly as measured and fills other channels with the mean of the neighbouring measurements of that colour.", "quantifier": "every pattern, image size and contents", "why_tests_cant": "all images and patterns", "anchors": ["src/imageops/demosaic.rs:full"]}
{"id": "C39", "title": "Requested output size is respected", "statement": "Producing a picture from any usable image with any samples, levels, white balance and matrix succeeds. With a nonzero maximum width and height the picture (after rotation) never exceeds either, is never larger than the source, touches one of the limits when scaled, keeps the aspect ratio to within two pixels, and the source is used unscaled when it already fits. With a zero limit it is unscaled.", "quantifier": "every source with sides up to 4194304, every 64-bit maximum size that leaves at least one pixel, every orientation and float content", "why_tests_cant": "float rounding at every size", "anchors": ["src/imageops/demosaic.rs:demosaic_and_scale", "src/imageops/demosaic.rs:scale_down", "src/imageops/mod.rs:simple_decode", "src/decoders/image.rs:to_srgb"]}
{"id": "C40", "title": "Gamma conversion never indexes out of the table", "statement": "Converting any linear value, including negative, huge, infinite or NaN values, to sRGB uses an index inside the precomputed table.", "quantifier": "every 32-bit float", "why_tests_cant": "all floats including NaN", "anchors": ["src/imageops/gamma.rs:gamma", "src/imageops/colorspaces.rs:xyz_to_lab"]}
{"id": "C41", "title": "The tone curve passes through its knots and is clamped at the end", "statement": "Interpolating the base curve at a knot returns the knot's value, above the last knot the last value, and between knots the curve of the interval containing the point is used.", "quantifier": "every increasing knot list and every point", "why_tests_cant": "all knots and points", "anchors": ["src/imageops/curves.rs:SplineFunc::new", "src/imageops/curves.rs:SplineFunc::interpolate"]}
{"id": "C42", "title": "Colour matrix inversion is an inverse", "statement": "The 3x3 inversion used for colour conversion returns the two-sided inverse of any nonsingular matrix, and the pseudo-inverse of a full-column-rank matrix is a left inverse.", "quantifier": "every nonsingular 3x3 matrix and every full-rank 4x3 matrix", "why_tests_cant": "all matrices", "anchors": ["src/imageops/colorspaces.rs:inverse", "src/decoders/image.rs:RawImage::pseudoinverse"]}
{"id": "C43", "title": "Sony decryption is a stream cipher", "statement": "Decrypting the Sony metadata block is an exclusive-or with a key stream depending only on the key, so applying it twice restores the data.", "quantifier": "every buffer, offset, length and key", "why_tests_cant": "all keys and data", "anchors": ["src/decoders/arw.rs:ArwDecoder::sony_decrypt"]}
{"id": "C44", "title": "Dithered curve lookup stays near the curve and never overflows", "statement": "Looking up a value with dithering for a non-decreasing curve returns a value within a quarter of the local slope (rounded) of the curve value, keeps the random state within 32 bits, and intermediate arithmetic never overflows.", "quantifier": "every non-decreasing curve meeting the local slope condition, every index, every random state", "why_tests_cant": "all random states", "anchors": ["src/decoders/basics.rs:LookupTable::new", "src/decoders/basics.rs:LookupTable::dither"]}
{"id": "C45", "title": "Fuji diagonal rotation keeps every pixel", "statement": "Rotating the Fuji diagonal sensor layout maps distinct sensor pixels to distinct output pixels inside the output image, so no pixel is lost.", "quantifier": "every crop size", "why_tests_cant": "all crop sizes, parity matters", "anchors": ["src/decoders/raf.rs:RafDecoder::rotate_image"]}
{"id": "C46", "title": "Leaf/MOS line de-interleaving is a permutation of rows", "statement": "De-interleaving compressed Leaf strips puts every stored line on exactly one image row and fills every image row.", "quantifier": "every height", "why_tests_cant": "all heights of both parities", "anchors": ["src/decoders/mos.rs:MosDecoder::decode_compressed", "src/decoders/iiq.rs"]}
{"id": "C47", "title": "Canon vertical slices are reassembled without loss", "statement": "Reassembling the vertical slices of a CR2 places every sample of the lossless JPEG stream at exactly one image position, and the original image is restored from its sliced form.", "quantifier": "every slice layout whose widths add up to the image width, every height", "why_tests_cant": "all slice layouts", "anchors": ["src/decoders/cr2.rs:Cr2Decoder::image"]}
{"id": "C48", "title": "Sony ARW1 decoding writes every pixel", "statement": "Decoding the Sony ARW version 1 stream assigns every pixel of the image exactly once.", "quantifier": "every width and height", "why_tests_cant": "loop with in-place row wrap, depends on height parity", "anchors": ["src/decoders/arw.rs:ArwDecoder::decode_arw1"]}
{"id": "C49", "title": "DNG tiles cover the image exactly", "statement": "For a tiled DNG the tiles written cover every sample of the image and never write outside the image, including partial tiles at the right and bottom edges.", "quantifier": "every image size and tile size", "why_tests_cant": "all image and tile sizes", "anchors": ["src/decoders/dng.rs:DngDecoder::decode_compressed", "src/decoders/basics.rs:decode_threaded_multiline"]}
{"id": "C50", "title": "Decoded images are consistent with their dimensions", "statement": "Whenever decoding succeeds the sample vector has exactly width*height*components-per-pixel elements.", "quantifier": "every file and camera database", "why_tests_cant": "all files", "anchors": ["src/decoders/mod.rs:ok_image", "src/decoders/image.rs:RawImage"]}
{"id": "C51", "title": "White-balanced white becomes the reference white", "statement": "For every camera matrix with independent columns, the camera-to-XYZ matrix maps the white-balanced white reading (equal values in all channels the camera has) to the white of the RGB working space divided by the configured reference white, independent of the camera.", "quantifier": "every camera matrix", "why_tests_cant": "all matrices", "anchors": ["src/decoders/image.rs:RawImage::xyz_matrix_and_neutralwb", "src/decoders/image.rs:RawImage::cam_to_xyz"]}
{"id": "C52", "title": "The tone curve is monotone and stays in range", "statement": "For any rising list of knots the interpolated tone curve never decreases from the first knot on and stays between the first and the last knot value, so the base curve never inverts brightness.", "quantifier": "every rising knot list and every pair of points", "why_tests_cant": "all knots and points", "anchors": ["src/imageops/curves.rs:SplineFunc::new", "src/imageops/curves.rs:SplineFunc::interpolate", "src/imageops/curves.rs:base"]}
{"id": "C53", "title": "Output values are in range", "statement": "Every value in the gamma-corrected picture is a number in [0,1] and the gamma stage never inverts brightness; every byte of the 8-bit picture is 255 times the float value, cut.", "quantifier": "every usable image with any samples, matrix and white balance (NaN included), every powf that is within [0,1] and monotone on [0,1]", "why_tests_cant": "all images and all float values", "anchors": ["src/imageops/gamma.rs:gamma", "src/imageops/mod.rs:simple_decode", "src/decoders/image.rs:to_srgb"]}
{"id": "C54", "title": "The JPEG marker search stops at the first marker", "statement": "Searching for the next marker skips exactly the bytes before the first marker at or after the current position (a 0xff followed by neither a stuffed zero nor a fill byte), and reports their number. If there is none it reports an error, except that it panics when the last byte of the data is 0xff.", "quantifier": "every byte sequence and position", "why_tests_cant": "all placements of stuffed and fill bytes", "anchors": ["src/decoders/pumps.rs:ByteStream::skip_to_marker"]}
{"id": "C55", "title": "The position of the 32-bit reader is the number of bytes read", "statement": "After any sequence of reads, the position reported by the 32-bit MSB reader is the number of bytes read so far, a partly read byte counted in full, whatever the reader has loaded ahead.", "quantifier": "every buffer, every sequence of read sizes", "why_tests_cant": "depends on the internal refill state", "anchors": ["src/decoders/pumps.rs:BitPumpMSB32::get_pos", "src/decoders/srw.rs:SrwDecoder::decode_srw3"]}
{"id": "C56", "title": "Canon's subsampled JPEGs decode to the encoded blocks", "statement": "For every picture of blocks of two (or two by two) brightness samples and one pair of colour samples, encoding it as a lossless JPEG with horizontal subsampling and decoding the file gives every pixel its own brightness and the colours of its block, in both layouts.", "quantifier": "every size and contents, every well-formed Huffman table, any point transform, both builds", "why_tests_cant": "round trip over all images", "anchors": ["src/decoders/ljpeg/decompressors.rs:decode_ljpeg_420", "src/decoders/ljpeg/decompressors.rs:decode_ljpeg_422", "src/decoders/ljpeg/decompressors.rs:set_yuv_420", "src/decoders/ljpeg/decompressors.rs:set_yuv_422"]}
{"id": "C57", "title": "Leaf's strips decode to the encoded image", "statement": "For every image, encoding it in strips of eight lines (the last one possibly shorter), each with its own reader and first prediction, separated by any markers, and decoding the file gives back the image bit for bit, whatever selectors the scan header names.", "quantifier": "every image with an even width, every number of lines, every well-formed table, both builds", "why_tests_cant": "round trip over all images; strip offsets are found by searching the data", "anchors": ["src/decoders/ljpeg/mod.rs:LjpegDecompressor::decode_leaf", "src/decoders/ljpeg/decompressors.rs:decode_leaf_strip"]}
{"id": "C58", "title": "Hasselblad's paired differences decode to the encoded image", "statement": "For every image with an even width, encoding each line as pairs of lengths followed by pairs of differences, both predicted from 0x8000 at the start of the line, in 32-bit little-endian words, and decoding the file gives back the image bit for bit.", "quantifier": "every image with fewer than 65535 pairs per line, every well-formed table, both builds", "why_tests_cant": "round trip over all images", "anchors": ["src/decoders/ljpeg/decompressors.rs:decode_hasselblad", "src/decoders/ljpeg/huffman.rs:HuffTable::huff_len", "src/decoders/ljpeg/huffman.rs:HuffTable::huff_diff"]}
{"id": "C59", "title": "A JPEG that does not fit the request is refused", "statement": "Asking a parsed lossless JPEG for an image it does not describe (a predictor other than 1 or 8, one component with predictor 1, a frame narrower or shorter than asked for, a subsampled frame of any other size) gives an error, never a panic or an image.", "quantifier": "every parsed header, every request, any data", "why_tests_cant": "all combinations of header and request", "anchors": ["src/decoders/ljpeg/mod.rs:LjpegDecompressor::decode", "src/decoders/ljpeg/decompressors.rs:decode_ljpeg_2components"]}
{"id": "C60", "title": "Pentax's compressed images decode to the encoded image", "statement": "For every image with an even width, encoding the difference of every sample to the one two columns to the left (for the first two of a row, two rows above), with the Huffman table stored in the maker note, or the default table if there is none, and decoding gives back the image. No image with an odd width is decoded.", "quantifier": "every image, every well-formed table of up to 15 symbols stored in either byte order, any trailing data, both builds", "why_tests_cant": "round trip over all images and tables", "anchors": ["src/decoders/pef.rs:PefDecoder::decode_compressed", "src/decoders/ljpeg/huffman.rs:HuffTable::huff_decode"]}
{"id": "C61", "title": "Nikon's compressed images decode to the encoded image", "statement": "For every image with an even width, encoding it the way Nikon does (differences to the sample two columns to the left or two rows above, the Huffman table of the version in the maker note, another table from the split row on) and decoding gives the value of the maker note's curve (stored, interpolated or the identity) at every sample, dithered with a generator seeded by the first 24 bits.", "quantifier": "every image, every maker note with a curve that can be dithered, 12 and 14 bits, both byte orders, any trailing data, both builds", "why_tests_cant": "round trip over all images, versions and curves", "anchors": ["src/decoders/nef.rs:NefDecoder::decode_compressed", "src/decoders/nef.rs:NefDecoder::create_hufftable", "src/decoders/basics.rs:LookupTable::dither"]}
{"id": "C62", "title": "Sony's compressed images decode to within a quantisation step", "statement": "Encoding an image of 11-bit samples the way Sony does (blocks of 32 samples in 32 bytes, even and odd columns apart, the largest and smallest sample of a group in full and 7 bits of distance for the others) and decoding it gives, at every pixel, the camera's curve at a value at most the sample and less than one step (1 to 16, by the span of the group) below it, exactly the sample where the group spans less than 128, dithered by at most a quarter of the local rise of the curve. The curve is the piecewise linear one with slopes 1, 2, 4, 8, 16 through the four knots in the file. More precisely every buffer whose groups make sense decodes to the samples the format defines, with the generator of the dithering seeded by the first three bytes of each line.", "quantifier": "every image with a width that is a multiple of 32, every choice of the largest and smallest sample, every rising curve with its first knot at entry 8 or later, both builds", "why_tests_cant": "round trip over all images and curves", "anchors": ["src/decoders/arw.rs:ArwDecoder::decode_arw2", "src/decoders/arw.rs:ArwDecoder::get_curve", "src/decoders/basics.rs:LookupTable::dither"]}
{"id": "C63", "title": "A TIFF file is read back field by field", "statement": "Opening a TIFF file in either byte order gives a tree with one directory for each chained directory, each holding exactly the stored fields whose tags the library has names for, with their type, count and values, and with the sub-directories (SubIFDs, Exif, Fuji's and Kodak's, and the maker notes of the supported makers, with their own byte order and offset base) below it in their order. Looking a tag up gives the stored field of the first directory in document order that has one, and nothing if none has.", "quantifier": "every file of up to 100 chained directories of up to 4000 fields with up to ten levels of sub-directories and maker notes, laid out anywhere in the file, both byte orders, both builds", "why_tests_cant": "round trip over all directory trees and all layouts", "anchors": ["src/decoders/tiff.rs:TiffIFD::new_file", "src/decoders/tiff.rs:TiffIFD::new_root", "src/decoders/tiff.rs:TiffIFD::new", "src/decoders/tiff.rs:TiffIFD::new_makernote", "src/decoders/tiff.rs:TiffEntry::new"]}
{"id": "C64", "title": "A CIFF file is read back value by value", "statement": "Opening a CIFF file (Canon CRW) gives a tree with one directory for each heap, each holding exactly the stored values, whether they are kept in the record or in the heap, with type, size, number of elements and every element of the integer types, and with the heaps within it below it in their order. Looking a tag up gives the value of the first heap in document order that has one, and nothing if none has.", "quantifier": "every file holding a heap with up to nine levels of heaps within it, laid out anywhere in the file, both builds", "why_tests_cant": "round trip over all heaps and layouts", "anchors": ["src/decoders/ciff.rs:CiffIFD::new_file", "src/decoders/ciff.rs:CiffIFD::new", "src/decoders/ciff.rs:CiffEntry::new", "src/decoders/ciff.rs:CiffEntry::get_u32"]}
{"id": "C65", "title": "Panasonic's compressed images are decoded to the stored samples", "statement": "Decoding a Panasonic RW2 image gives, for every group of 14 samples whose 16 bytes follow each other, exactly the samples that its codes, selectors and low bits stand for, at the right place of the image; smooth images that are coded with single steps are restored exactly; any bytes are decoded without a panic if one byte follows the last group. In split files the group torn apart by the rotation of the block is misread.", "quantifier": "every number of groups per row and of rows, split and unsplit, all group contents, both build modes", "why_tests_cant": "2^128 contents per group, and the position in the block, the strip of five rows and the state carried over 14 samples interact", "anchors": ["src/decoders/rw2.rs:decode_panasonic", "src/decoders/rw2.rs:BitPumpPanasonic"]}
{"id": "C66", "title": "Samsung's second compression is lossless", "statement": "Decoding a Samsung SRW image of compression 32772 gives back the image that was encoded: every sample is the stored difference plus the sample two columns to the left, or two rows above in the first two columns, and the differences follow their length prefixes.", "quantifier": "every width and height, every image of 13 bits (more generally 16-bit samples with differences of at most 13 bits), whatever bytes follow, both build modes", "why_tests_cant": "the prefix table, the sign of every difference and the four running predictors interact over images of any size", "anchors": ["src/decoders/srw.rs:decode_srw2", "src/decoders/srw.rs:srw2_diff"]}
{"id": "C67", "title": "Olympus' compression is lossless", "statement": "Decoding a compressed Olympus ORF image gives back the encoded image: adaptive number of low bits, running mean, unary or escaped upper part and gradient prediction are all undone, whatever the seven header bytes and whatever follows the data. An odd last column is not stored and remains 0. Samples above 46340 may overflow the 32-bit product of the gradients: debug builds panic, release builds decode wrongly.", "quantifier": "every width and height, every image with samples up to 46340 (all images of 15 bits), all header and trailing bytes, both build modes", "why_tests_cant": "the code of each sample depends on the whole earlier row through three adaptive carries and on two rows of predictors", "anchors": ["src/decoders/orf.rs:decode_compressed"]}
{"id": "C68", "title": "A whole file of a supported camera is decoded to exactly its picture", "statement": "rawloader::decode on the bytes of a raw file returns Ok with the width, height, white balance, orientation and samples that the file stores, with the names, white levels, matrix, crops and filter pattern the database has for the camera, and with the black levels of the database or, if it names masked areas, the means measured there (property C69): for the TIFF-based files of Mamiya (12 bits packed), Pentax (compressed), Olympus (compressed) and Panasonic (compressed, one strip), and for the CIFF files of Canon (compressed, orientation of the database; and the PowerShot Pro70). The file is described by the TIFF layout (any byte order, any arrangement of directories and sub-directories, any further fields) or the CIFF layout (any arrangement of heaps) and by the encoding of the samples.", "quantifier": "for every loader that has the camera, every file of that layout, every picture size and content the format can store, every build", "why_tests_cant": "The decoder depends on the order of sniffing, on the search through nested directories, on the database lookup and on the decompressor together; sample files exercise one arrangement of directories per camera.", "anchors": ["src/lib.rs:decode", "src/decoders/mod.rs:RawLoader::decode", "src/decoders/mod.rs:RawLoader::get_decoder", "src/decoders/mod.rs:RawLoader::check_supported", "src/decoders/mef.rs:MefDecoder::image", "src/decoders/pef.rs:PefDecoder::image", "src/decoders/orf.rs:OrfDecoder::image", "src/decoders/rw2.rs:Rw2Decoder::image", "src/decoders/crw.rs:CrwDecoder::image", "src/decoders/crw.rs:CrwDecoder::get_wb", "src/decoders/image.rs:RawImage::new"]}
{"id": "C69", "title": "Measured black levels are the means of the masked pixels", "statement": "For a camera whose database entry gives masked rows or columns, RawImage::new sets the black level of each colour to the mean of the masked pixels of that colour, rounded down (a pixel in both areas counts twice, a colour without masked pixels has level 0). This holds exactly while the values add up to less than 2^24 and otherwise up to a relative error of (1 + 2^-24)^(n+1) for n pixels; it does not hold exactly in general: a masked row of 16378 pixels that are all 2049 is measured as 2048.", "quantifier": "every named filter pattern, every pair of masked areas inside the image, every image, both build modes", "why_tests_cant": "the sum is a chain of thousands of rounded binary32 additions; whether the rounding of sum and quotient can reach the next integer depends on all of them", "anchors": ["src/decoders/image.rs:RawImage::new"]}
{"id": "C70", "title": "The compression of early Canon files (CRW) is lossless", "statement": "For each of the three pairs of code tables of the format, every picture of 12-bit samples whose pixel count is a multiple of 64, written as CRW data (blocks of 64 differences as Huffman coded runs and sizes, differences carried between the blocks and restarted at every second line start, byte stuffing, two low bits per sample stored apart), is returned by the decoder sample by sample; without separate low bits the same holds for 10-bit samples. The one exception is built in: in pictures 2672 pixels wide 2 is added to samples below 512. A picture whose pixel count is not a multiple of 64 is never returned.", "quantifier": "every picture with a multiple of 64 pixels, the three tables, cameras with and without low bits, every header content, every trailing data, both build modes", "why_tests_cant": "the accumulated differences and bit positions make each sample depend on all earlier ones; the sample files cover one picture per camera", "anchors": ["src/decoders/crw.rs:CrwDecoder::decode_compressed", "src/decoders/crw.rs:CrwHuffTable::new", "src/decoders/crw.rs:CrwHuffTable::get_bits"]}
{"id": "C71", "title": "Samsung's first compression is lossless", "statement": "Every picture of 16-bit samples with an even number of lines and an even width of at least 16, written in the format of the first NX cameras (independent lines found through a table of places, groups of 16 samples predicted from the lines above or from the previous group, four numbers of difference bits per line that every group may change, the two samples on the second diagonal of every square of four exchanged), is returned by the decoder sample by sample, whichever predictions, numbers of bits and places the encoder chose and whatever it stored beside the picture in an unfilled last group. Every picture of 14 bits can be written this way. A picture with an odd number of lines is never returned.", "quantifier": "every picture, every legal choice of directions and bit numbers for every group, every placement of the lines, every trailing data, both build modes", "why_tests_cant": "the encoder's free choices multiply over all groups, and every sample depends on earlier groups and on two earlier lines; the sample files show one sequence of choices each", "anchors": ["src/decoders/srw.rs:SrwDecoder::decode_srw1"]}
{"id": "C72", "title": "Samsung's third compression is lossless", "statement": "Every picture of at most 15-bit samples whose width is a multiple of 16, written in the format of the later NX cameras (a header with depth, flags and first value; lines at multiples of 16 bytes; blocks of 16 samples predicted from the left or with one of seven displacements from the two lines above, optionally scaled, optionally without differences, with numbers of difference bits that every block may change), is returned by the decoder sample by sample, whichever scales, predictions and numbers of bits the encoder chose and whatever the unused header bits and the bytes after the data are. Every picture of at most 14 bits can be written this way under every setting of the flags. A picture whose width is not a multiple of 16 is never returned.", "quantifier": "every picture, every header, every legal choice of scale, prediction, omission and bit numbers for every block, every trailing data, both build modes", "why_tests_cant": "the encoder's choices multiply over all blocks, samples are reached through displaced references into lines that were themselves predicted, and the start of every line depends on the lengths of all lines before it; sample files show one sequence of choices each", "anchors": ["src/decoders/srw.rs:SrwDecoder::decode_srw3", "src/decoders/basics.rs:clampbits"]}
{"id": "C73", "title": "Phase One's files are decoded to their picture", "statement": "A file of Phase One or Leaf whose value table (found through the word at byte 16) names the size, the data, the table of lines, the black level and the white balance, and whose lines are compressed in their format (every eight samples a line may choose how many bits the differences of its even and odd samples have, or store samples of 16 bits; an unfilled last block stores samples), is returned by the public function as exactly that picture, with the black level and the white balance of the file. If the table names something twice, the last value counts. Every 16-bit picture can be written this way.", "quantifier": "every picture, every legal choice of bit numbers for every block and parity, every placement of table, lines and white balance in the file, every other content of the file, every camera database, both build modes", "why_tests_cant": "the choices multiply over all blocks, every sample depends on all earlier samples of its parity in the line, and the places are free; sample files show a few sequences of choices and one layout", "anchors": ["src/decoders/iiq.rs:IiqDecoder::image", "src/decoders/iiq.rs:IiqDecoder::decode_compressed", "src/decoders/mod.rs:RawLoader::decode_safe"]}
{"id": "C74", "title": "Kodak's compressed files are decoded to their picture", "statement": "A DCR file of Kodak whose data are a picture in segments of 256 samples (the numbers of bits of the differences, then the differences from the lowest bits of 16-bit words up, with a single word in front where a segment has 4 samples more than a multiple of 8), whose maker note has a linearization curve that can be dithered (C44) and covers the samples, is returned by the public function with every sample taken through the curve, less a quarter of the local rise of the curve, and with the white balance of the maker note. The decoder means to dither, but its random generator is started at zero and never leaves it.", "quantifier": "every picture of every width and height (with fewer than 2^15 between a sample and its prediction), every gentle curve, every byte order and layout of the TIFF directories, anything behind the data, every camera database, both build modes", "why_tests_cant": "the bit buffer of a segment depends on all lengths before, and the number of words read on their sum and on the width; sample files show one width and one curve", "anchors": ["src/decoders/dcr.rs:DcrDecoder::image", "src/decoders/dcr.rs:DcrDecoder::decode_kodak65000", "src/decoders/dcr.rs:DcrDecoder::decode_segment", "src/decoders/dcr.rs:DcrDecoder::get_wb", "src/decoders/basics.rs:LookupTable::dither"]}
{"id": "C75", "title": "Scaling keeps the range and the order of samples", "statement": "Making a picture smaller averages samples: with samples from 0 to 2^k every sample of the result lies from 0 to 2^k, a source that is nowhere brighter gives a result that is nowhere brighter (for each result sample only the source samples of its colour within half a pixel of its cell matter), and a source that is uniformly 2^k around a cell gives exactly 2^k there. For two raw images that differ only in their samples the demosaiced and scaled pictures keep the order at any requested size.", "quantifier": "every sensor pattern, sources and results with sides up to 1048576, every content, every requested size", "why_tests_cant": "single precision rounding of weights, sums, products and quotients at every size, and all contents", "anchors": ["src/imageops/demosaic.rs:calc_skips", "src/imageops/demosaic.rs:scaled", "src/imageops/demosaic.rs:scale_down", "src/imageops/demosaic.rs:full", "src/imageops/demosaic.rs:demosaic_and_scale"]}
{"id": "C76", "title": "Whole Sony files are decoded to their picture with the encrypted white balance", "statement": "For every Sony ARW file whose directories are laid out as TIFF says, in either byte order, whose first directory with a strip gives width, height, position, length, compression and (unless the camera database does) the bits per sample, and whose DNG private area leads to a little endian directory with the position, length and key of an encrypted directory holding the white balance (as green-red-blue-green, or else as red-green-green-blue levels), decoding the file with a database that knows the camera returns exactly the stored picture with the decrypted red, green and blue levels: the 16-bit words (the lower 14 bits, big endian, for the DSC-R1), the packed 12-bit samples, the losslessly coded image of the first compression (with eight rows more than the directory says), or for the second compression values within 8 of the curve stored in the file at twice the kept sample. Files of the oldest cameras, which have no strips, keep the picture itself encrypted, with a key that is in an encrypted head; they are decoded to exactly that picture.", "quantifier": "all file contents, both byte orders, all directory trees, all cameras and databases, all image sizes, all keys, positions and lengths of the encrypted block, all pictures, both builds", "why_tests_cant": "The claim composes the directory reader, the key stream, a second reading of the decrypted directory with file-relative positions, and four pixel formats over all files; sample files fix one key and one layout each.", "anchors": ["src/decoders/arw.rs:image", "src/decoders/arw.rs:get_wb", "src/decoders/arw.rs:sony_decrypt", "src/decoders/arw.rs:get_curve", "src/decoders/arw.rs:decode_arw1", "src/decoders/arw.rs:decode_arw2", "src/decoders/tiff.rs:TiffIFD::new", "src/decoders/tiff.rs:TiffEntry::new"]}
{"id": "C77", "title": "Whole Nikon files are decoded to their picture with the white balance of the maker note", "statement": "For every Nikon NEF file whose directories are laid out as TIFF says, in either byte order, with a maker note anywhere among them, whose first directory with a colour pattern gives width, height, bits per sample, compression, position and length of the strip, decoding the file with a database that knows the camera in its 12 or 14 bit mode returns exactly the stored picture: packed 12-bit samples or 14-bit words in the byte order of the file when they are marked as uncompressed or have the right length, the 3040 columns of the D100 with its control bytes, and compressed pictures (all differences coded with symbols below 16) through the curve of the maker note. The white balance is the two fractions of the older cameras, or else the levels of the newer ones: red, blue, green in version 0100, red, green, blue in 0103, and in 0204 and 0205 the red, first green and blue levels of the block decrypted with the key stream that the serial number and the key of the maker note select. A serial number is read up to its NUL, letters counting as the last digit of their code; one that is 2^64 or more panics in checked builds and loses its high bits otherwise.", "quantifier": "all file contents, both byte orders, all directory trees, all cameras and databases, all image sizes, all serial numbers and keys, all pictures and maker notes, both builds", "why_tests_cant": "The claim composes the directory and maker note readers, the cipher with every serial number and key, four versions of the white balance and four pixel formats over all files; a sample file fixes one serial number, one key and one format.", "anchors": ["src/decoders/nef.rs:image", "src/decoders/nef.rs:get_wb", "src/decoders/nef.rs:decode_compressed", "src/decoders/nef.rs:WB_SERIALMAP", "src/decoders/nef.rs:WB_KEYMAP", "src/decoders/packed.rs:decode_12be_wcontrol", "src/decoders/tiff.rs:new_makernote"]}
{"id": "C78", "title": "Whole DNG files are decoded to their picture with the levels, colours, borders and matrix they state", "statement": "For every DNG file whose directories are laid out as TIFF says, in either byte order, decoding returns exactly the picture of the first directory, in document order, that has compression 1, 7 or 34892 and is not marked as reduced (a directory without a mark takes that of its sub-directories), whatever previews are stored before it: 16-bit words (little endian in every file, so those of big endian files come out swapped), packed 12-bit samples, packed 10-bit samples with the fault of C10, bytes through a linearization table of 256 entries with dithering, one lossless JPEG strip, or lossless JPEG tiles of which those at the edges may reach beyond the picture. The result has the names of the database or, for cameras it does not have, those in the file; the reciprocals of the as-shot neutral colour; the first black level for all channels when there are fewer than four, else four of them, each rounded down; the white level modulo 65536; the rows of the second colour matrix, else of the first, else sRGB; the repeated colours of the stored pattern, or none for linear pictures; and the borders around the active area. Files whose picture has the lossy compression, or is a lossless JPEG picture in more than one strip, that state no white level, or that have no such directory are never decoded; the last is a panic inside the decoder.", "quantifier": "all file contents, both byte orders, all directory trees, all databases, all image sizes and numbers of samples per pixel, all pictures, all stored levels and matrices, both builds", "why_tests_cant": "The claim composes the choice of the directory over all trees with six sample formats and the metadata fields in all their types; a sample file fixes one tree, one format and one set of fields.", "anchors": ["src/decoders/dng.rs:image", "src/decoders/dng.rs:get_wb", "src/decoders/dng.rs:get_blacklevels", "src/decoders/dng.rs:get_whitelevels", "src/decoders/dng.rs:get_cfa", "src/decoders/dng.rs:get_crops", "src/decoders/dng.rs:get_color_matrix", "src/decoders/dng.rs:decode_uncompressed", "src/decoders/dng.rs:decode_compressed", "src/decoders/tiff.rs:find_ifds_with_tag", "src/decoders/cfa.rs:new_from_tag"]}
{"id": "C79", "title": "Whole Epson, Kodak, Nikon Coolpix and Hasselblad files are decoded to their picture with the stored white balance", "statement": "For every TIFF file of these makers, in either byte order, whatever other directories and fields it has, and every database with the camera, decoding returns exactly the stored picture. Epson: 12-bit samples where the byte after every ten samples of a row does not count, with the two levels at the bytes 48 and 50 of the 256-byte block, scaled in binary32. Kodak EasyShare: 12-bit samples of a picture that has 80 columns and 70 rows more than the file states, at the sum of two of the thirteen numbers or, for marked cameras, at one of two fixed places; with the three numbers of the file or, without them, two levels from the older block. Kodak DCS: bytes through the table of 256 entries with dithering, from the first directory in document order with strips that is wider than 1000; files all of whose directories with strips are narrower never decode. Nikon Coolpix: 12-bit samples from the first such directory with a colour pattern, plain, swapped in words of 32 bits, or with the even rows before the odd ones, as the camera is marked; the white balance from two fractions, or from the block in one of three layouts, or none for marked cameras. Hasselblad: the lossless JPEG variant with predicted pairs, with the reciprocals of the neutral colour.", "quantifier": "all file contents, both byte orders, all directory trees, all databases, all image sizes and pictures, all stored levels, both builds", "why_tests_cant": "The claim composes the search through all directory trees, the several forms of the white balance and the sample formats at all sizes; a sample file fixes one of each.", "anchors": ["src/decoders/erf.rs:image", "src/decoders/erf.rs:get_wb", "src/decoders/kdc.rs:image", "src/decoders/kdc.rs:get_wb", "src/decoders/dcs.rs:image", "src/decoders/nrw.rs:image", "src/decoders/nrw.rs:get_wb", "src/decoders/tfr.rs:image", "src/decoders/tfr.rs:get_wb", "src/decoders/tiff.rs:find_ifds_with_tag"]}
{"id": "C80", "title": "Whole files that are not TIFF: Minolta, ARRI, Sigma and files without a header", "statement": "For every Minolta file made of blocks, whatever their order and number and whatever unknown blocks it has, decoding returns exactly the stored picture at the end of the blocks: 12-bit packed samples if the block of the size says 12, else the low 12 bits of words of 16 bits, with the width, the height and the four levels of the last block of each kind, the levels in the order the camera is marked with, zeros without such a block, and the camera and the orientation named in the directory of the last directory block. For every ARRI file decoding returns the 12-bit samples in words of 32 bits at the stored position, with the three stored binary32 numbers as white balance and the camera named from byte 668 on. A file with the mark of Sigma is never decoded. For every file without a header whose size is that of a camera, decoding returns the samples of 10 or 12 bits in words of 16 bits, as the size and the dimensions imply, or for marked cameras the rows of whole words of 16 bits; if the implied number of bits is another one, the file is refused.", "quantifier": "all file contents, all lists of blocks, all databases, all image sizes and pictures, all stored levels, both builds", "why_tests_cant": "The claim is about all orders and repetitions of blocks and all sizes; a sample file fixes one, and the repository has no sample files.", "anchors": ["src/decoders/mrw.rs:new", "src/decoders/mrw.rs:image", "src/decoders/ari.rs:image", "src/decoders/ari.rs:get_wb", "src/decoders/x3f.rs:image", "src/decoders/x3f.rs:decode_compressed", "src/decoders/nkd.rs:image", "src/decoders/mod.rs:get_decoder"]}
{"id": "C81", "title": "Whole Canon CR2 files", "statement": "For every CR2 file whose raw directory (the first with the CR2 mark, else the first with a colour pattern, else the oldest kind with a position only) holds a lossless JPEG of 2, 3 or 4 components, decoding returns exactly the picture that was cut into the vertical slices stated in the file, or the lines as they are if no slices are stated, with two lines out of one for the cameras so marked, and with the white balance of the colour data at the place the camera states, else of the PowerShot field, else of the oldest field, else none. For every CR2 file with a JPEG of blocks that share their colour differences (small pictures), decoding returns for every pixel the red, green and blue that its own brightness and the colour differences of its block give with the levels of white of the file, held to 16 bits, in the order of the slices or of the slices of line pairs, with three values per pixel, no crop, black 0 and white 65535. For cameras that store samples through a curve of 4096 values, decoding returns the dithered curve values, with the random numbers started from the first sample.", "quantifier": "all file contents, all databases, all image sizes, all numbers and widths of slices, all pictures, all levels of white (green at most 16384, red and blue at least 64 for small pictures), both builds", "why_tests_cant": "The claim is about every combination of slices, sampling and sizes; the repository has no sample files and the private ones of the author cover the combinations of cameras that exist.", "anchors": ["src/decoders/cr2.rs:image", "src/decoders/cr2.rs:get_wb", "src/decoders/cr2.rs:convert_to_rgb", "src/decoders/ljpeg/mod.rs:decode", "src/decoders/mod.rs:check_supported"]}
{"id": "C82", "title": "Whole Fuji files", "statement": "For every RAF file, which begins with FUJIFILM and has at fixed places the positions of the directories about the shot, of a table and of either further directories or the raw data itself, decoding returns exactly the samples that are stored at the stated position: counted from the start of the further directories if there are any, else from the start of the file; in the size of the directory or, if it states none, of the table; with the number of bits stated (16 if none), in the byte order of the directories about the shot, or in the packing of the two special kinds of cameras; with the white balance of the directory or else of the table. For cameras whose sensor is turned by 45 degrees, the result is the picture without its borders, turned so that every pixel has its own place and the rest is 0, with no borders left; if the number of lines (columns for the other way of turning) without the borders is odd, decoding gives an error.", "quantifier": "all file contents, all databases, all image sizes and borders, all positions of the parts, all records of the table, both byte orders, both builds", "why_tests_cant": "The claim is about every arrangement of the parts of a file and every size; the repository has no sample files.", "anchors": ["src/decoders/raf.rs:image", "src/decoders/raf.rs:get_wb", "src/decoders/raf.rs:rotate_image", "src/decoders/tiff.rs:new_file", "src/decoders/tiff.rs:new_fuji", "src/decoders/mod.rs:check_supported"]}
{"id": "C83", "title": "Whole Samsung files", "statement": "For every SRW file whose first directory with picture data states a size, a compression, a number of bits and a position, decoding returns exactly the stored samples: words of 12 or 14 bits, packed 12 bits in the bit order of the camera, or the picture that was compressed in any of the three ways of Samsung, in the first of which the lines are found through the table at the stated place. The white balance is the levels of the maker note less its black levels, read from the positions counted from the directory of the maker note and not from the start of the file.", "quantifier": "all file contents, all databases, all image sizes the packings are for, all pictures, all choices of an encoder, all levels, both byte orders, both builds", "why_tests_cant": "The claim is about every picture, every choice an encoder makes and every place of the maker note; the repository has no sample files.", "anchors": ["src/decoders/srw.rs:image", "src/decoders/srw.rs:get_wb", "src/decoders/srw.rs:decode_srw1", "src/decoders/srw.rs:decode_srw2", "src/decoders/srw.rs:decode_srw3", "src/decoders/tiff.rs:copy_offset_from_parent"]}
{"id": "C84", "title": "Whole Leaf files", "statement": "For every TIFF file without a maker tag whose software tag says Camera Library, the camera is the one named by the first tiff:Make and tiff:Model elements of the XMP text, whatever serial number follows the model in parentheses, and decoding returns exactly the stored samples: 16-bit words in the byte order of the file, or the picture that was compressed as lossless JPEG in strips of eight lines, with every interlaced line on its own row. The white balance is the first neutral value of the metadata over the other three, or NaN if there is no such section. The orientation is that of the camera: an orientation tag in the file has no effect.", "quantifier": "all file contents, all databases, all XMP texts in UTF-8, all image sizes, all pictures, all tables and restart markers, both byte orders, both builds, all decimal parsers", "why_tests_cant": "The claim is about every XMP text, every picture and every encoder; the repository has no sample files.", "anchors": ["src/decoders/mos.rs:image", "src/decoders/mos.rs:get_wb", "src/decoders/mos.rs:xmp_tag", "src/decoders/mos.rs:decode_compressed", "src/decoders/mod.rs:get_decoder", "src/decoders/tiff.rs:get_str"]}
{"id": "C85", "title": "The camera database that comes with the program", "statement": "The files in data/cameras, joined in any order, load without a panic. Every camera listed in a file is then found under each of its names and in each of its modes. It is found with exactly the settings of its file, unless the name is one of ten that two files list; whatever is found comes from a file that lists the name. For the ten the order of the files decides: the EOS 350D gets its own levels or those of the 300D.", "quantifier": "all 442 files, all their names and modes, all orders of the files, all names that are looked up", "why_tests_cant": "The claim is about every order in which the files may be joined and about every name; the joined file is not in the repository.", "anchors": ["data/cameras/join.rs:main", "src/decoders/mod.rs:RawLoader::new", "src/decoders/mod.rs:update_from_toml", "src/decoders/mod.rs:check_supported_with_everything", "src/decoders/mod.rs:CAMERAS_TOML"]}
{"id": "C86", "title": "Levels and matrices of the shipped cameras", "statement": "Every camera that the program knows has a white level above its black level, and a colour matrix with independent columns whose entries are represented exactly.", "quantifier": "all cameras that can be looked up, under all names and in all modes, all orders of the files, all files of the two exceptions", "why_tests_cant": "The claim is about every camera in the database; there are sample files for none of them.", "anchors": ["src/decoders/mod.rs:RawLoader::new", "src/decoders/mod.rs:update_from_toml", "src/decoders/nrw.rs:image", "src/decoders/image.rs:pseudoinverse"]}
{"id": "C87", "title": "Headerless files of the shipped cameras", "statement": "Every headerless file with the size of one of the headerless cameras in the database is decoded without an error or a panic: to a picture of that camera with its width and height, the samples unpacked as its settings say, and its black levels, measured in the masked columns if it has any.", "quantifier": "all contents of files with one of the 14 sizes that no header identifies, all orders of the files, both builds", "why_tests_cant": "The claim is about all contents of files of several megabytes.", "anchors": ["src/decoders/nkd.rs:image", "src/decoders/mod.rs:get_decoder", "src/decoders/image.rs:RawImage::new", "data/cameras/canon/a610.toml:filesize"]}
{"id": "C88", "title": "Colours of the shipped cameras are recovered to single precision", "statement": "For every camera that the program knows, the camera-to-XYZ matrix computed in binary32 arithmetic is finite, and multiplied with the balanced readings of any colour it gives that colour relative to the reference white: in each coordinate within two millionths of the largest coordinate. Balanced white comes out as white within 2.2 millionths. The neutral white balance brings the answer of each channel the camera has to that of the second channel within one millionth, and every such channel answers to white. The product of the matrix with a pixel as the program computes it in binary32 differs by at most 2.4 millionths more, and whatever a channel the camera does not have holds does not matter.", "quantifier": "all cameras that can be looked up in the shipped database, under all names and in all modes, all orders of the files, all colours", "why_tests_cant": "The claim is about all cameras and all colours, and about the sum of the rounding errors of some two hundred operations.", "anchors": ["src/decoders/image.rs:RawImage::xyz_matrix_and_neutralwb", "src/decoders/image.rs:RawImage::pseudoinverse", "src/decoders/image.rs:RawImage::cam_to_xyz", "src/decoders/image.rs:RawImage::neutralwb", "src/decoders/mod.rs:RawLoader::new"]}
{"id": "C89", "title": "An overexposed picture comes out in one colour, the same for every camera, and it is not white", "statement": "Take a picture from any camera the program knows in which every sample is at the white level of its channel or above, whose white balance does not lower any channel below green, and in which each colour of the camera is measured at every pixel or beside it. At full size, in any orientation and in both builds, to_srgb succeeds and every pixel has the same bytes, the same for all these cameras: red 255, green 248, blue 243. White is therefore shown with a warm cast: cam_to_xyz divides by the D65 white, and lab_to_rec709 does not multiply it back in.", "quantifier": "all cameras that can be looked up in the shipped database, all sizes and crops, all sensor patterns that cover the camera's channels, all levels, all balances with green least, all samples above the white level, all orientations, every cbrt and powf with the stated accuracy", "why_tests_cant": "The claim is about every camera and every overexposed picture at once; the bytes depend on the rounding of the whole chain of single precision operations, which is bounded here instead of sampled.", "anchors": ["src/imageops/mod.rs:simple_decode", "src/imageops/level.rs:level_and_balance", "src/imageops/colorspaces.rs:camera_to_lab", "src/imageops/colorspaces.rs:lab_to_rec709", "src/imageops/colorspaces.rs:xyz_to_lab", "src/imageops/curves.rs:base", "src/imageops/gamma.rs:gamma", "src/decoders/image.rs:RawImage::cam_to_xyz", "src/decoders/image.rs:RawImage::to_srgb"]}
{"id": "C90", "title": "A picture at the black level comes out exactly black", "statement": "If every sample of the cropped area is at the black level of its channel, then at full size, in every orientation, all three outputs are exactly zero: every value of to_linear_rgb and of to_rgb is the number 0.0, and every byte of to_srgb is 0. This holds for every colour matrix whose conversion to XYZ consists of numbers and uses only channels measured at each pixel or next to it, for every white balance within a factor of 65536, and whatever the platform's cbrt and powf return: the roundings of the conversions to L*a*b* and back, of the tone curve and of the matrix to Rec. 709 cancel exactly. In particular it holds for every camera in the database.", "quantifier": "all image sizes up to 2^22, all crops, all colour filter patterns, all levels, all white balances with ratios within 65536, all conversion matrices of finite numbers, all orientations, all implementations of cbrt and powf, both builds; in particular all cameras of the shipped database", "why_tests_cant": "The claim is about exact cancellation of single precision roundings for every combination of levels, balance and matrix; a test with one camera shows it for that camera's levels and matrix only.", "anchors": ["src/imageops/level.rs:level_and_balance", "src/imageops/colorspaces.rs:camera_to_lab", "src/imageops/colorspaces.rs:xyz_to_lab", "src/imageops/colorspaces.rs:lab_to_rec709", "src/imageops/curves.rs:base", "src/imageops/gamma.rs:gamma", "src/decoders/image.rs:to_linear_rgb", "src/decoders/image.rs:to_srgb"]}
{"id": "C91", "title": "A flat field stays flat, in a colour that does not depend on the geometry", "statement": "If all samples of each channel in the cropped area are equal, then at full size every pixel of to_linear_rgb, to_rgb and to_srgb is the same colour, with no border, grid or corner artefacts of the demosaicing. For given readings, levels, white balance coefficients and colour matrix, numbers or not, there is one colour for all pictures: it does not depend on the size, the crop, the colour filter pattern and where in it the crop begins, the orientation or the build. The colours of the pattern have to be measured at each pixel or next to it, which a pattern of two by two does in every picture of at least two by two pixels.", "quantifier": "all image sizes up to 2^22, all crops, all colour filter patterns, all readings, levels, balances and matrices including infinities and NaN, all orientations, all implementations of cbrt and powf, both builds", "why_tests_cant": "A test compares pixels of a few pictures; the claim compares all pixels of all pictures with the same readings, over all sizes, crops and patterns.", "anchors": ["src/imageops/demosaic.rs:full", "src/imageops/mod.rs:decoder", "src/imageops/level.rs:level_and_balance", "src/imageops/colorspaces.rs:camera_to_lab", "src/decoders/image.rs:to_linear_rgb", "src/decoders/image.rs:to_rgb", "src/decoders/image.rs:to_srgb"]}
{"id": "C92", "title": "The colour of a pixel depends only on the samples around it", "statement": "For given levels, white balance coefficients and colour matrix there is one function from neighbourhoods to colours such that, at full size, every pixel of to_linear_rgb, to_rgb and to_srgb of every picture taken through a colour filter pattern has the colour this function gives for its own neighbourhood: the samples, and their colours in the pattern, at most one row and one column away inside the cropped area. The pixel is where the EXIF orientation puts it. So equal neighbourhoods give equal colours, in one picture or in different ones of different sizes, crops and orientations; and two pictures that differ in one sample have the same bytes at all pixels more than one row or column away from it.", "quantifier": "all image sizes up to 2^22, all crops, all colour filter patterns, all samples, levels, balances and matrices including infinities and NaN, all eight orientations, all implementations of cbrt and powf, both builds", "why_tests_cant": "That a value does not depend on the rest of the picture is a statement about all pairs of pictures; a test compares a few pairs.", "anchors": ["src/imageops/demosaic.rs:full", "src/imageops/mod.rs:decoder", "src/imageops/level.rs:level_and_balance", "src/imageops/colorspaces.rs:camera_to_lab", "src/imageops/transform.rs:rotate", "src/decoders/image.rs:to_linear_rgb", "src/decoders/image.rs:to_srgb"]}
{"id": "C93", "title": "The command line program writes the picture completely, or nothing", "statement": "Running `rawloader <file> [outfile]` on a file that decodes to a usable picture ends with status 0 and writes one file, to outfile or else to the name of the raw file with .ppm added, which is never the raw file itself. A reader of portable pixmaps finds in it exactly the size and the bytes that to_srgb returns at full size: the program clamps before multiplying and to_srgb afterwards, and for no value, including infinities and NaN, does that change the byte. The sum, mean, least and greatest sample it prints are right for the first width*height samples, which are all of them for pictures with one sample per pixel and one third of them for those with three. Status 0 is returned exactly if a file has been written; no arguments give 1, a file that cannot be decoded or an output that cannot be created gives 2, a picture with fewer samples than pixels gives 101, and in these cases nothing is written.", "quantifier": "all argument lists, file contents, camera databases, usable pictures, answers of the operating system, implementations of cbrt and powf, both builds", "why_tests_cant": "The byte must agree for every single precision value and the header must read back for every size; a test runs the program on a few files.", "anchors": ["src/bin/rawloader.rs:main", "src/bin/rawloader.rs:error", "src/bin/rawloader.rs:usage", "src/decoders/image.rs:to_rgb", "src/decoders/image.rs:to_srgb"]}
{"id": "C94", "title": "Developing a cropped picture is developing what is inside the crop", "statement": "For pictures with one sample per pixel, with or without colour filters, to_linear_rgb, to_rgb and to_srgb at every requested size are the same as for the smaller picture that has only the samples inside the crop and the filter pattern that begins there. So samples outside of the crop have no influence, and two pictures whose cropped areas agree in size, samples and filter colours give the same results even if their sensors, crops and patterns are different, including the same panic where a requested size is too small.", "quantifier": "all sizes below 2^63, all crops with at least one column left, all accepted patterns, all samples, levels, balances and matrices, all orientations, all requested sizes, all implementations of cbrt and powf, both builds", "why_tests_cant": "Independence of the margins is a statement about all pairs of pictures and all requested sizes.", "anchors": ["src/imageops/gofloat.rs:convert", "src/decoders/image.rs:cropped_cfa", "src/decoders/cfa.rs:shift", "src/imageops/demosaic.rs:demosaic_and_scale", "src/imageops/mod.rs:decoder"]}
{"id": "C95", "title": "A rotated picture is the rotation of the picture, at every size", "statement": "Developing a picture that carries EXIF orientation n, at any requested maximum size, gives exactly the numbers of developing the same picture without orientation, each pixel moved to the place EXIF prescribes for n. For the orientations that exchange the sides the maximum width and maximum height of the upright development are exchanged. This holds for the linear floats, the gamma encoded floats and the 8 bit sRGB bytes, and when the upright picture cannot be made the turned one fails in the same way.", "quantifier": "For every picture that meets the stated sanity conditions (crops inside the picture, a full sample buffer), every orientation number, every pair of requested sizes that does not round a side to zero, both builds and every libm.", "why_tests_cant": "Tests rotate a few stored buffers; the claim is about the whole pipeline, whose demosaicing, scaling, colour conversion and rotation have to commute for every size and every content.", "anchors": ["src/imageops/mod.rs:decoder", "src/imageops/transform.rs:rotate", "src/imageops/transform.rs:rotate_buffer", "src/decoders/mod.rs:Orientation::to_flips", "src/decoders/image.rs:to_srgb"]}
{"id": "C96", "title": "A monochrome picture is developed by one curve, pixel by pixel", "statement": "For a sensor without colour filters the three output values of a pixel at full size depend only on that pixel's own sample: for given black levels, white levels and matrix there is one curve, and every output (linear floats, gamma encoded floats, sRGB bytes) of every such picture is the curve applied to each sample, at the place the orientation prescribes. The white balance stored in the file has no influence, at any requested size.", "quantifier": "For every monochrome picture (one sample per pixel, no valid pattern) with crops inside the picture and a full buffer, all samples, sizes, crops, orientations, white balances, both builds and every libm.", "why_tests_cant": "Two pictures can agree on every tested sample while a neighbouring pixel, a crop or a coefficient leaks into the result somewhere else; only a statement over all pictures rules that out.", "anchors": ["src/imageops/gofloat.rs:convert", "src/imageops/demosaic.rs:demosaic_and_scale", "src/imageops/level.rs:level_and_balance", "src/decoders/image.rs:is_monochrome", "src/imageops/mod.rs:decoder"]}
{"id": "C97", "title": "A requested size that the picture already fits changes nothing", "statement": "Asking for a maximum size that the picture, turned as it is displayed, already fits gives exactly the output of asking for no maximum, number for number; so does any request in which one of the two limits is zero. In particular pictures are never enlarged and an exact fit is not resampled.", "quantifier": "For every picture that meets the stated sanity conditions (crops inside the picture, a full sample buffer, sides up to 2^22), every orientation, every pair of limits below 2^64, both builds and every libm.", "why_tests_cant": "Whether an exact fit is resampled hangs on single precision quotients of the sides; rounding could push one of them past 1 for sizes nobody tested.", "anchors": ["src/imageops/demosaic.rs:demosaic_and_scale", "src/imageops/mod.rs:decoder", "src/decoders/image.rs:to_rgb", "src/decoders/image.rs:to_srgb", "src/decoders/image.rs:to_linear_rgb"]}
{"id": "C98", "title": "Only the ratios of the white balance matter", "statement": "Multiplying the white balance coefficients of a picture by a common factor changes no number of any output, at any requested size: cameras that write their balance relative to green and cameras that write it in units of 1/256 or 1/1024 are treated alike. Coefficients that are not ordinary numbers (missing, zero, infinite) may stay as they are.", "quantifier": "For every picture, every four coefficients and every non-zero factor by which the ordinary ones can be multiplied exactly, every requested size, both builds and every libm; no condition on sizes, crops, samples or pattern.", "why_tests_cant": "The claim is bit for bit equality of floats for arbitrary factors and pictures; a test shows it for the factors tried, and rounding makes other factors the interesting ones.", "anchors": ["src/imageops/level.rs:level_and_balance", "src/decoders/image.rs:neutralwb", "src/imageops/mod.rs:decoder", "src/decoders/image.rs:to_srgb"]}
{"id": "C99", "title": "The number of bits of the samples does not matter", "statement": "A file that stores the same light with more bits, that is with all samples, white levels and black levels multiplied by the same power of two, gives exactly the same output at full size: to_linear_rgb, to_rgb and to_srgb return the same numbers bit for bit. No brightness shift and no rounding difference comes from a camera writing 12 bit samples in the upper bits of 16.", "quantifier": "For every picture of one sample per pixel, with any colour pattern or with none, any crops, orientation, matrix and white balance, any levels (also equal or reversed ones), and every power of two for which samples and levels still fit sixteen bits; both builds and every libm; no size requested.", "why_tests_cant": "Equality bit for bit over all pictures, levels and shifts: the means of neighbours and the differences from the black level are rounded in single precision, and a test can try only a few of them.", "anchors": ["src/imageops/level.rs:level_and_balance", "src/imageops/demosaic.rs:full", "src/imageops/gofloat.rs:convert", "src/imageops/mod.rs:decoder", "src/decoders/image.rs:to_srgb"]}
{"id": "C100", "title": "Samples of a monochrome picture above the white level are white", "statement": "Cutting off the samples of a monochrome picture at the white level, or at any number above it, changes no number of to_linear_rgb, to_rgb and to_srgb at full size: no detail, wrap-around or inversion appears in blown highlights, however far the samples exceed the level.", "quantifier": "For every monochrome picture (one sample per pixel, no pattern) with black levels below the white levels, every content of sixteen bit samples, every limit not below the white levels of the three channels, every crop, orientation, matrix, white balance, both builds and every libm; no size requested.", "why_tests_cant": "It quantifies over all pictures, levels and excesses, and asks for equality of floats; a test shows some overexposed samples only.", "anchors": ["src/imageops/level.rs:level_and_balance", "src/imageops/gofloat.rs:convert", "src/imageops/mod.rs:decoder", "src/decoders/image.rs:to_srgb"]}
{"id": "C101", "title": "The fourth channel of a camera with three colours does not matter", "statement": "For a picture of a camera in the database whose matrix has no fourth row, the fourth white balance coefficient, the fourth white level and the fourth black level change no number of to_linear_rgb, to_rgb and to_srgb at full size. Decoders leave these at different values (missing, zero, or a copy of green) and the pictures still agree bit for bit.", "quantifier": "For every camera found in the shipped database in any order of its files, without a fourth colour; every picture with any colour pattern, crops, orientation and sixteen bit samples, black levels below white levels, coefficients positive and within a factor of 65536 of that of green or, for the fourth, not an ordinary number; both builds and every libm; no size requested.", "why_tests_cant": "It ranges over all cameras, pictures and values of the unused entries, and depends on a column of a matrix inverted in single precision being exactly zero and on zeros of either sign being treated alike.", "anchors": ["src/imageops/level.rs:level_and_balance", "src/imageops/colorspaces.rs:camera_to_lab", "src/decoders/image.rs:cam_to_xyz", "src/imageops/mod.rs:decoder", "src/decoders/image.rs:to_srgb"]}
{"id": "C102", "title": "The three outputs are one picture", "statement": "There is one curve such that, at every requested size and orientation, to_rgb has the size of to_linear_rgb and each of its values is the curve applied to the value at the same place, and to_srgb has the same size and at each place 255 times the value of to_rgb, cut to a byte. The curve gives zero for everything that is not positive or not a number, and the same value for everything from one on. If one of the three succeeds on a usable picture so do the others.", "quantifier": "For every picture whose arrays fit its sizes (with a pattern, monochrome, or three values per pixel), every crop and orientation, every requested size that leaves at least one pixel in each direction, both builds and every libm.", "why_tests_cant": "The three functions run the whole pipeline separately; that they agree at every place for every picture, size and orientation is a relation between runs.", "anchors": ["src/decoders/image.rs:to_rgb", "src/decoders/image.rs:to_srgb", "src/decoders/image.rs:to_linear_rgb", "src/imageops/gamma.rs:gamma", "src/imageops/mod.rs:decoder", "src/imageops/transform.rs:rotate_buffer"]}
