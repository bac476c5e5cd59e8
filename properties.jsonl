{"id": "C01", "title": "Arithmetic coding is lossless with adaptive probability tables", "statement": "Start an encoding session, encode any sequence of symbols where each symbol names one of any number of adaptive probability tables, finish the session, and hand the produced bits (followed by any other bits) to the decoder with the same initial tables and the same table choices: the decoder returns exactly the encoded symbols.", "quantifier": "every finite bank of well-formed tables (any alphabet sizes), every finite sequence of (table, in-range symbol) pairs, every trailing bit string", "why_tests_cant": "The state space (16-bit low/range, unbounded carry run, table contents adapted by history) is unbounded; carries that ripple through long runs of ones occur on rare histories that sampled tests do not reach.", "anchors": ["src/bool_coder.rs: BoolCoder::init_encoder, encode_symbol, exit_encoder, init_decoder, decode_symbol", "tests/test_bool_coder.rs"]}
{"id": "C02", "title": "Encoder and decoder adapt their probability tables identically", "statement": "After encoding a sequence of symbols and decoding the result, every table on the decoder side equals the corresponding table on the encoder side, after every symbol.", "quantifier": "every bank of well-formed tables and every symbol history", "why_tests_cant": "Drift shows only after specific long histories; it is a statement about all prefixes of all histories.", "anchors": ["src/bool_coder.rs: encode_symbol (update cdf), decode_symbol (update cdf)"]}
{"id": "C03", "title": "The decoder never reads past the session's own bits", "statement": "Decoding the symbols of one session consumes no bit beyond those emitted for that session, and in particular never hits the end-of-input assertion on a stream produced by the encoder, even with nothing following it.", "quantifier": "every symbol history over well-formed tables, with empty or arbitrary trailing data", "why_tests_cant": "Depends on the exact number of renormalisation shifts of every history.", "anchors": ["src/bool_coder.rs: init_decoder, decode_symbol, exit_encoder"]}
{"id": "C04", "title": "Adaptation keeps probability tables well formed for ever", "statement": "Starting from a well-formed table (strictly increasing, first entry positive, last entry 32768, counter between 0 and 32), after any number of symbols the table is still well formed; in particular no symbol ever gets probability zero and the counter never exceeds 32.", "quantifier": "every well-formed table with 2 to 16 symbols, every symbol history of any length", "why_tests_cant": "Inductive invariant over unbounded histories.", "anchors": ["src/bool_coder.rs: encode_symbol / decode_symbol update loop"]}
{"id": "C05", "title": "Encoding a symbol terminates and keeps the coder state in range", "statement": "Encoding an in-range symbol with a well-formed table never panics, never overflows a 32-bit integer in the coder registers, finishes after at most fifteen renormalisation steps and leaves the range register in [32768, 65535] and the value register in [0, 65535].", "quantifier": "every reachable coder state, every well-formed table, every in-range symbol", "why_tests_cant": "Quantifies over all reachable states; termination cannot be tested.", "anchors": ["src/bool_coder.rs: encode_symbol"]}
{"id": "C06", "title": "A symbol of probability zero can never be encoded", "statement": "If the table gives the requested symbol an empty interval (two equal consecutive entries), encoding does not terminate: the renormalisation loop runs for ever. Callers therefore rely on tables being strictly increasing.", "quantifier": "every coder state and every table with an empty interval at the symbol", "why_tests_cant": "Non-termination cannot be established by running.", "anchors": ["src/bool_coder.rs: encode_symbol renormalisation loop"]}
{"id": "C07", "title": "A finished session occupies whole bytes", "statement": "Ending an encoding session pads with zero bits so that the number of bits emitted by that session is a multiple of eight, also when the same coder object is used for several sessions in a row.", "quantifier": "every number of consecutive sessions on one coder, every symbol history in each", "why_tests_cant": "Depends on a counter carried over from all earlier sessions.", "anchors": ["src/bool_coder.rs: init_encoder, encode_symbol, exit_encoder (bit_count)"]}
{"id": "C08", "title": "Fixed-probability bits and literals round-trip, interleaved with adaptive symbols", "statement": "Bits coded with a fixed probability p (0..255 of 256) and n-bit literals are returned unchanged by the matching decode calls, interleaved in any order with adaptive symbols, for values below 2^n.", "quantifier": "every p in 0..255, every n, every value < 2^n, every interleaving", "why_tests_cant": "Unbounded interleavings; every value of n and every history.", "anchors": ["src/bool_coder.rs: encode_symbolp, encode_symbols, encode_literal, decode_symbolp, decode_symbols, decode_literal"]}
{"id": "C09", "title": "Distinct symbol sequences give distinct streams", "statement": "Two different symbol sequences coded with the same table choices and the same initial tables never produce the same output bits.", "quantifier": "all pairs of sequences of the same length with the same table choices", "why_tests_cant": "A statement about pairs of unbounded histories.", "anchors": ["src/bool_coder.rs: encode_symbol, exit_encoder"]}
{"id": "C10", "title": "All built-in probability tables are well formed", "statement": "Every one of the default probability tables shipped with the encoder is strictly increasing, starts above zero, ends at 32768 and has adaptation counter 0, and its shape agrees with its declaration, so the losslessness guarantee applies to sessions started from the defaults.", "quantifier": "every default table (4648 tables in 97 families)", "why_tests_cant": "Tests encode through a handful of tables; one bad row breaks only streams that reach it.", "anchors": ["src/cdf.rs: default_cdf, struct CDF"]}
{"id": "C11", "title": "Fixed-width fields are written most significant bit first, and only the low bits survive", "statement": "Writing v in n bits appends exactly n bits, the big-endian binary expansion of v mod 2^n, leaves earlier bits unchanged, and therefore loses v exactly when v >= 2^n; n above 32 is rejected by a panic.", "quantifier": "every v, every n, every existing output", "why_tests_cant": "All values and widths; truncation only shows at the boundary.", "anchors": ["src/bool_coder.rs: push_bit, push_bits_with_size, push_bits"]}
{"id": "C12", "title": "uvlc round-trips every value below the maximum", "statement": "Every value below 2^32-1 written as a variable-length unsigned code is read back unchanged, leaving exactly the trailing bits; the maximum value panics in the encoder; the code has odd length 2*floor(log2(v+1))+1.", "quantifier": "every u32 value, every trailing bit string", "why_tests_cant": "2^32 values and unbounded trailing data.", "anchors": ["src/bool_coder.rs: encode_uvlc, decode_uvlc"]}
{"id": "C13", "title": "Little-endian fields round-trip", "statement": "A value written in n little-endian bytes is read back as the value mod 2^(8n), leaving exactly the trailing bits (n at most 8).", "quantifier": "every u64, every n in 0..8, every trailing bit string", "why_tests_cant": "2^64 values", "anchors": ["src/bool_coder.rs: encode_le, decode_le"]}
{"id": "C14", "title": "leb128 round-trips, is minimal and bounded", "statement": "Every value below 2^56 written as leb128 is read back unchanged leaving exactly the trailing bits; the code uses the least possible number of bytes (1 to 8); every value at or above 2^56 is rejected by an assertion.", "quantifier": "every u64, every trailing bit string", "why_tests_cant": "2^64 values", "anchors": ["src/bool_coder.rs: encode_leb128, decode_leb128"]}
{"id": "C15", "title": "Signed fields round-trip", "statement": "A signed value in [-2^(n-1), 2^(n-1)) written in n bits is read back unchanged leaving exactly the trailing bits, and the written bits are its n-bit two's complement.", "quantifier": "every n in 1..62 and every value in range (from 63 bits on negative values panic), every trailing bit string", "why_tests_cant": "unbounded domain", "anchors": ["src/bool_coder.rs: encode_su, decode_su"]}
{"id": "C16", "title": "Non-symmetric codes round-trip", "statement": "A value below n written with the non-symmetric code for n is read back unchanged leaving exactly the trailing bits; each code has w-1 or w bits with w = floor(log2 n)+1.", "quantifier": "every n in 1..2^63-1, every value < n, every trailing bit string", "why_tests_cant": "unbounded domain", "anchors": ["src/bool_coder.rs: encode_ns, decode_ns", "src/util.rs: FloorLog2!"]}
{"id": "C17", "title": "Header codes are self-delimiting in any mixture", "statement": "Any sequence of fixed-width, uvlc, little-endian, leb128, signed and non-symmetric fields written one after another is read back field by field unchanged, and no code word of one kind (with the same parameters) is a proper prefix of another.", "quantifier": "every finite sequence of fields of any kinds and parameters in range", "why_tests_cant": "Unbounded sequences of mixed fields.", "anchors": ["src/bool_coder.rs: encode_uvlc, encode_le, encode_leb128, encode_su, encode_ns, push_bits_with_size"]}
{"id": "C18", "title": "msb16, msb32 and msb64 compute floor(log2)", "statement": "For every non-zero argument the three table-driven functions return floor(log2 n) without going outside their tables, and 0 for 0.", "quantifier": "every u16, u32 and u64", "why_tests_cant": "2^64 inputs", "anchors": ["src/util.rs: msb16, msb32, msb64"]}
{"id": "C19", "title": "Rounding helpers meet their arithmetic definition", "statement": "Round2(x,n) is x/2^n rounded half up for every integer x; the signed variant should be symmetric (Round2Signed(-x,n) = -Round2Signed(x,n)); floor-log2 of n satisfies 2^r <= n < 2^(r+1) and is undefined (panics) at 0.", "quantifier": "every integer x, every shift n", "why_tests_cant": "unbounded domain", "anchors": ["src/util.rs: Round2!, Round2Signed!, FloorLog2!"]}
{"id": "C20", "title": "The bit writer packs bits losslessly", "statement": "At every moment the bytes handed to the output, followed by the pending partial byte, spell exactly the concatenation of all bits ever written, most significant bit first, independent of how the bits were grouped into calls.", "quantifier": "every sequence of write-bit / write-bits / align operations", "why_tests_cant": "Unbounded operation sequences", "anchors": ["src/binary_writer.rs: write_bit, write_bits, byte_align"]}
{"id": "C21", "title": "Byte alignment pads with at most seven zero bits and is idempotent", "statement": "Aligning emits the pending partial byte padded with zero bits on the right, does nothing when nothing is pending, a second align is a no-op, and afterwards the output is a whole number of bytes.", "quantifier": "every reachable writer state", "why_tests_cant": "all states", "anchors": ["src/binary_writer.rs: byte_align", "src/bool_coder.rs: push_bits_align"]}
{"id": "C22", "title": "The bit writer is a byte-exact inverse of bit unpacking", "statement": "Writing the unpacked bits of any byte string through the writer emits that byte string and nothing else.", "quantifier": "every byte string", "why_tests_cant": "unbounded strings", "anchors": ["src/binary_writer.rs: write_bits"]}
{"id": "C23", "title": "A frame read never silently yields partial data", "statement": "When the reader reports success for a plane, every sample of the plane comes from the input file, in order.", "quantifier": "every input length and every plane size, every split of the input into OS reads", "why_tests_cant": "Short reads depend on the OS and on buffer boundaries", "anchors": ["src/binary_reader.rs: read_to_vec", "src/main.rs: main"]}
{"id": "C24", "title": "Command line: every accepted configuration is complete and in range", "statement": "If parsing and validation both succeed then input and output are set, width and height are between 1 and 8191, frames is set and the frame rate has positive numerator and denominator.", "quantifier": "every argument list", "why_tests_cant": "unbounded argument lists", "anchors": ["src/option.rs: CommandOption::parse, validate_config, init_config"]}
{"id": "C25", "title": "Command line: every option on the command line takes effect", "statement": "If parsing succeeds, every argument was consumed by some option, and for each option the last occurrence wins regardless of the other options' order.", "quantifier": "every argument list", "why_tests_cant": "unbounded argument lists; order interactions", "anchors": ["src/option.rs: parse, OPTIONS (framerate parser)"]}
{"id": "C26", "title": "Command line: malformed arguments are reported, not crashed on", "statement": "For every argument list the parser returns success or an error message; it does not panic.", "quantifier": "every argument list of every strings", "why_tests_cant": "all strings, including empty, lone dash and non-ASCII", "anchors": ["src/option.rs: parse, framerate parser"]}
{"id": "C27", "title": "OBU header byte identifies the OBU type", "statement": "Every OBU header is the single byte 8*type with the forbidden, extension, size and reserved bits zero; the type number is recoverable, distinct OBU kinds have distinct bytes, and they match the AV1 type numbers.", "quantifier": "every OBU kind, every prior output", "why_tests_cant": "Small but complete enumeration over all states", "anchors": ["src/obu_encoder.rs: encode_obu_header"]}
{"id": "C28", "title": "A temporal unit is length-prefixed and self-contained", "statement": "The bytes written for a temporal unit start with the leb128 byte count of everything that follows, then the frame unit size, the OBU length, the OBU header and the OBU payload, so that units can be concatenated and split again.", "quantifier": "every OBU, every writer state", "why_tests_cant": "every payload length", "anchors": ["src/obu_encoder.rs: encode_obu, encode_temporal_unit"]}
{"id": "C29", "title": "The sequence header carries the video size", "statement": "From the bits of the sequence header a decoder following the AV1 syntax recovers exactly the width and height given on the command line.", "quantifier": "every width and height in 1..8191", "why_tests_cant": "8191^2 sizes", "anchors": ["src/obu_encoder.rs: encode_obu_payload OBU_SEQUENCE_HEADER", "src/sequence_header.rs: SequenceHeader::new"]}
{"id": "C30", "title": "Sequence header encoding does not crash on an accepted size", "statement": "For every width and height accepted by the command line the sequence header is produced without panic.", "quantifier": "every width and height in 1..8191", "why_tests_cant": "8191^2 sizes", "anchors": ["src/obu_encoder.rs: encode_obu_payload OBU_SEQUENCE_HEADER", "src/option.rs: size validator"]}
{"id": "C31", "title": "HDR metadata round-trips", "statement": "Content light level and mastering display metadata are recoverable from the payload bits: the type code followed by every field unchanged, in the AV1 order.", "quantifier": "every field value (16 and 32 bit)", "why_tests_cant": "2^(16*8+64) values", "anchors": ["src/obu_encoder.rs: encode_obu_payload OBU_METADATA"]}
{"id": "C32", "title": "Metadata kinds are distinguishable", "statement": "Metadata payloads of different kinds never have the same bits, and the type code matches the kind's AV1 number.", "quantifier": "all pairs of metadata values", "why_tests_cant": "all pairs of values", "anchors": ["src/obu_encoder.rs: encode_obu_payload OBU_METADATA", "src/obu.rs: MetaData"]}
{"id": "C33", "title": "Timecode metadata keeps every given field", "statement": "A timecode with any combination of seconds, minutes and hours present (an absent field never preceding a present one) is recoverable from its payload bits.", "quantifier": "every combination of optional fields and values in range", "why_tests_cant": "all values", "anchors": ["src/obu_encoder.rs: METADATA_TYPE_TIMECODE"]}
{"id": "C34", "title": "Scalability metadata keeps the whole structure", "statement": "The scalability structure (any number of layers, descriptions and temporal groups within the field widths) is recoverable from its payload bits.", "quantifier": "every structure", "why_tests_cant": "unbounded nested lists", "anchors": ["src/obu_encoder.rs: METADATA_TYPE_SCALABILITY"]}
{"id": "C35", "title": "Padding OBU of n bytes", "statement": "A padding OBU of size n writes exactly n zero bytes after the header.", "quantifier": "every n and every writer state that is byte aligned", "why_tests_cant": "every n", "anchors": ["src/obu_encoder.rs: OBU_PADDING, encode_obu"]}
{"id": "C36", "title": "Output of a run", "statement": "For every accepted command line and every input, the program writes the sequence header unit exactly once if at least one frame is requested, nothing otherwise, and the output does not depend on the input's contents or length.", "quantifier": "every configuration, every input", "why_tests_cant": "every input file", "anchors": ["src/main.rs: main"]}
{"id": "C37", "title": "Order-hint distance is the signed wrap-around distance", "statement": "The relative distance of two order hints is the unique value congruent to their difference modulo 2^bits in [-2^(bits-1), 2^(bits-1)), antisymmetric except at the extreme, and zero when order hints are disabled.", "quantifier": "every bit width and every pair of hints", "why_tests_cant": "unbounded domain", "anchors": ["src/common.rs: get_relative_dist"]}
{"id": "C38", "title": "Motion vector candidate list stays bounded and duplicate free", "statement": "While candidates are collected, the list never holds more than its capacity, never holds two equal candidates, and weights only grow.", "quantifier": "every sequence of candidate insertions", "why_tests_cant": "unbounded sequences", "anchors": ["src/tile_encoder.rs: add_ref_mv_candidate"]}
{"id": "C39", "title": "Partition search leaves no trace of rejected candidates in the stream", "statement": "After the partition search of a block the output bits, coder registers and probability tables equal those of encoding only the chosen partition.", "quantifier": "every block, every set of candidates, every coder state", "why_tests_cant": "speculative execution over all states", "anchors": ["src/tile_encoder.rs: encode_partition"]}
{"id": "C40", "title": "Uniform tile layout covers the frame", "statement": "The tile start positions computed for uniform spacing begin at 0, strictly increase, stay inside the frame, have equal widths except the last and together cover every superblock exactly once.", "quantifier": "every frame size and every requested log2 tile count", "why_tests_cant": "all sizes", "anchors": ["src/obu_encoder.rs: OBU_FRAME_HEADER tile info"]}
{"id": "C41", "title": "Subexponential codes of global-motion parameters round-trip", "statement": "A parameter in range written with the subexponential code relative to a reference is recovered by the AV1 decoding process from the same reference.", "quantifier": "every value, reference and range", "why_tests_cant": "unbounded domain", "anchors": ["src/obu_encoder.rs: encode_signed_subexp_with_ref, encode_unsigned_subexp_with_ref, encode_subexp"]}
{"id": "C42", "title": "Segment id prediction mapping is a bijection", "statement": "For every prediction and maximum, mapping a segment id to its coded index never underflows and distinct ids get distinct indices below the maximum.", "quantifier": "every prediction, maximum and id", "why_tests_cant": "all triples", "anchors": ["src/tile_encoder.rs: encode_segment_id, neg_interleave"]}
{"id": "C43", "title": "Context selection never indexes outside a probability table", "statement": "For every syntax element and every combination of neighbouring block information the selected table index is inside its table and the coded symbol is inside the table's alphabet.", "quantifier": "every syntax element, every neighbour state", "why_tests_cant": "product of all neighbour states", "anchors": ["src/bool_coder.rs: encode_* functions"]}
{"id": "C44", "title": "Reference-frame trees identify the reference", "statement": "The sequence of binary decisions written for a single or compound reference determines the reference frame(s), and different references give different decision sequences.", "quantifier": "every legal reference choice and context", "why_tests_cant": "complete enumeration over contexts", "anchors": ["src/tile_encoder.rs: encode_mode_info ref frames"]}
{"id": "C45", "title": "Block geometry tables agree with block names", "statement": "For every block size, the width, height, 4x4-count and mi_*_log2 (log2 of the 4x4 count) tables agree with the block name, and every partition subsize is the shape the partition cuts, or BLOCK_INVALID exactly where the partition does not exist.", "quantifier": "every block size and partition type", "why_tests_cant": "finite but every row matters", "anchors": ["src/constants.rs: block_width, block_height, mi_width_log2, num_4x4_blocks_wide, partition_subsize"]}
{"id": "C46", "title": "Frames keep neighbour lookups inside the block map", "statement": "For every frame size and every position inside the frame, reading the block info at, above and left of the position stays inside the allocated map.", "quantifier": "every frame size and position", "why_tests_cant": "all sizes", "anchors": ["src/frame.rs: Frame::new, get_mi, get_above_mi, get_left_mi, mi_rows, mi_cols"]}
{"id": "C47", "title": "Motion vector addition and precision lowering", "statement": "Lowering the precision of a vector component leaves it unchanged when high-precision vectors are allowed, otherwise gives the nearest value of the required granularity (even, or a multiple of 8 when integer vectors are forced; ties towards zero), and is idempotent; vector addition and subtraction are inverse when no overflow occurs.", "quantifier": "every motion vector", "why_tests_cant": "2^32 vectors", "anchors": ["src/tile_encoder.rs: lower_mv_precision", "src/common.rs: MotionVector add/sub"]}
{"id": "C48", "title": "Leaving the decoder positions the input after the session", "statement": "After decoding the symbols of a session of sz bytes that was announced as sz bytes, leaving the decoder removes exactly the rest of the session from the input, so that the next read sees the data that follows it.", "quantifier": "every session over well-formed tables, every trailing bit string", "why_tests_cant": "Depends on the number of renormalisation shifts of the whole history; a test with one session and no trailing data cannot see it.", "anchors": ["src/bool_coder.rs: BoolCoder::init_decoder, decode_symbol, exit_decoder, exit_encoder"]}
{"id": "C49", "title": "ITU-T T.35 metadata keeps its payload", "statement": "The payload bytes given with ITU-T T.35 metadata are in the metadata bits after the country code.", "quantifier": "every country code and payload", "why_tests_cant": "The payload has arbitrary length and content; a test fixes one.", "anchors": ["src/obu_encoder.rs: METADATA_TYPE_ITUT_T35"]}
{"id": "C50", "title": "Every sequence header setting is recoverable", "statement": "For all settings within their field widths the sequence header is produced without panic and each setting it mentions (profile, operating points, size, frame ids, tools, order hints, color, timing, decoder model, film grain) is recovered from the bits by one reader, whatever follows.", "quantifier": "every combination of settings within range", "why_tests_cant": "The settings interact (reduced headers, profiles, sRGB, decoder model) and their combinations cannot be enumerated.", "anchors": ["src/obu_encoder.rs: encode_obu_payload OBU_SEQUENCE_HEADER"]}
{"id": "C51", "title": "Repeating the sequence header repeats its bits", "statement": "Encoding the same sequence header again after it has been encoded gives the same bits.", "quantifier": "every header and encoder context", "why_tests_cant": "Needs the state left behind by the first encoding for every setting.", "anchors": ["src/obu_encoder.rs: encode_obu_payload OBU_SEQUENCE_HEADER"]}
{"id": "C52", "title": "Standard output carries only the stream", "statement": "When the output is stdout, the bytes on standard output are exactly the encoded stream.", "quantifier": "every accepted command line, every input", "why_tests_cant": "A test sees one run; the claim is about all of them.", "anchors": ["src/main.rs: main", "src/binary_writer.rs: BinaryWriter::standard"]}
{"id": "C53", "title": "Produced output reaches the file", "statement": "Whatever the program has handed to its output file is in the file when the process is gone, also when it stops early.", "quantifier": "every command line, every behaviour of the input", "why_tests_cant": "Depends on when reads fail and on buffering, which tests do not control.", "anchors": ["src/main.rs: main", "src/binary_writer.rs: BinaryWriter::file"]}
{"id": "C54", "title": "Frames of the configured size are read", "statement": "A run of n frames consumes n frames of the configured size from the input.", "quantifier": "every accepted size and frame count, every input that is long enough", "why_tests_cant": "All sizes and frame counts cannot be tried.", "anchors": ["src/main.rs: main", "src/frame.rs: Frame::new"]}
{"id": "C55", "title": "The parts of a partition tile the block", "statement": "For every partition type allowed for a square block, the blocks coded for it cover every 4x4 unit of the square that lies inside the frame exactly once and no other unit.", "quantifier": "every partition type, square block size, position and frame size", "why_tests_cant": "Positions and frame sizes are unbounded, and the frame edge changes which parts are coded.", "anchors": ["src/tile_encoder.rs: encode_partition", "src/constants.rs: partition_subsize, num_4x4_blocks_wide"]}
{"id": "C56", "title": "Transform size tables agree with transform names", "statement": "For every transform size the width, height, log2, enclosed and enclosing square and clamped tables agree with its name; looking up dimensions finds exactly the transform size that has them, and TX_INVALID for all others; the shift between the rows and the columns of a transform follows from its dimensions.", "quantifier": "every transform size; every pair of dimensions", "why_tests_cant": "All pairs of dimensions cannot be tried.", "anchors": ["src/constants.rs: tx_width, tx_height, tx_size_sqr, tx_size_sqr_up, adjusted_tx_size", "src/common.rs: find_tx_size"]}
{"id": "C57", "title": "Chroma block size follows subsampling", "statement": "The residual size of a luma block is its own size; that of a chroma block has the subsampled dimensions, at least 4, or is BLOCK_INVALID exactly for one-directional subsampling of a block longer in the other direction.", "quantifier": "every block size, plane and subsampling", "why_tests_cant": "Planes are unbounded; every row of the table matters.", "anchors": ["src/common.rs: get_plane_residual_size", "src/constants.rs: subsampled_size"]}
{"id": "C58", "title": "Transform sets are those of AV1", "statement": "For every transform size, prediction type and reduced-set flag, the transform types a block may use are exactly those of the AV1 transform set for that block.", "quantifier": "every transform size, transform type, inter/intra and reduced flag", "why_tests_cant": "The property is about agreement of two tables over all rows; a test would repeat the table.", "anchors": ["src/common.rs: get_tx_set", "src/constants.rs: tx_type_in_set_inter, tx_type_in_set_intra"]}
{"id": "C59", "title": "Inferred transform type is allowed", "statement": "Whatever type was stored, the transform type computed for a block is one that the AV1 transform set of the block contains.", "quantifier": "every block environment", "why_tests_cant": "The stored types and positions are unbounded.", "anchors": ["src/common.rs: compute_tx_type"]}
{"id": "C60", "title": "Probability table choice does not depend on the coded value", "statement": "Which adaptive table codes an element is a function of already coded information only: changing the value to be coded leaves the table unchanged (a decoder does not know the value when it chooses the table).", "quantifier": "every syntax element, neighbourhood and pair of values", "why_tests_cant": "Needs all pairs of values for all contexts.", "anchors": ["src/bool_coder.rs: encode_* functions"]}
{"id": "C61", "title": "Partition tables are those for the block's size", "statement": "The table used to code a block's partition is the AV1 table for the block's size.", "quantifier": "every square block size and context", "why_tests_cant": "A test would fix a size; the claim is about all.", "anchors": ["src/bool_coder.rs: encode_partition", "src/constants.rs: mi_width_log2"]}
{"id": "C62", "title": "Transform type symbols decode to the chosen type", "statement": "The symbol written for a transform type is the one that an AV1 decoder maps back to the type.", "quantifier": "every transform set and type", "why_tests_cant": "All pairs of set and type in every context.", "anchors": ["src/bool_coder.rs: encode_inter_tx_type, encode_intra_tx_type"]}
{"id": "C63", "title": "Contexts equal those of the AV1 specification", "statement": "For every element whose context is computed from neighbours (segment id prediction, skip, skip mode, inter flag, all reference decisions, reference type, interpolation filter, transform depth) or from chroma signs, the table index equals the AV1 formula.", "quantifier": "every element, every above and left neighbour", "why_tests_cant": "The neighbourhoods form an infinite space; contexts interact with every previously coded block.", "anchors": ["src/bool_coder.rs: encode_skip .. encode_cfl_alpha_v"]}
{"id": "C64", "title": "Derived partition flags have a valid table", "statement": "The two-symbol tables that encode_split_or_horz and encode_split_or_vert derive from a partition table are valid probability tables for every partition table and block size.", "quantifier": "every partition table, block size and context", "why_tests_cant": "The derived tables depend on adapted probabilities.", "anchors": ["src/bool_coder.rs: encode_split_or_horz, encode_split_or_vert"]}
{"id": "C65", "title": "Near candidates outweigh temporal ones", "statement": "In the motion vector candidate list every candidate found next to the block has a larger weight than any candidate found only in the motion field.", "quantifier": "every neighbourhood, motion field and block", "why_tests_cant": "Weights are sums over arbitrarily many neighbours.", "anchors": ["src/tile_encoder.rs: find_mv_stack, add_ref_mv_candidate"]}
{"id": "C66", "title": "The candidate search never fails", "statement": "For every block inside a tile find_mv_stack returns a list of candidates.", "quantifier": "every block position, tile and frame", "why_tests_cant": "The failing positions depend on tile layout and on state other code should have filled.", "anchors": ["src/tile_encoder.rs: find_mv_stack"]}
{"id": "C67", "title": "Quantizer index deltas decode", "statement": "Reading the delta written for a block, the decoder arrives at the block's quantizer index.", "quantifier": "every previous index, new index and resolution", "why_tests_cant": "All pairs of indices and resolutions.", "anchors": ["src/tile_encoder.rs: encode_mode_info 658-683"]}
{"id": "C68", "title": "Loop filter deltas decode", "statement": "The decoder reads back the loop filter delta that was written.", "quantifier": "every delta and filter", "why_tests_cant": "All values.", "anchors": ["src/tile_encoder.rs: encode_mode_info 685-713"]}
{"id": "C69", "title": "Encoder and decoder agree on the inter mode", "statement": "The inter prediction mode the encoder goes on with is the one a decoder reads from the elements.", "quantifier": "every block, one or two references, every earlier block", "why_tests_cant": "The mode depends on earlier blocks.", "anchors": ["src/tile_encoder.rs: encode_mode_info 819-844"]}
{"id": "C70", "title": "Encoder and decoder choose the same candidate", "statement": "The candidate index the encoder goes on with is the one a decoder reads from the drl_mode elements.", "quantifier": "every mode, number of candidates and choice", "why_tests_cant": "Unbounded number of candidates and choices.", "anchors": ["src/tile_encoder.rs: encode_mode_info 845-873"]}
{"id": "C71", "title": "Motion vectors can be decoded", "statement": "Blocks that differ only in a freely chosen motion vector are written differently, and vectors taken from the candidate list are those of AV1.", "quantifier": "every block, vector, mode and list of candidates", "why_tests_cant": "Vectors and lists are unbounded.", "anchors": ["src/tile_encoder.rs: assign_mv"]}
{"id": "C72", "title": "CDEF index covers exactly the block", "statement": "The CDEF index of a block is recorded for the 64x64 areas the block covers and leaves every other area alone.", "quantifier": "every block position and size, every grid", "why_tests_cant": "All positions, sizes and grids.", "anchors": ["src/tile_encoder.rs: encode_mode_info 632-656"]}
{"id": "C73", "title": "A block carries its prediction mode", "statement": "Every intra predicted block carries its luma prediction mode in the stream, in intra and in inter frames.", "quantifier": "every block, frame and state", "why_tests_cant": "All blocks in all states.", "anchors": ["src/tile_encoder.rs: encode_mode_info"]}
{"id": "C74", "title": "Deltas are written once per superblock", "statement": "Of the blocks of a superblock only the first writes quantizer and loop filter deltas, and then one quantizer delta and as many loop filter deltas as AV1 reads.", "quantifier": "every sequence of blocks", "why_tests_cant": "Sequences of blocks are unbounded.", "anchors": ["src/tile_encoder.rs: encode_mode_info"]}
{"id": "C75", "title": "CDEF index written exactly when read", "statement": "The CDEF index of a block is written exactly when an AV1 decoder reads it.", "quantifier": "every block, frame and grid", "why_tests_cant": "All combinations of flags and grids.", "anchors": ["src/tile_encoder.rs: encode_mode_info 632-656"]}
{"id": "C76", "title": "Tile info is read back", "statement": "A decoder that reads the tile information of a frame header gets the tile columns, rows, context tile and size field the encoder chose, for uniform and for explicit spacing.", "quantifier": "every frame size, superblock size and tile configuration", "why_tests_cant": "All sizes and tile splits; the defects need particular limits.", "anchors": ["src/obu_encoder.rs: encode_frame_header 750-815"]}
{"id": "C77", "title": "Tiles are numbered row by row", "statement": "Tile number n lies in row n / columns and column n mod columns, and the number of tiles in the header is the number of tiles of the frame.", "quantifier": "every tile grid and tile number", "why_tests_cant": "All grids.", "anchors": ["src/tile_encoder.rs: encode_tile 116-117", "src/obu_encoder.rs: 1408-1452"]}
{"id": "C78", "title": "Quantization parameters are read back", "statement": "A decoder that reads the quantization parameters gets the base index, the offsets and the matrices the encoder works with after the header.", "quantifier": "every parameter set, plane count and colour configuration", "why_tests_cant": "All parameter sets.", "anchors": ["src/obu_encoder.rs: encode_frame_header 817-858"]}
{"id": "C79", "title": "Segmentation parameters are read back", "statement": "A decoder that reads the segmentation parameters gets the flags and features the caller set.", "quantifier": "every parameter set allowed by AV1", "why_tests_cant": "All feature sets and values.", "anchors": ["src/obu_encoder.rs: encode_frame_header 860-901"]}
{"id": "C80", "title": "Segmentation features in force are those sent", "statement": "After a header the encoder has in force exactly the features it sent, and derives pre-skip and the last active segment from them.", "quantifier": "every parameter set", "why_tests_cant": "All feature sets.", "anchors": ["src/obu_encoder.rs: encode_frame_header 879-912"]}
{"id": "C81", "title": "Delta parameters are read back", "statement": "A decoder that reads the delta quantizer and delta loop filter parameters gets what the encoder works with after the header.", "quantifier": "every parameter set and base index", "why_tests_cant": "All parameter sets.", "anchors": ["src/obu_encoder.rs: encode_frame_header 914-942"]}
{"id": "C82", "title": "Lossless frames are recognised", "statement": "A frame is coded as lossless exactly if AV1 takes it for lossless, and its transform mode is read back.", "quantifier": "every quantizer, segmentation and state", "why_tests_cant": "All quantizers and feature sets.", "anchors": ["src/obu_encoder.rs: encode_frame_header 947-985, 1099-1109"]}
{"id": "C83", "title": "Loop filter parameters are read back", "statement": "A decoder that reads the loop filter parameters gets the levels, sharpness and updated deltas the caller set.", "quantifier": "every parameter set and plane count", "why_tests_cant": "All combinations of update flags.", "anchors": ["src/obu_encoder.rs: encode_frame_header 987-1030"]}
{"id": "C84", "title": "CDEF parameters are read back", "statement": "A decoder that reads the CDEF parameters gets the strengths the encoder works with after the header, also when the header is written again.", "quantifier": "every parameter set, plane count and enable flag", "why_tests_cant": "All strengths and flags.", "anchors": ["src/obu_encoder.rs: encode_frame_header 1032-1057"]}
{"id": "C85", "title": "Loop restoration parameters are read back", "statement": "A decoder that reads the loop restoration parameters gets the types and unit sizes the caller set.", "quantifier": "every parameter set, plane count and enable flag", "why_tests_cant": "All parameters and flags.", "anchors": ["src/obu_encoder.rs: encode_frame_header 1059-1097"]}
{"id": "C86", "title": "Global motion parameters reach the decoder", "statement": "The global motion section of a frame header is read by an AV1 decoder as the motion model type and parameters the encoder holds for each of the seven references.", "quantifier": "every combination of flags, every set of parameters, both vector precisions", "why_tests_cant": "depends on all contexts and on a reader the repository does not contain", "anchors": ["src/obu_encoder.rs: OBU_FRAME_HEADER global motion params"]}
{"id": "C87", "title": "Global motion vectors agree with AV1", "statement": "The global motion vector predicted for a block is the one AV1 derives from the same model, position, block size and precision.", "quantifier": "every model, every block position and size", "why_tests_cant": "unbounded positions and parameters", "anchors": ["src/tile_encoder.rs: find_mv_stack, setup_global_mv"]}
{"id": "C88", "title": "Film grain parameters reach the decoder", "statement": "The film grain section of a frame header is read by an AV1 decoder as the grain parameters of the encoder, and is absent when AV1 does not code it; writing the same frame again gives the same bits.", "quantifier": "every parameter set in range, every kind of frame and picture format", "why_tests_cant": "combinatorial in all counts, lags and flags", "anchors": ["src/obu_encoder.rs: OBU_FRAME_HEADER film grain params", "src/frame.rs: FilmGrainParams"]}
{"id": "C89", "title": "Showing an existing frame is one header, and the next frame gets its own", "statement": "A header that shows an existing frame is read by an AV1 decoder as the same frame index, display time and frame id, and the header written after it is complete.", "quantifier": "every frame index, every sequence with or without frame ids and timing, every following frame", "why_tests_cant": "depends on state left behind by one header for the next", "anchors": ["src/obu_encoder.rs: OBU_FRAME_HEADER show_existing_frame (337-364)"]}
{"id": "C90", "title": "Reference frame ids are kept valid exactly while they can be named", "statement": "After each frame id the references marked valid are the ones whose id differs by at most 2^diff_len modulo the id space, and exactly those have a delta that the id section can code.", "quantifier": "every id length, every current id, every list of references", "why_tests_cant": "modular arithmetic over all id spaces", "anchors": ["src/obu_encoder.rs: OBU_FRAME_HEADER frame ids (409-437)"]}
{"id": "C91", "title": "The opening of an intra frame header reaches the decoder", "statement": "The part of a frame header up to the frame size and intra block copy is read by an AV1 decoder as the frame type, visibility, resilience, screen content, ids, order hint, removal times, refresh flags and sizes the encoder was asked for.", "quantifier": "every intra-only or key frame, shown or hidden, every sequence", "why_tests_cant": "combinatorial in sequence flags, frame type and sizes", "anchors": ["src/obu_encoder.rs: OBU_FRAME_HEADER (330-600)"]}
{"id": "C92", "title": "Frame size, superresolution and render size reach the decoder", "statement": "The decoder reads the coded width and height, the upscaled width and the render size the encoder holds, and the encoder may write the frame again with the same result.", "quantifier": "every size, every sequence maximum, every superresolution denominator", "why_tests_cant": "arithmetic on all sizes and denominators", "anchors": ["src/obu_encoder.rs: frame_size, superres_params, render_size"]}
{"id": "C93", "title": "An inter frame header is written, with the references the decoder will use", "statement": "The header of an inter frame completes, and its reference list and id differences are read as the encoder's references.", "quantifier": "every inter or switch frame, every list of references and ids", "why_tests_cant": "depends on every reference list, sequence and id space", "anchors": ["src/obu_encoder.rs: OBU_FRAME_HEADER references (560-650)"]}
{"id": "C94", "title": "A whole frame header reaches the decoder", "statement": "From its first bit to film grain, the header of an intra frame is read by an AV1 decoder as the frame parameters of the encoder, with nothing left over.", "quantifier": "every lossless intra frame with film grain, every parameter of every section in range", "why_tests_cant": "the sections depend on each other's results; only their composition decides", "anchors": ["src/obu_encoder.rs: OBU_FRAME_HEADER (330-1406)"]}
{"id": "C95", "title": "Skip mode uses the nearest references in display order", "statement": "Skip mode is allowed exactly when there is a past reference and either a future one or a second past one, and its two frames are the nearest such references, the lower index first, the first index on ties.", "quantifier": "every list of order hints that lie within half a cycle", "why_tests_cant": "quantifies over all orders of references", "anchors": ["src/obu_encoder.rs: OBU_FRAME_HEADER skip mode params"]}
{"id": "C96", "title": "Raw bytes written through the bit writer keep their place", "statement": "Bytes written through the Write interface of the bit writer appear after all bits written before them.", "quantifier": "every sequence of bit writes and alignments, every byte string", "why_tests_cant": "quantifies over every pending position", "anchors": ["src/binary_writer.rs: impl Write for BinaryWriter"]}
{"id": "C97", "title": "A failed run is visible in the exit status", "statement": "A run that rejects its command line, cannot open a file or cannot read its input ends with a status other than 0.", "quantifier": "every command line, every behaviour of files and reads", "why_tests_cant": "depends on the surroundings of the process", "anchors": ["src/main.rs: main"]}
{"id": "C98", "title": "Monochrome sequences have no chroma parameters in their frames", "statement": "The frame header sections of a sequence use the number of planes of the sequence header, so a decoder reads them as written.", "quantifier": "every sequence header and context, every quantizer setting", "why_tests_cant": "relates state set by one OBU to bits of another", "anchors": ["src/obu_encoder.rs: 201, 828", "src/encoder.rs: num_planes"]}
{"id": "C99", "title": "Restoration unit sizes left for the tiles are the ones the decoder derives", "statement": "After a frame header with loop restoration the context holds the luma and chroma unit sizes AV1 derives from the coded shifts.", "quantifier": "every shift, superblock size and subsampling, every previous context", "why_tests_cant": "state carried between frames", "anchors": ["src/obu_encoder.rs: lr params (1088-1096)"]}
{"id": "C100", "title": "Tile number to tile area", "statement": "Encoding tile n works on the area at row n / TileCols and column n % TileCols of the layout.", "quantifier": "every layout of rows and columns, every tile number, every list of start positions", "why_tests_cant": "layouts and start positions are unbounded; tests use one tile", "anchors": ["src/tile_encoder.rs: encode_tile 112-121"]}
{"id": "C101", "title": "Superblock walk of a tile", "statement": "The tile encoder calls the superblock encoder once for every superblock of the tile, in raster order, each 4x4 position belonging to exactly one superblock.", "quantifier": "every tile area, both superblock sizes, every superblock encoder and state", "why_tests_cant": "loop over unbounded areas with arbitrary state", "anchors": ["src/tile_encoder.rs: encode_tile 141-173"]}
{"id": "C102", "title": "A tile can be encoded and starts from defaults", "statement": "encode_tile returns for every tile of the frame whose parts can be encoded, after resetting quantizer index, loop filter deltas and restoration references to the defaults of AV1.", "quantifier": "every tile inside the frame, every state, every block encoder", "why_tests_cant": "all tiles and states", "anchors": ["src/tile_encoder.rs: encode_tile 112-176, encode_superblock 321-330"]}
{"id": "C103", "title": "Chroma of small blocks", "statement": "A block codes chroma exactly if it holds the last luma unit of a chroma unit, and the availability of chroma neighbours is that of the place where its chroma starts.", "quantifier": "every block size, position, subsampling, plane count and tile area", "why_tests_cant": "positions unbounded; interaction of size, parity and subsampling", "anchors": ["src/tile_encoder.rs: encode_block 509-537, is_inside 108-110"]}
{"id": "C104", "title": "Range of a tile group", "statement": "A decoder reads back the first and the last tile of a tile group.", "quantifier": "every layout up to 64x64 tiles, every range of tiles", "why_tests_cant": "all layouts and ranges", "anchors": ["src/obu_encoder.rs: OBU_TILE_GROUP 1408-1429"]}
{"id": "C105", "title": "Data of a tile group", "statement": "A tile group contains the coded data of each of its tiles.", "quantifier": "every tile encoder, layout and range", "why_tests_cant": "arbitrary tile data", "anchors": ["src/obu_encoder.rs: OBU_TILE_GROUP 1431-1452"]}
{"id": "C106", "title": "Remaining block-level contexts match the specification", "statement": "For every block element other than those of C60-C63 whose context is computed (mode, reference selection, segment id, comparison of distances, transform split, intra directions), the table row the coder selects is the one the AV1 specification derives from the two neighbouring blocks.", "quantifier": "all block elements of this group, all legal values, all pairs of neighbouring blocks present or absent", "why_tests_cant": "contexts depend on every combination of two neighbouring block descriptions; a table-driven test sees a sample only", "anchors": ["src/bool_coder.rs:387-1327", "src/common.rs:139-188"]}
{"id": "C107", "title": "Coefficient contexts match the specification", "statement": "For every coefficient element (all-zero flag, end of block, base level, increment, sign) the table set, the transform-size row and the context are those the AV1 specification derives from the quantizer index, the coded levels along the block edges, and the already coded coefficients.", "quantifier": "all coefficient elements, all quantizer indices, all transform sizes and types, all coefficient blocks, all neighbours", "why_tests_cant": "depends on unbounded coefficient arrays, scan position and quantizer index together", "anchors": ["src/bool_coder.rs:387-1327"]}
{"id": "C108", "title": "Every restoration unit is visited once", "statement": "Walking the superblocks of a frame, each loop-restoration unit of each plane is coded at exactly one superblock, and no unit outside the frame's unit grid is coded.", "quantifier": "every frame size, subsampling, unit size, superresolution denominator, superblock size", "why_tests_cant": "unit and superblock grids are independent; rounding cases are unbounded", "anchors": ["src/tile_encoder.rs: encode_lr 178-214"]}
{"id": "C109", "title": "Restoration filter coefficients decode", "statement": "A decoder reading a coded self-guided filter coefficient obtains the value the caller supplied.", "quantifier": "every coefficient, every previous coefficient of the plane", "why_tests_cant": "depends on a running reference value; all pairs matter", "anchors": ["src/tile_encoder.rs: encode_lr 229-276, 296-316"]}
{"id": "C110", "title": "Restoration units announce their type", "statement": "For every restoration unit, the bits written are arithmetic coded and tell the decoder which filter the unit uses; the type kept in the frame is that one and units of a frame without restoration cost nothing.", "quantifier": "every frame restoration type, unit, plane and position", "why_tests_cant": "the decoder's view of the type depends on every combination of frame and unit type", "anchors": ["src/tile_encoder.rs: encode_lr 178-228, 277-296"]}
{"id": "C111", "title": "Uncoded restoration coefficients are derived as in the decoder", "statement": "When a filter set switches off the second self-guided filter, the coefficient kept as reference for later units is the one the decoder derives.", "quantifier": "every unit, first coefficient and state", "why_tests_cant": "a drift between encoder and decoder state shows only in later units", "anchors": ["src/tile_encoder.rs: encode_lr 301-315"]}
{"id": "C112", "title": "Every frame-carrying OBU carries its frame", "statement": "Whenever a frame can be given to encode_obu_payload as a frame header OBU, giving it as OBU_FRAME in the same state yields a payload that begins with that header; frames with different headers are distinguishable in the output.", "quantifier": "all encoder states, all frames, all OBU kinds", "why_tests_cant": "The unit tests encode single helper functions; no test encodes a frame OBU, and no finite set of frames shows that none is lost.", "anchors": ["src/obu_encoder.rs:1405", "src/obu_encoder.rs:1454"]}
{"id": "C113", "title": "A repeated frame header is a copy of the first", "statement": "In any sequence of encode_obu_payload calls, a frame header OBU that is repeated before its frame is complete has the same payload as the first one, and the first frame header OBU of a frame is written out in full.", "quantifier": "all sequences of calls of all OBU kinds, all states, all frames", "why_tests_cant": "The payload depends on state left by any number of earlier calls; tests start from one fresh context.", "anchors": ["src/obu_encoder.rs:314", "src/obu_encoder.rs:320", "src/obu_encoder.rs:1393", "src/obu_encoder.rs:1447"]}
{"id": "C114", "title": "Frame headers follow the sequence header that announces them", "statement": "A decoder that reads a sequence header as written and takes the parameters of the frame header syntax from it (frame id lengths, decoder model, order hints, planes, colour configuration, tools) reads back the frame header written after it.", "quantifier": "all sequence headers, all contexts, all frames that fit their fields", "why_tests_cant": "The two headers are written by different branches from partly different copies of the same settings; a test of either branch alone sees no disagreement.", "anchors": ["src/obu_encoder.rs:93", "src/obu_encoder.rs:201", "src/obu_encoder.rs:326", "src/obu_encoder.rs:828", "src/encoder.rs:16"]}
{"id": "C115", "title": "The start of a block is read back", "statement": "The segment id, the skip flag and the parts before them that a block writes are read by AV1's syntax for the start of a block, which returns the segment id and skip flag the block has and leaves the following symbols alone.", "quantifier": "all blocks, all segmentation settings, all neighbouring segment ids, all following symbols", "why_tests_cant": "Whether the id comes before or after the skip flag, is predicted or coded, depends on five settings and the neighbours; tests look at single elements.", "anchors": ["src/tile_encoder.rs:543", "src/tile_encoder.rs:595"]}
{"id": "C116", "title": "Inter flag and references are read back", "statement": "The inter flag and the references a block writes are read back by AV1's syntax, with the flag or references inferred exactly when the segment fixes them.", "quantifier": "all blocks, all segment features, all reference pairs, all following symbols", "why_tests_cant": "A feature of one segment changes which symbols exist; no finite set of blocks covers the features.", "anchors": ["src/tile_encoder.rs:717", "src/tile_encoder.rs:738"]}
{"id": "C117", "title": "Inter blocks without a coded vector are read back", "statement": "An inter block with one reference and a mode that takes its vector from the candidate list is read back: a decoder with the same candidates obtains the reference, the mode and the vector the encoder assigned.", "quantifier": "all blocks, all candidate lists, all following symbols", "why_tests_cant": "Composition of reference tree, mode tree, candidate index and vector assignment; each has its own contexts and exits.", "anchors": ["src/tile_encoder.rs:738", "src/tile_encoder.rs:819"]}
{"id": "C118", "title": "Intra block copy vectors point where AV1 says", "statement": "The predicted vector of an intra block copy block is the one AV1 derives from the candidate list and the superblock row, and the joint type written for a vector difference names exactly the components that differ, under one reading of the vector components as row and column.", "quantifier": "all candidate lists, all block positions, all tiles, all vector differences", "why_tests_cant": "The two functions agree with AV1 only under opposite readings of the components; each alone looks right in a test.", "anchors": ["src/tile_encoder.rs:1359", "src/tile_encoder.rs:1397"]}
{"id": "C119", "title": "The motion vector candidates are AV1's", "statement": "The candidate list built for an inter block holds the candidates AV1 collects from the blocks above, to the left, at the top right corner and from the motion field, with AV1's weights and in AV1's order; the zero vector context, the number of new vectors and the number of close matches are AV1's.", "quantifier": "all blocks, all references, all stored neighbours, all motion fields, all stacks left by earlier blocks", "why_tests_cant": "The list depends on every block along two edges and on the order in which duplicates arrive; an encoder and a decoder that differ in one weight desynchronise much later.", "anchors": ["src/tile_encoder.rs:888", "src/tile_encoder.rs:960", "src/tile_encoder.rs:1058", "src/tile_encoder.rs:1192"]}
{"id": "C120", "title": "A decoder that chooses its next request from earlier answers gets the right answers", "statement": "After any sequence of legal coding calls, every decoder program that decides each request (table, probability or literal) from the answers it got so far ends on the emitted bits with exactly the result it would have on the coded values, provided its requests match the calls, and with the same adapted tables as the encoder.", "quantifier": "all banks of well-formed tables, all sequences of legal calls, all decoder programs (of any result type), all trailing bits, all initial coder states", "why_tests_cant": "Tests replay a fixed list of requests; they cannot run all decoders whose table choice depends on what was decoded.", "anchors": ["src/bool_coder.rs:64-128", "src/bool_coder.rs:134-235", "src/bool_coder.rs:363-385"]}
{"id": "C121", "title": "A row of blocks is recovered from the bits", "statement": "For blocks with one reference and a mode that needs no vector difference (and for blocks that are not inter), with any CDEF index on a block that is not skipped, quantizer deltas below three steps and loop filter deltas below five, a decoder that gets contexts, candidate lists and predicted segment ids only from blocks decoded before recovers from the range coded bits of any number of blocks the segment id, skip flag, CDEF index, quantizer index, loop filter deltas, inter flag, reference, mode and motion vector of every block; and no call panics in the table choice or the coder.", "quantifier": "all rows (any length) of such blocks, all dependencies of neighbours and candidates on earlier blocks, all initial coder states, all trailing bits", "why_tests_cant": "A wrong context or symbol in one block desynchronises all later ones; unit tests code single symbols with fixed tables.", "anchors": ["src/tile_encoder.rs:595-886", "src/bool_coder.rs:455-760", "src/bool_coder.rs:64-235"]}
{"id": "C122", "title": "The partition tree and the blocks of a tile are recovered from the bits", "statement": "A decoder that walks the superblocks of a tile in raster order, divides each square by the partition syntax and geometry of AV1, and takes partition contexts, block contexts and candidates only from what it decoded before, recovers from the range coded bits of a tile every block with its position, size and decoded fields, whichever partition is chosen at each square; and if each block can be coded the whole tile can, so no superblock panics. It holds for partition types whose symbol is in the table used and whose parts lie where AV1 has them, and for squares whose middle row and column are inside the frame or that are split; and for frames whose width and height in 4x4 units are multiples of four (elsewhere the code decides differently from AV1 whether the middle of a 16x16 square is inside the frame, C55).", "quantifier": "all tiles of any size in such frames, all choices of readable partition types at every square, all block coders whose calls a block decoder can follow, all initial coder states, all trailing bits", "why_tests_cant": "One misplaced part or one wrong partition context shifts every later symbol; the number of trees of one superblock is astronomical.", "anchors": ["src/tile_encoder.rs:60-118", "src/tile_encoder.rs:321-507", "src/bool_coder.rs:413-452", "src/bool_coder.rs:64-235"]}
{"id": "C123", "title": "The partition context is AV1's", "statement": "The table for the partition symbol is chosen by AV1's rule: for each of the neighbour above and the neighbour to the left, whether it is available and smaller than the square being divided.", "quantifier": "all tiles, all squares, all sizes of neighbours", "why_tests_cant": "The context depends on how the neighbouring superblocks were divided; tests of one superblock see no neighbours.", "anchors": ["src/tile_encoder.rs:339-363", "src/bool_coder.rs:413-440"]}
{"id": "C124", "title": "Quantizer matrices cover every transform and are transposes of each other", "statement": "For every matrix level, plane kind and transform size, each coefficient of the coded area (at most 32x32) has a weight inside the table, between 30 and 242; a transform and the one with width and height exchanged have transposed weights, square ones are symmetric; level 15 is neutral (32 everywhere); two transforms share table entries only if their coded areas have the same shape; no entry is unused; all matrices of a level are regular samples of two, for square and for other transforms; the next level makes no weight larger by more than 2 nor smaller by more than 29.", "quantifier": "all 16 levels, 2 plane kinds, 19 transform sizes, all rows and columns", "why_tests_cant": "A typo in one of 107008 literals breaks reconstruction only for one coefficient of one transform at one level; no test of the encoder reaches the table.", "anchors": ["src/quantizer.rs:6", "src/quantizer.rs:11"]}
{"id": "C125", "title": "Quantizer steps grow with the index", "statement": "The DC and AC quantizer tables have 256 entries for each of the three bit depths, start at 4, never decrease with the index or the bit depth, and the AC step is never smaller than the DC step of the same index; distinct indices have distinct AC steps. Two more bits of depth multiply a step by four, up to 38 less and 4 more. The next index after 1 makes a step at most half as large again, and from index 20 on at most a fifteenth of it and one larger.", "quantifier": "all bit depths and indices", "why_tests_cant": "A transposed pair of table entries makes quality jump the wrong way at one index of 256 and nothing fails.", "anchors": ["src/quantizer.rs:6779", "src/quantizer.rs:6864"]}
{"id": "C126", "title": "Interpolation filters keep constants and are mirror images", "statement": "Every sub-pixel, warp and superresolution filter has eight taps and reproduces a constant signal exactly; position 0 copies a sample; filtering a mirrored signal at the mirrored position gives the same value (for warping except in the first and last row); before rounding, samples from 0 to m give values from -56m to 184m.", "quantifier": "all filters and positions, all sample values", "why_tests_cant": "Signals are unbounded in number; a swapped sign in one of 2824 taps shows only at one sub-pixel position of one filter.", "anchors": ["src/constants.rs:629", "src/constants.rs:728", "src/constants.rs:967"]}
{"id": "C127", "title": "Cosine and division tables are correctly rounded", "statement": "Entry i of the cosine table is 4096 cos(i pi/128) rounded to nearest, and entry i of the division table is 2^22/(256+i) rounded to nearest.", "quantifier": "all 65 and 257 entries, against the real cosine and exact division", "why_tests_cant": "A test can only compare with another table; that the entries are nearest to the real values needs bounds on the cosine.", "anchors": ["src/constants.rs:831", "src/constants.rs:921"]}
{"id": "C128", "title": "Blending weights are complementary and monotone", "statement": "Overlap masks of length 2^k have 2^k weights between 32 and 64 that never decrease and end in 64; wedge masters never decrease and are complementary under mirroring; inter-intra weights never grow; distance weights add up to 16 and the distance ratios that select them lie between the ratios of neighbouring weights; the second four CDEF directions are the first four turned by a right angle, and the chroma directions of frames halved in one direction only are mirror images of each other.", "quantifier": "all tables, all positions", "why_tests_cant": "Weights that do not add up shift the brightness of a few pixels along a block edge; no output of the encoder depends on them yet.", "anchors": ["src/constants.rs:858", "src/constants.rs:873", "src/constants.rs:903", "src/constants.rs:913", "src/constants.rs:956"]}
{"id": "C129", "title": "The output is as long as the information in the symbols", "statement": "The number of bits a coding session writes is the sum, over the coded symbols, of the logarithm of the inverse probability its table gave each symbol at that time, up to 24 bits per session and a fixed small loss per symbol; it is never less than the sum for probabilities raised by 1/128 plus 15; no symbol costs more than 15 bits.", "quantifier": "every bank of valid tables, every legal session of symbols, flags, flag runs and literals, every state of the coder before it", "why_tests_cant": "Compression efficiency on samples says nothing about the worst input; the bound ties together every rounding of every interval over sessions of any length.", "anchors": ["src/bool_coder.rs:142", "src/bool_coder.rs:209", "src/bool_coder.rs:220", "src/bool_coder.rs:363"]}
{"id": "C130", "title": "Symbols are coded as AV1 decodes them", "statement": "The AV1 symbol decoder (sections 8.2 and 8.3.4 of the specification) reads from a session's output the literals and symbols that were coded.", "quantifier": "every literal of up to 64 bits, every valid table and sequence of symbols", "why_tests_cant": "The encoder's own decoder makes the same departures from AV1, so round trip tests pass.", "anchors": ["src/bool_coder.rs:64", "src/bool_coder.rs:75", "src/bool_coder.rs:142", "src/bool_coder.rs:194", "src/bool_coder.rs:220", "src/constants.rs:448"]}
{"id": "C131", "title": "The partition symbol tells the partition type", "statement": "For every square block and every partition type allowed there, the symbol the encoder writes, or its absence, is the one AV1's syntax has at that place (the partition symbol inside the frame, a split-or-horizontal or split-or-vertical flag at an edge, nothing in a corner) and it tells the type; and the bits of a searched square begin with it.", "quantifier": "all square sizes, positions, frame sizes, partition types, candidate lists and coders", "why_tests_cant": "Frame sizes and positions are unbounded and each edge case writes another symbol; a wrong flag at one edge makes the rest of the tile unreadable.", "anchors": ["src/tile_encoder.rs: encode_partition 332-507", "src/constants.rs: num_4x4_blocks_wide"]}
{"id": "C132", "title": "Encoding the header of the same frame again writes the same header", "statement": "When OBU_FRAME_HEADER has been encoded for a frame and, after a temporal delimiter, is encoded again for the same frame and context, the second header consists of the same elements as the first, and so does every further one.", "quantifier": "every frame that is coded (show_existing_frame = 0) whose header is written, every context state, every number of repetitions", "why_tests_cant": "encode_obu_payload takes the frame and the context by mutable reference and rewrites many of their fields while writing them; a unit test looks at one header of one frame, while whether a second one agrees depends on all of some seventy fields at once.", "anchors": ["src/obu_encoder.rs: encode_obu_payload OBU_FRAME_HEADER (318-1403)", "src/frame.rs", "src/encoder.rs: EncoderContext"]}
{"id": "C133", "title": "The probability tables learn what is coded", "statement": "Coding a symbol makes it more likely until it is close to certain, makes no other symbol more likely than before or than its least share, and no sequence of symbols pushes the probability of any symbol below 32/32768 or below what it was. So a session in which each table always meets the same symbol costs at most a small fixed amount per symbol (1/54 bit for flags, 1/12 bit for tables of up to 16 symbols) plus, once per table, 32 N times the cost of its first symbol, plus 24 bits.", "quantifier": "all well-formed tables and symbols, all coding histories, all sessions of any length over any set of tables of at most N symbols with initial probability of at least 2/32768", "why_tests_cant": "The adaptation rounds in integer arithmetic with a rate that depends on the table size and on a counter; a test sees the tables after a few symbols, while the cost of long runs depends on where the rounding lets the probabilities end for every table, start and length.", "anchors": ["src/bool_coder.rs: encode_symbol (adaptation)", "src/cdf.rs: CDF::new"]}
{"id": "C134", "title": "The settings a frame header leaves for its tiles are the decoder's", "statement": "After a frame header has been written, the values the tile encoder goes by - which segments are lossless, the quantizer matrix level of every segment and plane, the transform mode, the restoration type of every plane - are the ones a decoder derives from the header it reads.", "quantifier": "for all frame parameters, contexts and earlier values of these settings", "why_tests_cant": "The settings depend on segmentation, quantizer, offsets, planes, frame width and what earlier frames left behind; tests fix a few of these and compare bits of the header, not the state the tiles use", "anchors": ["src/obu_encoder.rs:947-985", "src/obu_encoder.rs:1059-1109", "src/encoder.rs:63-74"]}
{"id": "C135", "title": "A frame with loop restoration can be coded", "statement": "After the header of a frame that announces loop restoration, the restoration units of every superblock and plane are determined, so coding the superblocks does not fail for want of a unit size.", "quantifier": "for all histories of frame headers since the encoder was created, all restoration parameters and all superblocks", "why_tests_cant": "The failure depends on what all earlier headers left in the context; a unit test of one function starts from a state it has chosen itself", "anchors": ["src/obu_encoder.rs:1059-1097", "src/tile_encoder.rs:187-212", "src/encoder.rs:166"]}
{"id": "C136", "title": "Every part of the picture is coded exactly once", "statement": "The blocks that the encoder codes for a superblock, and for all superblocks of a tile, cover every 4x4 unit of it that lies in the frame exactly once, and no other unit of the frame, whatever partition types the search keeps; the notes of the calls do not influence the encoding.", "quantifier": "all frame sizes, positions, square sizes, partition choices, block encoders and coder states", "why_tests_cant": "The number of partition trees of one superblock is astronomical and every frame size cuts them differently; a test sees a few trees on a few sizes.", "anchors": ["src/tile_encoder.rs:321-507", "src/tile_encoder.rs:140-170", "src/constants.rs partition_subsize"]}
{"id": "C137", "title": "A picture can be encoded", "statement": "For every frame with an area there is a sequence of calls on a new encoder that writes picture data: some unit of type frame or tile group with a payload.", "quantifier": "all frames, all sequences of calls on a new encoder, all ways to encode the blocks", "why_tests_cant": "That no sequence of calls at all gets a picture into the stream cannot be seen from the sequences a test tries; it follows from what every call leaves behind.", "anchors": ["src/obu_encoder.rs:1405-1466", "src/tile_encoder.rs:99-180", "src/encoder.rs:91-184"]}
{"id": "C138", "title": "A frame as it is made can get a header", "statement": "The header of a new frame of any type and size can be written by a new encoder; a caller need not fill in coding parameters for tools the frame does not use.", "quantifier": "all frame types, all sizes up to 65536x65536, all CDEF parameters, all sequences of calls before the header", "why_tests_cant": "A test fills in the parameters it needs; that no frame passes without them, whatever else is set, is a statement about all values of all other fields.", "anchors": ["src/frame.rs:240-340", "src/obu_encoder.rs:318-1403"]}
{"id": "C139", "title": "Coded bits come out with bounded delay", "statement": "However long a session is, there is a number of further calls after which at least one more bit has come out, so that a caller who streams the output never has to wait, or the coder to count, beyond a fixed bound; and bits that came out are never changed.", "quantifier": "all coder states, all sequences of calls of any length", "why_tests_cant": "The delay is the length of a run of pending carries, which depends on the whole history; tests see short runs, and the longest one has no bound.", "anchors": ["src/bool_coder.rs:142-207"]}
{"id": "C140", "title": "The decoder answers legal requests on any input, with values an encoder could have coded", "statement": "Let the bits be arbitrary: damaged, or never written by an encoder. With 15 bits plus the worst case of the requests (15 per symbol or bit with a probability, one per bit of a literal) the decoder answers every legal sequence of requests without panicking, it never reads more than that, and all its answers are legal values: an encoder given the same calls with these values would have left the same tables and written the same number of bits, whose number is at most that of the bits read. The inputs that decode to given values are exactly an interval that begins with what the encoder writes. Bits not yet taken have no influence, so damage has no effect before its place. The same holds for a decoder whose requests depend on the answers, such as a decoder of blocks.", "quantifier": "for all banks of valid tables, all sequences of legal requests, all inputs and coder states; for all decoders that decide as they go", "why_tests_cant": "Tests decode what the encoder wrote; damaged input has no expected output, and there are infinitely many inputs.", "anchors": ["src/bool_coder.rs:64-132", "src/bool_coder.rs:119-127", "src/bool_coder.rs:226-230"]}
{"id": "C141", "title": "Header codes read from any input are in range and canonical", "statement": "Read any bits with a header code. With enough of them (the width; 8 per byte; 64 for leb128; the floor of the logarithm and one for ns) every code but uvlc succeeds without panicking. The value read is in range, and for fixed-width, little-endian, signed and non-symmetric fields, alone or in sequence, writing it gives exactly the bits read, so no two words stand for one value. uvlc has further words only for the value 2^32-1, which cannot be written: 32 or more zeros and a one. leb128 writes a word that is no longer than the one read, and the same iff that could not have been shorter and its last byte is not marked as continued.", "quantifier": "for all inputs, all field kinds with legal parameters, all sequences of such fields", "why_tests_cant": "Tests read back what was written; words that the encoder never writes do not occur in them.", "anchors": ["src/bool_coder.rs:240-256", "src/bool_coder.rs:267-278", "src/bool_coder.rs:293-306", "src/bool_coder.rs:321-330", "src/bool_coder.rs:349-361"]}
{"id": "C142", "title": "A whole file of fields and coded data is read back", "statement": "Whatever mixture of header fields (fixed-width, uvlc, little-endian, leb128, signed, non-symmetric), alignments and range coded sessions a caller writes with one coder and one bit writer, and aligns at the end, the file consists of whole bytes from which a reader that knows the syntax, the tables and the length of each session gets every field and every coded value back in order; at most seven zero bits are left, and files with the same syntax and different contents differ.", "quantifier": "all lists of pieces of any length with legal arguments, all initial states of coder and decoder, including sessions that do not occupy whole bytes", "why_tests_cant": "The state of the coder and the partial byte of the writer are carried from piece to piece, and sessions on a used coder end at any bit position, so the combinations are unbounded; unit tests look at one code at a time.", "anchors": ["src/bool_coder.rs", "src/binary_writer.rs", "src/main.rs"]}
{"id": "C143", "title": "The named values of the crate are AV1's", "statement": "Every constant and every enumerator of constants.rs that has a name of the AV1 specification has the value the specification gives it, and the tables that follow from names (transform depth of a block, transform types of a symbol, bounds of filter weights) agree with them.", "quantifier": "all 394 named values, all block sizes, all transform sets", "why_tests_cant": "A test compares a constant with itself or a few of them with literals; the claim is about every name, and about the whole tables derived from them.", "anchors": ["src/constants.rs:15-485", "src/constants.rs:894-901", "src/constants.rs:1040-1047", "src/constants.rs:1107-1136", "src/constants.rs:1259-1284"]}
{"id": "C144", "title": "A used coder works like a new one", "statement": "What a coding session writes depends on its tables and its calls only, not on what the same coder object did before, so a coder can be reused for tile after tile; the same for reading: panics, values, remaining input and adapted tables do not depend on the history of the decoder object.", "quantifier": "every state of the coder and decoder objects, every bank of tables and every list of calls, legal or not, every input", "why_tests_cant": "The claim compares runs from all pairs of object states; registers left over by an earlier session, or by an interrupted one, cannot be enumerated.", "anchors": ["src/bool_coder.rs:34-45", "src/bool_coder.rs:64-73", "src/bool_coder.rs:134-140", "src/bool_coder.rs:363-380"]}
{"id": "C145", "title": "Every syntax element is coded with its own table, at the position and with the number AV1 gives it", "statement": "For every element of a tile that the coder can write with adaptive probabilities, a call with legal arguments uses the array that AV1 names for that element, at the position AV1 gives when the contexts are arguments of the call, and codes the number AV1 gives the value. Two different arrays, or two different positions of one array, never share storage: coding any sequence of elements leaves the probabilities of every table not named by it as they were.", "quantifier": "for every element, every choice of legal arguments, every neighbourhood, every state of the tables and every sequence of calls", "why_tests_cant": "Many arrays have the same shape and similar default probabilities, so a stream coded with the wrong array still has the right length and decodes with the same program; only comparing all elements with the standard shows it.", "anchors": ["src/bool_coder.rs:387-1327", "src/cdf.rs:7-106"]}
{"id": "C146", "title": "The meaning of every command line is fixed: accepted, rejected, help or crash, and which settings", "statement": "A command line is accepted exactly when it is a list of options with their arguments (long or short names, decimal numbers below 2^64, WxH sizes, N or N/D frame rates) whose resulting settings are usable (input and output given, sides from 1 to 8191, positive frame rate); the settings of the run are then the defaults changed by the options in order. A number is never truncated or wrapped: it is read as its decimal value or rejected. Help is printed exactly when it is asked for behind valid options.", "quantifier": "every argument list, every number of any length", "why_tests_cant": "Argument lists and numerals are unbounded; a test shows single accepted or rejected lines, not that nothing else is accepted and that no number is misread.", "anchors": ["src/option.rs:16-67", "src/option.rs:84-242", "src/main.rs:52-66"]}
{"id": "C147", "title": "The output file is whole or empty", "statement": "However a run ends (rejected or crashing command line, files that do not open, failing reads at any point, sizes that cannot be coded), the output file afterwards is either empty or holds the complete stream for the configured size, never a part of it. It is not empty exactly when the command line is accepted, the files open, a frame is requested, both sides are at least 3 and none of the reads of the requested frames fails.", "quantifier": "every command line, every input, every pattern of short and failing reads", "why_tests_cant": "Whether a run leaves a partial file depends on when a read fails and on how much the buffered writer has passed on; the patterns of failing reads are unbounded.", "anchors": ["src/main.rs:43-119", "src/binary_writer.rs:22-28", "src/obu_encoder.rs:1575-1605"]}
{"id": "C148", "title": "The self-guided filter sets are AV1's, and only their passes are coded", "statement": "Each of the sixteen sets of the self-guided restoration filter has the radii AV1 gives it and a strength from which the decoder's multiplier follows; there is no other set; of two sets with the same passes the later smooths more. A unit that uses a set is coded as the number of the set in four bits, then one coefficient for exactly the passes the set has, relative to the coefficient last coded for that plane and pass. For every window of eight-bit samples the variance times the multiplier, rounded, fits 32 bits.", "quantifier": "all sets, all units and encoder states, all sample windows", "why_tests_cant": "A wrong strength changes only reconstructed pixels of units with that set; the largest product comes from one particular pattern of samples and set and comes within about two percent of overflow.", "anchors": ["src/constants.rs:1002", "src/tile_encoder.rs:296"]}
