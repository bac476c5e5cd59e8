# Formal model of av1enc: design

Source under study: `/repo` (hjmkt/av1enc, Rust, about 19 000 lines of which 11 000 are tables). The code is read as text
and never built or run. The model is Lean 4 (4.33, Mathlib) under `lean/Verif/`; `lake build` in `lean/` checks everything.

## Layout

* `Verif/Model/*.lean` – definitions that follow the Rust code function by function. Every definition cites file and lines.
* `Verif/Spec/*.lean` – small independent specifications: binary numerals, abstract coding sessions, readers written from the
  AV1 specification. They do not mention the model, except `Spec/Session` and `Spec/Cost`, which speak about its tables and
  calls. Short specifications used by one group of properties stand at the top of
  the `Props` file, in namespace `Ref` or marked "Specification".
* `Verif/Lemmas/*.lean` – helper lemmas.
* `Verif/Props/*.lean` – the property theorems, grouped by topic, named after the property (`C42_…`), each with a concrete
  case that meets its hypotheses.
* `Verif/Axioms.lean` – prints the axioms of every theorem named in the manifest.
* `properties.jsonl`, `MANIFEST.json` – the properties and the theorems claimed for them.
* `seeded/LOG.jsonl` – mutation tests of the theorems.
* `tools/gen_cdf.py`, `tools/gen_tables.py`, `tools/gen_names.py` – transcribe `cdf.rs` and `constants.rs` into
  `Model/DefaultCdf*.lean`, `Model/Tables.lean` and `Model/Names.lean`. The generated files are committed.

Naming: `Cxx_full` is the full claim as a `Prop` when the code violates it; `Cxx_negation` proves it false with a witness;
`Cxx_…_partial` is the part that holds (often an `iff`, i.e. the exact part); `…_never`, `…_panics`, `…_wrong`, `…_fails` show
how far the failure reaches.

## Conventions of the model

* `&mut` becomes a returned value. Functions that append to `out_bits` return what they append ("emission").
* A loop becomes recursion or a fold. A loop that may not terminate takes fuel and returns `none` when it runs out; theorems
  about such functions hold for every fuel or show that the fuel in the definition suffices.
* A panic is `none`: index out of bounds, `assert!`, `unwrap` of `None`, `RefCell` double borrow, arithmetic overflow,
  division by zero. Overflow is a panic as in a debug build; a release build would wrap. `Option`/`Result` values of the code
  stay data (`Option (Option α)` where both occur).
* Machine integers are `Nat`/`Int` with a guard at each operation that can leave the range. Where a guard is left out the
  definition says which bound is assumed (for example: frame sides below 2^30).
* The registers of the range coder are `i32` in the code and `Int` in the model, without a guard. Theorems about coded sessions
  therefore speak about the code as long as the counter of pending bits stays inside 32 bits. That holds for every session below
  2^27 symbols (`C05_no_overflow_partial`) and not for all sessions (`C05_negation`).
* Enums are their discriminants (`Nat`, `Int` for reference frames because of `NONE = -1`). Header code is modelled with numerals
  in place of named constants; C143 states the value of every name. Constant tables are lists read with
  `[i]?`, so an index outside a table is visible.
* `Vec<u8>` used as a bit string is `List Bool` (`Bits`) where only 0/1 is pushed, and `List Nat` (`Raw`) in the header code,
  where the code also pushes other numbers; a statement about decoding says first that the elements are bits (`Writes`).
* `Rc<RefCell<EncoderContext>>`: a `borrow_mut` while another borrow is alive is a panic. Functions that start with a borrow
  take the flag `borrowed`; inside `encode_lr` the double borrow is where it happens (`borrowMut`).
* Parts that the code passes around without looking inside (the block encoder inside the partition search, the tile encoder
  inside a tile group) are type parameters with arbitrary functions, so the theorems hold for whatever they do.

## Trusted base

* The Lean kernel. Axioms: at most `propext`, `Classical.choice`, `Quot.sound`; `Verif/Axioms.lean` prints the list for each
  theorem of the manifest. No axioms of our own, no `sorry`, no `native_decide`, no `bv_decide`.
* `decide +kernel` is used for statements over a complete finite table (default probability tables, geometry tables) and for
  examples and witnesses.
* The reading of the Rust source that the comments cite. Only the tables are transcribed mechanically (by the scripts in
  `tools/`, which are trusted to that extent).
* Semantics of Rust operators as described above, on a 64-bit target.
* The readers and formulas that stand for the AV1 specification, written by hand from the published specification.
* Surroundings (`Model/Writer.lean`, `Model/Main.lean`): a write accepts every byte (short writes and errors of the sink are
  outside), a read returns some prefix or fails, `BufWriter` holds 8 KiB and is flushed when dropped, `process::exit` runs no
  destructors, a panic unwinds and ends with status 101. Texts of messages are dropped.

## What is modelled

| source | modelled in | not modelled |
|--------|-------------|--------------|
| `bool_coder.rs` 18–380 (range coder, literals, header codes, exit) | `BoolCoder`, `Session`, `Codes` | – |
| `bool_coder.rs` 383–1327 (choice of table per element) | `Context` | – |
| `cdf.rs` | `DefaultCdf*` (generated) | – |
| `constants.rs` | `Tables` (generated; the tables some modelled code reads), `ReconTables` (generated; prediction and filter tables, which no function reads), `Names` (generated; every scalar constant and enumerator with its name, and the two private tables) | – |
| `common.rs` | `Common`, `Context` | – |
| `util.rs` | `Util` | `CeilLog2!` (never used; its body is not valid Rust), `Clip1!` (never used) |
| `binary_writer.rs`, `binary_reader.rs` | `Writer` | opening of files (a flag of `World` in `Main`), the `Read`/`BufRead` delegations |
| `option.rs` | `Cli` | help text |
| `main.rs` | `Main` | text on the terminal other than that it is written to standard output |
| `obu.rs`, `sequence_header.rs` | `Obu` | – |
| `obu_encoder.rs` 59–313 (headers, sequence header) | `Obu` | – |
| `obu_encoder.rs` 318–748 (front of the frame header) | `FrameFront` | – |
| `obu_encoder.rs` 750–1110 (tile info to transform mode) | `FrameHeader`; `HeaderLeft` for the context fields only the tiles read | – |
| `obu_encoder.rs` 1111–1403 (reference mode, skip mode, global motion, film grain, end) | `FrameWhole`, `GlobalMotion`, `FilmGrain` | – |
| `obu_encoder.rs` 1405–1604 (tile groups, metadata, padding, framing) | `Tile`, `Obu`; `Stream` for the `match` over all kinds and sequences of calls | in `Stream` the encoding of one tile is a parameter; `Encoder` gives it the tile loops of `Tile` around an arbitrary block encoder. What a tile leaves in `current_q_index` does not reach the next header of the model (no tile of a group is ever finished, C105, C137) |
| `frame.rs`, `block.rs`, `encoder.rs` | structures and initial values where the code above reads them; block map and film grain copy | fields nothing reads |
| `tile_encoder.rs` 108–176, 509–541 (tiles, start of a block) | `Tile` | – |
| `tile_encoder.rs` 178–319 (loop restoration) | `Lr` (also what would follow the panic at line 291) | – |
| `tile_encoder.rs` 321–507 (partition search) | `Partition` (geometry), `Search` | nothing: the code's cost is the constant 0, so the first candidate wins |
| `tile_encoder.rs` 543–886, 1330–1440 (mode info, motion vectors) | `ModeInfo` | – |
| `tile_encoder.rs` 888–1328 (candidate search) | `MvStack`, `GlobalMotion` | – |
| `quantizer.rs` | `Quantizer` (generated; a matrix is packed into one number, a byte per entry) | – (no function reads the tables) |

Simplifications beyond the conventions stand beside the definitions. The larger ones: the neighbours of a block are given
after the lookup in the block map (the lookup's own panics are C46); `find_mv_stack` gets the stored blocks as a function; the
frame header's sections are composed in `FrameWhole` from functions that return what is appended and what is left behind.

## Methods by group

| properties | proof |
|------------|-------|
| C01–C03, C05, C09, C48 range coder | refinement to an interval coder with one unbounded number; invariant `full + range ≤ (num out + 1)·2^(pending+16)`; decoder invariant `value = range − 1 − (code prefix − full)`; induction on the calls |
| C05 (counter), C139 | while the end of the 16 bits lies strictly inside the interval no bit comes out; of two probabilities one splits elsewhere, so some symbol keeps it inside; the range shrinks until the counter grows |
| C04 adaptation | each entry moves towards a target, targets differ by at least 32, monotone; induction on the history |
| C06 | a range ≤ 0 stays ≤ 0 under doubling, so the loop has no bound |
| C08 | instance of C01 with two-symbol tables; induction on the width |
| C10, C45, C56–C58, C124–C126, C128 tables | kernel evaluation of the complete finite tables |
| C11–C17 codes | numeral lemmas, structural induction; C17 composes them for any list of fields |
| C20–C23, C96 writer and reader | invariant "bytes and pending bits are exactly the bits written" |
| C24–C26 options | induction on the argument list |
| C27–C35, C49–C51 OBUs | readers written from the AV1 syntax; `Writes` composes field by field |
| C36, C52–C54, C97 runs | induction on the frames of a run in an arbitrary world |
| C37, C42, C47, C18, C19 arithmetic | case analysis, `omega` |
| C38, C65, C66, C70 candidates | invariants over arbitrary sequences of stack operations |
| C39 search | induction on the block size; the search of any encoder equals encoding the winner |
| C40, C76, C77, C100, C101, C104, C108 layouts | induction on the loops; exact cover and order |
| C41, C86, C109 subexponential codes | induction on the rounds; exact set of values that survive the wrong recentering |
| C43, C60–C64, C106, C107 contexts | one case per element against the formula of the AV1 specification |
| C44, C67–C69, C71–C75 mode info | decision lists as readers; exact sets where they fail |
| C118 | case analysis of both readings of the components |
| C119 candidates | simulation: every step of the search extends a list of offers, the stack holds its first eight keys and their sums; the walk along an edge is an inductive relation |
| C120–C121 decoders | decoders as an inductive type (stop, fail, ask); a relation between element sequences and decoders that composes like the monad |
| C122 trees | induction on the level of the square for any block coder a block decoder follows; the tile is a fold over superblocks (C101) |
| C136 coverage | an encoder that notes its calls behaves like the one that does not (map-forget induction); the units covered by a list of calls are counted, induction on the fuel with C55 at each square, then over the superblocks (C101) |
| C131 | case analysis of the two middle lines; the search keeps the first allowed candidate (C39) |
| C123 | the two flags compared; kernel evaluation of the tables |
| C129 | a symbol of probability p leaves at least 128(p−1)/(129·32768) of the range and at most (p+256)/32768; products along the session; real logarithms at the end |
| exact conditions outside the headers | `C23_iff`, `C25_exact`, `C26_iff`, `C36_iff`, `C53_iff`, `C54_iff`, `C59_iff`, `C60_iff`, `C72_iff`, `C75_iff`, `C96_iff` say when the code does what the property asks, and so exactly when it does not |
| C130 | AV1's symbol decoder written from the specification; a literal on its own is written plainly, so the first two bits AV1 reads can be computed; all built-in tables by kernel evaluation; a symbol that is alone in its session is read right iff two inequalities on the shares of its table hold (`C130_symbol_iff`) |
| C133 | the bounds of a symbol move towards targets that differ by its saturation value, so its deficit shrinks by 1/2^rate per coding; Bernoulli's inequality turns this into a potential, 32 N times the remaining excess in bits, that pays for every coding; C129 turns probabilities into bits |
| C127 | integer enclosures of the real cosine (half-angle formula, then recurrence), compared with the table by kernel evaluation |
| C115–C117 blocks | readers for the start of a block, the inter flag, references, mode and vector, composed; exact conditions |
| C78–C95, C98, C99 frame header | readers per section; C94 composes them to whole headers; where a section can go wrong the exact condition is proved (`C94_iff` for the whole header, `C76_uniform_iff`, `C83_iff`, `C84_again_iff`, `C88_again_iff`, `C99_iff`) by cutting a reader after each written field (`writes_cons_iff`) |
| C134, C135 state left for the tiles | values left compared with those a decoder derives from the sections it reads; for C135 induction on the history of headers |
| C132 headers again | every section is written the same from what it leaves; the elements of the whole header as one list in which two differ at most |
| C140 any input | simulation from the decoder's side: the register always lies in the interval of some symbol, so the encoder that is given the symbols read keeps an interval around the number read (`Co`, Lemmas/AnyInput) |
| C141 canonical codes | each decoder inverted: the bits it popped are the expansion of their number, and that number determines the value; leb128 by induction on the bytes |
| C142 whole file | composition of the round trips of fields (C17), sessions (C08) and writer (C20, C21); induction on the pieces with the bits held by the writer as invariant |
| C143 named values | the complete lists compared by evaluation in the kernel |
| C144 used coder | simulation: every step commutes with adding to the bit counter and replacing the unused fields; no hypothesis on tables or calls |
| C145 own tables | case analysis over all elements against a hand-written list of AV1's arrays (Spec/OwnTable.lean); positions in the bank are injective in array and position |
| C146 command lines | a grammar with meanings (Spec/CommandLine.lean) compared with the parser by induction on the arguments; numerals by `Nat.ofDigits` |
| C147 whole output | the cases of C36 and C97 together; the stream is shorter than the buffer of the writer |
| C148 self-guided sets | kernel evaluation of the table against the multipliers decoders tabulate; `n Σx² − (Σx)² ≤ (255 n)²/4` for all windows |
| C137, C138 whole runs | induction on the calls from a new encoder: only tile groups change the bounds of the group, and a group with ordered bounds panics; for C138 every section of a new frame's header is evaluated, its size left open |
| C112–C114 streams | induction on the calls; C114 composes C50 with C89 and C94 through the parameters a sequence header announces |

## Where the code does not do what the property says

The full claim is kept, its negation is proved, and the part that holds is proved as far as it goes.

* **Coder**: `init_encoder` does not reset `bit_count` (C07); `exit_decoder` leaves stray bits (C48).
  The counter of pending bits has 32 bits but no bound (C05, C139).
  Intervals are cut and tables adapt in another way than AV1's (`EC_PROB_SHIFT` and `EC_MIN_PROB` are unused), so an AV1 decoder
  misreads literals of every width from 2 bits on, and no built-in table adapts as AV1's does (C130). Wherever another property says what an AV1
  decoder reads from the coded part of a tile, it means the sequence of symbols, given a coder that both sides share.
* **Helpers**: `Round2Signed` drops the sign (C19). `neg_interleave` panics for every prediction strictly inside (C42).
  `num_4x4_blocks_wide` has 3 for 16-wide blocks and `mi_*_log2` count pixels (C45). The block map is too small unless both
  sides are multiples of 8 (C46). `allow_high_precision_mv` is ignored (C47). Sixteen named constants are not AV1's (C143).
  `init_encoder` keeps the bit counter of earlier sessions (C07, C144).
  Partitions of blocks below 128×128 and transform types are not coded as AV1 does (C61, C62); all other elements take their own
  array (C145).
* **Reader, options, run**: short reads become zero samples (C23). `N/D` frame rates drop the rest of the command line (C25, C146).
  Some malformed arguments panic (C26). Sizes 1 and 2 panic (C30, C36). The banner goes to the output stream (C52), output is
  lost on read errors (C53), every frame is read as 176x144 (C54), detected failures exit with status 0 (C97). Raw bytes
  overtake pending bits (C96).
* **OBUs**: a unit is its payload followed by four constant bytes, and its lengths count header bits (C28, C35). An AV1 reader
  never finds the video size, whatever it is (C29). A sequence header without color description changes when repeated (C51). Metadata: shared type number (C32), empty structure panics (C34),
  T.35 payload dropped (C49). Frame OBUs and redundant frame headers are empty (C112), so is a repeated frame header (C113).
  Frame ids are announced in the sequence header and never written (C114).
* **Partition**: three partition types misplace a part and 16x16 blocks overlap (C55, C136); at 16x16 squares cut in the middle by the
  frame's edge another symbol is written than is read (C131). Search always panics on the four strips
  of an 8x8 square, and the state outside the coder is not restored (C39).
* **Contexts**: indices outside the tables (C43), inter transform sets off by one row (C58, C59), `uv_mode` row from the coded
  value (C60), partition tables (C61, C64), availability of the neighbours in place of their size as partition context (C123), transform type symbols (C62), several neighbour contexts (C63, C106), coefficient
  tables always from the first quantizer set (C107).
* **Mode info**: compound references (C44), quantizer and filter deltas from a few steps on (C67, C68), compound modes (C69),
  motion vector differences reduced to their joint type, with two references twice that of the first (C71), CDEF areas above and left overwritten (C72), no intra mode
  (C73), CDEF index of skipped blocks (C75), a segment id written for skipped blocks that no decoder reads and a panic unless
  the predicted id is 0 or the last (C115), a panic at the inter flag unless the segment fixes the reference (C116). The candidate search panics on the first row and on fresh frames (C66),
  does not sort (its order is right exactly when the weights happen to fall), keeps stale vectors and misjudges 16 wide blocks
  (C119). Intra block copy predictions take `x` for the row,
  joint types take it for the column (C118).
* **Frame header**: tile info (C76, C77), segmentation (C79, C80), deltas (C81), lossless (C82), filters (C83–C85), global
  motion (C41, C86, C87), film grain (C88), `seen_frame_header` after showing a frame (C89), shown key frames panic (C91, C94), buffer removal times of operating points without a decoder model are written (C91),
  sizes (C92), inter headers never complete (C93), no frame made by `Frame::new` gets
  a header until CDEF strengths are filled in (C138), monochrome (C98), chroma restoration sizes (C99), lossless flags and matrix levels
  left for the tiles (C134), chroma planes with loop restoration divide by 0 (C135). Sequences with order hints
  cannot be written at all. A header written again differs, or panics, with segmentation, a CDEF strength of 3 or a changed
  integer-vector flag (C132).
* **Tiles**: row and column numbers computed from swapped divisions (C100), no tile can be encoded (C102), tile group ranges
  with logarithms rounded down (C104), tile data dropped and a double borrow (C105), so no sequence of calls
  writes picture data (C137).
* **Loop restoration**: coefficients recentered in the wrong direction and partly written past the coder (C109), flags past the
  coder, no type in switchable frames, Wiener units panic (C110), wrong constant in the derived coefficient (C111).

## Mutation tests

`seeded/LOG.jsonl` has one line per wrong program tried: the definition edited, the edit, the claim it breaks, the theorems
that stopped proving, and what was tightened when nothing did. The edits are made in a copy outside this repository.
