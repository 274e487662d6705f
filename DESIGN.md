# A Lean 4 model of noritada/grib-rs

The plan table below was committed before the proofs; it is kept up to date as the model grows. The list of properties is
`properties.jsonl`, the list of theorems per property is `MANIFEST.json`, the tests of the theorems against wrong
programs are in `seeded/LOG.jsonl`.

## Layout

* `lean/Verif/Prelude.lean` — outcomes (`ok`/`err`/`panic`) and big-endian byte helpers.
* `lean/Verif/Model/*.lean` — the model, one file per group of Rust source files; every definition cites the file and
  lines it models and says where it simplifies.
* `lean/Verif/Spec/*.lean` — small specifications written without reference to the model (bit strings, the grammar of
  section sequences, abstract files and their serialization, packers and encoders, scanning order, Legendre polynomials,
  code tables ...). A spec file imports no model file except for plain data types.
* `lean/Verif/Lemmas/*.lean` — proofs that connect the two.
* `lean/Verif/Props/*.lean` — the property theorems (`Cnn_...`), each with a concrete example that meets its
  hypotheses. Where the code violates the property, the negation is proved with a concrete witness (`Cnn_..._fails`,
  `Cnn_..._panics`) and the part that holds has the suffix `_partial`.
* `lean/Verif/Conformance/*.lean` — the repository's own tests (unit tests of the parser, reader, decoders, grids, dates; the
  command line tests of `info`, `list`, `inspect` on the ICON sample file) transliterated into kernel-checked examples about the
  model, with the expected results of the repository. They are evidence that the model behaves as the code; they are tests and
  support no claim in `MANIFEST.json`.
* `tools/differential/` — a program (`Main.lean.txt`; to run it, copy it out of the repository as `Main.lean` and compile it with
  `lean -c` and `leanc`) that runs the model itself, with IEEE single precision, on a real file and writes the decoded values, and
  `cmp.py`, which compares them with the values computed by wgrib2 in `/repo/testdata/gen`. All values agree bit for bit on the
  sample files of every packing the crate decodes without a codec library: kousa (simple, 4 941 values), MSM guidance (simple with
  bitmap, 268 800), tornado nowcast (run length, 86 016), critfireo messages 0 and 1 (complex, 2 × 2 953 665), GDAS 12 and 46, MEPS,
  minrh, wind_solar (complex with spatial differencing, with and without missing values, 5 153 119 in all). `Grid.lean.txt` does the same
  for the Gaussian grid of the GDAS flux file with hardware floating point: the first 160 latitudes and longitudes agree with those of
  ecCodes quoted in the repository's test. These are tests of the model (compiled code, not the kernel) and support no claim.
* `tools/` — generators of `properties.jsonl` and `MANIFEST.json` and the mutation harness (`mutate.py`).

| model file | Rust files |
|---|---|
| Helpers | `src/helpers.rs` |
| Bits | `src/decoder/stream.rs` (`NBitwiseIterator`, `FixedValueIterator`) |
| Sections | `src/context.rs` (section info, template codes), `src/datatypes/sections.rs` (section contents) |
| Reader | `src/reader.rs` |
| Parser | `src/parser.rs` |
| Context | `src/context.rs` (`Grib2`, `SubmessageIterator`, `SubMessage`), `src/datatypes.rs` |
| Headers | `src/datatypes/sections.rs`, `src/datatypes/product_attributes.rs` |
| Error | `src/error.rs`, error enums of `src/decoder/*` |
| Float | the floating point operations the code uses (abstract) |
| Ieee | IEEE-754 single and double precision as an instance of them; compiler-rt `powi` |
| Decoder | `src/decoder.rs`, `src/decoder/{param,simple,complex,run_length,png,bitmap,stream}.rs`, `complex/{diff,missing}.rs` |
| Jpeg | `src/decoder/jpeg2000.rs`, `jpeg2000/ext.rs` |
| Grid | `src/grid.rs`, `src/grid/*.rs` |
| GaussianDouble | the double-precision operations used by `src/grid/gaussian.rs` |
| Text, Describe | formatting used by `describe()`, `src/context.rs:476-547` |
| CodeTables | `build.rs`, `gen/src/*.rs`, `src/codetables/*.rs` |
| ParamCodes | `codegen/src/*.rs` |
| Cli, CliViews, CliText | `cli/src/cli.rs`, `cli/src/commands/{decode,list,info,inspect}.rs`; CliText has the whole printed text |
| Session | `src/context.rs`: several iterators and a kept submessage in use at the same time |
| Calendar | `chrono`'s valid dates |
| Release, ReleaseDecode, ReleaseGrid, ReleaseCli | the functions of `src/reader.rs`, `src/decoder/*`, `src/grid/*`, `cli/src/commands/*` again, with the wrapping arithmetic of a release build |
| Narrow | the functions of opening in `src/reader.rs` again, with a `usize` of 32 bits |
| NarrowDecode | the functions of decoding and of coordinates that differ with a `usize` of 32 bits: `src/decoder/complex.rs`, `run_length.rs`, `bitmap.rs`, `src/decoder.rs`, `src/grid/*.rs`, `src/context.rs` |
| NarrowRelease, NarrowReleaseDecode | the same functions of opening, decoding and coordinates in a release build for 32 bits (the demo as delivered): arithmetic modulo 2^32 |
| Demo | `demo/src/palette.rs`, the table and the pictures of `demo/src/main.rs` |
| DemoWasm | the same as built for the browser: release build, 32 bits, no JPEG 2000 |
| Examples | `examples/*.rs` |
| Messages | the functions of `src/grid`, `src/datatypes`, `src/context.rs`, `src/decoder` and `cli/src` whose errors have texts, again, with the texts; what is written on the standard error stream |
| ReleaseMessages | those of Messages in which an overflow can happen, again, with the wrapping arithmetic of a release build |
| Memory | the functions of `src/reader.rs` that allocate, again, with the sizes of the buffers they request |

## Modelling conventions

* Octets are `UInt8`; buffers are `List UInt8`. Fixed-width integers are `Nat`/`Int` with the bound stated
  explicitly where Rust's arithmetic can overflow. `usize` is 64 bits (C88: 32 bits, for opening). Strings are `List Char`.
* A Rust panic (overflow and underflow in checked builds, slice out of range, `unwrap` on `None`, `unreachable!`,
  `unimplemented!`) is the explicit outcome `panic`. Arithmetic follows the *checked* semantics (debug/test profile,
  or release with `overflow-checks`); in an unchecked release build the same operation wraps instead. A theorem
  "does not panic" therefore covers both profiles (no operation wraps); a theorem "panics" describes the checked
  profile. What a release build does where the checked one panics is modelled by `Model/Release*.lean` for opening,
  decoding, grids and the commands (C82, C83, C84, C86).
* `Result` is `Outcome.ok/err`, `Option` is `Option`. `&mut self` methods return the new state.
* Iterators are state machines with a `next` function, or, where only the produced sequence matters, the list of
  produced items (the comment says which). Unbounded loops take fuel; theorems either show that a stated fuel suffices or
  that no fuel does (divergence).
* Floating point is abstract: every definition that computes a float is polymorphic in a structure of operations
  (`FloatOps`), with no laws assumed. A theorem about decoded values states which operations are applied to which
  integers, in which order; such a theorem holds of IEEE arithmetic. For formulas (equal spacing, scaling) the same
  definitions are instantiated at `Option Rat` (exact arithmetic, `none` = not finite); such a theorem says nothing about
  rounding. C60 and C61 instantiate them at IEEE-754 arithmetic (`Model/Ieee.lean`) and bound the difference.
* Error values keep their variants; messages of errors from the operating system are not modelled.

## External code (parameters of the model)

| external code | how it appears |
|---|---|
| `std::io::Read + Seek` | a byte list with a cursor and an arbitrary schedule of full reads, short reads and failures |
| `std::io::Write`, `BufWriter` | an arbitrary schedule of accepted octets and failures; `BufWriter` itself is modelled |
| `png` crate | a function from section 7 to an error or (width, height, colour type, depth, octets) |
| OpenJPEG | an arbitrary interactive program that asks for chunks and then gives an image or an error |
| `proj` crate | an arbitrary pointwise projection determined by the projection string |
| `chrono` | which dates are valid: modelled by the Gregorian calendar (`Model/Calendar.lean`) |
| code table texts | the generated arrays are a parameter; the generator is modelled and proved separately (C44) |
| `Display` of `f32`/`f64` | a parameter function of the value |
| `HashSet`/`HashMap` order | an arbitrary permutation |
| `csv`, `regex`, `syn`, `quote`, `clap`, `console`, `pager`, `rustc` | not modelled; the records, matches and arguments they deliver are inputs |

## Trusted base

* Lean's kernel; axioms at most `propext`, `Classical.choice`, `Quot.sound` (vcheck prints the axioms of every theorem).
  No own axioms, no compiled evaluation.
* The reading of the Rust source recorded in the comments of `Model/`.
* The meaning of Rust std operations used by the code (`Read::read_exact` default loop, `Seek`, `Peekable`,
  `Enumerate`, `zip`, `take`, `chain`, `flatten`, `collect`, slices, checked arithmetic), modelled by us.

## Per property: what is modelled and how it is proved

| id | what is modelled | how it is proved | status |
|----|------------------|------------------|--------|
| C01 | `as_grib_int`, `grib_int_from_bytes` | arithmetic over all byte values; uniform spec ±magnitude | proved |
| C02 | `NBitwiseIterator::next` on bytes | each byte list denotes a natural number; shift/mod arithmetic, induction on the number of calls | proved |
| C03 | `read_sect0` chunk loop | induction on remaining octets; spec: first index of the magic octets | proved |
| C04, C05 | section stream over a reader | invariant "reader position = whole size − rest size" over all histories and schedules | proved |
| C06 | same, with panics explicit | four witnesses; exact characterisation of the panicking inputs | partial: false of the code |
| C07 | reader with a schedule of read sizes | witnesses; equality with the cursor for all schedules whose short reads deliver at least 16 octets | partial: false of the code |
| C08 | reader with failure events | ghost flag invariant through all operations | proved |
| C09, C10 | serializer spec, whole pipeline | induction over the abstract file | proved |
| C11–C16 | validator and both submessage streams | simulation by a grammar; induction on the section list | proved |
| C17 | composition | invariant "body kind matches number" | proved |
| C18 | `SubmessageIterator` | induction over call histories; witnesses for `nth`, `size_hint`, two live submessages | partial: false of the code |
| C19 | `list_templates` | for every hash order; sorted and complete | proved |
| C20, C21 | simple packing | on top of C02; any float operations, value in exact arithmetic | proved |
| C22 | decoder count | bounds, equality under consistent counts, witnesses | partial: false of the code |
| C23, C24 | bitmap, decoder setup | induction on the bitmap | proved |
| C25, C26 | `rleunpack` | round trip with a specified encoder; exact rejected set; witnesses of panics and non-termination | partial: false of the code |
| C27–C29 | complex packing, differencing | running bit offset invariant; inverse of differencing, carries | proved |
| C30 | dispatch | case analysis over all template numbers | proved |
| C31 | grid index iterator | closed form by induction over steps | proved |
| C32 | same | bijection; witness for empty lines | partial: false of the code |
| C33 | `latlons` of regular grids | polymorphic float operations; rational instance for spacing | partial: false for single rows and full circles |
| C34 | consistency checks | exact acceptance for non-empty grids; witnesses of panics | partial: false of the code |
| C35 | Gaussian latitudes | bounded search, Newton step of the Legendre polynomial (proved against the recurrence and the derivative) | partial: that every search ends in double precision is not proved (C65: in real arithmetic it does; C87: if it ends, it is right) |
| C36 | grid definition fields | octet positions; witnesses for short sections | partial: false of the code |
| C37 | number-of-points check | composition | proved |
| C38, C40, C41 | section headers, product attributes | all-length case analysis | proved |
| C39 | product definition accessors | finite table over all 65536 template numbers by case analysis; witnesses | partial: false of the code |
| C42, C44 | code table lookup and generator | induction on entry lists | proved |
| C43 | earth shape | exact arithmetic; witness | partial: false of the code |
| C45 | parameter code generator | induction on entry lists | proved |
| C46 | CLI index | induction on digit strings | proved |
| C47 | `opj_stream_read_fn`, image use | induction on request schedules | proved |
| C48 | fuel sufficiency | measure: position in the file | proved |
| C49, C50 | open + decode | own-section lemma; absolute seek | proved |
| C51 | projected grids | projection as a parameter; scanning order from C31 | proved |
| C52 | flat binary export through `BufWriter` | invariant "file is a prefix"; witness of silent loss | partial: false of the code |
| C53 | decode command | composition of C31, C37, C49 | proved |
| C54–C56 | `describe`, list, info, inspect | composition; formatting functions modelled | proved |
| C57 | announced numbers of lines | counting; witnesses | partial: false of the code |
| C58 | `ref_time`; chrono as the Gregorian calendar | against a clock that ticks second by second: the day count is proved to agree with it | proved |
| C59 | the whole opening path | walk relation over the octets (Spec/File) with the grammar (Spec/Grammar): both directions, for success and for panics | proved |
| C60 | IEEE-754 rounding to nearest even (`Model/Ieee.lean`), all templates with R, E, D | rounding is proved nearest, monotone and exact on representable numbers; parametric decomposition "stored integers are independent of the arithmetic"; error composition | proved |
| C61 | the coordinate formulas of `evenly_spaced_degrees`/`_longitudes` at IEEE-754 single precision | forward error analysis of the five roundings against the exact coordinates of C33, monotonicity of each rounding; collapse witness | proved |
| C62 | bitmap iterator over arbitrary decoded items | iterator = `spread` of the bits looked at over the items; count characterised by prefix counts | proved |
| C63 | all constructors and `latlons` of the four grid definitions | case analysis over the sequence of checks, each outcome characterised by an equivalence (`Comes`) | proved |
| C64 | `Props/Panics.lean`: the accessors on the octets of the section (C39's partial theorems and failures together cover all cases), C63 for the grid definition, induction over the listing. | proved |
| C65 | `Spec/GaussianLatitudes.lean` (zeros of `legendre n` in decreasing order). `Lemmas/LegendreReal` (recurrences, Legendre's differential equation), `LegendrePhase` (a Pruefer phase with rate between N and N + 1/(4 N sin^2)), `LegendreNewton` (energy bounds for the second derivative; one Newton step squares the scaled correction), `LegendreGuess` (phase of the guess within 0.107 of that of the zero; iterations; distance of neighbouring zeros), `Props/GaussianReal.lean` (the model's loop computes these iterates). | proved |
| C66 | `Props/Texts.lean`: case analysis of the codes against tables written the other way round, decimal notation `IsDecimal`, lists for the columns. | proved |
| C67 | `Props/RunLengthOutcome.lean`: every section 7 begins with a non-level or is written as runs (`parse_runs`); the unpacking loop on runs by induction, in range and out of range; the cases are exhaustive and each determines the outcome, so each outcome determines its case. | proved |
| C68 | `Props/ComplexOutcome.lean` over `Spec/ComplexRead.lean`: the group iterator by induction over groups, in order and not (`decodeComplexPacking_outcome`); the differencing iterators by induction over the values (`stepItems_undo1/2`); the cases are exhaustive and each determines the outcome, so each outcome determines its case. | proved |
| C69 | `Props/DecodeOutcome.lean`: one inductive of cases per template, for the choice of the template, for the bitmap and for the way from the file; each determines the outcome and they are exhaustive, so the outcome determines the case. | proved |
| C70 | `Lemmas/ReaderAny.lean`, `Props/AnyReader.lean`: induction over the section stream with arbitrary schedules; for the converse, the number of calls each operation makes on a cursor is counted, so that a schedule can be built that stops after a given walk; decoding: a closure property of sequenced reads. | proved |
| C71 | `Props/DoublePrecision.lean`: the IEEE instance of the model in double precision; relative errors of each operation, composed; the powers 10^-127 to 10^127 evaluated by the kernel. | proved |
| C72 | Sessions: a state machine of iterators and the kept submessage (Model/Session) refines cursors into the list of all submessages (Spec/Session), by induction on the history; then the same per iterator in terms of the calls since iter, nth or copy. | proved |
| C73 | flush_buf equals the specification pour by induction on the reactions; a full buffer is flushed exactly when the next value comes; induction on the number of blocks (Spec/Export). | proved |
| C74 | Whole texts in Model/CliText; every cell is shown to be free of line breaks, so that lines can be counted; loops that stop at a panic by induction on the submessages. | proved |
| C75 | State after k calls in closed form; induction on the number of calls; the coordinates' iterator by induction on the calls from the state after c calls. | proved |
| C76 | Closed form of the longitudes in each of the cases of direction and order of the ends; on a full circle, column 1 agrees with the definition only if the number of steps divides 2. | proved |
| C77 | Walk, Faithful and Crash of C59 under appending before and behind; accepted orders as runs of the automaton, which cancel; numbering of messages from further on; decoderAt of C69 at the moved places. | proved |
| C78 | From the octet-level characterisation of the decoder (C69) and of the accessors (C17): all of it is inside the sections' octets. | proved |
| C79 | Walk and Faithful of C59 only mention octets outside of the packed data; sections of a walk do not overlap; decoding through C78. | proved |
| C80 | Every operation on a cursor is shown to consume exactly n events of a schedule of complete calls; n is bounded along the stream with the number of 4081-octet blocks left as potential. | proved |
| C81 | An encoder as specification (Spec/Field); opening by C10 and C49, the values by C20, C21, C25, C27, C29 for the sections the encoder makes, the bitmap by spread. | proved |
| C82 | A second model of the reader with wrapping arithmetic (Model/Release); a step of it equals a step of the debug model or the latter panics; once what is left of the message has been counted below zero, no end section is found any more; sections without progress are two sections 7 in a row, which the parser refuses. | proved |
| C83 | Wrapping versions of the functions with arithmetic (Model/ReleaseDecode); a relation 'equal, or the debug one panics here' carried through the iterators; values modulo 2^32 with Int.bmod. | proved |
| C84 | Wrapping versions of the functions with arithmetic (Model/ReleaseGrid); the relation of C83; the sign of a wrapped difference; induction over the calls on empty lines. | proved |
| C85 | The functions that read sections once more with the sizes requested as a further result (Model/Memory), proved equal to those of the model without it; walk over the sections: the buffers lie side by side in the data. | proved |
| C86 | Commands on top of the release models (Model/ReleaseCli); the relation of C83 and C84 carried through the loops that print and write. | proved |
| C87 | `Spec/DoubleLibrary` (accuracy of the library), `Model/GaussianDouble` (the f64 instance of the operations). `Lemmas/LegendreLocal` (Newton's method near a zero), `LegendreRounding` (error of the recurrence, of the derivative and of a step, at most 15·n units), `Lemmas/GaussianDouble` (invariant of the search, first guess), `GaussianDegrees` (one row, arcsine, degrees, distances of latitudes). Hypotheses met: accurate libraries exist; one row, and two rows with a concrete cosine. | proved |
| C88 | `Model/Narrow` has the functions of opening with 32 bits. One step agrees with that of 64 bits where the section found ends below 2^32 (`next_of_model`) or is a panic (`next_fol`); induction over the stream. That messages end within the data comes from the walk of C70 and the end section (`walk_within`). Panics in sections that are out of order anyway are settled by the parser lemmas of C82. Witnesses: a total length of 2^32 + 86, a section of 2^31 + 5 octets. | proved |
| C89 | `Model/Demo`. The thresholds are computed in the kernel; rounding is monotonic and leaves single-precision numbers alone, so a number is above the rounded threshold iff it is above the exact one (`warmer_iff`). The picture is unfolded into `decodeSub` (C69) and `gridShape`; the scanning order is compared with the order of pixels by arithmetic on `visit`. | proved |
| C90 | `Model/NarrowDecode`. Each function is a panic or that of 64 bits (`Fol`, `OExt`, `BExt` of C82/C83); conversely, where 64 bits have no panic the guards are shown not to fire: offsets in a group are bounded by section 7, the length of what was decoded before by the number of values, powers by `PowersFit`. Grids: 8n^3 < 2^32 iff n < 813; number of points from a 4-octet field. | proved |
| C91 | `Model/Examples`. Each printing loop is `printEach`, which prints the texts of the elements before the first panic (`PrintsWhile`); the panics are those of C64, the texts those of C54. `zipPrint` by induction on what calling `next` observes (`Pulled`), which uses a bit of the bitmap each time. Decoding in sequence by C49/C50. | proved |
| C92 | `Model/Program`: one function from command and reader to printed text and outcome. `decode` and its binary output by exhaustive cases (`DecodeRun`, `ExportRun`: total and deterministic), resting on C46 (index), C63 (grids: `points_cases`), C69 (values), C73 (writes) and C91 (`Pulled`); the others on C55, C64, C74. | proved |
| C93 | `Model/NarrowRelease` has opening with sums and differences modulo 2^32. As long as the stream's bookkeeping is exact one step is that of `N32`, or the latter panics and the wrapped stream is astray (`next_step`): its message ends beyond what can be addressed, so that no section 8 is ever found (`next_lost`) and the parser, which needs one, refuses the file. Ends because each step advances the reader (`next_progress`). Headers are read only where they may be expected (`Spec/Chain`, `next_chain`). Witnesses: the overlapping file of C82 is refused; a section 1 of stated length 4 panics. | proved |
| C94 | `Model/NarrowReleaseDecode` wraps around at 2^32. Relations `Fol`/`Ext`/`BExt` of C83 between `N32` and `R32`; complex packing against `Rel` by induction over the groups; the size hint by arithmetic modulo 2^32; infinities and NaNs through the recurrence and the search for roots. | proved |
| C95 | `Model/DemoWasm` puts the demo on top of `Model/NarrowRelease*`. C93 for opening, `Fol` of C86 for rows, C90 and C94 for decoding, C89 for pictures. | proved |
| C96 | `Model/Messages` models the functions whose errors have texts again, with texts; without texts they are the other models (`C96_same`). Texts are split into a fixed beginning, of which none is the beginning of another, and a rest. Reasons by octets with C36; errors of decoding with C69. | proved |
| C97 | `Props/ReleaseProgram.lean` on `Model/ReleaseCli`: one inductive of cases per command, exhaustive and each determining the outcome, as in C92; the points of a grid by C84 (`release_empty_lines`) and the iterator of C37. Files that only a release build opens are included: `Lemmas/ReleaseOpened` redoes C17, C18, C19, C46 and C55 from C82. | proved |
| C98 | `Model/ReleaseMessages` is to `Model/Messages` as `ReleaseCli` to `Cli`; it is `ReleaseCli` without the texts (`C98_same`) and follows `Messages` where that does not panic (the relations of C83 and C84). Reasons by octets as in C96, with the sign of a wrapped difference. | proved |

## Findings: where the code violates a listed property

Each item is proved in the model with a concrete witness.

* **Reader.** A short read makes opening fail or silently drop messages (C07). `total_length < 16`, a section size below 5, a
  section larger than the rest of its message and an empty section 6 panic (C06). Skipping section 7 does not look whether the
  octets exist (the error comes from the next section). In a release build iterating over the sections of a file with a section
  7 of length 0 never ends, and a section 7 of length 1 to 4 makes sections overlap (C82).
* **Context.** `nth(n)` counts from the start of the file instead of the current position; `size_hint` panics after `nth`
  beyond the end; two live submessages panic on the second mutable borrow (C18).
* **Decoder.** Padding bits of the last octet are decoded as extra values (C22); `size_hint` of simple packing is wrong; fewer
  values than points are not reported (C23). A section 5 shorter than its template panics. Widths above 32 bits are reduced
  modulo 2^32 (C20). Run length: padding bits of widths below 8 are decoded as extra levels and rejected (C25); width 16 and
  more panics, width 0 with maximum 0 never ends, digit overflow panics (C26). Complex packing: no groups panics; a zero-width group
  panics with 31 bits and more; order-2 differencing overflows for large values (C29). JPEG 2000: a subsampled component is read out
  of bounds (C47).
* **Single precision.** `E ≥ 128` turns points with stored integer 0 into NaN, `E < -127` computes `2^E` as 0 with the usual `powi`
  (C60).
* **Grids.** Empty lines make the index iterator endless and `size_hint` panic (C32, C37); a single row or column gets NaN
  coordinates, equal end longitudes scanned eastwards go westwards (C33); end point differences beyond 32 bits and empty
  dimensions panic, a single row scanned in +j is refused (C34); short sections panic (C36); scale factors of the earth radii are
  applied with the wrong sign (C43); Gaussian: overflow for large `nj`, N and the stated end latitudes are ignored (C35); a bipolar
  projection flag is ignored (C51). In a release build end latitudes with a difference beyond 32 bits are accepted the wrong way
  round, and a grid without rows or columns makes lists of 2^32 coordinates (C84).
* **Headers.** Generating process of templates 47, 83, 254 and forecast time of template 44 are read from wrong octets;
  accessors panic on short sections (C39).
* **Tables.** Sparse code tables lose all their entries, a reversed range panics, interleaved categories keep only the last group
  (C44); reserved codes inside a table look up as empty text (C42); a repeated wgrib2 line removes the variant, the same local code of
  two centres gives duplicate discriminants, names differing in `-`/`_` merge (C45).
* **Command line.** Too large index numbers panic (C46); an error of the final flush is ignored and success reported (C52); a
  panic in the coordinates stops the binary export as well (C53); `list` panics when more values are stated than points (C54), in a release build it shows up to 4294967295 missing points (C86);
  `decode` of a Gaussian grid without rows scanned by columns prints the header and panics (C92);
  `list --dump` announces 10n−1 lines and prints at least 18n, `inspect` does not count a heading (C57).
* **32-bit platforms.** A section ending beyond 2^32 panics (C88); Gaussian grids of 813 rows and more (F640, for instance), groups of
  2^28 values and run lengths with large powers panic, in builds with overflow checks (C90). Without them (as in the browser) Gaussian
  grids with a multiple of 1024 rows are refused, a grid of 65536 × 65536 points that states none is accepted, and a group of 2^32 bits
  is taken to be empty (C94).
* **Demo.** The demo in the browser ends when a submessage packed as JPEG 2000 is clicked on (`unwrap` of an error), and shows
  4294967295 points without a value for a file that states one value more than points (C95).
* **Examples.** The example `list_layers` panics at a product definition template without a forecast time or without surfaces (4.31 and other
  satellite products), because it unwraps both (C91); its width `{:>14}` has no effect on the time.

## Not modelled

Regular-expression engine, CSV and PNG / JPEG 2000 formats (parameters), `proj` projections (parameter), terminal and
pager, `completions` command, parsing of the command line, HTML and events of the demo, `Drop` and pointer lifetimes of the OpenJPEG wrappers, memory exhaustion
(`Vec` allocation failure), wall-clock time, threads (the library uses none).
