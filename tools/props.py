#!/usr/bin/env python3
"""Generates /verif/properties.jsonl (one JSON object per property)."""
import json
P = []
def p(id, title, statement, quantifier, why, anchors):
    P.append(dict(id=id, title=title, statement=statement, quantifier=quantifier,
                  why_tests_cant=why, anchors=anchors))

p("C01", "Signed octets decode as sign and magnitude",
  "Every signed integer field of a GRIB2 file (scale factors, latitudes, forecast times, spatial-differencing descriptors of 1 to 4 octets) is decoded as: top bit = sign, remaining bits = magnitude. Negating a field (flipping only the top bit) negates the value, every value of the symmetric range is produced by some octets, and the decoding agrees across 1, 2, 3 and 4 octet widths.",
  "all octet strings of length 1 to 4 (and 8 for the 64-bit variant)",
  "2^32 inputs for the four-octet form alone, and the three-octet form is a separate hand-written path.",
  ["src/helpers.rs: GribInt::as_grib_int, grib_int_from_bytes, read_as"])
p("C02", "Bit-packed integers are extracted exactly",
  "Reading an octet buffer as consecutive n-bit big-endian unsigned integers starting at any bit of the first octet yields, for each k, exactly the integer written in bits [offset+k*n, offset+(k+1)*n), yields exactly floor((8*len-offset)/n) integers, and then stays exhausted.",
  "all buffers, all widths 1..32 (and what happens for wider ones, where the last 32 bits are kept), all start offsets 0..7 (others panic), all k",
  "Widths, offsets and buffer lengths interact at every byte boundary; tests fix a handful of widths.",
  ["src/decoder/stream.rs: NBitwiseIterator, BitStream"])
p("C03", "A message start is found wherever it is",
  "Looking for the next message from a position returns the first position at or after it where the four octets 'GRIB' stand with at least 16 octets remaining, and reports the exact distance skipped; if there is none, it reports end of data. In particular the internal 4096-octet blocks are invisible.",
  "all file contents and all start positions, reader delivering full blocks",
  "Block-boundary positions of the magic octets; unbounded garbage before the message.",
  ["src/reader.rs: SeekableGrib2Reader::read_sect0, Grib2SectionStream::next_sect0"])
p("C04", "Reported sections are where the file says they are",
  "For every section reported by the section stream before its first error, the reported offset, size and number agree with the octets of the file at that offset: section 0 has the magic octets, section 8 has '7777', and sections 1-7 have that size and number in their 5-octet header.",
  "all file contents, all prefixes of the stream",
  "Offset bookkeeping (whole_size/rest_size) is independent from the reader position; only an invariant over every history ties them.",
  ["src/reader.rs: Grib2SectionStream::next, next_sect0, next_sect, next_sect8"])
p("C05", "Sections of a message tile it",
  "Consecutive sections reported within one message are adjacent (each starts where the previous ended), the first starts at the message start and, when section 8 is reported, it ends exactly total_length octets after the message start.",
  "all file contents, all messages in them",
  "Holds for the whole history of the stream, for every number of sections and every size.",
  ["src/reader.rs: Grib2SectionStream"])
p("C06", "Malformed lengths are errors, not crashes",
  "Opening any octet string as GRIB2 returns Ok or Err; it does not panic (total_length < 16, section size < 5, a section larger than what is left of the message, an empty section 6 are all reported as errors).",
  "all octet strings",
  "Adversarial inputs; fuzzing samples, a theorem (or a witness of the negation) decides.",
  ["src/reader.rs: next_sect0, next_sect, read_sect_payload, read_sect6_payload"])
p("C07", "Short reads do not change the result",
  "Opening a file gives the same result whatever sizes the underlying reader chooses to return from each read call (as std::io::Read allows and BufReader does at buffer boundaries).",
  "all file contents and all schedules of read sizes",
  "Depends on the schedule of an external component.",
  ["src/reader.rs: read_sect0, read_sect8, read_sect_header, check_size"])
p("C08", "An I/O failure is never swallowed",
  "If the underlying reader fails at any read or seek while a file is being opened, opening returns an error; no partial list of submessages is returned as success.",
  "all file contents and all failure points",
  "Every crash point of an external component.",
  ["src/context.rs: Grib2::read, src/reader.rs: SeekableGrib2Reader, Grib2SectionStream"])
p("C09", "Truncation is always detected",
  "If a file consisting of well-formed messages is cut inside a message at 16 octets or more after that message's start, opening it fails with an error; cut at less than 16 octets after the message's start, it opens as exactly the complete messages before the cut.",
  "all well-formed files and all cut points",
  "Every cut point of every file; section 7 is skipped by seeking, without reading it, so the detection is indirect.",
  ["src/reader.rs", "src/parser.rs: Grib2SubmessageValidator", "src/context.rs: Grib2::read"])
p("C10", "Writing then opening gives back the structure",
  "For every sequence of well-formed messages (any number of submessages, with or without local-use and repeated grid sections, separated by arbitrary octets containing no message start), opening the serialized file succeeds and lists exactly these submessages, in order, with the right section offsets, sizes, numbers and decoded section headers.",
  "all well-formed abstract files",
  "Unbounded nesting of messages and submessages and unbounded sizes.",
  ["src/reader.rs", "src/parser.rs", "src/context.rs: Grib2::read"])
p("C11", "Exactly the section sequences of the standard are accepted",
  "A stream of sections is accepted without error iff it is a sequence of messages of the form 0 1 (repeating groups) 8 where each group is [2 3 | 3 | nothing once a grid is known] 4 5 6 7; otherwise an error is reported at the first offending section.",
  "all section sequences",
  "A language equality over unbounded sequences.",
  ["src/parser.rs: Grib2SubmessageValidator"])
p("C12", "Every submessage refers to sections of the right kind",
  "For each listed submessage, the indices it carries are in range and point to sections with numbers 0,1,(2),3,4,5,6,7 respectively, and its end section is the section 8 of its message when it is the last of its message.",
  "all section sequences, all submessages produced",
  "Unbounded histories; the cache of indices is mutable state reset between messages.",
  ["src/parser.rs: Grib2SubmessageIndexStream, src/context.rs: SubMessage"])
p("C13", "Submessages are numbered consecutively",
  "Listed submessages have indices (m, s) where m counts messages from 0 in file order, s counts from 0 inside the message, without gaps or repetition, in lexicographic order.",
  "all section sequences",
  "Counter resets between messages over unbounded histories.",
  ["src/parser.rs: Grib2SubmessageValidator, Grib2SubmessageIndex"])
p("C14", "Repeated sections follow the most recent one of the same message",
  "The local-use (2) and grid (3) sections attached to a submessage are the most recent ones preceding it in the same message; none leaks from an earlier message.",
  "all accepted section sequences",
  "Stateful inheritance over unbounded histories.",
  ["src/parser.rs: Grib2SubmessageStream, Grib2SubmessageIndexStream"])
p("C15", "After an error the submessage stream is over",
  "Once the submessage stream has reported an error it reports no further item; and every submessage reported before an error is the same as if the file ended right after its message.",
  "all section streams and all continuations",
  "Statement over every continuation of the iteration.",
  ["src/parser.rs: Grib2SubmessageValidator, src/context.rs: Grib2::read"])
p("C16", "Both submessage streams agree",
  "The public submessage stream (by value) and the index stream used by Grib2 produce corresponding items: resolving each index in the recorded section list gives exactly the sections of the by-value item (the end section of a non-final submessage excepted), the recorded list being the input sections in order.",
  "all section streams",
  "Two separate state machines must be bisimilar.",
  ["src/parser.rs: Grib2SubmessageStream, Grib2SubmessageIndexStream"])
p("C17", "Submessage accessors never hit a section of the wrong kind",
  "On any successfully opened data, the accessors of every submessage (indicator, identification, grid_def, prod_def, repr_def) return the decoded header of the corresponding section and never panic.",
  "all file contents and all submessages",
  "Needs the composition of reader and parser invariants.",
  ["src/context.rs: SubMessage, src/reader.rs: read_sect_payload"])
p("C18", "Listing submessages enumerates each exactly once",
  "Iterating over an opened file yields exactly as many submessages as len(), each index once and in order; size_hint is exact; nth(n) skips n elements as the Iterator contract says.",
  "all files and all sequences of next/nth calls",
  "Every history of iterator calls.",
  ["src/context.rs: SubmessageIterator, SubmessageSection"])
p("C19", "The template listing is exact",
  "list_templates returns a strictly increasing list that contains exactly the (section number, template number) pairs occurring in the file.",
  "all section lists",
  "Set equality over unbounded inputs.",
  ["src/context.rs: get_templates, SectionInfo::get_tmpl_code"])
p("C20", "Simple packing decodes each stored integer by the standard formula",
  "With template 5.0, the k-th decoded value is (R + X_k*2^E)*10^-D where X_k is the k-th n-bit integer of section 7 (reduced modulo 2^32 if n > 32); with n = 0 every point has the value R*10^-D; any other original field type is an error.",
  "all section 5/7 contents",
  "All parameter combinations and widths.",
  ["src/decoder/simple.rs, src/decoder/param.rs, src/decoder/stream.rs"])
p("C21", "Simple packing: encoding then decoding is the identity on the packed integers",
  "Packing any list of n-bit integers MSB first into octets, padding the last octet, then decoding gives back these integers as a prefix of the decoded sequence.",
  "all integer lists, all widths 1..32",
  "Unbounded lists, all widths.",
  ["src/decoder/simple.rs, src/decoder/stream.rs"])
p("C22", "As many values as grid points",
  "Decoding yields exactly as many values as the section-3/section-5 point count says.",
  "all section contents whose section 7 holds enough bits",
  "Padding bits of the last octet depend on width and count; tests use counts that happen to align.",
  ["src/decoder/simple.rs, src/decoder/bitmap.rs, src/decoder.rs"])
p("C23", "The bitmap decides which points are missing",
  "With a bitmap, point k is missing (NaN) iff bit k is 0; otherwise it is the next not yet used decoded value, in order.",
  "all bitmaps and decoded sequences",
  "Unbounded index arithmetic with an intra-octet cursor.",
  ["src/decoder/bitmap.rs: BitmapDecodeIterator, create_bitmap_for_nonnullable_data"])
p("C24", "Bitmap indicator selection",
  "Bitmap indicator 0 uses the bitmap stored in section 6, 255 means no point is missing, any other value is rejected with the corresponding error.",
  "all section 6 contents and point counts",
  "All indicator values and sizes.",
  ["src/decoder.rs: Grib2SubmessageDecoder::from, src/decoder/bitmap.rs"])
p("C25", "Run-length packing round trip",
  "For every sequence of level indices, run-length encoding it (level followed by the run length minus one in base 2^n-1-MV digits, least significant first) and decoding with the declared length gives back the sequence, and the decoded values are the levels scaled by 10^-D.",
  "all level sequences, all n and MV with 0 < MV+1 < 2^n",
  "Unbounded run lengths and digits.",
  ["src/decoder/run_length.rs: rleunpack, decode"])
p("C26", "Run-length decoding rejects bad input with an error",
  "Decoding any section 5/7 contents with template 5.200 terminates with Ok or Err: a first value that is not a level, a level out of the table or a total length mismatch are errors.",
  "all section contents",
  "Non-termination and overflow cannot be excluded by sampling.",
  ["src/decoder/run_length.rs"])
p("C27", "Complex packing groups are read from the right bits",
  "With templates 5.2/5.3, value k of group g is group_ref[g] plus the integer stored in its own width bits at bit offset sum over earlier groups of width*length plus k*width; a group of width 0 is constant. The group references, widths and lengths come from consecutive octet-aligned blocks and the last group has the explicitly stated length.",
  "all section 5/7 contents with consistent sizes",
  "Unbounded number of groups with running bit offsets.",
  ["src/decoder/complex.rs: decode_complex_packing, ComplexPackingValueDecodeIterator"])
p("C28", "Complex packing: missing values",
  "With missing-value management 1 (2), an integer of all ones (all ones, or all ones but the last bit) in its width is reported as missing and no other integer is; the decoded point is NaN exactly there.",
  "all widths and integers",
  "All widths and integers, and constant groups as a separate path.",
  ["src/decoder/complex.rs, src/decoder/complex/missing.rs"])
p("C29", "Spatial differencing is inverted exactly",
  "For order 1 and 2, if a sequence (with missing points anywhere) is spatially differenced over its non-missing points and the minimum subtracted, decoding gives back the original sequence, missing points included, as long as the values (for order 2: their doubles) fit 32-bit integers.",
  "all sequences of integers in range, all placements of missing points",
  "Unbounded accumulation with interleaved missing points.",
  ["src/decoder/complex/diff.rs"])
p("C30", "Unsupported representations are refused, supported ones dispatched",
  "Decoding dispatches on the section 5 template number: 0, 2, 3, 40, 41, 200 to their decoders, every other number gives an unsupported-template error; template 2/3 variants not implemented are refused before decoding.",
  "all template numbers",
  "All 65536 numbers.",
  ["src/decoder.rs: Grib2SubmessageDecoder::dispatch, src/decoder/complex.rs"])
p("C31", "Grid points are visited in scanning order",
  "The k-th visited grid point (i, j) follows the scanning-mode flags: i or j consecutive, alternating rows reversed or not.",
  "all grid shapes, all 16 supported flag combinations, all k",
  "Unbounded shapes.",
  ["src/grid.rs: GridPointIndexIterator, ScanningMode"])
p("C32", "Each grid point is visited exactly once",
  "Iterating over grid indices visits every (i, j) with i < ni and j < nj exactly once and stops; size_hint is exact at every moment.",
  "all grid shapes and flags",
  "Bijection over unbounded shapes; degenerate shapes.",
  ["src/grid.rs: GridPointIndexIterator"])
p("C33", "Regular grids: coordinates follow the definition",
  "For latitude/longitude grids, the number of latitudes/longitudes is nj/ni, the first and last are the stated end points, intermediate ones are equally spaced, longitudes crossing the 360-degree line stay continuous, and point k gets the pair selected by the scanning order.",
  "all grid definitions accepted",
  "All shapes and end points.",
  ["src/grid/latlon.rs, src/grid/helpers.rs"])
p("C34", "Grid consistency checks are right and total",
  "compute latlons on a lat/lon grid returns Ok or Err for every grid definition (never panics), and accepts exactly those whose end points agree with the scanning direction.",
  "all grid definition contents",
  "All end points (i32 extremes) and shapes (0, 1, ...).",
  ["src/grid/latlon.rs: is_consistent_for_j, latlons; src/grid/gaussian.rs"])
p("C35", "Gaussian latitudes",
  "Gauss-Legendre root search does a bounded number of evaluations and returns only converged roots; latitudes come in the order implied by the scanning mode and as many as requested.",
  "all numbers of latitudes",
  "Iterative floating-point search for every n.",
  ["src/grid/gaussian.rs"])
p("C36", "Grid definitions parse or are refused",
  "Decoding a grid definition section reads each field of templates 3.0, 3.20, 3.30, 3.40 from the octets the standard assigns, refuses other templates, and never panics.",
  "all section 3 contents",
  "All lengths and template numbers.",
  ["src/datatypes/sections.rs: GridDefinition, TryFrom<&GridDefinition>", "src/grid/*.rs: from_buf"])
p("C37", "Number-of-points check guards coordinates",
  "ij() and latlons() succeed only if the number of points stated in section 3 equals the number of points that the grid shape gives, so zipping coordinates with values is aligned.",
  "all submessages",
  "All section 3 contents.",
  ["src/context.rs: SubMessage::ij, SubMessage::latlons"])
p("C38", "Section header decoding",
  "Sections 0, 1, 3, 4, 5 expose exactly the fields stored in their octets; a body shorter than the fixed part is an error, never a panic.",
  "all section bodies",
  "All lengths and octets.",
  ["src/datatypes/sections.rs: Indicator, Identification, GridDefinition, ProdDefinition, ReprDefinition"])
p("C39", "Product definition accessors",
  "For every product definition template number and body, parameter category/number, generating process, forecast time and fixed surfaces are the octets the template assigns or absent; they never panic and never read overlapping octets.",
  "all template numbers and bodies",
  "All bodies and 65536 template numbers over three hand-written tables.",
  ["src/datatypes/sections.rs: ProdDefinition"])
p("C40", "Parameter identity",
  "The combined 32-bit parameter code determines discipline, category and number uniquely, and two parameters compare identical iff these three agree.",
  "all parameters",
  "2^24 triples.",
  ["src/datatypes/product_attributes.rs: Parameter"])
p("C41", "Fixed surfaces and forecast times interpret their codes as the tables say",
  "A fixed surface value is scaled_value*10^-scale_factor, NaN iff the stored octets are the missing pattern; time unit codes map to their Table 4.4 meaning or stay as raw numbers, losslessly.",
  "all stored octets",
  "All codes and stored values.",
  ["src/datatypes/product_attributes.rs, src/codetables/grib2.rs, src/codetables/core.rs"])
p("C42", "Code table lookups are total",
  "Converting any code with any code table gives the table's text for that very code (empty for a code the table reserves before its last entry) or, beyond the table, the explicit 'unimplemented' value with that code, never a panic or a neighbouring entry. The text of a parameter is the entry with its number in Table 4.2 of its own discipline and category.",
  "all tables, all codes, all parameters",
  "All codes.",
  ["src/codetables/old.rs: ArrayLookup, CodeTable4_1, CodeTable4_2"])
p("C43", "Earth shape",
  "The earth radii used for projections are those of the shape code, with explicitly stated radii scaled by 10^-scale_factor; reserved codes give no radii.",
  "all shape octets and scale factors",
  "All scale factors; tests only use factor 0.",
  ["src/grid/earth.rs: EarthShapeDefinition::radii"])
p("C44", "Generated code tables index by code",
  "The array generated from a code table file is either empty (given up) or maps each listed code to its description and each code without description below the last to the empty string, ranges expanding to all their members; a table listing its codes contiguously from 0 is never given up; records are grouped by category in file order.",
  "all parsed table files",
  "Unbounded tables and ranges.",
  ["gen/src/lib.rs: CodeTable::to_vec, CodeRange; gen/src/grib2_codeflag_csv.rs"])
p("C45", "Generated parameter codes",
  "When every code is listed once, each identifier generated from the wgrib2 tables denotes one code, distinct identifiers have distinct codes, every code converts to the identifier of its name, and the remapper sends each alternative code to the code of the identifier with the same name.",
  "all table contents (uniqueness of codes assumed; witnesses show it is needed)",
  "Deduplication over unbounded tables.",
  ["codegen/src/param_codes.rs"])
p("C46", "CLI message indices",
  "The message index argument of the command line accepts exactly 'digits.digits' (numbers fitting a machine word), selects exactly the submessage with that index, and printing a submessage index gives a string that parses back to it.",
  "all strings, all indices",
  "All strings, including overflowing numbers.",
  ["cli/src/cli.rs: CliMessageIndex"])
p("C47", "JPEG 2000 codestream is passed unchanged",
  "Whatever chunk sizes the JPEG 2000 library asks for, the concatenation of what it is given is exactly section 7, followed by end of stream; reduced sizes are ceilings of the full ones.",
  "all codestreams and all request schedules",
  "Every schedule of an external library.",
  ["src/decoder/jpeg2000/ext.rs"])
p("C48", "Opening always terminates",
  "Opening any finite file terminates, with a number of reported sections bounded by the file length.",
  "all octet strings",
  "Non-termination cannot be tested.",
  ["src/reader.rs, src/parser.rs, src/context.rs"])
p("C49", "Decoded submessage values end to end",
  "For a well-formed file with simple packing, opening it and decoding submessage k gives the values determined by the octets of the k-th submessage's own sections 5, 6 and 7 (not another submessage's).",
  "all well-formed files, all submessages",
  "Composition of reader, parser, seeks and decoder.",
  ["src/context.rs, src/decoder.rs, src/reader.rs: read_sect_payload_as_slice"])
p("C50", "Decoding does not depend on previous accesses",
  "Decoding a submessage re-reads its sections by absolute seek, so the result is the same whatever was read or decoded before, in any order.",
  "all files, all histories of accesses",
  "All orders of accesses to a shared mutable reader.",
  ["src/reader.rs: read_sect_payload_as_slice, src/decoder.rs: Grib2SubmessageDecoder::from"])
p("C51", "Projected grids",
  "For Lambert conformal and polar stereographic grids, the k-th coordinate pair is the inverse projection, by the projection that the section's parameters define, of the point i*Dx, j*Dy away from the projected first point in the scanning direction, where (i, j) is the k-th point in scanning order; unknown earth shapes and unsupported flags are refused.",
  "all grid definitions, all k, all projections",
  "Composition of scanning order, directions and units with an external library.",
  ["src/grid/lambert.rs, src/grid/polar_stereographic.rs, src/grid/helpers.rs: latlons_from_projection_definition_and_first_point"])
p("C52", "Flat binary export writes every value",
  "When the export succeeds and the file accepts all octets, the file holds exactly the four octets of each decoded value in order, in the requested byte order; after any failure it holds a prefix of them. If the command reports success, all octets are in the file.",
  "all value sequences, all schedules of partial and failing writes",
  "All schedules of an operating system's writes.",
  ["cli/src/commands/decode.rs: write_output"])
p("C53", "The decode command pairs each value with its own point",
  "decode N.M prints or exports the values of the submessage with exactly that index; in the text output the k-th row is the k-th decoded value with the coordinates of the k-th point in scanning order, NaN coordinates for unsupported grids; an index that is not listed is an error.",
  "all files, all index strings, all grids and packings",
  "Composition of lookup, grid iteration, decoding and zipping over unbounded data.",
  ["cli/src/commands/decode.rs"])
p("C54", "Descriptions show the submessage's own fields",
  "describe() and each line of the list command show exactly the fields of that submessage's own sections, looked up in the tables of its own discipline and category; describe() panics only when section 4 is too short for its template.",
  "all openable files, all submessages, all table contents",
  "All files and table contents.",
  ["src/context.rs: SubMessage::describe", "cli/src/commands/list.rs"])
p("C55", "info shows each message once",
  "The info command prints one block per message of the file, in order and numbered from 0, with the values of the message's own sections 0 and 1, up to the first message with an invalid reference time, on which it fails; it never panics.",
  "all openable files",
  "Unbounded numbers of messages and submessages.",
  ["cli/src/commands/info.rs"])
p("C56", "inspect shows the structure of the file",
  "inspect shows one line per section with its exact offsets, one line per submessage with the ranks of its own sections and its templates, and each template used in the file exactly once, in order.",
  "all openable files",
  "Unbounded structures.",
  ["cli/src/commands/inspect.rs"])
p("C57", "Announced numbers of lines are exact",
  "The number of lines that list, inspect and decode announce to decide about the pager equals the number of lines they print.",
  "all openable files and option combinations",
  "All files.",
  ["cli/src/commands/list.rs, inspect.rs, decode.rs: PredictableNumLines"])

p("C58", "The reference time is the stored calendar time",
  "ref_time() of a submessage's identification section returns the instant at which a Gregorian calendar clock (UTC, no leap seconds) shows the stored year, month, day, hour, minute and second; it is an error exactly when no such instant exists; instants are ordered like the stored fields.",
  "all contents of section 1 of opened files",
  "All 2^56 field combinations, leap-year rules.",
  ["src/datatypes/sections.rs: Identification::ref_time, create_date_time"])

p("C59", "Exactly the well-formed data open, and opening panics exactly at senseless lengths",
  "Data open, giving the sections S, exactly when walking through them from the reader's position gives S, each section being what the octets say, in an allowed order, with every message complete and no message start afterwards; S is determined by the data. Opening panics exactly when such a walk, over a beginning of an allowed order, reaches a section or message length that leaves no room for what must be read; in all other cases it returns.",
  "all data, start positions and schedules of short reads",
  "All octet strings.",
  ["src/context.rs: from_reader, Grib2::read", "src/reader.rs", "src/parser.rs"])

p("C60", "Values computed in single precision are the standard's values up to rounding",
  "Decoding with the program's single-precision arithmetic (templates 5.0, 5.2, 5.3, 5.40, 5.41) fails on the same data and yields as many items, the same ones missing, as exact arithmetic; every value is within 2^-20*(|value| + 2*|R|*10^-D) of the exact one if the intermediate results stay in range; larger values are never computed smaller than smaller ones; with D = 0 and R a multiple of 2^E, values up to 2^23 units are exact.",
  "all section 5/7 contents whose reference value is finite and whose powers 2^E, 10^-D are computed within 2^-22 (compiler-rt: -126 <= E <= 127, -37 <= D <= 38)",
  "Rounding behaviour for all 2^32 integers and all parameters.",
  ["src/decoder/simple.rs: SimplePackingDecodeIterator::next", "src/decoder/param.rs", "src/decoder/complex.rs", "src/decoder/jpeg2000.rs", "src/decoder/png.rs"])

p("C61", "Coordinates of latitude/longitude grids in single precision",
  "latlons() computes coordinates in single precision. For an accepted grid with two or more rows and columns, every coordinate is finite; each latitude is within 2^-19 times the larger end latitude of the exact one and each longitude within 2^-19*(larger end longitude + 360) degrees of the exact one, up to whole turns (unless both end longitudes are the same and scanned eastwards, see C33); coordinates keep the order of rows and columns; rows further apart than the double error stay distinct (closer ones may collapse).",
  "all accepted latitude/longitude grids with two or more rows and columns (longitudes also of Gaussian grids), any number of points",
  "Accumulated rounding over all 2^200 grid definitions cannot be sampled; a wrong order of operations changes only a few of them.",
  ["src/grid/latlon.rs: LatLonGridDefinition::latlons", "src/grid/helpers.rs: evenly_spaced_degrees, evenly_spaced_longitudes", "src/grid/gaussian.rs"])

p("C62", "Exactly how many values decoding yields",
  "If section 7 decodes to the values vs, iterating over the decoded data is an error exactly if the bitmap has fewer bits than there are points; otherwise it yields one item per bit looked at until a 1 bit finds no value left, each item being NaN at a 0 bit and otherwise the value with as many values before it as there are ones before the bit. There are exactly as many items as grid points if and only if the values cover the bits of the points and no bit beyond yields a further item. Panics while decoding an item are reached exactly if the bitmap demands that item.",
  "all bitmaps, numbers of points and decoded values",
  "All bitmaps and counts; the count depends on padding bits that samples rarely set.",
  ["src/decoder/bitmap.rs: BitmapDecodeIterator, dummy_bitmap_for_nonnullable_data", "src/decoder.rs: dispatch"])

p("C63", "Complete outcome of reading grids and computing coordinates",
  "Reading a grid definition succeeds exactly for the supported templates with sections of the template's length, panics exactly for sections shorter than their template, and is refused otherwise. latlons() of a latitude/longitude or Gaussian grid panics exactly if the difference of the end latitudes does not fit 32 bits or, for a grid otherwise accepted, there are no rows or columns, the difference of longitudes does not fit or (Gaussian) there are 1321123 or more rows; it is refused exactly if the latitudes contradict the scanning direction, a flag is unsupported or (Gaussian) the search for latitudes does not converge. Projected grids are refused exactly for unknown earth shapes, unsupported flags or where the projection library refuses, and do not return exactly if there are lines without points. latlons() of a submessage gives coordinates exactly if the definition is read, the coordinates of a grid of that kind are computed and they are as many as the section states (else an invalid value); without a projection library projected grids are always refused as not supported.",
  "all contents of section 3, all float operations and projection libraries",
  "All 2^500 section contents.",
  ["src/datatypes/sections.rs: GridDefinitionTemplateValues::try_from, latlons", "src/grid/latlon.rs", "src/grid/gaussian.rs", "src/grid/lambert.rs", "src/grid/polar_stereographic.rs", "src/grid/helpers.rs", "src/context.rs: SubMessage::ij, latlons"])

p("C64", "Exactly which opened files make descriptions and listings panic",
  "For a submessage of an opened file: the time accessor panics exactly if its product definition section ends before the octets of the time that its template places there, the surface accessor exactly if it ends before the last octet of the surfaces, the other product accessors never; describe() panics exactly in one of these two cases; a line of `list` panics exactly in one of them, or if the grid definition section is shorter than its (known) template, or if the representation states more values than the grid has points; `list` and `list --dump` panic exactly if one of their lines or descriptions does.",
  "every octet sequence that opens, every submessage of it, every set of code tables, every floating-point arithmetic",
  "It is an equivalence over all files: tests show some files that print and some that crash, not that there are no other reasons.",
  ["src/context.rs: SubMessage::describe", "src/datatypes/sections.rs: ProdDefinition::forecast_time, fixed_surfaces", "src/grid.rs: GridDefinitionTemplateValues::try_from", "cli/src/commands/list.rs: ListView"])

p("C65", "Without rounding errors, the Gaussian latitudes are the Gaussian latitudes",
  "Computed in real arithmetic (with exact pi, cosine and arcsine, and the tolerance of the code), for every number of rows n up to 1321122: every root search converges with at most 6 of the 11 evaluations allowed; search number i finds the i-th largest zero of the Legendre polynomial of degree n, with an error of at most (n+1)^2 * 2^-102, so that no zero is missed and none is found twice; the latitudes are strictly decreasing from north to south and each is within (n+1)^3 * 2^-96 degrees of the Gaussian latitude; a Gaussian grid definition with supported flags whose end latitudes agree with its scanning direction is accepted, with these latitudes, in the order of its rows.",
  "every number of rows from 0 to 1321122, every row, every regular Gaussian grid definition with that number of rows",
  "It is about all zeros of all Legendre polynomials up to degree 1321122: tests compare a few tables of a few degrees, and that Newton's method does not jump from a guess to a neighbouring zero (most at risk near the poles) needs bounds on the zeros and on the derivatives for all degrees.",
  ["src/grid/gaussian.rs: compute_gaussian_latitudes, legendre_roots_iterator, legendre_polynomial, legendre_polynomial_derivative, find_root, GaussianGridDefinition::latlons"])

p("C66", "The texts shown for times, surfaces, grids and columns mean what is stored",
  "The time shown for a submessage is its stored number with the abbreviation of its stored unit (nothing for the missing unit, the unit's number if it is not in the table); the surfaces shown in a description are the text of the stored type, the stored signed scale factor and scaled value, or 'Missing' exactly if all bits of the respective octets are set; the unit of a surface is that of its type in the code table; the grid type is that of the template number, or 'unknown' with that number; numbers are shown in decimal notation with a sign exactly if negative; a line of `list` whose cells fit their columns has a fixed width and each cell in its own columns, and cells that do not fit are not cut; `inspect` shows exactly the parts asked for, or all if none is.",
  "every unit code and value, every surface type and every five octets, every grid definition, every row, every combination of flags",
  "The texts range over all 32-bit values and all codes, including those that the tables do not list and those that are reserved for missing values; tests show a few lines.",
  ["src/datatypes/product_attributes.rs: ForecastTime, FixedSurface", "src/codetables/grib2.rs: Table4_4", "cli/src/commands/list.rs: ListView", "cli/src/commands/inspect.rs: InspectView"])

p("C67", "Every outcome of run-length decoding",
  "Decoding run-length packed data yields values, a specific error or does not return, exactly as follows, whatever the octets. It does not return normally if section 5 lacks levels, the width exceeds 15 bits, MV does not fit the width, the width is zero with a non-empty section 7 (only then it loops forever, else it panics), or the numbers in section 7 are runs with a power of the base beyond 64 bits or more levels than fit the address space. Otherwise it is the error 'invalid first value' if the first number is no level, 'length mismatch' if the runs stand for another number of levels than declared, 'invalid level' naming the first level not in the table, and else the values of the levels the runs stand for. Packing the runs of any levels and decoding gives the levels back exactly if the padding of the last octet has no room for a further number, and is a length mismatch otherwise.",
  "every content of sections 5 and 7, every declared number of points, every sequence of levels",
  "The outcome depends on all numbers in section 7 at once (powers of the base, total length, first unlisted level), and overflow and divergence need inputs that no example file has.",
  ["src/decoder/run_length.rs: decode, rleunpack", "src/decoder/stream.rs: NBitwiseIterator"])

p("C68", "Every outcome of complex packing",
  "Decoding data of template 5.2 or 5.3 is an error, a panic or an iterator of values with or without a panic in it, exactly as follows, whatever the octets. It is an error if the values are not declared floating point, if the splitting method, the missing value management, the order of differencing or the number of extra descriptor octets is unsupported; a panic if section 5 is too short, or the descriptors or the blocks of group references, widths and lengths are not inside section 7 or too large for 32 bits, or there is no group. Otherwise the values of each group are those stored, offset by the group's reference and the minimum, up to the first group whose width, length, reference or values leave the machine integers or whose numbers are not inside section 7; with differencing, up to the first value whose computation leaves 32 bits. Iteration panics there, and all values are decoded if and only if there is no such place.",
  "every content of sections 5 and 7, both templates, both orders of differencing, every floating point arithmetic",
  "Which octets panic, and where, depends on all of the group headers and data at once; overflow needs inputs that no example file has, and tests only see files that decode.",
  ["src/decoder/complex.rs: decode_7_2, decode_7_3, decode_complex_packing, ComplexPackingValueDecodeIterator", "src/decoder/complex/diff.rs: FirstOrderSpatialDifferencingDecodeIterator, SecondOrderSpatialDifferencingDecodeIterator"])

p("C69", "Every outcome of decoding a submessage",
  "For every submessage of every file that opens, whatever was read before, and every arithmetic and image decoder: decoding it and collecting its values gives a specific error, a panic, or a specific list of values, and which one is determined exactly by the octets of its own sections 3, 5, 6 and 7. An unsupported bitmap indicator, representation template, field type or packing option is the error of that name; a section 5 too short for its template is a panic; a bitmap with fewer bits than points is a length mismatch. Otherwise the values are those of the template (all integers of the given width for simple packing and PNG pixels, the decoder's samples for JPEG 2000, the groups for complex packing, the levels for run-length packing, a constant for zero bits), distributed over the bits of the bitmap, up to the point for which there is no value; collecting panics exactly if the bitmap demands a value beyond the first one that cannot be computed.",
  "every opened file, every submessage of it, every state of the reader, every floating point arithmetic and image decoder",
  "The outcome depends on all octets of four sections at once; tests see a few well-formed files, and never one that panics.",
  ["src/decoder.rs: Grib2SubmessageDecoder::from, dispatch", "src/decoder/simple.rs: decode", "src/decoder/png.rs: decode", "src/decoder/jpeg2000.rs: decode", "src/decoder/bitmap.rs: BitmapDecodeIterator"])

p("C70", "Whatever the reader does, what is reported is right",
  "Let the underlying reader fail, or deliver fewer octets than asked for, at any of its calls. If opening succeeds nevertheless, the sections reported are those met when walking through the data from the start, each is what the octets say, and they form complete messages; only what follows may be missing. Every such beginning of the data is what some reader makes of them, so nothing more can be said. In particular, if the data open without disturbances, then with disturbances the result is an error or the first sections and first submessages of the undisturbed result, never a panic; opening panics only if it panics without disturbances. Decoding a submessage gives, whatever the reader does meanwhile, the undisturbed result or an I/O error.",
  "all data, all positions of the reader, all sequences of failures and short deliveries",
  "The behaviours of a reader are unbounded sequences; tests use a file or a cursor, which deliver everything.",
  ["src/reader.rs: SeekableGrib2Reader, Grib2SectionStream", "src/context.rs: Grib2::read", "src/decoder.rs: Grib2SubmessageDecoder::from"])

p("C71", "What is computed in double precision is accurate",
  "The value of a fixed surface, as computed in double precision, is a finite number within 2^-50 (relative) of the scaled value times ten to the minus scale factor, for every scale factor and every scaled value that a file can hold; it is NaN exactly if the value is missing, has the sign of the scaled value, and with equal scale factors greater scaled values give greater values. Angles given to the projection are within 3*2^-53 of the microdegrees of the section; the points of the plane given to the inverse projection are within 2^-50 of the first point plus a whole number of steps; the radii of the earth are within 2^-50 of what the program's formula says exactly.",
  "all scale factors, scaled values, grid definitions, grid points; powers of ten of stated accuracy (compiler-rt's powi satisfies it for every scale factor)",
  "The ranges are 255 by 2^32 values; rounding depends on each of them, and tests compare a few.",
  ["src/datatypes/product_attributes.rs: FixedSurface::value", "src/grid/helpers.rs: latlons_from_projection_definition_and_first_point", "src/grid/earth.rs: EarthShapeDefinition::radii", "src/grid/lambert.rs: LambertGridDefinition::latlons", "src/grid/polar_stereographic.rs: PolarStereographicGridDefinition::latlons"])

p("C72", "Every way of using iterators over submessages",
  "A program that has opened data may make any number of iterators over its submessages (iter, submessages, into_iter), copy them, and call next, nth and size_hint on them in any order, keeping or dropping the submessage it was last given. Each call gives exactly this: an iterator made by iter on which nth was never called gives, after c calls of next, submessage number c of the whole listing (or nothing); after nth(n), which gives submessage number n counted from the first of all, the next calls go on with n+1, n+2, ...; a copy goes on from where the original was; iterators do not disturb each other; size_hint is exactly what is left, except that it panics after nth beyond the end; next and nth panic exactly when there is a submessage to give and another one is still kept.",
  "every reader whose content opens; every finite sequence of iter, copy, next, nth, size_hint and drop operations on any number of iterators; every argument of nth",
  "Histories of interleaved calls on several iterators are unbounded; tests try a few short ones on sample files.",
  ["src/context.rs: SubmessageIterator::next, nth, size_hint, Clone, IntoIterator for &SubmessageIterator, Grib2::iter, Grib2::submessages"])

p("C73", "Flat binary export to any file",
  "For every behaviour of the output file (each write request may take some of the octets, take none, or fail), decode --big-endian/--little-endian leaves exactly the specified prefix of the values' octets in the file and reports exactly the specified result: octets go out in blocks of 8192; success is reported exactly if all blocks but the last were taken without a failure, whatever happens to the last one, which is then in the file as far as it was taken; a failure in an earlier block is reported after one more attempt to hand over the rest of that block, and nothing after that block is in the file. So success with an incomplete file happens exactly when a request of the last block fails, and with at most 2048 values success is always reported.",
  "every list of 4-octet values and every sequence of reactions of the file to write requests",
  "The number of values and of partial or failing writes is unbounded, and tests do not inject write failures.",
  ["cli/src/commands/decode.rs: write_output"])

p("C74", "Texts printed by the commands, line by line, and the pager",
  "With code tables whose texts have no line breaks: list prints a header line and exactly one line per submessage in order, list --dump exactly 18 lines per submessage, both up to the first submessage that makes them panic, if any; inspect prints the parts that were asked for (all if none) in the order sections, submessages, templates, one line per item, a header line before the submessages, titles if there are at least two parts and an empty line between parts, and never panics on opened data; info prints 13 lines per block, with the reference time in the form YYYY-MM-DD hh:mm:ss UTC whose digits denote the stored time; decode prints a header line and one line per row. The number of lines announced to the pager is exact for list; for list --dump it is 10n-1 instead of 18n; for inspect it is exact without submessages and one less with them. So output that does not fit on the terminal goes without a pager exactly when 10n-1 <= height < 18n (list --dump), or when inspect with submessages is exactly one line too long.",
  "every file that opens, every content of the code tables without line breaks, every formatting of floats without line breaks, all flags, every terminal height, every hash order",
  "Number of submessages, sections and templates and the texts of the tables are unbounded; the tests of the command line tool compare the output for a few files.",
  ["cli/src/commands/list.rs: ListView", "cli/src/commands/inspect.rs: InspectView", "cli/src/commands/info.rs: InfoView", "cli/src/commands/decode.rs: DecodeTextDisplay", "cli/src/cli.rs: display_in_pager"])

p("C75", "Grid points and coordinates, call by call, for every grid",
  "For every number of columns and rows (also none), every scanning mode and every number of calls made before, next on the iterator over grid indices gives the point that scanning order says, and nothing after the last one, however often it is asked; size_hint is the number of points still to come; nothing panics. The only exception are lines without points (rows of no columns scanned by rows, columns of no rows scanned by columns): then next gives points outside of the grid forever, and size_hint panics after the first call. So iteration stops exactly if lines are not empty. Iterating over the coordinates of an accepted latitude/longitude grid gives one pair per point in this order, then stops, without panics; the same holds for Gaussian grids with rows; a Gaussian grid without rows has no points if scanned by rows, and panics at the first call if scanned by columns.",
  "every ni, nj, scanning mode octet and number of calls (up to 2^64); every float arithmetic",
  "Sizes, scanning modes and call counts are unbounded; tests use a few small grids with rows and columns.",
  ["src/grid.rs: GridPointIndexIterator::next, size_hint", "src/grid/helpers.rs: RegularGridIterator", "src/grid/gaussian.rs: GaussianGridDefinition::latlons"])

p("C76", "Which regular grids get the coordinates of their definition",
  "For every accepted latitude/longitude grid, in exact arithmetic: the latitudes are the equal steps from the first to the last latitude exactly if there are two rows or more (a single row gets no number), and the longitudes are, up to whole turns, the equal steps in the scanning direction exactly if there are two columns or more and the end longitudes differ or the grid is scanned westwards or there are at most three columns. In the remaining case, a full circle stated with equal end longitudes and scanned eastwards, the longitudes go westwards in equal steps. The same holds for the longitudes of Gaussian grids.",
  "every grid definition that latlons accepts",
  "End points, sizes and modes range over all 32-bit numbers; tests check two or three grids.",
  ["src/grid/helpers.rs: evenly_spaced_degrees, evenly_spaced_longitudes", "src/grid/latlon.rs: LatLonGridDefinition::latlons", "src/grid/gaussian.rs: GaussianGridDefinition::latlons"])

p("C77", "Files put one behind the other",
  "If a file opens, and it does not end (after its last message) in the beginning of a \"GRIB\" that the following octets complete, then that file followed by a second file opens exactly if the second file opens by itself. It then has the sections of the first file followed by those of the second, whose places are counted on from the end of the first; the listing is that of the first followed by that of the second, with message numbers, section indices and places counted on (and submessage numbers unchanged); and every submessage of either file is set up for decoding exactly as from its own file, or fails with the same error. If opening the second file panics, opening both panics. The condition on the end of the first file holds if it ends with its last message.",
  "every two files (total below 2^64 octets), start position in the first, and schedule of reads without failures and reads of less than 16 octets",
  "Files, numbers of messages and places are unbounded; concatenation (cat a b > c) is the usual way to build GRIB files, and no test concatenates files.",
  ["src/reader.rs: Grib2SectionStream, SeekableGrib2Reader::read_sect0", "src/parser.rs: Grib2SubmessageIndexStream", "src/context.rs: Grib2::read, iter", "src/decoder.rs: Grib2SubmessageDecoder::from"])

p("C78", "What is read of a submessage depends on its own sections only",
  "For any two submessages listed from opened files (the same or different ones, at any places and with any other sections around them): if their sections 3, 5, 6 and 7 have the same octets, setting up a decoder gives the same result for both, hence the same values; if the octets of section 0, 1, 3, 4 or 5 are the same, the accessor for that section gives the same header.",
  "every two files that open, every two of their submessages and every state of the readers (without read failures)",
  "It compares all pairs of files; tests compare values of single files with stored ones.",
  ["src/decoder.rs: Grib2SubmessageDecoder::from", "src/context.rs: SubMessage::indicator, identification, grid_def, prod_def, repr_def", "src/reader.rs: Grib2Read::read_sect_payload_as_slice"])

p("C79", "Opening does not look at packed data",
  "If a file opens, then any file of the same length that differs from it only inside the packed data (the octets of sections 7 behind their five-octet headers) opens too, with the same sections and the same submessages; and every submessage whose own packed data are unchanged is set up for decoding with the same result.",
  "every file that opens, every change of its packed data, start position, and schedules of reads without failures and reads of less than 16 octets",
  "All contents of the packed data, including such that contain \"GRIB\", \"7777\" or what looks like section headers, are meant; tests use a few fixed files.",
  ["src/reader.rs: Grib2SectionStream, SeekableGrib2Reader::read_sect_body_bytes", "src/context.rs: Grib2::read, iter", "src/decoder.rs: Grib2SubmessageDecoder::from"])

p("C80", "Calls to the underlying reader",
  "Opening data makes at most three calls (reads or seeks) to the reader for each section found, two for each 4081 octets of the data, and four more, provided the reader delivers what it is asked for; also when opening fails it ends after at most (length of the data) + 4 calls. Setting up a decoder makes at most seven calls, at most six if it succeeds. What the reader would do in later calls (fail, deliver less) has no influence on the result.",
  "every file, start position, submessage, and behaviour of the reader after the counted calls",
  "Termination and cost on files of any length and content (including adversarial ones) cannot be tested.",
  ["src/reader.rs: Grib2SectionStream, SeekableGrib2Reader (all reads and seeks)", "src/context.rs: Grib2::read", "src/decoder.rs: Grib2SubmessageDecoder::from"])

p("C81", "Every field can be written and comes back",
  "Write any fields (sequences of numbers, some of them possibly missing, with any reference value and scale factors) with simple packing (whole octets), simple packing and a bitmap, complex packing, complex packing with first- or second-order differences, or run-length packing (of the numbers of a table), several fields to a message and several messages to a file, with anything harmless between and after them. The file opens, lists exactly these fields in order under their numbers, with sections 1, 3 and 4 as written, and decoding each of them gives at the grid points exactly the numbers written put through (R + X*2^E)*10^-D and NaN where a number is missing; nothing follows them unless there is a bitmap. In single precision, unscaled integers of at most 24 bits are exact. Every non-empty sequence of up to 10^8 optional numbers of less than 29 bits and a sign is the field of some file.",
  "all sequences of fields in the ranges of the packings, numbers of messages and fields, scalings, gaps and trailing octets without \"GRIB\", schedules of reads without failures and reads of less than 16 octets, reader states when decoding",
  "Tests decode a few files made elsewhere; that nothing that can be written is lost or altered on the whole way from octets to values concerns all sequences, lengths and combinations.",
  ["src/context.rs: Grib2::read, iter", "src/reader.rs", "src/parser.rs", "src/decoder.rs: Grib2SubmessageDecoder", "src/decoder/simple.rs", "src/decoder/complex.rs", "src/decoder/run_length.rs", "src/decoder/bitmap.rs"])

p("C82", "Opening in a release build",
  "In a release build, where integer overflow wraps around, opening gives exactly the result of a debug build (same sections and submessages, or same error) wherever the debug build does not panic. Where the debug build panics, a release build returns an error, except that it still panics for the header of a section 1 to 6 whose stated length is below 5 (or a section 6 of length 5), and that it may accept a section 7 whose stated length is below 5, in which case sections overlap. Every section it reports is what the octets say, and opening always ends, though iterating over the sections directly need not.",
  "all data of less than 2^63 octets, positions and schedules of reads, short reads and failures",
  "Tests run debug builds of valid files; what wrapping arithmetic does to the walk through a file concerns every malformed length at every place.",
  ["Cargo.toml: profile.release", "src/reader.rs: Grib2SectionStream, SeekableGrib2Reader", "src/context.rs: Grib2::read", "src/parser.rs"])

p("C83", "Decoding in a release build",
  "In a release build, where integer overflow wraps around, decoding any submessage of a file a debug build opens gives the same points or the same error wherever a debug build does not panic, and the same points up to where it does. Beyond that: with complex packing every value is the exact one reduced modulo 2^32, and spatial differencing of order 1 and 2 gives back every sequence of 32-bit integers. A submessage whose section 7 is stated shorter than 5 octets never decodes. Wrong results that a debug build reports by a panic exist (number 0 taken for missing in 32-bit groups, 16-bit run lengths with a base one too large) and unpacking run lengths of zero bits never ends. JPEG 2000 images with 2^32 elements or more yield only the number of elements modulo 2^32.",
  "all files, submessages, reader states, section contents, float semantics",
  "Tests run debug builds; agreement of the two builds is a statement about all inputs, and no test shows what happens after an overflow.",
  ["Cargo.toml: profile.release", "src/decoder.rs: Grib2SubmessageDecoder::{from, dispatch}", "src/decoder/complex.rs", "src/decoder/complex/diff.rs", "src/decoder/run_length.rs"])

p("C84", "Grids in a release build",
  "In a release build the indices and coordinates of the grid points of any section 3 are those of a debug build wherever that does not panic. Beyond that: indices come in scanning order for every grid; ij() panics exactly if section 3 is shorter than its template, latlons() exactly if it is or if the points of a projected grid with only empty lines are collected. Where the difference of the end latitudes does not fit 32 bits a latitude/longitude or Gaussian grid is accepted exactly if its latitudes contradict the scanning mode. A grid with lines but no points in them announces no point, then returns 2^32 coordinates and panics, and its index iterator announces 2^64 - k points after k calls; Gaussian grids whose number of rows is a multiple of 2^21 are refused; the number of submessages announced after nth() beyond the end is 2^64 minus the excess.",
  "all section 3 contents, grid shapes, scanning modes, numbers of calls, float semantics",
  "Tests run debug builds; agreement of the two builds is a statement about all inputs, and no test shows what happens after an overflow.",
  ["Cargo.toml: profile.release", "src/grid.rs: GridPointIndexIterator", "src/grid/latlon.rs: latlons", "src/grid/gaussian.rs: latlons, legendre_roots_iterator", "src/grid/helpers.rs: evenly_spaced_longitudes, RegularGridIterator", "src/context.rs: SubMessage::{ij, latlons}, SubmessageIterator::size_hint"])

p("C85", "Memory requested on the word of a file",
  "While opening, buffers are requested only for the contents of sections 1 to 6, with the size the section states; if the data are opened they are together not larger than the data, and no buffer is requested for packed data. If opening fails, whatever the data and whatever the reader does, all buffers but the last are together not larger than the data, and the last is smaller than 4 GiB - which a file of 21 octets can make opening request. A decoder holds sections 5 and 7 and the bitmap, each as large as in the file, or if there is no bitmap one bit for each point section 3 states, at most 512 MiB. Run-length packing expands five octets to any number of values up to 255^4.",
  "all data, read schedules, opened files and their submessages; all numbers of values up to 255^4",
  "What a reader requests on malformed or truncated data depends on lengths stated anywhere in the file; no set of test files bounds it.",
  ["src/reader.rs: read_sect_payload, read_slice_without_offset_check, read_sect6_payload, read_sect_payload_as_slice", "src/decoder.rs: Grib2SubmessageDecoder::from", "src/decoder/bitmap.rs: create_bitmap_for_nonnullable_data", "src/decoder/run_length.rs: rleunpack"])

p("C86", "Commands of a release build",
  "In a release build, where integer overflow wraps around instead of panicking, `info`, `inspect` and `decode` do what they do in a debug build whenever the latter does not panic: the same text, the same rows, the same file content whatever the writes do, the same errors. `list` prints what a debug build prints before it panics, and then goes on; all of it is the same if the debug build comes to its end. When section 5 states more values than the grid has points, the number of missing points is shown modulo 2^32. As a whole: if the debug build of the program does not panic, the release build prints the same and has the same exit status.",
  "all data shorter than 2^63 octets, all read schedules, indices, write schedules, floating-point operations and image decoders",
  "It compares two builds of the same program on every file; the test suite is run with one of them, and the binary that users install is the other.",
  ["Cargo.toml: [profile.release]", "cli/src/cli.rs: grib", "cli/src/commands/decode.rs: exec, write_output", "cli/src/commands/list.rs: ListView", "cli/src/commands/info.rs: exec", "cli/src/commands/inspect.rs: exec"])

p("C87", "Gaussian latitudes with the rounding errors of double precision",
  "With IEEE-754 double-precision arithmetic and a mathematical library whose cosine (on 0..4) and arcsine (on -1..1) are accurate to 2^-50, the latitudes of a Gaussian grid with n ≤ 16384 rows are either refused (a search has not come to an end) or right: there are n of them, all finite, strictly decreasing, and number i is the latitude whose sine is the i-th largest zero of the Legendre polynomial of degree n, with an error of at most n²·2^-41 degrees; as single-precision numbers of the grid iterator they are in the scanning order, still strictly monotonic, with an additional error of at most 2^-17 degrees. No row gets the latitude of another row and none is lost or doubled. With one row the search always ends.",
  "all numbers of rows up to 16384, all rows, all libraries with that accuracy, all grid definitions with supported flags and consistent end latitudes",
  "A test compares a few grids with a table on one platform; that rounding errors never make a search settle on another zero, leave the interval or stop too early is a statement about every n and every library.",
  ["src/grid/gaussian.rs: compute_gaussian_latitudes, legendre_roots_iterator, legendre_polynomial, legendre_polynomial_derivative, find_root", "src/grid/gaussian.rs: GaussianGridDefinition::latlons"])

p("C88", "Opening files on 32-bit platforms",
  "In a build for a platform whose usize has 32 bits (WebAssembly, as the demo) every file of less than 2^31 octets that a 64-bit build opens is opened with the same sections and submessages, whatever the reader does, and the payloads of its sections are read in the same way. If no message states a total length of 2^32 or more, opening has the result of a 64-bit build or panics, so that nothing else is opened. Opening always ends. Without that condition a file can be opened that a 64-bit build refuses, because only the lowest 32 bits of the total length count; and a section announced with more than 2^31 octets panics where a 64-bit build returns an error.",
  "all contents below 2^31 octets (results) or all contents (the comparison), all starting positions below 2^32, all schedules of the reader",
  "Tests run on the developer's 64-bit machine; that no conversion to a narrower usize loses anything that matters is a statement about all files.",
  ["src/reader.rs: next_sect0, reset_pos, next_sect, read_sect_payload, read_sect_payload_as_slice, read_sect6_payload", "src/context.rs: Grib2::read", "demo/src/main.rs"])

p("C89", "What the demo application shows of a file",
  "The demo's table of a dropped file has one row per submessage, in order, under the number of rows, with the cells of the command `list`, and it panics exactly if one of the rows makes `list` panic. Clicking on a row shows a picture of that row's submessage exactly if its grid is of a known kind, its values can be decoded and are as many as columns times rows (and not none); nothing is shown exactly if the grid is not known; otherwise the demo panics (also for correct fields with a bitmap whose padding gives further items). The pixel in column x of row y has the colour of decoded value number y*columns + x, so that it shows the grid point (x, y) exactly for rows scanned in one direction, or a single row or column. The colour of every finite single-precision value is exactly that of its class of 5 degrees Celsius, 0 degrees being 273.15 K, in spite of rounding; missing values have the colour of -5 degrees and less.",
  "every file that opens, row, state of the reader, image decoder and every single-precision number",
  "The thresholds are compared after rounding and every one of 2^32 values has to fall on the right side; pictures depend on all grids, scanning modes and bitmaps; the demo has no tests.",
  ["demo/src/palette.rs: jma_amedas_temperature, degrees_celsius_to_kelvin", "demo/src/main.rs: app, format_surface"])

p("C90", "Decoding and coordinates on 32-bit platforms",
  "On a platform with a usize of 32 bits (such as the WebAssembly of the demo) in a debug build, decoding a submessage and computing the indices or coordinates of its grid either panics or gives what a 64-bit platform gives; points pulled before a panic are the same. A file of less than 2^29 octets opened on a 64-bit platform is opened on a 32-bit platform with the same submessages, and what is decoded there without a panic is decoded the same, for at most 2^27 values and 2^32 - 8 points (with run-length packing: as long as powers of the base fit 32 bits). Indices come whenever they do on 64 bits. Coordinates come exactly if the grid has less than 2^29 columns and rows (latitude/longitude), less than 2^27 points (projections), or less than 813 rows (Gaussian); otherwise computing them panics.",
  "every submessage and section 3, every file, reader state, image decoder, arithmetic, projection library and policy of growing vectors",
  "The limits are reached only with inputs of hundreds of megabytes or by arithmetic on numbers read from the file; CI does not run on 32-bit platforms.",
  ["src/decoder/complex.rs: decode_complex_packing", "src/decoder/run_length.rs: rleunpack", "src/decoder/bitmap.rs: BitmapDecodeIterator::new", "src/grid/gaussian.rs: compute_gaussian_latitudes", "src/grid/latlon.rs", "src/grid/helpers.rs", "src/context.rs: SubMessage::ij, SubMessage::latlons"])

p("C91", "The example programs and recipes",
  "The programs of examples/ (whose loops are those of the cookbook): find_layers prints index and description of exactly the submessages whose forecast time is the given number of hours, in listing order; list_layers prints a line with parameter, time and first surface for each submessage; each panics at the first submessage whose product definition is cut short of what it needs, having printed what comes before (list_layers also at templates without time or surfaces, such as satellite products). decode_layer prints a line for each pair of grid point and value, in order, ending with the shorter, or the library's error and nothing else, or \"no such index\"; if asking for a value panics, the lines before are printed. check_decoding_of_files succeeds exactly if every file opens, is not empty and every submessage decodes; otherwise it stops with the error of the first that does not, having announced the submessages up to it. Arguments that are not numbers are errors.",
  "every reader and content, code tables, image decoder, arithmetic, projection library, argument and list of files (for the last program: readers without failures)",
  "The examples are not run by tests at all; they are what users copy, and which of the submessages of arbitrary files make them stop depends on every template and section length.",
  ["examples/find_layers.rs", "examples/list_layers.rs", "examples/decode_layer.rs", "examples/check_decoding_of_files.rs", "src/cookbook.rs"])

p("C92", "What the command-line program prints, writes and returns",
  "On data that cannot be opened or have no submessage every command ends with the same error and status 1 (or panics, status 101), prints nothing on standard output and creates no file. On data that open: `decode` prints, according to the index, grid, and values, exactly the header and a row for each pair of point and value (coordinates \"not a number\" on unsupported grids), or nothing and an error that says what is wrong with the index, the values or the grid, or panics before printing; in one case, a Gaussian grid without rows scanned by columns, it panics after the header. With binary output it prints nothing; a file exists exactly if the values could be started to be decoded, and then holds the octets of the values that came before the end, the panic or the failing write. `list` prints lines up to the first submessage that makes it panic, with status 0 exactly if there is none; `inspect` always succeeds; `info` prints the blocks up to the first invalid reference time and has status 1 if there is one. A command other than `info` that ends with an error has printed nothing. Different errors of opening or of the index have different messages, except that the operating system's texts may coincide.",
  "every reader and content, command, flags, index text, code tables, arithmetic, image decoder, projection library, order of hash sets, and behaviour of the file written to",
  "The tests of the command-line program run a handful of commands on a few sample files; scripts rely on the exit status and on output not being partial for all files, also broken ones.",
  ["cli/src/main.rs: main", "cli/src/cli.rs: grib, display_in_pager", "cli/src/commands.rs: dispatch", "cli/src/commands/decode.rs: exec, write_output, DecodeTextDisplay", "cli/src/commands/list.rs: exec", "cli/src/commands/inspect.rs: exec", "cli/src/commands/info.rs: exec", "src/error.rs: Display for ParseError"])

p("C93", "Release builds on 32-bit platforms open the same files",
  "The demo in the browser is a release build for a 32-bit platform. On data of less than 2^31 octets, opening there has the same result as in a debug build for 32 bits wherever that does not panic, and never opens anything else: both open the same files, with the same sections and submessages. So if no message states a total length of 2^32 or more, exactly the files are opened that a 64-bit debug build opens (unlike a release build for 64 bits, which also opens files with overlapping sections). Opening always ends. It panics only if, at a position where the section headers follow each other, a section 1 to 6 states a length below 5 (6 for section 6), or one that needs a buffer of 2^31 octets; all other files on which a debug build panics are refused with an error.",
  "every content of less than 2^31 octets, and every reader: any sequence of full, short and failing reads",
  "Tests run in debug mode on 64-bit machines; the configuration in which the library is shipped to browsers wraps around in 32-bit arithmetic, and which files it accepts can only be compared for all contents.",
  ["src/reader.rs: Grib2SectionStream::next, next_sect0, next_sect, next_sect8", "src/reader.rs: SeekableGrib2Reader::read_sect_payload, read_sect6_payload, skip_sect7_payload", "src/context.rs: Grib2::read", "Cargo.toml: profile.release"])

p("C94", "Decoding and coordinates in release builds on 32-bit platforms",
  "In a release build for a 32-bit platform decoding a submessage has the result of a debug build for 32 bits wherever that does not panic, and the points that come before such a panic are the same. It has the result of a release build for 64 bits if section 7 and the bitmap have less than 2^29 octets and at most 2^27 values come without a panic (for run-length packing: if the powers of the base fit 32 bits). The indices of a grid come exactly if the number of points in section 3 is rows times columns modulo 2^32, in the order of the scanning mode, and the size hint is the number of points left modulo 2^32. Coordinates of a latitude/longitude grid that is in order fail exactly, with a panic, for no or at least 2^29 rows or columns. Gaussian latitudes are those of a 64-bit debug build up to 812 rows; grids with a multiple of 1024 rows, such as F512, are refused. What goes wrong without notice: a grid of 65536 times 65536 points that states 0 of them is accepted, and a group whose bits are a multiple of 2^32 is taken to be empty.",
  "every content of sections 3, 5, 6 and 7, every packing and floating-point arithmetic (the refusal of multiples of 1024 rows: double precision, with any cos and asin), every file of less than 2^29 octets and every reader",
  "The configuration that runs in browsers wraps around silently; where its numbers are those of the tested configuration can only be settled for all inputs.",
  ["src/decoder.rs: Grib2SubmessageDecoder::from, dispatch", "src/decoder/complex.rs: ComplexPackingValueDecodeIterator::next", "src/decoder/run_length.rs: rleunpack", "src/decoder/bitmap.rs: BitmapDecodeIterator::new", "src/grid.rs: GridPointIndexIterator", "src/grid/gaussian.rs: legendre_roots_iterator", "src/context.rs: SubMessage::ij, SubMessage::latlons"])

p("C95", "The demo in the browser",
  "The demo as it runs in browsers (a release build for 32 bits without JPEG 2000): a dropped file of less than 2^31 octets is shown if it opens on a 64-bit platform, and if no message states a total length of 2^32 octets or more only then. The listing has a row for each submessage, in order, and fails only for a product or grid definition that ends before its template does; the points without a value are those of section 3 minus those of section 5, modulo 2^32. A click shows a picture exactly if the grid has a shape, the submessage is not packed as JPEG 2000, decoding gives rows times columns values without a panic, and there is memory for the pixels; it shows the values row after row. So for files of less than 2^29 octets and submessages of at most 2^27 points it is the picture of C89. A click on a submessage packed as JPEG 2000 ends the application.",
  "every content of a dropped file, every row, every packing and every behaviour of the memory allocation",
  "No test runs the demo or any build for 32 bits; which files behave differently in the browser can only be settled for all contents.",
  ["demo/src/main.rs: App", "demo/src/palette.rs: jma_amedas_temperature", "src/decoder.rs: Grib2SubmessageDecoder::dispatch", "src/decoder/bitmap.rs: BitmapDecodeIterator::size_hint"])

p("C96", "Error messages in full",
  "What the program leaves on the standard error stream: its warnings, and if it exits with status 1 one line \"error: \" and the text of the failure. The text identifies the failure with all its numbers and texts: two failures (other than of writing) with the same text are the same, except that opening a file and reading it later are not told apart and a failed read shows the text of the operating system. `decode` and its binary output warn exactly for template 5.40 with no bits per value and template 5.41 with a number of bits per value other than 16; nothing else warns. When `info` fails, the text shows the six numbers of octets 13 to 19 of section 1 of the first message whose reference time does not exist, with leading zeros. When `decode` fails because of coordinates, the text gives one of eleven reasons and it holds of section 3 of the chosen submessage, with the numbers that are there (number of points and shape, scanning mode, template number, shape of the earth, projection centre); for latitude/longitude and Gaussian grids the octets of section 3 decide which, wherever a debug build does not panic. When decoding fails, it is an error of reading, a decoding error, or the text on Code Table 5.6 with the value of octet 48 of section 5.",
  "every content of a file, every command and every argument, all texts of the operating system, of png and of PROJ, every arithmetic",
  "Texts come from dozens of places; that they name the right octets and can be told apart can only be settled for all contents.",
  ["src/error.rs: Display for GribError, Display for ParseError", "src/context.rs: SubMessage::ij, SubMessage::latlons", "src/datatypes/sections.rs: create_date_time, TryFrom<&GridDefinition>", "src/decoder/complex.rs: decode_7_3", "src/decoder/jpeg2000.rs: decode", "src/decoder/png.rs: decode", "cli/src/main.rs: main"])

p("C97", "What a release build of the program prints",
  "For a file that opens in the release build (also one that a debug build does not open), the release build of the program has exactly one outcome for each command. `decode`: nothing printed and the error for a malformed or unlisted index, a panic for an index beyond 64 bits, the error of decoding, the unexpected error of the grid; or the header and one row for each pair of a point of the grid and a value, in order, with coordinates NaN if the grid is not supported. It succeeds then, unless the grid has lines without points in them (rows without columns, or columns without rows where they are scanned by column) and at least as many values as points come: such a grid is accepted as one of no points, yet 2^32 points come out of it (none for a Gaussian grid without rows) and then a panic. Binary output: the same cases, and the file has the values up to the first that panics, as far as it could be written. `list` prints the header and the lines up to the first submessage whose product or grid definition ends before its template, and succeeds if there is none; the number of missing points is the difference modulo 2^32; `list --dump` does the same with the descriptions, where only the product definition matters. `inspect` always succeeds and prints the sections, submessages and distinct templates; `info` prints one block per message up to the first invalid reference time and fails if there is one. Where opening does not panic in a debug build, `list --dump`, `inspect` and `info` are the same there. Data that do not open in a release build end every command in the same way.",
  "every content of a file of less than 2^63 octets, every command and argument, every behaviour of the output file, every arithmetic",
  "Released binaries do not check arithmetic; what they print where a debug build stops can only be known for all files by proof.",
  ["cli/src/commands/decode.rs: exec", "cli/src/commands/list.rs: ListView", "cli/src/commands/info.rs: exec", "cli/src/commands/inspect.rs: exec", "src/grid/helpers.rs: RegularGridIterator", "src/context.rs: SubMessage::latlons", "Cargo.toml: profile"])

p("C98", "What a release build writes on the standard error stream",
  "A release build of the program writes the same on both streams as a debug build, and ends with the same failure, wherever the debug build does not panic. For every content of the file: the standard error stream has the warnings and, exactly when the exit status is 1, one line 'error: ' with the text of the failure; warnings come with `decode` only, namely the one of the decoder of the chosen submessage. `info` fails with the reference time of the first message whose reference time is no date and time. For latitude/longitude and Gaussian grids the refusals of coordinates are given exactly by the octets of section 3. 'something unexpected happened' comes only with the texts of the refusals of coordinates that octets of section 3 of the chosen submessage call for, with the numbers in them; an error of the library is one of reading or parsing, a decoding error, or the text about Code Table 5.6 with octet 48 of section 5. Where a debug build panics the text may be wrong: if the latitudes of the first and last points differ by 2^31 millionths of a degree or more, a release build calls a scanning mode inconsistent that is consistent, and accepts the opposite one.",
  "every content of a file of less than 2^63 octets, every command and argument, every arithmetic and projection, every behaviour of the output file",
  "Released binaries go on where a debug build stops; that the message they then give is (or is not) true of the file needs all files.",
  ["cli/src/main.rs: real_main", "cli/src/commands/decode.rs: exec", "cli/src/commands/info.rs: exec", "src/error.rs: GribError", "src/grid/latlon.rs: latlons", "src/grid/gaussian.rs: latlons", "src/context.rs: SubMessage::latlons", "src/decoder/complex.rs: decode_7_3"])

with open('/verif/properties.jsonl','w') as f:
    for x in P: f.write(json.dumps(x)+"\n")
print(len(P))
