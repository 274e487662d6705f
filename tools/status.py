STATUS = {
 'C01': ('proved', ''), 'C02': ('proved', ''),
 'C03': ('proved', 'success case for all schedules; completeness for schedules whose reads deliver >= 16 octets when available (cursor, file)'),
 'C04': ('proved', 'for all schedules of short reads'), 'C05': ('proved', 'for all schedules of short reads'),
 'C06': ('partial', 'false of the code: four witnesses of panics are proved (_fails); proved: a panic happens only at such a senseless length reached by walking the sections; C59 gives the exact condition'),
 'C07': ('partial', 'false of the code: witnesses with short reads are proved (_fails); proved: any schedule whose short reads deliver at least 16 octets gives the same result as a cursor'),
 'C08': ('proved', ''),
 'C11': ('proved', ''), 'C12': ('proved', ''), 'C13': ('proved', ''), 'C14': ('proved', ''), 'C15': ('proved', ''),
 'C16': ('proved', ''), 'C21': ('proved', ''), 'C48': ('proved', 'termination is non-exhaustion of the explicit fuel'),
 'C09': ('proved', 'for every reader without failures whose short reads deliver at least 16 octets'), 'C10': ('proved', 'for every reader without failures whose short reads deliver at least 16 octets'),
 'C17': ('proved', ''),
 'C18': ('partial', 'loop and size_hint proved; false of the code in other respects: nth counts from the start, size_hint panics after nth beyond the end, two submessages cannot be alive at once (_fails)'),
 'C19': ('proved', 'for every hash iteration order'),
 'C38': ('proved', ''),
 'C39': ('partial', 'parameter proved; generating process except templates 47, 83, 254; forecast time except 44; panics on short sections (_fails); C64 has exactly which files'),
 'C40': ('proved', ''), 'C41': ('proved', 'value with exact arithmetic'),
 'C20': ('proved', 'operations of the formula in order for any float operations, value in exact arithmetic; widths up to 32 bits'),
 'C22': ('partial', 'false of the code: surplus padding values are not dropped and size_hint is wrong in places (_fails); proved: bounds, and equality when the counts are consistent; C62 has the exact count'),
 'C23': ('proved', 'while values last; a shortage of values ends the sequence silently (C23_too_few_values_not_reported)'),
 'C24': ('proved', ''),
 'C25': ('partial', 'false for widths below 8: padding bits decode as extra levels (C25_padding_fails); proved when the integers fill the octets, in particular for all widths of 8 bits or more; C67 has exactly when it holds'),
 'C26': ('partial', 'false of the code: panics and non-termination (_fails); proved: exact characterisation of the rejected inputs; C67 has every outcome'),
 'C49': ('proved', ''), 'C50': ('proved', ''),
 'C27': ('proved', 'for all consistent layouts; panics on inconsistent ones (_panics)'),
 'C28': ('proved', 'NaN in exact arithmetic'),
 'C29': ('proved', 'order 2 for values whose doubles fit 32-bit integers (C29_order2_bound shows the bound is needed)'),
 'C30': ('proved', ''),
 'C47': ('proved', 'OpenJPEG is an arbitrary interactive program'),
 'C31': ('proved', ''),
 'C32': ('partial', 'for all grids with rows and columns; false for empty lines: the iterator never stops (C32_empty_lines_fails)'),
 'C33': ('partial', 'operations for any float operations, values in exact arithmetic; false for a single row or column (not a number) and for equal end longitudes scanned eastwards (_fails)'),
 'C34': ('partial', 'acceptance is exact for non-empty grids with differences that fit 32 bits; false of the code otherwise: panics, and single rows are refused (_fails); C63 has every outcome'),
 'C35': ('partial', 'bounded, converged, count, order, Newton step of the Legendre polynomial proved; convergence of the floating-point search to distinct roots is not; panics for large numbers and ignores N (_fails); C65 proves convergence to the zeros in exact real arithmetic, C87 that in double precision a search that ends finds its own zero'),
 'C36': ('partial', 'fields and refusals proved; short sections panic (C36_short_fails); C63 has every outcome'),
 'C37': ('proved', 'for an empty grid the check passes but iteration does not stop (C37_empty_fails)'),
 'C43': ('partial', 'false of the code for scale factors other than 0 (C43_fails)'),
 'C51': ('proved', 'the proj library is an arbitrary pointwise projection; a bipolar flag is ignored (C51_bipolar_ignored_fails)'),
 'C42': ('proved', 'a reserved code before the last entry looks up as an empty text rather than unimplemented (C42_reserved_fails)'),
 'C44': ('proved', 'sparse tables are given up, reversed ranges panic, interleaved categories keep the last group (_fails)'),
 'C45': ('proved', 'repeated lines, two centres sharing a local code and names differing in - and _ are witnesses of failure outside the hypothesis (_fails)'),
 'C46': ('proved', 'numbers that do not fit a machine word panic (C46_overflow_fails)'),
 'C52': ('partial', 'false of the code: a failing final flush is ignored and success reported (C52_silent_loss_fails); proved: prefix always, complete on benign schedules, complete on success when the buffer was flushed'),
 'C53': ('proved', 'coordinates that panic also stop the binary export (C53_binary_fails)'),
 'C54': ('proved', 'list panics when more values are stated than points (C54_list_fails)'),
 'C55': ('proved', 'chrono decides which reference times are valid (parameter)'),
 'C56': ('proved', ''),
 'C58': ('proved', 'chrono modelled after its documentation'),
 'C60': ('proved', 'IEEE-754 arithmetic on values; powi is a parameter with a stated precision, compiler-rt evaluated over the whole stated ranges; outside: NaN instead of R for E >= 128, 0 instead of 2^E for E < -127 (_fails)'),
 'C61': ('proved', 'IEEE-754 single precision as in C60 (no powers involved); single rows and columns and the eastward full circle are excluded, see C33'),
 'C59': ('proved', 'for readers without failures whose short reads deliver at least 16 octets'),
 'C57': ('partial', 'exact for list, decode with known coordinates, inspect without submessages; wrong for list --dump and inspect with submessages (_fails)'),
 'C62': ('proved', 'states exactly when the count deviates from the number of points (C22)'),
 'C63': ('proved', 'panics are those of checked (debug) arithmetic; collecting points that never end is modelled as a panic'),
 'C64': ('proved', 'Equivalences in terms of the octets; complements C39, C54 and C63, whose failures they delimit exactly.'),
 'C65': ('proved', 'Exact real arithmetic; C87 is the same with the rounding errors of f64.'),
 'C66': ('proved', 'Texts of code tables are parameters (C42, C44).'),
 'C67': ('proved', 'Complements C25 and C26, which are false of the code as stated.  Memory exhaustion below the address space limit is not modelled.'),
 'C68': ('proved', 'Complements C27 to C30, which are about data that a correct packer writes.'),
 'C69': ('proved', 'The cases of templates 5.2, 5.3 and 5.200 are those of C68 and C67.  What the png crate and OpenJPEG make of section 7 is a parameter (C47 for the stream handed to OpenJPEG).'),
 'C70': ('proved', 'What a disturbed reader can make of the data, exactly; C07 keeps the stronger wish (the undisturbed result always), which is false.'),
 'C71': ('proved', "IEEE-754 binary64 with round to nearest even; the powers (powi, powf) are parameters with a bound on their error, and compiler-rt's powi is shown to meet it. PROJ and the trigonometric conversions are parameters."),
 'C72': ('proved', 'What the iterators do, exactly, for every history; C18 keeps the stronger wish for nth and size_hint, which is false. The program is assumed to go on after a panic (catch_unwind).'),
 'C73': ('proved', 'What the export does, exactly; C52 keeps the stronger wish (failures are always reported), which is false. Models BufWriter of std with its default capacity; ErrorKind::Interrupted is not modelled.'),
 'C74': ('proved', "What is printed and announced, exactly; C57 keeps the wish that the announced number is right, which is false. Colours and the terminal's line wrapping are not modelled; float formatting is a parameter; chrono's Display is modelled after its documentation."),
 'C75': ('proved', 'What the iterators do, exactly; C32 keeps the wish that they always stop, which is false.'),
 'C76': ('proved', 'Exact arithmetic; C33 keeps the wish that coordinates are always right, which is false; C61 has single precision.'),
 'C77': ('proved', 'What the octets say at a place is carried over to the joined file; the converse uses that the walk through a file has no choice.'),
 'C78': ('proved', ''),
 'C79': ('proved', ''),
 'C80': ('proved', "std's BufReader is not modelled: calls are those made to the object given to the library."),
 'C81': ('proved', 'Complex packings are written with one group per point; arbitrary groups are C27 to C29. The surplus values behind a bitmap are those of C22.'),
 'C82': ('proved', 'Data of 2^63 octets or more are excluded. The allocation of a buffer of less than 2^63 octets is taken to succeed.'),
 'C83': ('proved', "The claims about values beyond a debug build's panic are for complex packing whose sizes fit (Rel.Fits); for run lengths they are witnesses. The JPEG 2000 and PNG decoders are parameters."),
 'C84': ('proved', 'That multiples of 2^21 rows are refused is for exact arithmetic, with division by zero not a number. Projected grids are those of the debug model (their index iterator has no overflow, C84_index_iterator). Memory is not modelled: 2^32 coordinates are 16 GiB.'),
 'C85': ('proved', "Buffers for octets of the file and the decoder's own; the vectors of sections and submessages and what decoding of complex packing collects are not counted. The code reads lazily and stops at the first error, so that when opening fails it requests a prefix of the buffers counted."),
 'C86': ('proved', 'C86_text_fails and C86_list_example: a file on which a debug build panics and a release build prints longitudes that are not in the file, and one for which `list` shows 4294967295 missing points of 4.'),
 'C87': ('proved', 'That every search ends in double precision is not claimed (and is not part of the statement): the tolerance of the code, 2^-52, is below the provable bound for the rounding errors of a step. A simulation of the loop in C with the same operations ends for all n up to 2600, with at most 4 evaluations.'),
 'C88': ('proved', 'Arithmetic of a debug build. Allocation of up to 2^31 - 1 octets is taken to succeed.'),
 'C89': ('proved', 'The constructor of ImageData follows the HTML standard (external code); 64-bit usize as in the rest of the model; HTML and events are not modelled.'),
 'C90': ('proved', 'Growing a vector is a parameter: it succeeds up to 2^30 octets and never beyond 2^31 - 1. Running out of memory is not modelled. Witnesses for each limit are among the theorems; 813 rows exclude common Gaussian grids such as F640.'),
 'C91': ('proved', 'Opening files by name, failures of standard output and the usage message are not modelled.'),
 'C92': ('proved', 'Parsing of the command line, opening and creating files by name, failures of standard output, colours and the pager are not modelled; a panic is status 101 as the standard runtime does.'),
 'C93': ('proved', 'Running out of memory below the limit of 2^31 octets per buffer is not modelled.'),
 'C94': ('proved', 'Growing vectors are a parameter of which only is assumed that 2^30 octets are always possible and 2^31 never.'),
 'C95': ('proved', 'HTML, events and the canvas are not modelled. Growing vectors are a parameter of which only is assumed that 2^30 octets are always possible and 2^31 never.'),
 'C96': ('proved', 'Without colours and messages of clap. The projection library is assumed to return as many points as it gets.'),
 'C97': ('proved', 'Includes files that open only in a release build (because a debug build panics at a senseless section length).'),
 'C98': ('proved', '`C98_latitudes_fails` shows the wrong message. The statement about exit statuses rests on C97; texts of the operating system, of the PNG decoder and of the projection library are parameters.'),
}
