import Verif.Model.CliText

/-!
# Model of the command-line program as a whole

What it prints on standard output, its message, its exit status and the exported file, for each command but `completions`.
Parsing of the command line (`clap`), opening and creating the files themselves, failures of standard output, colours and the
pager are not modelled.
-/

namespace Grib.Cli

open Grib.Text Grib.Model Grib.Codes

variable {F G : Type}

/-- A command with its arguments (cli/src/commands.rs:3-22; the arguments of each command's `cli()`). -/
inductive Command where
  | info
  | inspect (flags : InspectFlags)
  | list (dump : Bool)
  | decode (index : Str)
  | export (big : Bool) (index : Str)

/-- Everything the commands depend on that is not in the file: the code tables, arithmetic, formatting of numbers, codecs, the
order in which a `HashSet` yields its items, and what the file system does with an exported file. -/
structure Setting (F G : Type) where
  tables : Constants
  wide : FloatOps G
  showG : G → Str
  grid : GridOps G F
  codecs : Codecs F
  fix6 : F → Str
  showF : F → Str
  bits : F → BitVec 32
  sched : List (Option Nat)
  perm : List (Nat × Nat) → List (Nat × Nat)

/-- `display_in_pager` (cli/src/cli.rs:24-41): the number of lines is asked first, then the text is printed. -/
def display (announced : Outcome Empty Nat) (text : Str × Bool) : Str × Outcome CliError Unit :=
  match announced with
  | .ok _ => (text.1, if text.2 then .ok () else .panic)
  | _ => ([], .panic)

/-- A line of `decode` (cli/src/commands/decode.rs:135). -/
def rowLine (fix6 showF : F → Str) (r : (F × F) × F) : Str :=
  padLeft 10 (fix6 r.1.1) ++ [' '] ++ padLeft 11 (fix6 r.1.2) ++ [' '] ++ padLeft 9 (showF r.2) ++ ['\n']

/-- The loop that prints the lines of `decode` (cli/src/commands/decode.rs:133-136): `Zip` asks the coordinates first; lines are
printed as they come. -/
def zipShow (line : (F × F) × F → Str) : List F → GridPoints F → Str × Bool
  | [], ps =>
    match pointsNext ps with
    | .ok _ => ([], true)
    | _ => ([], false)
  | v :: vs, ps =>
    match pointsNext ps with
    | .ok (none, _) => ([], true)
    | .ok (some p, ps') =>
      let r := zipShow line vs ps'
      (line (p, v) ++ r.1, r.2)
    | _ => ([], false)

/-- `decode` with text output (cli/src/commands/decode.rs:45-78, 120-140): what is printed, and how it ends. -/
def decodeShown (s : Setting F G) (r : Rdr) (index : Str) : Str × Outcome CliError Unit :=
  match decodePrepare s.grid s.codecs r index with
  | .err e => ([], .err e)
  | .panic => ([], .panic)
  | .ok (latlons, values) =>
    match values.toList s.codecs.ops with
    | .done vs =>
      match textPoints s.codecs.ops vs.length latlons with
      | .err e => ([], .err e)
      | .panic => ([], .panic)
      | .ok points =>
        let p := zipShow (rowLine s.fix6 s.showF) vs points
        display points.sizeHint (decodeHeader ++ ['\n'] ++ p.1, p.2)
    | _ => ([], .panic)

/-- `dispatch` (cli/src/commands.rs:13-22) on a file that could be opened: what is printed on standard output, and the result
(`info`: cli/src/commands/info.rs:23-46, `inspect`: cli/src/commands/inspect.rs:38-70, `list`:
cli/src/commands/list.rs:20-33). -/
def runCommand (s : Setting F G) (cmd : Command) (r : Rdr) : Str × Outcome CliError Unit :=
  match cmd with
  | .decode index => decodeShown s r index
  | .export big index => ([], (decodeBinary s.grid s.codecs s.bits big s.sched r index).1)
  | .info =>
    match openGrib r with
    | .ok g => (infoText s.tables g, (info s.tables chronoValid g).2.mapErr fun _ => .grib .invalidValueError)
    | .err e => ([], .err e)
    | .panic => ([], .panic)
  | .inspect flags =>
    match openGrib r with
    | .ok g => display (inspectNumLines flags s.perm g) (inspectText s.tables flags s.perm g)
    | .err e => ([], .err e)
    | .panic => ([], .panic)
  | .list dump =>
    match openGrib r with
    | .ok g => display (listNumLines dump g) (listText dump s.tables s.wide s.showG g)
    | .err e => ([], .err e)
    | .panic => ([], .panic)

/-- The exit status (cli/src/main.rs:19-25): 1 after an error; 101 is what the runtime gives after a panic. -/
def exitStatus {α : Type} : Outcome CliError α → Nat
  | .ok _ => 0
  | .err _ => 1
  | .panic => 101

/-- `Display for ParseError` (src/error.rs:74-97); `io` is the text of an error of the operating system. -/
def parseErrorText (io : Str) : ParseError → Str
  | .readError (.sectionSizeTooSmall n) => "Read error: Section size is too small: ".toList ++ showNat n
  | .readError _ => "Read error: ".toList ++ io
  | .gribVersionMismatch v => "Not GRIB version 2: ".toList ++ showNat v
  | .unknownSectionNumber n => "Unknown section number: ".toList ++ showNat n
  | .endSectionMismatch => "Content of End Section is not valid".toList
  | .unexpectedEndOfData i => "Unexpected end of data at ".toList ++ showNat i
  | .invalidSectionOrder i => "GRIB2 sections wrongly ordered at ".toList ++ showNat i
  | .noGridDefinition i => "Grid Definition Section not found at ".toList ++ showNat i

/-- The message after "error: " (cli/src/main.rs:19-25), where it is modelled: errors of opening, "empty GRIB2 data"
(cli/src/cli.rs:19), and those of the index (cli/src/cli.rs:75-79, cli/src/commands/decode.rs:54). -/
def errorMessage (io : Str) : CliError → Option Str
  | .open_ e => some (parseErrorText io e)
  | .emptyData => some "empty GRIB2 data".toList
  | .badIndex => some "message index must be specified as 'N.M' where N and M are both integers".toList
  | .noSuchIndex ix => some ("no such index: ".toList ++ showIndex ix)
  | _ => none

end Grib.Cli
