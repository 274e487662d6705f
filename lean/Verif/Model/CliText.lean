import Verif.Model.CliViews

/-!
# Model of the whole texts that the commands print, up to the panic if there is one

Colours are not modelled (they add no line breaks).  The formatting of floating point numbers is a parameter.
-/

namespace Grib.Cli

open Grib.Text Grib.Model Grib.Codes

variable {F G : Type}

/-- `str::trim_end` for texts that end in spaces at most (cli/src/commands/list.rs:81, cli/src/commands/inspect.rs:226,
cli/src/commands/decode.rs:126). -/
def trimEnd (s : Str) : Str := (s.reverse.dropWhile (· == ' ')).reverse

/-- A loop that computes a text for each item and prints it; a panic while computing ends it: what was printed, and whether
the loop came to its end. -/
def printEach {α : Type} (f : α → Outcome Empty Str) : List α → Str × Bool
  | [] => ([], true)
  | x :: xs =>
    match f x with
    | .ok s =>
      let r := printEach f xs
      (s ++ r.1, r.2)
    | _ => ([], false)

/-- The header line of `list` (cli/src/commands/list.rs:70-82). -/
def listHeader : Str :=
  trimEnd (padLeft 8 "id".toList ++ " │ ".toList ++ padRight 31 "Parameter".toList ++ [' '] ++
    padRight 18 "Generating process".toList ++ [' '] ++ padLeft 14 "Forecast time".toList ++ [' '] ++
    padLeft 33 "1st fixed surface".toList ++ [' '] ++ padLeft 33 "2nd fixed surface".toList ++ " │ ".toList ++
    padLeft 21 "#points (nan/total)".toList ++ [' '] ++ padRight 21 "grid type".toList)

/-- `Display for ListView` (cli/src/commands/list.rs:66-139): what is printed, and whether it came to its end. -/
def listText (dump : Bool) (k : Constants) (ops : FloatOps G) (showF : G → Str) (g : Grib2) : Str × Bool :=
  let subs := SubIter.drain (g.len + 1) g.iter
  if dump then
    printEach (fun x => do
      let d ← x.2.describe k
      .ok (showIndex x.1 ++ ['\n'] ++ d ++ ['\n'])) subs
  else
    let r := printEach (fun x => do
      let row ← listRow k ops showF x.1 x.2
      .ok (row.line ++ ['\n'])) subs
    (listHeader ++ ['\n'] ++ r.1, r.2)

/-- The header line of `inspect --submessages` (cli/src/commands/inspect.rs:221-227). -/
def inspectHeader : Str :=
  trimEnd (padLeft 8 "id".toList ++ " │ ".toList ++ padLeft 5 "S2".toList ++ [' '] ++ padLeft 5 "S3".toList ++ [' '] ++
    padLeft 5 "S4".toList ++ [' '] ++ padLeft 5 "S5".toList ++ [' '] ++ padLeft 5 "S6".toList ++ [' '] ++
    padLeft 5 "S7".toList ++ " │ ".toList ++ padRight 7 "Tmpl3".toList ++ [' '] ++ padRight 7 "Tmpl4".toList ++ [' '] ++
    padRight 7 "Tmpl5".toList)

/-- Cells separated by single spaces, each made as wide as its column by `pad`. -/
def cells (pad : Str → Str) : List Str → Str
  | [] => []
  | [c] => pad c
  | c :: cs => pad c ++ [' '] ++ cells pad cs

/-- A line of `inspect --submessages` (cli/src/commands/inspect.rs:231-244). -/
def InspectRow.line (r : InspectRow) : Str :=
  padLeft 8 r.id ++ " │ ".toList ++ cells (padLeft 5) r.sects ++ " │ ".toList ++ cells (padRight 7) r.templates

/-- `Display for InspectView` (cli/src/commands/inspect.rs:102-131) for parts given by title, text and whether printing came
to its end: titles if there are at least two parts, an empty line between parts. -/
def printParts (titles : Bool) : List (Str × Str × Bool) → Str × Bool
  | [] => ([], true)
  | (title, text, finished) :: rest =>
    let head := if titles then title ++ [':', '\n'] else []
    if finished then
      let r := printParts titles rest
      (head ++ text ++ (if rest.isEmpty then [] else ['\n']) ++ r.1, r.2)
    else (head ++ text, false)

/-- `inspect` on opened data (cli/src/commands/inspect.rs:38-70): the templates are listed before anything is printed. -/
def inspectText (k : Constants) (flags : InspectFlags) (perm : List (Nat × Nat) → List (Nat × Nat)) (g : Grib2) :
    Str × Bool :=
  let items := flags.items
  let subs := printEach (fun x => do
    let row ← inspectRow x.1 x.2
    .ok (row.line ++ ['\n'])) (SubIter.drain (g.len + 1) g.iter)
  match (if items.templates then g.listTemplates perm else .ok [] : Outcome Empty _) with
  | .ok ts =>
    printParts (decide (2 ≤ items.count))
      ((if items.sections then [("Sections".toList, (inspectSections g).flatMap (· ++ ['\n']), true)] else []) ++
       (if items.submessages then [("SubMessages".toList, inspectHeader ++ ['\n'] ++ subs.1, subs.2)] else []) ++
       (if items.templates then [("Templates".toList, ts.flatMap fun t => templateLine k t ++ ['\n'], true)] else []))
  | _ => ([], false)

/-- Two digits. -/
def two (n : Nat) : Str := [Nat.digitChar (n / 10), Nat.digitChar (n % 10)]

/-- `Display for DateTime<Utc>` of `chrono`: years of more than four digits have a sign. -/
def showTime : List Nat → Str
  | [year, month, day, hour, minute, second] =>
    (if year ≤ 9999 then List.replicate (4 - (showNat year).length) '0' ++ showNat year else '+' :: showNat year) ++
      ['-'] ++ two month ++ ['-'] ++ two day ++ [' '] ++ two hour ++ [':'] ++ two minute ++ [':'] ++ two second ++
      " UTC".toList
  | _ => []

/-- `Display for InfoView` (cli/src/commands/info.rs:50-84). -/
def InfoBlock.text (b : InfoBlock) : Str :=
  "Message ".toList ++ showNat b.message ++ "\n\n".toList ++
  "    Discipline:                             ".toList ++ b.discipline ++ ['\n'] ++
  "    Total Length:                           ".toList ++ showNat b.totalLength ++ ['\n'] ++
  "    Originating/generating centre:          ".toList ++ b.centre ++ ['\n'] ++
  "    Originating/generating sub-centre:      ".toList ++ showNat b.subcentre ++ ['\n'] ++
  "    GRIB Master Tables Version Number:      ".toList ++ showNat b.master.1 ++ " (".toList ++ b.master.2 ++ ")\n".toList ++
  "    GRIB Local Tables Version Number:       ".toList ++ showNat b.localVersion.1 ++ " (".toList ++ b.localVersion.2 ++
  ")\n".toList ++
  "    Significance of Reference Time:         ".toList ++ b.significance ++ ['\n'] ++
  "    Reference time of data:                 ".toList ++ showTime b.refTime ++ ['\n'] ++
  "    Production status of processed data:    ".toList ++ b.status ++ ['\n'] ++
  "    Type of processed data:                 ".toList ++ b.dataType ++ "\n\n".toList

/-- `info` on opened data (cli/src/commands/info.rs:23-46): what is printed. -/
def infoText (k : Constants) (g : Grib2) : Str := (info k chronoValid g).1.flatMap InfoBlock.text

/-- The header line of `decode` (cli/src/commands/decode.rs:124-126). -/
def decodeHeader : Str :=
  trimEnd (padLeft 10 "Latitude".toList ++ [' '] ++ padLeft 11 "Longitude".toList ++ [' '] ++ padLeft 9 "Value".toList)

/-- `Display for DecodeTextDisplay` (cli/src/commands/decode.rs:120-140) for rows that could all be computed; `fix6` formats with
six decimals, `showF` is `Display` of an `f32`. -/
def decodeOutput (fix6 showF : F → Str) (rows : List ((F × F) × F)) : Str :=
  decodeHeader ++ ['\n'] ++ rows.flatMap fun r =>
    padLeft 10 (fix6 r.1.1) ++ [' '] ++ padLeft 11 (fix6 r.1.2) ++ [' '] ++ padLeft 9 (showF r.2) ++ ['\n']

/-- `display_in_pager` (cli/src/cli.rs:24-41): the pager is started if more lines are announced than the terminal has. -/
def startsPager (height announced : Nat) : Bool := decide (announced > height)

end Grib.Cli
