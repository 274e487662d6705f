import Verif.Model.Text

/-!
# Code tables: generation from CSV files (`gen/`) and lookup (`src/codetables/old.rs`)

CSV parsing (the `csv` and `serde` crates) is not modelled: a file is given as
the list of its records.  The text of the generated Rust source (`{:#?}` of a
`Vec<String>` and its compilation) is not modelled either: the generated
constant is the vector itself.
-/

namespace Grib
namespace Gen
open Text

/-- `CodeRange` (gen/src/lib.rs:6-9). -/
structure CodeRange where
  start : Nat
  stop : Nat
deriving DecidableEq, Repr

/-- `CodeRangeParseError` (gen/src/lib.rs:59-62). -/
inductive CodeRangeParseError where
  | numberNotFound
  | hyphenNotFound
deriving DecidableEq, Repr

/-- `CodeRange::size` (gen/src/lib.rs:11-15), checked arithmetic on `usize`. -/
def CodeRange.size {ε : Type} (r : CodeRange) : Outcome ε Nat :=
  if r.start ≤ r.stop ∧ r.stop - r.start + 1 < USIZE then .ok (r.stop - r.start + 1) else .panic

/-- `read_number` (gen/src/lib.rs:24-37): the number and the rest of the input
(Rust: the position of the rest). -/
def readNumber (s : Str) : Except CodeRangeParseError (Nat × Str) :=
  match parseUnsigned USIZE (s.takeWhile isDigit) with
  | some n => .ok (n, s.dropWhile isDigit)
  | none => .error .numberNotFound

/-- `read_hyphen` (gen/src/lib.rs:39-45).  The empty input (an out-of-range
index in Rust) cannot occur: the caller has checked for the end. -/
def readHyphen : Str → Except CodeRangeParseError Str
  | '-' :: r => .ok r
  | _ => .error .hyphenNotFound

/-- `CodeRange::from_str` (gen/src/lib.rs:17-57). -/
def CodeRange.parse (s : Str) : Except CodeRangeParseError CodeRange :=
  match readNumber s with
  | .error e => .error e
  | .ok (a, rest) =>
    if rest = [] then .ok ⟨a, a⟩
    else match readHyphen rest with
      | .error e => .error e
      | .ok rest =>
        match readNumber rest with
        | .error e => .error e
        | .ok (b, _) => .ok ⟨a, b⟩

/-- `CodeTable` (gen/src/lib.rs:64-68): the pairs of the code column and the
description column. -/
structure CodeTable where
  desc : Str
  data : List (Str × Str)
deriving DecidableEq, Repr

/-- The descriptions that stand for "no entry" (gen/src/lib.rs:97-106). -/
def noEntry (s : Str) : Bool :=
  s = "Future versions".toList || s = "Reserved".toList || s = "Reserved for local use".toList
    || s = "Reserved for other centres".toList || s = "Missing".toList
    || s = "Missing value".toList || s = ")".toList

/-- The loop of `CodeTable::to_vec` (gen/src/lib.rs:95-132).  `out`, `count`
and `pending` are `output`, `count` and `empty_count`.  The inner
`while empty_count > 0` loop is written as one append. -/
def toVecLoop {ε : Type} : List (Str × Str) → List Str → Nat → Nat → Outcome ε (List Str)
  | [], out, _, _ => .ok out
  | (id, text) :: rows, out, count, pending =>
    match CodeRange.parse id with
    | .error _ => toVecLoop rows out count pending
    | .ok range =>
      if noEntry text then do
        let n ← range.size
        Outcome.require (decide (pending + n < USIZE))
        toVecLoop rows out count (pending + n)
      else
        let out := out ++ List.replicate pending []
        let count := count + pending
        if count ≠ range.start then .ok []
        else do
          let n ← range.size
          Outcome.require (decide (count + n < USIZE))
          toVecLoop rows (out ++ List.replicate n text) (count + n) 0

/-- `CodeTable::to_vec` (gen/src/lib.rs:89-133). -/
def CodeTable.toVec {ε : Type} (t : CodeTable) : Outcome ε (List Str) := toVecLoop t.data [] 0 0

/-- `OptArg` (gen/src/grib2_codeflag_csv.rs:133-138). -/
inductive OptArg where
  | none
  | l1 (discipline : Nat)
  | l2 (discipline category : Nat)
deriving DecidableEq, Repr

/-- `OptArg::from_str` (gen/src/grib2_codeflag_csv.rs:140-173); `none` is
`Err(ParseError)`. -/
def OptArg.parse (s : Str) : Option OptArg :=
  if s = [] then some .none
  else
    match splitComma s with
    | [] => Option.none
    | first :: more =>
      let discipline := match (splitOn ' ' first).take 3 with
        | [p, d, num] =>
          if p = "Product".toList ∧ d = "discipline".toList then parseUnsigned 256 num else Option.none
        | _ => Option.none
      match discipline with
      | Option.none => Option.none
      | some discipline =>
        match more with
        | [] => some (.l1 discipline)
        | second :: _ =>
          let second := (splitOn ':' second).headD []
          let parameter := match (splitOn ' ' second).take 3 with
            | [p, c, num] =>
              if p = "parameter".toList ∧ c = "category".toList then parseUnsigned 256 num else Option.none
            | _ => Option.none
          match parameter with
          | Option.none => Option.none
          | some parameter => some (.l2 discipline parameter)

/-- The columns of a CSV record that are used
(`Record`, gen/src/grib2_codeflag_csv.rs:7-29). -/
structure Record where
  title : Str
  subtitle : Str
  codeFlag : Str
  description : Str
deriving DecidableEq, Repr

/-- The loop of `CodeDB::parse_file` (gen/src/grib2_codeflag_csv.rs:74-89) over
the records of the file; `none` is an error, `out` is `out_tables`. -/
def parseRecords : List Record → List (OptArg × CodeTable) → Option (List (OptArg × CodeTable))
  | [], out => some out
  | r :: rs, out =>
    match OptArg.parse r.subtitle with
    | Option.none => Option.none
    | some category =>
      match out.getLast? with
      | some (c, table) =>
        if category = c then
          parseRecords rs (out.dropLast ++ [(c, { table with data := table.data ++ [(r.codeFlag, r.description)] })])
        else
          parseRecords rs (out ++ [(category, ⟨r.title, [(r.codeFlag, r.description)]⟩)])
      | Option.none =>
        parseRecords rs [(category, ⟨r.title, [(r.codeFlag, r.description)]⟩)]

/-- Key of the table database. -/
abbrev TableId := Nat × Nat × OptArg

/-- `CodeDB` (gen/src/grib2_codeflag_csv.rs:31-33): an association list, latest
insertion first (Rust: `BTreeMap`). -/
abbrev CodeDB := List (TableId × CodeTable)

/-- `CodeDB::get` (gen/src/grib2_codeflag_csv.rs:114-116). -/
def CodeDB.get (db : CodeDB) (id : TableId) : Option CodeTable :=
  (db.find? (fun e => e.1 = id)).map (·.2)

/-- `CodeDB::load` (gen/src/grib2_codeflag_csv.rs:48-67) with the file stem and
the records of the file; `none` is an error. -/
def CodeDB.load (db : CodeDB) (stem : Str) (records : List Record) : Option CodeDB :=
  match (splitOn '_' stem).take 4 with
  | [g, c, section_, number] =>
    if g = "GRIB2".toList ∧ c = "CodeFlag".toList then
      match parseUnsigned 256 section_, parseUnsigned 256 number with
      | some s, some n =>
        match parseRecords records [] with
        | Option.none => Option.none
        | some tables => some (tables.foldl (fun db (cat, t) => ((s, n, cat), t) :: db) db)
      | _, _ => Option.none
    else some db
  | _ => some db

/-- The beginning of the names (gen/src/grib2_codeflag_csv.rs:104). -/
def tablePrefix : Str := "CODE_TABLE_".toList

/-- `CodeDB::get_variable_name` (gen/src/grib2_codeflag_csv.rs:102-112). -/
def variableName : TableId → Str
  | (s, n, .none) => tablePrefix ++ showNat s ++ '_' :: showNat n
  | (s, n, .l1 d) => tablePrefix ++ showNat s ++ '_' :: showNat n ++ '_' :: showNat d
  | (s, n, .l2 d c) =>
    tablePrefix ++ showNat s ++ '_' :: showNat n ++ '_' :: showNat d ++ '_' :: showNat c

/-- `get_variable_name` of the common code tables
(gen/src/cct_csv.rs:117-119); `{:02}` pads with zeros to two characters. -/
def commonVariableName (id : Nat) : Str :=
  "COMMON_CODE_TABLE_".toList ++ (if (showNat id).length < 2 then '0' :: showNat id else showNat id)

/-- `parse_file_c00` / `parse_file_c11` (gen/src/cct_csv.rs:76-107) on the
pairs of the columns used. -/
def parseCommon (desc : Str) (records : List (Str × Str)) : CodeTable :=
  records.foldl (fun t r => { t with data := t.data ++ [r] }) ⟨desc, []⟩

end Gen

namespace Codes
open Text

/-- `ConversionError` (src/codetables/old.rs:24-27). -/
inductive ConversionError where
  | unimplemented (code : Nat)
deriving DecidableEq, Repr

/-- `LookupResult` (src/codetables/old.rs:3). -/
abbrev LookupResult := Except ConversionError Str

/-- `<T: ArrayLookup as Lookup>::lookup` (src/codetables/old.rs:259-267). -/
def lookup (data : List Str) (code : Nat) : LookupResult :=
  match data[code]? with
  | some s => .ok s
  | none => .error (.unimplemented code)

/-- `LookupResult::description` (src/codetables/old.rs:5-12). -/
def description : LookupResult → Option Str
  | .ok s => some s
  | .error _ => none

/-- `Display` of `LookupResult` and `ConversionError`
(src/codetables/old.rs:14-22, 29-35). -/
def display : LookupResult → Str
  | .ok s => s
  | .error (.unimplemented code) => "code '".toList ++ showNat code ++ "' is not implemented".toList

/-- The code tables of the crate (src/codetables/old.rs:40-250). -/
inductive Table where
  | common00 | common11
  | t0_0 | t1_1 | t1_2 | t1_3 | t1_4 | t3_1 | t4_0
  | t4_1 (discipline : Nat)
  | t4_2 (discipline parameter : Nat)
  | t4_3 | t4_4 | t4_5 | t5_0
deriving DecidableEq, Repr

/-- Which generated constant a table uses: `none` for
`CODE_TABLE_UNSUPPORTED`, the empty array. -/
inductive Source where
  | common (id : Nat)
  | grib2 (id : Gen.TableId)
  | unsupported
deriving DecidableEq, Repr

/-- The disciplines with a Table 4.1 (src/codetables/old.rs:121-132). -/
def disciplines41 : List Nat := [0, 1, 2, 3, 4, 10, 20]

/-- The (discipline, category) pairs with a Table 4.2
(src/codetables/old.rs:152-206). -/
def pairs42 : List (Nat × Nat) :=
  [(0, 0), (0, 1), (0, 2), (0, 3), (0, 4), (0, 5), (0, 6), (0, 7), (0, 13), (0, 14), (0, 15),
   (0, 16), (0, 17), (0, 18), (0, 19), (0, 20), (0, 190), (0, 191), (1, 0), (1, 1), (1, 2),
   (2, 0), (2, 3), (2, 4), (2, 5), (3, 0), (3, 1), (3, 2), (3, 3), (3, 4), (3, 5), (3, 6),
   (4, 0), (4, 1), (4, 2), (4, 3), (4, 4), (4, 5), (4, 6), (4, 7), (4, 8), (4, 9), (4, 10),
   (10, 0), (10, 1), (10, 2), (10, 3), (10, 4), (10, 191), (20, 0), (20, 1), (20, 2)]

/-- `ArrayLookup::data` of each table (src/codetables/old.rs:42-250). -/
def Table.source : Table → Source
  | .common00 => .common 0
  | .common11 => .common 11
  | .t0_0 => .grib2 (0, 0, .none)
  | .t1_1 => .grib2 (1, 1, .none)
  | .t1_2 => .grib2 (1, 2, .none)
  | .t1_3 => .grib2 (1, 3, .none)
  | .t1_4 => .grib2 (1, 4, .none)
  | .t3_1 => .grib2 (3, 1, .none)
  | .t4_0 => .grib2 (4, 0, .none)
  | .t4_1 d => if d ∈ disciplines41 then .grib2 (4, 1, .l1 d) else .unsupported
  | .t4_2 d c => if (d, c) ∈ pairs42 then .grib2 (4, 2, .l2 d c) else .unsupported
  | .t4_3 => .grib2 (4, 3, .none)
  | .t4_4 => .grib2 (4, 4, .none)
  | .t4_5 => .grib2 (4, 5, .none)
  | .t5_0 => .grib2 (5, 0, .none)

/-- The generated constants: what `include!` brings into the crate
(src/codetables/old.rs:37-38, build.rs:3-47).  A missing constant would be a
compile error; here it is `none`. -/
structure Constants where
  common : Nat → Option (List Str)
  grib2 : Gen.TableId → Option (List Str)

/-- `data()` of a table, given the generated constants. -/
def Table.data (k : Constants) (t : Table) : Option (List Str) :=
  match t.source with
  | .common i => k.common i
  | .grib2 id => k.grib2 id
  | .unsupported => some []

end Codes
end Grib
