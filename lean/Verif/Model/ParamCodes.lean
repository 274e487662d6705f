import Verif.Model.Text

/-!
# The `parameter_codes` attribute macro (`codegen/`)

Token streams and the Rust compiler are not modelled: the generated enum is the
list of its variants with their discriminants, the generated `TryFrom<u32>` the
list of its match arms.
-/

namespace Grib
namespace Codegen
open Text

/-- `Wgrib2TableEntry` (codegen/src/param_codes.rs:90-102). -/
structure Entry where
  discipline : Nat
  masterTableStartVer : Nat
  masterTableEndVer : Nat
  centre : Nat
  localTableVer : Nat
  paramCategory : Nat
  paramNumber : Nat
  name : Str
  desc : Str
  unit : Str
deriving DecidableEq, Repr

/-- `Wgrib2TableEntry::from_str_impl` (codegen/src/param_codes.rs:105-130):
at least eleven fields separated by colons, the second one ignored. -/
def Entry.parse (s : Str) : Option Entry :=
  match splitOn ':' s with
  | w0 :: _ :: w2 :: w3 :: w4 :: w5 :: w6 :: w7 :: name :: desc :: unit :: _ => do
    let discipline ← parseUnsigned 256 w0
    let sv ← parseUnsigned 256 w2
    let ev ← parseUnsigned 256 w3
    let centre ← parseUnsigned 65536 w4
    let lv ← parseUnsigned 256 w5
    let cat ← parseUnsigned 256 w6
    let num ← parseUnsigned 256 w7
    pure ⟨discipline, sv, ev, centre, lv, cat, num, name, desc, unit⟩
  | _ => none

/-- `Wgrib2TableEntry::id` (codegen/src/param_codes.rs:163-167); `<<` on `u32`. -/
def Entry.id (e : Entry) : Nat := (e.discipline <<< 16) + (e.paramCategory <<< 8) + e.paramNumber

/-- `normalize_name` (codegen/src/param_codes.rs:199-207). -/
def normalizeName (name : Str) : Str := '_' :: name.map fun c => if c = '-' then '_' else c

/-- `normalized_name` (codegen/src/param_codes.rs:159-161). -/
def Entry.normalizedName (e : Entry) : Str := normalizeName e.name

/-- Unicode `White_Space`, what `str::trim_end` removes. -/
def isSpace (c : Char) : Bool :=
  let n := c.toNat
  (9 ≤ n && n ≤ 13) || n = 32 || n = 0x85 || n = 0xa0 || n = 0x1680 || (0x2000 ≤ n && n ≤ 0x200a)
    || n = 0x2028 || n = 0x2029 || n = 0x202f || n = 0x205f || n = 0x3000

/-- `str::trim_end`. -/
def trimEnd (s : Str) : Str := (s.reverse.dropWhile isSpace).reverse

/-- `str::lines` (codegen/src/param_codes.rs:29): parts between line feeds; an
empty last part does not count.  (The removal of a carriage return before the
line feed is subsumed by `trim_end`, which is applied to every line.) -/
def lines (s : Str) : List Str :=
  let parts := splitOn '\n' s
  if parts.getLast? = some [] then parts.dropLast else parts

/-- The two maps built by `from_str_impl` (codegen/src/param_codes.rs:34-47).
Hash maps are association lists, latest insertion first. -/
structure Maps where
  table : List (Str × Nat)
  remapper : List (Nat × Nat)
deriving DecidableEq, Repr

/-- Lookup in such a map. -/
def get {α β : Type} [DecidableEq α] (m : List (α × β)) (k : α) : Option β :=
  (m.find? fun e => e.1 = k).map (·.2)

/-- One iteration of the loop (codegen/src/param_codes.rs:36-47). -/
def Maps.step (m : Maps) (e : Entry) : Maps :=
  match get m.table e.normalizedName with
  | some first => { m with remapper := (e.id, first) :: m.remapper }
  | none => { m with table := (e.normalizedName, e.id) :: m.table }

/-- `Wgrib2Table` (codegen/src/param_codes.rs:11-15). -/
structure Wgrib2Table where
  codes : List Entry
  remapper : List (Nat × Nat)
deriving DecidableEq, Repr

/-- The second half of `from_str_impl` (codegen/src/param_codes.rs:34-49). -/
def Wgrib2Table.ofCodes (codes : List Entry) : Wgrib2Table :=
  ⟨codes, (codes.foldl Maps.step ⟨[], []⟩).remapper⟩

/-- `Wgrib2Table::from_str` (codegen/src/param_codes.rs:26-50, 83-89). -/
def Wgrib2Table.parse (s : Str) : Option Wgrib2Table :=
  ((lines s).mapM fun line => Entry.parse (trimEnd line)).map .ofCodes

/-- The variants of the generated enum with their discriminants
(codegen/src/param_codes.rs:52-69): every entry whose code is not a key of the
remapper, in file order. -/
def Wgrib2Table.variants (t : Wgrib2Table) : List (Str × Nat) :=
  (t.codes.filter fun e => (get t.remapper e.id).isNone).map fun e => (e.normalizedName, e.id)

/-- The match arms of the generated `TryFrom<u32>`
(codegen/src/param_codes.rs:70-74, codegen/src/lib.rs:42-52). -/
def Wgrib2Table.arms (t : Wgrib2Table) : List (Nat × Str) :=
  t.codes.map fun e => (e.id, e.normalizedName)

/-- The generated `try_from` (codegen/src/lib.rs:42-52): the first arm that
matches; `none` is `Err("code not found")`. -/
def Wgrib2Table.tryFrom (t : Wgrib2Table) (value : Nat) : Option Str := get t.arms value

/-- The table rows of a variant's documentation
(codegen/src/param_codes.rs:52-66, 131-150, 179-196): the entry itself, then
the entries remapped to its code. -/
def Wgrib2Table.docRows (t : Wgrib2Table) (e : Entry) : List Entry :=
  e :: t.codes.filter fun o => get t.remapper o.id = some e.id

end Codegen
end Grib
