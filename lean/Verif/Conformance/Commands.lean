import Verif.Conformance.Files
import Verif.Model.CliText

/-! # The command line tests of the repository, run against the model

`icon` three times (`multi_message_data(3)`, cli/tests/cli/utils/testdata.rs:77-89) and, for `inspect`, `info` and `list`, the
expected texts of cli/tests/cli/commands.  The code tables are not in the repository (its submodules are empty), so the
entries these texts use are supplied by `someTables`. -/

namespace Grib.Conformance

open Grib Grib.Model Grib.Codes Grib.Cli

/-- A table with one entry. -/
def entry (code : Nat) (text : String) : Option (List (List Char)) := some (List.replicate code [] ++ [text.toList])

/-- The code table entries that occur in the expected texts. -/
def someTables : Constants where
  common
    | 0 => entry 19 "3 May 2017"
    | 11 => entry 78 "Offenbach (RSMC)"
    | _ => none
  grib2
    | (0, 0, .none) => entry 0 "Meteorological products"
    | (1, 1, .none) => entry 1 "Number of local tables version used"
    | (1, 2, .none) => entry 1 "Start of forecast"
    | (1, 3, .none) => entry 0 "Operational products"
    | (1, 4, .none) => entry 1 "Forecast products"
    | (3, 1, .none) => entry 101 "General unstructured grid"
    | (4, 0, .none) => entry 8 "Average, accumulation, extreme values or other statistically processed values at a horizontal level or in a horizontal layer in a continuous or non-continuous time interval"
    | (4, 1, .l1 0) => entry 1 "Moisture"
    | (4, 2, .l2 0 1) => entry 52 "Total precipitation rate"
    | (4, 3, .none) => entry 2 "Forecast"
    | (4, 5, .none) => entry 1 "Ground or water surface"
    | (5, 0, .none) => entry 0 "Grid point data - simple packing"
    | _ => none

/-- Lines, each followed by a newline. -/
def text (ls : List String) : List Char := ls.flatMap fun l => l.toList ++ ['\n']

/-- The number formatting needed here. -/
def showFl : Fl → List Char
  | .fin v => if v = 0 then ['0'] else ['?']
  | .nan => "NaN".toList
  | _ => ['?']

/-- `icon` three times, opened. -/
def icon3 : Outcome ParseError Grib2 := Grib2.read { data := icon ++ icon ++ icon, pos := 0, evs := [] }

/-- cli/tests/cli/commands/info.rs `display_of_multi_message_data`. -/
example : infoText someTables <$> icon3 = .ok (text [
  "Message 0",
  "",
  "    Discipline:                             Meteorological products",
  "    Total Length:                           193",
  "    Originating/generating centre:          Offenbach (RSMC)",
  "    Originating/generating sub-centre:      255",
  "    GRIB Master Tables Version Number:      19 (3 May 2017)",
  "    GRIB Local Tables Version Number:       1 (Number of local tables version used)",
  "    Significance of Reference Time:         Start of forecast",
  "    Reference time of data:                 2021-11-20 18:00:00 UTC",
  "    Production status of processed data:    Operational products",
  "    Type of processed data:                 Forecast products",
  "",
  "Message 1",
  "",
  "    Discipline:                             Meteorological products",
  "    Total Length:                           193",
  "    Originating/generating centre:          Offenbach (RSMC)",
  "    Originating/generating sub-centre:      255",
  "    GRIB Master Tables Version Number:      19 (3 May 2017)",
  "    GRIB Local Tables Version Number:       1 (Number of local tables version used)",
  "    Significance of Reference Time:         Start of forecast",
  "    Reference time of data:                 2021-11-20 18:00:00 UTC",
  "    Production status of processed data:    Operational products",
  "    Type of processed data:                 Forecast products",
  "",
  "Message 2",
  "",
  "    Discipline:                             Meteorological products",
  "    Total Length:                           193",
  "    Originating/generating centre:          Offenbach (RSMC)",
  "    Originating/generating sub-centre:      255",
  "    GRIB Master Tables Version Number:      19 (3 May 2017)",
  "    GRIB Local Tables Version Number:       1 (Number of local tables version used)",
  "    Significance of Reference Time:         Start of forecast",
  "    Reference time of data:                 2021-11-20 18:00:00 UTC",
  "    Production status of processed data:    Operational products",
  "    Type of processed data:                 Forecast products",
  ""]) := by decide +kernel

/-- cli/tests/cli/commands/list.rs `displaying_grib2_with_multiple_messages`. -/
example : listText false someTables f64' showFl <$> icon3 = .ok (text [
  "      id │ Parameter                       Generating process  Forecast time                 1st fixed surface                 2nd fixed surface │   #points (nan/total) grid type",
  "     0.0 │ Total precipitation rate        Forecast                    0 [m]                                 0                               NaN │          0/   2949120 unknown (template 101)",
  "     1.0 │ Total precipitation rate        Forecast                    0 [m]                                 0                               NaN │          0/   2949120 unknown (template 101)",
  "     2.0 │ Total precipitation rate        Forecast                    0 [m]                                 0                               NaN │          0/   2949120 unknown (template 101)"], true) := by decide +kernel

/-- cli/tests/cli/commands/list.rs `displaying_grib2_with_multiple_messages_with_opt_d`, the part of one message (all three take
the kernel three minutes). -/
example : listText true someTables f64' showFl <$> Grib2.read { data := icon, pos := 0, evs := [] } = .ok (text [
  "0.0",
  "Grid:                                   General unstructured grid",
  "  Number of points:                     2949120",
  "Product:                                Average, accumulation, extreme values or other statistically processed values at a horizontal level or in a horizontal layer in a continuous or non-continuous time interval",
  "  Parameter Category:                   Moisture",
  "  Parameter:                            Total precipitation rate",
  "  Generating Proceess:                  Forecast",
  "  Forecast Time:                        0",
  "  Forecast Time Unit:                   Minute",
  "  1st Fixed Surface Type:               Ground or water surface",
  "  1st Scale Factor:                     0",
  "  1st Scaled Value:                     0",
  "  2nd Fixed Surface Type:               code '255' is not implemented",
  "  2nd Scale Factor:                     Missing",
  "  2nd Scaled Value:                     Missing",
  "Data Representation:                    Grid point data - simple packing",
  "  Number of represented values:         2949120",
  ""], true) := by decide +kernel

/-- cli/tests/cli/commands/inspect.rs `display_multiple_messages_without_options`, its first two parts. -/
example : inspectText someTables ⟨true, true, false⟩ id <$> icon3 = .ok (text [
  "Sections:",
  "    0 │ 0000000000000000 - 0000000000000010 │ Section 0",
  "    1 │ 0000000000000010 - 0000000000000025 │ Section 1",
  "    2 │ 0000000000000025 - 0000000000000040 │ Section 2",
  "    3 │ 0000000000000040 - 0000000000000063 │ Section 3",
  "    4 │ 0000000000000063 - 000000000000009d │ Section 4",
  "    5 │ 000000000000009d - 00000000000000b2 │ Section 5",
  "    6 │ 00000000000000b2 - 00000000000000b8 │ Section 6",
  "    7 │ 00000000000000b8 - 00000000000000bd │ Section 7",
  "    8 │ 00000000000000bd - 00000000000000c1 │ Section 8",
  "    9 │ 00000000000000c1 - 00000000000000d1 │ Section 0",
  "   10 │ 00000000000000d1 - 00000000000000e6 │ Section 1",
  "   11 │ 00000000000000e6 - 0000000000000101 │ Section 2",
  "   12 │ 0000000000000101 - 0000000000000124 │ Section 3",
  "   13 │ 0000000000000124 - 000000000000015e │ Section 4",
  "   14 │ 000000000000015e - 0000000000000173 │ Section 5",
  "   15 │ 0000000000000173 - 0000000000000179 │ Section 6",
  "   16 │ 0000000000000179 - 000000000000017e │ Section 7",
  "   17 │ 000000000000017e - 0000000000000182 │ Section 8",
  "   18 │ 0000000000000182 - 0000000000000192 │ Section 0",
  "   19 │ 0000000000000192 - 00000000000001a7 │ Section 1",
  "   20 │ 00000000000001a7 - 00000000000001c2 │ Section 2",
  "   21 │ 00000000000001c2 - 00000000000001e5 │ Section 3",
  "   22 │ 00000000000001e5 - 000000000000021f │ Section 4",
  "   23 │ 000000000000021f - 0000000000000234 │ Section 5",
  "   24 │ 0000000000000234 - 000000000000023a │ Section 6",
  "   25 │ 000000000000023a - 000000000000023f │ Section 7",
  "   26 │ 000000000000023f - 0000000000000243 │ Section 8",
  "",
  "SubMessages:",
  "      id │    S2    S3    S4    S5    S6    S7 │ Tmpl3   Tmpl4   Tmpl5",
  "     0.0 │     2     3     4     5     6     7 │ 3.101   4.8     5.0    ",
  "     1.0 │    11    12    13    14    15    16 │ 3.101   4.8     5.0    ",
  "     2.0 │    20    21    22    23    24    25 │ 3.101   4.8     5.0    "], true) := by decide +kernel

/-- The lines of its third part. -/
example : [(3, 101), (4, 8), (5, 0)].map (templateLine someTables) = [
  "3.101    - General unstructured grid",
  "4.8      - Average, accumulation, extreme values or other statistically processed values at a horizontal level or in a horizontal layer in a continuous or non-continuous time interval",
  "5.0      - Grid point data - simple packing"].map String.toList := by decide +kernel

/-- Its templates, before they are sorted. -/
example : (do tmplCodes (← icon3).sections) = (.ok (List.flatten (List.replicate 3 [(3, 101), (4, 8), (5, 0)])) : Outcome ParseError _) := by
  decide +kernel

end Grib.Conformance
