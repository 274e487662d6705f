import re
T='/repo/testdata/'
now=open(T+'Z__C_RJTD_20160822020000_NOWC_GPV_Ggis10km_Pphw10_FH0000-0100_grib2.bin','rb').read()
def exp(fn,name):
    s=open('/repo/cli/tests/cli/commands/'+fn).read()
    i=s.index('        '+name+',\n')
    m=re.compile(r'(?:Vec::<&str>::new\(\)|vec!\[.*?\]),\s*(r#)?"(\\\n)?(.*?)"(#)?\n    \)',re.S).search(s,i)
    return m.group(3)
def lines(t):
    assert t.endswith('\n')
    ls=t[:-1].split('\n')
    return '[\n  '+',\n  '.join('"'+l.replace('"','\\"')+'"' for l in ls)+']'
o='''import Verif.Conformance.Files
import Verif.Model.CliText

/-! # The command line tests of the repository, run against the model

`icon` three times (`multi_message_data(3)`, cli/tests/cli/utils/testdata.rs:77-89) and, for `inspect`, `info` and `list`, the
expected texts of cli/tests/cli/commands.  The code tables are not in the repository (its submodules are empty), so the
entries these texts use are supplied by `someTables`. -/

namespace Grib.Conformance

open Grib Grib.Model Grib.Codes Grib.Cli

/-- A table with one entry. -/
def entry (code : Nat) (text : String) : Option (List (List Char)) := some (List.replicate code [] ++ [text.toList])

/-- The code table entries that occur in the expected texts. -/
def someTables : Constants where
  common
    | 0 => entry 19 "3 May 2017"
    | 11 => entry 78 "Offenbach (RSMC)"
    | _ => none
  grib2
    | (0, 0, .none) => entry 0 "Meteorological products"
    | (1, 1, .none) => entry 1 "Number of local tables version used"
    | (1, 2, .none) => entry 1 "Start of forecast"
    | (1, 3, .none) => entry 0 "Operational products"
    | (1, 4, .none) => entry 1 "Forecast products"
    | (3, 1, .none) => entry 101 "General unstructured grid"
    | (4, 0, .none) => entry 8 "Average, accumulation, extreme values or other statistically processed values at a horizontal level or in a horizontal layer in a continuous or non-continuous time interval"
    | (4, 1, .l1 0) => entry 1 "Moisture"
    | (4, 2, .l2 0 1) => entry 52 "Total precipitation rate"
    | (4, 3, .none) => entry 2 "Forecast"
    | (4, 5, .none) => entry 1 "Ground or water surface"
    | (5, 0, .none) => entry 0 "Grid point data - simple packing"
    | _ => none

/-- Lines, each followed by a newline. -/
def text (ls : List String) : List Char := ls.flatMap fun l => l.toList ++ ['\\n']

/-- The number formatting needed here. -/
def showFl : Fl → List Char
  | .fin v => if v = 0 then ['0'] else ['?']
  | .nan => "NaN".toList
  | _ => ['?']

/-- `icon` three times, opened. -/
def icon3 : Outcome ParseError Grib2 := Grib2.read { data := icon ++ icon ++ icon, pos := 0, evs := [] }

/-- cli/tests/cli/commands/info.rs `display_of_multi_message_data`. -/
example : infoText someTables <$> icon3 = .ok (text INFO) := by decide +kernel

/-- cli/tests/cli/commands/list.rs `displaying_grib2_with_multiple_messages`. -/
example : listText false someTables f64' showFl <$> icon3 = .ok (text LIST, true) := by decide +kernel

/-- cli/tests/cli/commands/list.rs `displaying_grib2_with_multiple_messages_with_opt_d`, the part of one message (all three take
the kernel three minutes). -/
example : listText true someTables f64' showFl <$> Grib2.read { data := icon, pos := 0, evs := [] } = .ok (text DUMP, true) := by decide +kernel

/-- cli/tests/cli/commands/inspect.rs `display_multiple_messages_without_options`, its first two parts. -/
example : inspectText someTables ⟨true, true, false⟩ id <$> icon3 = .ok (text INSP, true) := by decide +kernel

/-- The lines of its third part. -/
example : [(3, 101), (4, 8), (5, 0)].map (templateLine someTables) = TMPL.map String.toList := by decide +kernel

/-- Its templates, before they are sorted. -/
example : (do tmplCodes (← icon3).sections) = (.ok (List.flatten (List.replicate 3 [(3, 101), (4, 8), (5, 0)])) : Outcome ParseError _) := by
  decide +kernel

end Grib.Conformance
'''
ins=exp('inspect.rs','display_multiple_messages_without_options')
a,b=ins.split('\nTemplates:\n')
o=o.replace('INFO',lines(exp('info.rs','display_of_multi_message_data')))
o=o.replace('LIST',lines(exp('list.rs','displaying_grib2_with_multiple_messages')))
o=o.replace('DUMP',lines(exp('list.rs','displaying_grib2_with_multiple_messages_with_opt_d').split('1.0\n')[0]))
o=o.replace('INSP',lines(a)).replace('TMPL',lines(b))
open('/verif/lean/Verif/Conformance/Commands.lean','w').write(o)
