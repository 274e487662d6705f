import glob,lzma,gzip
T='/repo/testdata/'
def raw(n):
    d=open(T+n,'rb').read()
    return lzma.decompress(d) if n.endswith('xz') else gzip.decompress(d) if n.endswith('gz') else d
icon=raw('icon_global_icosahedral_single-level_2021112018_000_TOT_PREC.grib2')
def lst(b,w=24):
    xs=['0x%02x'%x for x in b]
    return '['+(',\n  '.join(', '.join(xs[i:i+w]) for i in range(0,len(xs),w)))+']'
def row(base): return [(0,0,16),(1,16,21),(2,37,27),(3,64,35),(4,99,58),(5,157,21),(6,178,6),(7,184,5),(8,189,4)]
o='''import Verif.Model.Session
import Verif.Model.Grid
import Verif.Model.Ieee

/-! # Tests on the repository's sample files, run against the model

`icon` is testdata/icon_global_icosahedral_single-level_2021112018_000_TOT_PREC.grib2 (all 193 octets).  The examples are the
tests of src/reader.rs:348 ff., src/context.rs:704 ff. and src/grid (header tests), with the same expected results. -/

namespace Grib.Conformance

open Grib Grib.Model

/-- testdata/icon_global_icosahedral_single-level_2021112018_000_TOT_PREC.grib2. -/
def icon : List UInt8 :=
  ICON

/-- The (number, offset, size) of every section a section stream yields from the position `pos`. -/
def sectionsFrom (pos : Nat) (data : List UInt8) : List (Outcome ParseError (Nat × Nat × Nat)) :=
  (SectStream.new { data, pos, evs := [] }).collect.1.map ((fun s => (s.num, s.offset, s.size)) <$> ·)

/-- The sections of `icon` moved by `base`. -/
def iconSections (base : Nat) : List (Outcome ParseError (Nat × Nat × Nat)) :=
  [.ok (0, base, 16), .ok (1, base + 16, 21), .ok (2, base + 37, 27), .ok (3, base + 64, 35), .ok (4, base + 99, 58),
    .ok (5, base + 157, 21), .ok (6, base + 178, 6), .ok (7, base + 184, 5), .ok (8, base + 189, 4)]

/-- `read_one_grib2_message`. -/
example : sectionsFrom 0 icon = iconSections 0 := by decide +kernel

/-- `read_multiple_grib2_messages`. -/
example : sectionsFrom 0 (icon ++ icon) = iconSections 0 ++ iconSections 193 := by decide +kernel

/-- `read_grib2_message_with_incomplete_section_0`: five octets "extra" after the message. -/
example : sectionsFrom 0 (icon ++ [0x65, 0x78, 0x74, 0x72, 0x61]) = iconSections 0 := by decide +kernel

/-- `read_grib2_message_with_incomplete_section_1`: 17 octets of a second message. -/
example : sectionsFrom 0 (icon ++ icon.take 17) =
    iconSections 0 ++ [.ok (0, 193, 16), .err (.readError .unexpectedEof)] := by decide +kernel

/-- `read_grib2_message_with_incomplete_section_8`: the last octet of the second message is missing. -/
example : sectionsFrom 0 (icon ++ icon.dropLast) =
    iconSections 0 ++ (iconSections 193).dropLast ++ [.err (.readError .unexpectedEof)] := by decide +kernel

/-- `read_grib2_message_starting_from_non_zero_position_after_seeking`: header "HEADER TO BE SKIPPED\\n". -/
example : sectionsFrom 21 (HEADER ++ icon) =
    iconSections 21 := by decide +kernel

/-- `reading_message_using_read_sect0_0th_iteration`.  The three sibling tests with about 4096 leading octets are instances of
C03's theorem about arbitrary leading octets (evaluating them takes the kernel a minute each). -/
example : sectionsFrom 0 (List.replicate 16 0 ++ icon) = iconSections 16 := by decide +kernel

/-- src/context.rs `from_buf_reader`, `from_bytes`. -/
example : (match Grib2.read { data := icon, pos := 0, evs := [] } with
    | .ok g => some (g.sections.length, g.submessages.length)
    | _ => none) = some (9, 1) := by decide +kernel

'''.replace('ICON',lst(icon)).replace('HEADER',lst(b"HEADER TO BE SKIPPED\n"))
crit=raw('ds.critfireo.bin.xz'); mrms=raw('MRMS_ReflectivityAtLowestAltitude_00.50_20230406-120039.grib2.gz')
now=raw('Z__C_RJTD_20160822020000_NOWC_GPV_Ggis10km_Pphw10_FH0000-0100_grib2.bin')
rdpa=raw('CMC_RDPA_APCP-024-0100cutoff_SFC_0_ps10km_2023121806_000.grib2.xz')
o+='''/-! ## src/grid/earth.rs, lambert.rs, polar_stereographic.rs

The slices are taken from the sample files at the offsets the tests use; only the octets the definition takes are kept. -/

/-- `f64` operations; `powf(10, n)` is exact for the exponents at hand. -/
def f64' : FloatOps Fl := .ieee .double (compilerRtPowi .double) fun n => Fmt.double.ofRat false (10 ^ n)

/-- testdata/ds.critfireo.bin.xz from 0x83. -/
def critfireo : List UInt8 :=
  CRIT

/-- `radii_for_shape_1`. -/
example : EarthShape.fromBuf (ε := Empty) critfireo = .ok ⟨1, 0, 6371200, 0, 0, 0, 0⟩ ∧
    EarthShape.radii f64' ⟨1, 0, 6371200, 0, 0, 0, 0⟩ = some (.fin 6371200, .fin 6371200) := by decide +kernel

/-- `radii_for_shape_2` (testdata/MRMS_ReflectivityAtLowestAltitude_00.50_20230406-120039.grib2.gz from 0x33). -/
example : EarthShape.fromBuf (ε := Empty) MRMS =
      .ok ⟨2, 1, 6367470, 1, 6378160, 1, 6356775⟩ ∧
    EarthShape.radii f64' ⟨2, 1, 6367470, 1, 6378160, 1, 6356775⟩ = some (.fin 6378160, .fin 6356775) := by decide +kernel

/-- `radii_for_shape_4` (testdata/Z__C_RJTD_20160822020000_NOWC_GPV_Ggis10km_Pphw10_FH0000-0100_grib2.bin from 0x33). -/
example : EarthShape.fromBuf (ε := Empty) NOWC =
      .ok ⟨4, 0xff, 0xffffffff, 1, 63781370, 1, 63567523⟩ ∧
    EarthShape.radii f64' ⟨4, 0xff, 0xffffffff, 1, 63781370, 1, 63567523⟩ = some (.fin 6378137, f64'.lit 6356752314 (-3)) := by
  decide +kernel

/-- `radii_for_shape_6` (the file is not in the repository; the definition is all zeros but for the shape). -/
example : EarthShape.fromBuf (ε := Empty) (6 :: List.replicate 15 0) = .ok ⟨6, 0, 0, 0, 0, 0, 0⟩ ∧
    EarthShape.radii f64' ⟨6, 0, 0, 0, 0, 0, 0⟩ = some (.fin 6371229, .fin 6371229) := by decide +kernel

/-- `lambert_grid_definition_from_buf`. -/
example : LambertGrid.fromBuf (ε := Empty) critfireo =
    .ok { earth := ⟨1, 0, 6371200, 0, 0, 0, 0⟩, ni := 2145, nj := 1377, firstLat := 20190000, firstLon := 238449996,
          lad := 25000000, lov := 265000000, dx := 2539703, dy := 2539703, mode := 0b01010000, latin1 := 25000000,
          latin2 := 25000000 } := by decide +kernel

/-- `polar_stereographic_grid_definition_from_buf`
(testdata/CMC_RDPA_APCP-024-0100cutoff_SFC_0_ps10km_2023121806_000.grib2.xz from 0x33). -/
example : PolarGrid.fromBuf (ε := Empty)
      RDPA =
    .ok { earth := ⟨6, 0xff, 0xffffffff, 0xff, 0xffffffff, 0xff, 0xffffffff⟩, ni := 935, nj := 824, firstLat := 18145030,
          firstLon := 217107456, lad := 60000000, lov := 249000000, dx := 10000000, dy := 10000000, centre := 0b00000000,
          mode := 0b01000000 } := by decide +kernel

end Grib.Conformance
'''.replace('CRIT',lst(crit[0x83:0x83+67])).replace('MRMS =',lst(mrms[0x33:0x33+16])+' =').replace('NOWC =',lst(now[0x33:0x33+16])+' =').replace('RDPA =',lst(rdpa[0x33:0x33+51])+' =')
open('/verif/lean/Verif/Conformance/Files.lean','w').write(o)
