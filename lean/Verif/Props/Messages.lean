import Verif.Lemmas.Messages
import Verif.Props.Program
import Verif.Props.GridOutcome
import Verif.Props.DecodeOutcome
import Verif.Lemmas.Subtitle

/-! # C96 Error messages in full -/

namespace Grib

open Grib.Model Grib.Text Grib.Codes Grib.Cli Grib.Spec Grib.Props

namespace Msg

variable {F G : Type}

/-- C96. The program with texts prints and ends as the program without. -/
theorem C96_same (f : Foreign) (s : Setting F G) (cmd : Command) (r : Rdr) :
    (runCommand f s cmd r).1 = (Cli.runCommand s cmd r).1 ∧
    (runCommand f s cmd r).2.2.mapErr Failure.erase = (Cli.runCommand s cmd r).2 := by
  cases cmd with
  | decode index => exact decodeShown_erase f s r index
  | «export» big index => exact ⟨rfl, decodeBinary_erase f s big r index⟩
  | info =>
    dsimp only [runCommand, Cli.runCommand]
    rcases opened_erase r with ⟨e, h1, h2⟩ | ⟨h1, h2⟩ | ⟨g, h1, h2⟩
    · rw [h1, h2]; exact ⟨rfl, rfl⟩
    · rw [h1, h2]; exact ⟨rfl, rfl⟩
    · rw [h1, h2]; exact infoLoop_erase _ _
  | inspect flags =>
    dsimp only [runCommand, Cli.runCommand]
    rcases opened_erase r with ⟨e, h1, h2⟩ | ⟨h1, h2⟩ | ⟨g, h1, h2⟩
    · rw [h1, h2]; exact ⟨rfl, rfl⟩
    · rw [h1, h2]; exact ⟨rfl, rfl⟩
    · rw [h1, h2]; exact display_cases _ _
  | list dump =>
    dsimp only [runCommand, Cli.runCommand]
    rcases opened_erase r with ⟨e, h1, h2⟩ | ⟨h1, h2⟩ | ⟨g, h1, h2⟩
    · rw [h1, h2]; exact ⟨rfl, rfl⟩
    · rw [h1, h2]; exact ⟨rfl, rfl⟩
    · rw [h1, h2]; exact display_cases _ _


/-! ## Why coordinates are refused -/

/-- The bit of a scanning mode that tells the direction of rows agrees with the latitudes of the first and last points. -/
def RowsAgree (lat1 lat2 : Int) (mode : Nat) : Prop := lat1 < lat2 ↔ positiveJ mode = true

/-- The errors of `latlons` with their texts, by the octets of section 3 (`o` tells whether PROJ is part of the build). -/
inductive Refused (f : Foreign) (o : GridOps G F) (sect3 : List UInt8) : Error → Prop
  /-- Templates 3.0 and 3.40 with a list of numbers of points. -/
  | list (ht : sectNumber sect3 13 14 = 0 ∨ sectNumber sect3 13 14 = 40) (hl : 67 < sect3.length) :
      Refused f o sect3 (.notSupported
        ("template ".toList ++ showNat (sectNumber sect3 13 14) ++ " with list of number of points".toList))
  /-- Another template. -/
  | template (ht : sectNumber sect3 13 14 ∉ [0, 20, 30, 40]) :
      Refused f o sect3 (.notSupported ("template ".toList ++ showNat (sectNumber sect3 13 14)))
  /-- Projected grids without PROJ. -/
  | build (ht : sectNumber sect3 13 14 = 20 ∨ sectNumber sect3 13 14 = 30) (hp : o.proj = none) :
      Refused f o sect3 (.notSupported "lat/lon computation support for the template is dropped in this build".toList)
  /-- The shape of the earth, octet 15. -/
  | shape (ht : sectNumber sect3 13 14 = 20 ∨ sectNumber sect3 13 14 = 30) (hp : o.proj ≠ none) (hs : 9 ≤ sectNumber sect3 15 15) :
      Refused f o sect3 (.notSupported
        ("unknown value of Code Table 3.2 (shape of the Earth): ".toList ++ showNat (sectNumber sect3 15 15)))
  /-- The projection centre flag, octet 64, with a bit other than the first two. -/
  | centre (ht : sectNumber sect3 13 14 = 20) (hp : o.proj ≠ none) (hs : sectNumber sect3 15 15 < 9)
      (hc : sectNumber sect3 64 64 % 64 ≠ 0) :
      Refused f o sect3 (.notSupported ("projection centre ".toList ++ showNat (sectNumber sect3 64 64)))
  /-- The scanning mode of a projected grid, octet 65, with one of the last four bits. -/
  | scanning (ht : sectNumber sect3 13 14 = 20 ∨ sectNumber sect3 13 14 = 30) (hp : o.proj ≠ none)
      (hs : sectNumber sect3 15 15 < 9) (hm : sectNumber sect3 65 65 % 16 ≠ 0) :
      Refused f o sect3 (.notSupported ("scanning mode ".toList ++ showNat (sectNumber sect3 65 65)))
  /-- PROJ refuses. -/
  | projection (ht : sectNumber sect3 13 14 = 20 ∨ sectNumber sect3 13 14 = 30) (hp : o.proj ≠ none)
      (hs : sectNumber sect3 15 15 < 9) (hm : sectNumber sect3 65 65 % 16 = 0) :
      Refused f o sect3 (.unknown f.proj)
  /-- The latitudes of the first and last points (octets 47-50 and 56-59) against the scanning mode, octet 72. -/
  | latitudes (ht : sectNumber sect3 13 14 = 0 ∨ sectNumber sect3 13 14 = 40) (hl : sect3.length = 67)
      (ha : ¬ RowsAgree (sectSigned sect3 47 50) (sectSigned sect3 56 59) (sectNumber sect3 72 72)) :
      Refused f o sect3 (.invalidValueError
        "Latitudes for first/last grid points are not consistent with scanning mode".toList)
  /-- The scanning mode, octet 72, with one of the last four bits. -/
  | mode (ht : sectNumber sect3 13 14 = 0 ∨ sectNumber sect3 13 14 = 40) (hl : sect3.length = 67)
      (ha : RowsAgree (sectSigned sect3 47 50) (sectSigned sect3 56 59) (sectNumber sect3 72 72))
      (hm : sectNumber sect3 72 72 % 16 ≠ 0) :
      Refused f o sect3 (.notSupported ("scanning mode ".toList ++ showNat (sectNumber sect3 72 72)))
  /-- The iteration for Gaussian latitudes did not come to an end. -/
  | roots (ht : sectNumber sect3 13 14 = 40) (hl : sect3.length = 67)
      (ha : RowsAgree (sectSigned sect3 47 50) (sectSigned sect3 56 59) (sectNumber sect3 72 72))
      (hm : sectNumber sect3 72 72 % 16 = 0) :
      Refused f o sect3 (.unknown "finding root for Legendre polynomial failed".toList)
  /-- The number of points, octets 7-10, against the shape of the grid, octets 31-34 and 35-38. -/
  | points (hn : sectNumber sect3 7 10 ≠ sectNumber sect3 31 34 * sectNumber sect3 35 38)
      (ht : sectNumber sect3 13 14 ∈ [0, 20, 30, 40]) :
      Refused f o sect3 (.invalidValueError
        ("number of grid points does not match: ".toList ++ showNat (sectNumber sect3 7 10) ++ " (defined) vs ".toList ++
          showNat (sectNumber sect3 31 34 * sectNumber sect3 35 38) ++ " (decoded)".toList))

theorem of_mapErr_ok {ε ε' α : Type} {g : ε → ε'} {x : Outcome ε α} {a : α} (h : x.mapErr g = .ok a) : x = .ok a := by
  cases x with
  | ok b => exact congrArg Outcome.ok (Outcome.ok.inj h)
  | err e => cases h
  | panic => cases h

theorem of_mapErr_panic {ε ε' α : Type} {g : ε → ε'} {x : Outcome ε α} (h : x.mapErr g = .panic) : x = .panic := by
  cases x with
  | ok b => cases h
  | err e => cases h
  | panic => rfl

/-- What `tryFrom` makes of the octets. -/
theorem tryFrom_cases (d : GridDefinition) : tryFrom d = .panic ∨
    (∃ n, n = sectNumber d.payload 13 14 ∧ (n = 0 ∨ n = 40) ∧ 67 < d.payload.length ∧
      tryFrom d = .err (.notSupported ("template ".toList ++ showNat n ++ " with list of number of points".toList))) ∨
    (sectNumber d.payload 13 14 ∉ [0, 20, 30, 40] ∧
      tryFrom d = .err (.notSupported ("template ".toList ++ showNat (sectNumber d.payload 13 14)))) ∨
    ∃ t, tryFrom d = .ok t ∧ GridTemplate.tryFrom d = .ok t ∧
      ((sectNumber d.payload 13 14 = 0 ∧ d.payload.length = 67) ∨ (sectNumber d.payload 13 14 = 40 ∧ d.payload.length = 67) ∨
        (sectNumber d.payload 13 14 = 20 ∧ 60 ≤ d.payload.length) ∨ (sectNumber d.payload 13 14 = 30 ∧ 68 ≤ d.payload.length)) := by
  have he := tryFrom_erase d
  by_cases hlen : 9 ≤ d.payload.length
  · have hnum : (d.gridTmplNum : Outcome Error Nat) = .ok (sectNumber d.payload 13 14) := by
      unfold GridDefinition.gridTmplNum
      rw [rdAs_number (by omega)]
      rfl
    by_cases hshort : (sectNumber d.payload 13 14 ∈ [0, 40] ∧ d.payload.length < 67) ∨
      (sectNumber d.payload 13 14 = 20 ∧ d.payload.length < 60) ∨ (sectNumber d.payload 13 14 = 30 ∧ d.payload.length < 68)
    · rw [C36_short_fails d hlen hshort] at he
      exact .inl (of_mapErr_panic he)
    · by_cases h1 : (sectNumber d.payload 13 14 = 0 ∨ sectNumber d.payload 13 14 = 40) ∧ 67 < d.payload.length
      · refine .inr (.inl ⟨_, rfl, h1.1, h1.2, ?_⟩)
        unfold tryFrom
        rw [hnum, Outcome.bind_ok]
        rcases h1.1 with h | h
        · rw [h]; change (if d.payload.length > 67 then _ else _) = _; rw [if_pos h1.2]
        · rw [h]; change (if d.payload.length > 67 then _ else _) = _; rw [if_pos h1.2]
      · simp only [List.mem_cons, List.not_mem_nil, or_false, not_or, not_and] at hshort h1 ⊢
        by_cases h2 : sectNumber d.payload 13 14 = 0
        · rw [C36_latlon d (by omega) h2] at he ⊢
          exact .inr (.inr (.inr ⟨_, of_mapErr_ok he, rfl, by omega⟩))
        by_cases h3 : sectNumber d.payload 13 14 = 40
        · rw [C36_gaussian d (by omega) h3] at he ⊢
          exact .inr (.inr (.inr ⟨_, of_mapErr_ok he, rfl, by omega⟩))
        by_cases h4 : sectNumber d.payload 13 14 = 20
        · rw [C36_polar d (by omega) h4] at he ⊢
          exact .inr (.inr (.inr ⟨_, of_mapErr_ok he, rfl, by omega⟩))
        by_cases h5 : sectNumber d.payload 13 14 = 30
        · rw [C36_lambert d (by omega) h5] at he ⊢
          exact .inr (.inr (.inr ⟨_, of_mapErr_ok he, rfl, by omega⟩))
        refine .inr (.inr (.inl ⟨⟨h2, h4, h5, h3⟩, ?_⟩))
        unfold tryFrom
        rw [hnum, Outcome.bind_ok]
        generalize sectNumber d.payload 13 14 = n at *
        split <;> first | rfl | contradiction
  · left
    unfold tryFrom GridDefinition.gridTmplNum
    exact bind_of_panic (rdAs_panic (by omega))

instance (a b : Int) (m : Nat) : Decidable (RowsAgree a b m) := by unfold RowsAgree; infer_instance

theorem consistent_cases (a b : Int) (m : Nat) : (isConsistentForJ a b m : Outcome Error Bool) = .panic ∨
    (isConsistentForJ a b m : Outcome Error Bool) = .ok (decide (RowsAgree a b m)) := by
  unfold isConsistentForJ checkI32
  split
  · right
    rw [Outcome.bind_ok, mode_positiveJ]
    congr 1
    unfold RowsAgree
    by_cases h : a < b
    · have h' : b - a > 0 := by omega
      simp [h]
    · have h' : ¬ b - a > 0 := by omega
      simp only [h, h', decide_false, Bool.false_xor, false_iff]
      cases positiveJ m <;> rfl
  · exact .inl rfl

theorem longitudes_err {ops : FloatOps F} {a b : Int} {n : Nat} {m : ScanningMode} {e : Error}
    (h : (evenlySpacedLongitudes ops a b n m : Outcome Error (List F)) = .err e) : False := by
  have := er_longitudes (fun _ : Error => Error.internalDataError) ops a b n m
  have h2 := er_longitudes (fun _ : Error => Error.unknown []) ops a b n m
  rw [h] at this h2
  exact absurd ((Outcome.err.inj this).trans (Outcome.err.inj h2).symm) (by simp)

theorem gridIj_cases (ni nj m : Nat) :
    (m % 16 ≠ 0 ∧ gridIj ni nj m = .err (.notSupported ("scanning mode ".toList ++ showNat m))) ∨
    (m % 16 = 0 ∧ gridIj ni nj m = .ok (GridIter.new ni nj m)) := by
  unfold gridIj
  rw [mode_unsupported]
  by_cases h : m % 16 = 0
  · exact .inr ⟨h, by rw [if_neg (by simp [h])]⟩
  · exact .inl ⟨h, by rw [if_pos (by simpa using h)]⟩

theorem latLon_err {ops : FloatOps F} {g : LatLonGrid} {e : Error} (h : latLon ops g = .err e) :
    (¬ RowsAgree g.firstLat g.lastLat g.mode ∧ e = .invalidValueError latitudesText) ∨
    (RowsAgree g.firstLat g.lastLat g.mode ∧ g.mode % 16 ≠ 0 ∧ e = .notSupported ("scanning mode ".toList ++ showNat g.mode)) := by
  unfold latLon at h
  rcases consistent_cases g.firstLat g.lastLat g.mode with hc | hc
  · rw [hc] at h; cases h
  · rw [hc, Outcome.bind_ok] at h
    by_cases ha : RowsAgree g.firstLat g.lastLat g.mode
    · rw [if_neg (by simpa using ha)] at h
      rcases gridIj_cases g.ni g.nj g.mode with ⟨hm, hg⟩ | ⟨hm, hg⟩
      · rw [hg] at h
        exact .inr ⟨ha, hm, (Outcome.err.inj h).symm⟩
      · rw [hg, Outcome.bind_ok] at h
        split at h
        · cases h
        · dsimp only at h
          split at h
          · cases h
          · cases hl : (evenlySpacedLongitudes ops g.firstLon g.lastLon (g.ni - 1) g.mode : Outcome Error (List F)) with
            | ok l => rw [hl] at h; cases h
            | panic => rw [hl] at h; cases h
            | err e => exact (longitudes_err hl).elim
    · rw [if_pos (by simpa using ha)] at h
      exact .inl ⟨ha, (Outcome.err.inj h).symm⟩

theorem gaussian_err {g : GaussOps G F} {ops : FloatOps F} {d : GaussianGrid} {e : Error} (h : gaussian g ops d = .err e) :
    (¬ RowsAgree d.firstLat d.lastLat d.mode ∧ e = .invalidValueError latitudesText) ∨
    (RowsAgree d.firstLat d.lastLat d.mode ∧ d.mode % 16 ≠ 0 ∧ e = .notSupported ("scanning mode ".toList ++ showNat d.mode)) ∨
    (RowsAgree d.firstLat d.lastLat d.mode ∧ d.mode % 16 = 0 ∧
      e = .unknown "finding root for Legendre polynomial failed".toList) := by
  unfold gaussian at h
  rcases consistent_cases d.firstLat d.lastLat d.mode with hc | hc
  · rw [hc] at h; cases h
  · rw [hc, Outcome.bind_ok] at h
    by_cases ha : RowsAgree d.firstLat d.lastLat d.mode
    · rw [if_neg (by simpa using ha)] at h
      rcases gridIj_cases d.ni d.nj d.mode with ⟨hm, hg⟩ | ⟨hm, hg⟩
      · rw [hg] at h
        exact .inr (.inl ⟨ha, hm, (Outcome.err.inj h).symm⟩)
      · rw [hg, Outcome.bind_ok] at h
        cases hlat : gaussianLatitudes g d.nj with
        | panic => rw [hlat] at h; cases h
        | err e' =>
          rw [hlat] at h
          refine .inr (.inr ⟨ha, hm, ?_⟩)
          rw [← Outcome.err.inj h]
          unfold gaussianLatitudes legendreRoots at hlat
          split at hlat
          · cases hlat
          · dsimp only at hlat
            rw [Outcome.bind_ok] at hlat
            split at hlat
            · exact (Outcome.err.inj hlat).symm
            · cases hlat
        | ok lat =>
          rw [hlat, Outcome.bind_ok] at h
          dsimp only at h
          split at h
          · cases h
          · cases hl : (evenlySpacedLongitudes ops d.firstLon d.lastLon (d.ni - 1) d.mode : Outcome Error (List F)) with
            | ok l => rw [hl] at h; cases h
            | panic => rw [hl] at h; cases h
            | err e => exact (longitudes_err hl).elim
    · rw [if_pos (by simpa using ha)] at h
      exact .inl ⟨ha, (Outcome.err.inj h).symm⟩

theorem projected_err {f : Foreign} {p : ProjOps G F} {d : ProjDef G} {a b : G × G} {ij : GridIter} {e : Error}
    (h : projected f p d a b ij = .err e) : e = .unknown f.proj := by
  unfold projected at h
  split at h
  · exact (Outcome.err.inj h).symm
  · split at h
    · exact (Outcome.err.inj h).symm
    · unfold collectIj at h
      split at h
      · rw [Outcome.bind_ok] at h
        dsimp only at h
        split at h
        · exact (Outcome.err.inj h).symm
        · cases h
      · cases h

theorem radii_cases (ops : FloatOps G) (e : EarthShape) :
    (9 ≤ e.shape ∧ e.radii ops = none) ∨ (e.shape < 9 ∧ ∃ r, e.radii ops = some r) := by
  by_cases h : e.shape < 9
  · exact .inr ⟨h, radii_some ops e h⟩
  · exact .inl ⟨by omega, C43_reserved ops e (by omega)⟩

theorem lambert_err {f : Foreign} {p : ProjOps G F} {d : LambertGrid} {e : Error} (h : lambert f p d = .err e) :
    (9 ≤ d.earth.shape ∧ e = .notSupported (earthText d.earth)) ∨
    (d.earth.shape < 9 ∧ d.mode % 16 ≠ 0 ∧ e = .notSupported ("scanning mode ".toList ++ showNat d.mode)) ∨
    (d.earth.shape < 9 ∧ d.mode % 16 = 0 ∧ e = .unknown f.proj) := by
  unfold lambert at h
  rcases radii_cases p.ops d.earth with ⟨hs, hr⟩ | ⟨hs, r, hr⟩
  · rw [hr] at h
    exact .inl ⟨hs, (Outcome.err.inj h).symm⟩
  · rw [hr] at h
    dsimp only at h
    rcases gridIj_cases d.ni d.nj d.mode with ⟨hm, hg⟩ | ⟨hm, hg⟩
    · rw [hg] at h
      exact .inr (.inl ⟨hs, hm, (Outcome.err.inj h).symm⟩)
    · rw [hg, Outcome.bind_ok] at h
      exact .inr (.inr ⟨hs, hm, projected_err h⟩)

theorem polar_err {f : Foreign} {p : ProjOps G F} {d : PolarGrid} {e : Error} (h : polar f p d = .err e) :
    (9 ≤ d.earth.shape ∧ e = .notSupported (earthText d.earth)) ∨
    (d.earth.shape < 9 ∧ d.centre % 64 ≠ 0 ∧ e = .notSupported ("projection centre ".toList ++ showNat d.centre)) ∨
    (d.earth.shape < 9 ∧ d.mode % 16 ≠ 0 ∧ e = .notSupported ("scanning mode ".toList ++ showNat d.mode)) ∨
    (d.earth.shape < 9 ∧ d.mode % 16 = 0 ∧ e = .unknown f.proj) := by
  unfold polar at h
  rcases radii_cases p.ops d.earth with ⟨hs, hr⟩ | ⟨hs, r, hr⟩
  · rw [hr] at h
    exact .inl ⟨hs, (Outcome.err.inj h).symm⟩
  · rw [hr] at h
    dsimp only at h
    rw [show (0b00111111 : Nat) = 2 ^ 6 - 1 from rfl, Nat.and_two_pow_sub_one_eq_mod] at h
    by_cases hc : d.centre % 2 ^ 6 ≠ 0
    · rw [if_pos hc] at h
      exact .inr (.inl ⟨hs, hc, (Outcome.err.inj h).symm⟩)
    · rw [if_neg hc] at h
      rcases gridIj_cases d.ni d.nj d.mode with ⟨hm, hg⟩ | ⟨hm, hg⟩
      · rw [hg] at h
        exact .inr (.inr (.inl ⟨hs, hm, (Outcome.err.inj h).symm⟩))
      · rw [hg, Outcome.bind_ok] at h
        exact .inr (.inr (.inr ⟨hs, hm, projected_err h⟩))

theorem sizeHint_points {p : GridPoints F} {n : Nat} {e : Error}
    (h : ((p.sizeHint : Outcome Error Nat) >>= fun m => if n = m then .ok p else .err (.invalidValueError (mismatchText n m))) =
      .err e) : ∃ m, (p.sizeHint : Outcome Error Nat) = .ok m ∧ n ≠ m ∧ e = .invalidValueError (mismatchText n m) := by
  cases hs : (p.sizeHint : Outcome Error Nat) with
  | panic => rw [hs] at h; cases h
  | err e' =>
    exfalso
    have h1 := er_pointsHint (fun _ : Error => Error.internalDataError) p
    have h2 := er_pointsHint (fun _ : Error => Error.unknown []) p
    rw [hs] at h1 h2
    exact absurd ((Outcome.err.inj h1).trans (Outcome.err.inj h2).symm) (by simp)
  | ok m =>
    rw [hs, Outcome.bind_ok] at h
    by_cases hn : n = m
    · rw [if_pos hn] at h; cases h
    · rw [if_neg hn] at h
      exact ⟨m, rfl, hn, (Outcome.err.inj h).symm⟩

/-- The projection library gives as many points as it gets. -/
def Counts (o : GridOps G F) : Prop := ∀ p, o.proj = some p → ∀ d xs ys, p.inverseAll d xs = some ys → ys.length = xs.length

theorem projected_length {f : Foreign} {p : ProjOps G F} {d : ProjDef G} {a b : G × G} {ni nj m : Nat} {ps : List (F × F)}
    (hinv : ∀ d xs ys, p.inverseAll d xs = some ys → ys.length = xs.length)
    (h : projected f p d a b (GridIter.new ni nj m) = .ok ps) : ps.length = ni * nj := by
  unfold projected at h
  split at h
  · cases h
  · split at h
    · cases h
    · obtain ⟨hc1, hc2⟩ := collectIj_new ni nj m
      have he := collectIj_erase (GridIter.new ni nj m)
      by_cases hO : OnlyEmptyLines ni nj m
      · rw [hc1 hO] at he
        rw [of_mapErr_panic he] at h
        cases h
      · rw [hc2 hO] at he
        rw [of_mapErr_ok he, Outcome.bind_ok] at h
        dsimp only at h
        split at h
        · cases h
        · rename_i lonlat hl
          rw [← Outcome.ok.inj h, List.length_map, hinv _ _ _ hl, List.length_map, List.length_map, List.length_range]

theorem ij_hint {ij : GridIter} {ni nj m : Nat} (h : gridIj ni nj m = .ok ij) : (ij.sizeHint : Outcome Error Nat) = .ok (ni * nj) := by
  rcases gridIj_cases ni nj m with ⟨-, hg⟩ | ⟨-, hg⟩
  · rw [hg] at h; cases h
  · rw [hg] at h
    rw [← Outcome.ok.inj h]
    exact GridIter.sizeHint_new ni nj m

theorem latLon_hint {ops : FloatOps F} {g : LatLonGrid} {it : RegularIter F} (h : latLon ops g = .ok it) :
    (it.ij.sizeHint : Outcome Error Nat) = .ok (g.ni * g.nj) := by
  unfold latLon at h
  rcases consistent_cases g.firstLat g.lastLat g.mode with hc | hc
  · rw [hc] at h; cases h
  · rw [hc, Outcome.bind_ok] at h
    split at h
    · cases h
    · cases hij : gridIj g.ni g.nj g.mode with
      | panic => rw [hij] at h; cases h
      | err e => rw [hij] at h; cases h
      | ok ij =>
        rw [hij, Outcome.bind_ok] at h
        split at h
        · cases h
        · dsimp only at h
          split at h
          · cases h
          · obtain ⟨lon, -, h⟩ := Outcome.bind_eq_ok h
            rw [← Outcome.ok.inj h]
            exact ij_hint hij

theorem gaussian_hint {g : GaussOps G F} {ops : FloatOps F} {d : GaussianGrid} {it : RegularIter F} (h : gaussian g ops d = .ok it) :
    (it.ij.sizeHint : Outcome Error Nat) = .ok (d.ni * d.nj) := by
  unfold gaussian at h
  rcases consistent_cases d.firstLat d.lastLat d.mode with hc | hc
  · rw [hc] at h; cases h
  · rw [hc, Outcome.bind_ok] at h
    split at h
    · cases h
    · cases hij : gridIj d.ni d.nj d.mode with
      | panic => rw [hij] at h; cases h
      | err e => rw [hij] at h; cases h
      | ok ij =>
        rw [hij, Outcome.bind_ok] at h
        obtain ⟨lat, -, h⟩ := Outcome.bind_eq_ok h
        dsimp only at h
        split at h
        · cases h
        · obtain ⟨lon, -, h⟩ := Outcome.bind_eq_ok h
          rw [← Outcome.ok.inj h]
          exact ij_hint hij

theorem lambert_length {f : Foreign} {p : ProjOps G F} {d : LambertGrid} {ps : List (F × F)}
    (hinv : ∀ d xs ys, p.inverseAll d xs = some ys → ys.length = xs.length) (h : lambert f p d = .ok ps) :
    ps.length = d.ni * d.nj := by
  unfold lambert at h
  split at h
  · cases h
  · dsimp only at h
    rcases gridIj_cases d.ni d.nj d.mode with ⟨hm, hg⟩ | ⟨hm, hg⟩
    · rw [hg] at h; cases h
    · rw [hg, Outcome.bind_ok] at h
      exact projected_length hinv h

theorem polar_length {f : Foreign} {p : ProjOps G F} {d : PolarGrid} {ps : List (F × F)}
    (hinv : ∀ d xs ys, p.inverseAll d xs = some ys → ys.length = xs.length) (h : polar f p d = .ok ps) :
    ps.length = d.ni * d.nj := by
  unfold polar at h
  split at h
  · cases h
  · dsimp only at h
    split at h
    · cases h
    · rcases gridIj_cases d.ni d.nj d.mode with ⟨hm, hg⟩ | ⟨hm, hg⟩
      · rw [hg] at h; cases h
      · rw [hg, Outcome.bind_ok] at h
        exact projected_length hinv h

/-- C96. The error of `SubMessage::latlons` with its text is always one of the reasons above, with the numbers that are in the
section.  (`Counts`: the projection library gives as many points as it gets.) -/
theorem C96_coordinates (f : Foreign) (o : GridOps G F) (ho : Counts o) (d : GridDefinition) (e : Error)
    (h : subLatlons f o d = .err e) : Refused f o d.payload e := by
  unfold subLatlons at h
  by_cases h5 : 5 ≤ d.payload.length
  swap
  · unfold GridDefinition.numPoints at h
    rw [bind_of_panic (rdAs_panic (by omega))] at h
    cases h
  have hn : (d.numPoints : Outcome Error Nat) = .ok (sectNumber d.payload 7 10) := by
    unfold GridDefinition.numPoints
    rw [rdAs_number (by omega)]
    rfl
  rw [hn, Outcome.bind_ok] at h
  rcases tryFrom_cases d with ht | ⟨n, hn', h1, h2, ht⟩ | ⟨h1, ht⟩ | ⟨t, ht, hm, hk⟩
  · rw [ht] at h; cases h
  · rw [ht] at h
    rw [← Outcome.err.inj h, hn']
    exact .list (hn' ▸ h1) h2
  · rw [ht] at h
    rw [← Outcome.err.inj h]
    exact .template h1
  · rw [ht, Outcome.bind_ok] at h
    -- the points, or the error of the template
    have key : ∀ ni nj, (∀ e, templateLatlons f o t = .err e → Refused f o d.payload e) →
        (∀ p, templateLatlons f o t = .ok p → (p.sizeHint : Outcome Error Nat) = .ok (ni * nj)) →
        ni = sectNumber d.payload 31 34 → nj = sectNumber d.payload 35 38 → sectNumber d.payload 13 14 ∈ [0, 20, 30, 40] →
        Refused f o d.payload e := by
      intro ni nj k1 k2 e1 e2 hmem
      cases hp : templateLatlons f o t with
      | panic => rw [hp] at h; cases h
      | err e' => rw [hp] at h; exact Outcome.err.inj h ▸ k1 e' hp
      | ok p =>
        rw [hp, Outcome.bind_ok] at h
        obtain ⟨m, s1, s2, rfl⟩ := sizeHint_points h
        rw [k2 p hp] at s1
        rw [← Outcome.ok.inj s1, e1, e2]
        rw [← Outcome.ok.inj s1, e1, e2] at s2
        exact .points s2 hmem
    rcases hk with ⟨hk, hl⟩ | ⟨hk, hl⟩ | ⟨hk, hl⟩ | ⟨hk, hl⟩
    · rw [C36_latlon d hl hk] at hm
      obtain rfl := Outcome.ok.inj hm
      refine key _ _ ?_ ?_ rfl rfl (by simp [hk])
      · intro e' he
        dsimp only [templateLatlons] at he
        cases hx : latLon o.single { ni := sectNumber d.payload 31 34, nj := sectNumber d.payload 35 38
                                     firstLat := sectSigned d.payload 47 50, firstLon := sectSigned d.payload 51 54
                                     lastLat := sectSigned d.payload 56 59, lastLon := sectSigned d.payload 60 63
                                     mode := sectNumber d.payload 72 72 } with
        | ok it => rw [hx] at he; cases he
        | panic => rw [hx] at he; cases he
        | err e1 =>
          rw [hx] at he
          obtain rfl := Outcome.err.inj he
          rcases latLon_err hx with ⟨q, rfl⟩ | ⟨q, q', rfl⟩
          · exact .latitudes (.inl hk) hl q
          · exact .mode (.inl hk) hl q q'
      · intro p hp
        obtain ⟨it, hx, hp⟩ := Outcome.bind_eq_ok hp
        obtain rfl := Outcome.ok.inj hp
        exact latLon_hint hx
    · rw [C36_gaussian d hl hk] at hm
      obtain rfl := Outcome.ok.inj hm
      refine key _ _ ?_ ?_ rfl rfl (by simp [hk])
      · intro e' he
        dsimp only [templateLatlons] at he
        cases hx : gaussian o.gauss o.single { ni := sectNumber d.payload 31 34, nj := sectNumber d.payload 35 38
                                               firstLat := sectSigned d.payload 47 50, firstLon := sectSigned d.payload 51 54
                                               lastLat := sectSigned d.payload 56 59, lastLon := sectSigned d.payload 60 63
                                               iInc := sectNumber d.payload 64 67, n := sectNumber d.payload 68 71
                                               mode := sectNumber d.payload 72 72 } with
        | ok it => rw [hx] at he; cases he
        | panic => rw [hx] at he; cases he
        | err e1 =>
          rw [hx] at he
          obtain rfl := Outcome.err.inj he
          rcases gaussian_err hx with ⟨q, rfl⟩ | ⟨q, q', rfl⟩ | ⟨q, q', rfl⟩
          · exact .latitudes (.inr hk) hl q
          · exact .mode (.inr hk) hl q q'
          · exact .roots hk hl q q'
      · intro p hp
        obtain ⟨it, hx, hp⟩ := Outcome.bind_eq_ok hp
        obtain rfl := Outcome.ok.inj hp
        exact gaussian_hint hx
    · rw [C36_polar d hl hk] at hm
      obtain rfl := Outcome.ok.inj hm
      refine key _ _ ?_ ?_ rfl rfl (by simp [hk])
      · intro e' he
        dsimp only [templateLatlons] at he
        cases hproj : o.proj with
        | none =>
          rw [hproj] at he
          obtain rfl := Outcome.err.inj he
          exact .build (.inl hk) hproj
        | some p =>
          rw [hproj] at he
          dsimp only at he
          have hne : o.proj ≠ none := by rw [hproj]; simp
          generalize hg : (PolarGrid.mk _ _ _ _ _ _ _ _ _ _ _) = g at he
          cases hx : polar f p g with
          | ok it => rw [hx] at he; cases he
          | panic => rw [hx] at he; cases he
          | err e1 =>
            rw [hx] at he
            obtain rfl := Outcome.err.inj he
            subst hg
            rcases polar_err hx with ⟨q, rfl⟩ | ⟨q, q', rfl⟩ | ⟨q, q', rfl⟩ | ⟨q, q', rfl⟩
            · exact .shape (.inl hk) hne q
            · exact .centre hk hne q q'
            · exact .scanning (.inl hk) hne q q'
            · exact .projection (.inl hk) hne q q'
      · intro p hp
        dsimp only [templateLatlons] at hp
        cases hproj : o.proj with
        | none => rw [hproj] at hp; cases hp
        | some q =>
          rw [hproj] at hp
          obtain ⟨ps, hx, hp⟩ := Outcome.bind_eq_ok hp
          obtain rfl := Outcome.ok.inj hp
          exact congrArg Outcome.ok (polar_length (ho q hproj) hx)
    · rw [C36_lambert d hl hk] at hm
      obtain rfl := Outcome.ok.inj hm
      refine key _ _ ?_ ?_ rfl rfl (by simp [hk])
      · intro e' he
        dsimp only [templateLatlons] at he
        cases hproj : o.proj with
        | none =>
          rw [hproj] at he
          obtain rfl := Outcome.err.inj he
          exact .build (.inr hk) hproj
        | some p =>
          rw [hproj] at he
          dsimp only at he
          have hne : o.proj ≠ none := by rw [hproj]; simp
          generalize hg : (LambertGrid.mk _ _ _ _ _ _ _ _ _ _ _ _) = g at he
          cases hx : lambert f p g with
          | ok it => rw [hx] at he; cases he
          | panic => rw [hx] at he; cases he
          | err e1 =>
            rw [hx] at he
            obtain rfl := Outcome.err.inj he
            subst hg
            rcases lambert_err hx with ⟨q, rfl⟩ | ⟨q, q', rfl⟩ | ⟨q, q', rfl⟩
            · exact .shape (.inr hk) hne q
            · exact .scanning (.inr hk) hne q q'
            · exact .projection (.inr hk) hne q q'
      · intro p hp
        dsimp only [templateLatlons] at hp
        cases hproj : o.proj with
        | none => rw [hproj] at hp; cases hp
        | some q =>
          rw [hproj] at hp
          obtain ⟨ps, hx, hp⟩ := Outcome.bind_eq_ok hp
          obtain rfl := Outcome.ok.inj hp
          exact congrArg Outcome.ok (lambert_length (ho q hproj) hx)

/-! ## The message tells the error -/

/-- The fixed beginnings of messages. -/
def beginnings : List Str :=
  ["Something unexpected happend", "Not GRIB version 2: ", "Unknown section number: ", "Content of End Section is not valid",
    "Unexpected end of data at ", "GRIB2 sections wrongly ordered at ", "Grid Definition Section not found at ",
    "TemplateNumberUnsupported", "BitMapIndicatorUnsupported", "LengthMismatch",
    "SimplePackingDecodeError(\n    NotSupported,\n)", "SimplePackingDecodeError(\n    OriginalFieldValueTypeNotSupported,\n)",
    "SimplePackingDecodeError(\n    LengthMismatch,\n)",
    "ComplexPackingDecodeError(\n    NotSupported,\n)", "ComplexPackingDecodeError(\n    LengthMismatch,\n)",
    "Jpeg2000CodeStreamDecodeError(\n    NotSupported,\n)", "Jpeg2000CodeStreamDecodeError(\n    DecoderSetupError,\n)",
    "Jpeg2000CodeStreamDecodeError(\n    MainHeaderReadError,\n)", "Jpeg2000CodeStreamDecodeError(\n    BodyReadError,\n)",
    "Jpeg2000CodeStreamDecodeError(\n    LengthMismatch,\n)",
    "PngDecodeError(\n    NotSupported,\n)", "PngDecodeError(\n    PngError(\n    ",
    "RunLengthEncodingDecodeError(\n    NotSupported,\n)", "RunLengthEncodingDecodeError(\n    InvalidFirstValue,\n)",
    "RunLengthEncodingDecodeError(\n    LengthMismatch,\n)", "RunLengthEncodingDecodeError(\n    InvalidLevelValue(\n        ",
    "invalid value (", "not supported (", "unknown error: ", "Read error: ",
    "empty GRIB2 data", "message index must be specified as 'N.M' where N and M are both integers", "no such index: ",
    "something unexpected happened:: "].map String.toList

theorem beginnings_apart : ∀ a ∈ beginnings, ∀ b ∈ beginnings, a = b ∨ (a.isPrefixOf b = false ∧ b.isPrefixOf a = false) := by
  decide +kernel

theorem beginnings_nodup : beginnings.Nodup := by decide +kernel

/-- `indent` without the first four columns. -/
def indented (s : Str) : Str := s.flatMap fun c => if c = '\n' then "\n    ".toList else [c]

theorem indented_append (a b : Str) : indented (a ++ b) = indented a ++ indented b := List.flatMap_append

theorem indented_line {s : Str} (h : '\n' ∉ s) : indented s = s := by
  induction s with
  | nil => rfl
  | cons c s ih =>
    simp only [List.mem_cons, not_or] at h
    change (if c = '\n' then _ else [c]) ++ indented s = _
    rw [if_neg (fun e => h.1 e.symm), ih h.2]
    rfl

theorem indented_digits (n : Nat) : indented (showNat n) = showNat n := indented_line (showNat_noChar n (by decide))

/-- The beginning by its place in the list, a number and a text, and what comes after. -/
def parts (f : Foreign) : Error → Nat × Nat × Str × Str
  | .internalDataError => (0, 0, [], [])
  | .parseError (.readError (.sectionSizeTooSmall n)) => (29, 0, "Section size is too small: ".toList ++ showNat n, [])
  | .parseError (.readError _) => (29, 0, f.io, [])
  | .parseError (.gribVersionMismatch n) => (1, n, [], [])
  | .parseError (.unknownSectionNumber n) => (2, n, [], [])
  | .parseError .endSectionMismatch => (3, 0, [], [])
  | .parseError (.unexpectedEndOfData n) => (4, n, [], [])
  | .parseError (.invalidSectionOrder n) => (5, n, [], [])
  | .parseError (.noGridDefinition n) => (6, n, [], [])
  | .decodeError .templateNumberUnsupported => (7, 0, [], [])
  | .decodeError .bitMapIndicatorUnsupported => (8, 0, [], [])
  | .decodeError .lengthMismatch => (9, 0, [], [])
  | .decodeError (.simplePacking .notSupported) => (10, 0, [], [])
  | .decodeError (.simplePacking .originalFieldValueTypeNotSupported) => (11, 0, [], [])
  | .decodeError (.simplePacking .lengthMismatch) => (12, 0, [], [])
  | .decodeError (.complexPacking .notSupported) => (13, 0, [], [])
  | .decodeError (.complexPacking .lengthMismatch) => (14, 0, [], [])
  | .decodeError (.jpeg2000 .notSupported) => (15, 0, [], [])
  | .decodeError (.jpeg2000 .decoderSetupError) => (16, 0, [], [])
  | .decodeError (.jpeg2000 .mainHeaderReadError) => (17, 0, [], [])
  | .decodeError (.jpeg2000 .bodyReadError) => (18, 0, [], [])
  | .decodeError (.jpeg2000 .lengthMismatch) => (19, 0, [], [])
  | .decodeError (.png .notSupported) => (20, 0, [], [])
  | .decodeError (.png .pngError) => (21, 0, indented (indent f.png ++ ",\n)".toList), ",\n)".toList)
  | .decodeError (.runLength .notSupported) => (22, 0, [], [])
  | .decodeError (.runLength .invalidFirstValue) => (23, 0, [], [])
  | .decodeError (.runLength .lengthMismatch) => (24, 0, [], [])
  | .decodeError (.runLength (.invalidLevelValue n)) => (25, n, [], ",\n    ),\n)".toList)
  | .invalidValueError s => (26, 0, s, ")".toList)
  | .notSupported s => (27, 0, s, ")".toList)
  | .unknown s => (28, 0, s, [])

/-- The numbers of beginnings that a number comes after. -/
def numbered : List Nat := [1, 2, 4, 5, 6, 25]

def middle (p : Nat × Nat × Str × Str) : Str := if numbered.contains p.1 then showNat p.2.1 else p.2.2.1

theorem glue (a b c d e p q n : Str) (hp : a ++ (b ++ (c ++ b)) = p) (hq : d ++ e = q) :
    a ++ (b ++ (c ++ (b ++ n) ++ d)) ++ e = p ++ (n ++ q) := by
  subst hp hq; simp only [List.append_assoc]

theorem glue' (a b c e p n : Str) (hp : a ++ (b ++ c) = p) : a ++ (b ++ (c ++ n)) ++ e = p ++ (n ++ e) := by
  subst hp; simp only [List.append_assoc]

theorem show_parts (f : Foreign) (e : Error) :
    e.show f = beginnings.getD (parts f e).1 [] ++ (middle (parts f e) ++ (parts f e).2.2.2) := by
  have nil : ∀ a b : Str, a ++ b = a ++ (b ++ []) := fun a b => by rw [List.append_nil]
  rcases e with _ | p | d | s | s | s
  · rfl
  · rcases p with k | n | n | _ | n | n | n
    · cases k with
      | sectionSizeTooSmall n => exact nil "Read error: ".toList ("Section size is too small: ".toList ++ _)
      | unexpectedEof => exact nil _ _
      | io => exact nil _ _
      | resetPos => exact nil _ _
    · exact nil _ _
    · exact nil _ _
    · rfl
    · exact nil _ _
    · exact nil _ _
    · exact nil _ _
  · rcases d with _ | _ | x | x | x | x | x | _
    · rfl
    · rfl
    · cases x <;> rfl
    · cases x <;> rfl
    · cases x <;> rfl
    · cases x with
      | notSupported => rfl
      | pngError =>
        change "PngDecodeError(\n".toList ++ ("    ".toList ++ indented ("PngError(\n".toList ++ indent f.png ++ ",\n)".toList)) ++
          ",\n)".toList = _
        rw [List.append_assoc "PngError(\n".toList, indented_append]
        have : indented "PngError(\n".toList = "PngError(\n    ".toList := by decide +kernel
        rw [this]
        exact glue' _ _ _ _ _ _ rfl
    · cases x with
      | invalidLevelValue n =>
        change "RunLengthEncodingDecodeError(\n".toList ++
          ("    ".toList ++ indented ("InvalidLevelValue(\n".toList ++ ("    ".toList ++ indented (showNat n)) ++ ",\n)".toList)) ++
          ",\n)".toList = _
        rw [indented_digits, indented_append, indented_append, indented_append, indented_digits]
        have h1 : indented "InvalidLevelValue(\n".toList = "InvalidLevelValue(\n    ".toList := by decide +kernel
        have h2 : indented "    ".toList = "    ".toList := by decide +kernel
        have h3 : indented ",\n)".toList = ",\n    )".toList := by decide +kernel
        rw [h1, h2, h3]
        exact glue _ _ _ _ _ _ _ _ rfl rfl
      | notSupported => rfl
      | invalidFirstValue => rfl
      | lengthMismatch => rfl
    · rfl
  · exact List.append_assoc _ _ _
  · exact List.append_assoc _ _ _
  · exact nil _ _

/-- The error of given parts. -/
def ofParts : Nat → Nat → Str → Error
  | 0, _, _ => .internalDataError
  | 1, n, _ => .parseError (.gribVersionMismatch n)
  | 2, n, _ => .parseError (.unknownSectionNumber n)
  | 3, _, _ => .parseError .endSectionMismatch
  | 4, n, _ => .parseError (.unexpectedEndOfData n)
  | 5, n, _ => .parseError (.invalidSectionOrder n)
  | 6, n, _ => .parseError (.noGridDefinition n)
  | 7, _, _ => .decodeError .templateNumberUnsupported
  | 8, _, _ => .decodeError .bitMapIndicatorUnsupported
  | 9, _, _ => .decodeError .lengthMismatch
  | 10, _, _ => .decodeError (.simplePacking .notSupported)
  | 11, _, _ => .decodeError (.simplePacking .originalFieldValueTypeNotSupported)
  | 12, _, _ => .decodeError (.simplePacking .lengthMismatch)
  | 13, _, _ => .decodeError (.complexPacking .notSupported)
  | 14, _, _ => .decodeError (.complexPacking .lengthMismatch)
  | 15, _, _ => .decodeError (.jpeg2000 .notSupported)
  | 16, _, _ => .decodeError (.jpeg2000 .decoderSetupError)
  | 17, _, _ => .decodeError (.jpeg2000 .mainHeaderReadError)
  | 18, _, _ => .decodeError (.jpeg2000 .bodyReadError)
  | 19, _, _ => .decodeError (.jpeg2000 .lengthMismatch)
  | 20, _, _ => .decodeError (.png .notSupported)
  | 21, _, _ => .decodeError (.png .pngError)
  | 22, _, _ => .decodeError (.runLength .notSupported)
  | 23, _, _ => .decodeError (.runLength .invalidFirstValue)
  | 24, _, _ => .decodeError (.runLength .lengthMismatch)
  | 25, n, _ => .decodeError (.runLength (.invalidLevelValue n))
  | 26, _, s => .invalidValueError s
  | 27, _, s => .notSupported s
  | _, _, s => .unknown s

/-- Reading failed: the text is that of the operating system. -/
def Error.ReadFailed : Error → Prop
  | .parseError (.readError _) => True
  | _ => False

theorem parts_facts (f : Foreign) (e : Error) : (parts f e).1 < 30 ∧
    ((parts f e).1 = 29 → e.ReadFailed) ∧
    ((parts f e).1 ≠ 29 → e = ofParts (parts f e).1 (parts f e).2.1 (parts f e).2.2.1) ∧
    (numbered.contains (parts f e).1 = true → (parts f e).2.2.1 = []) ∧ (numbered.contains (parts f e).1 = false → (parts f e).2.1 = 0) := by
  rcases e with _ | (⟨_ | _ | _ | _⟩ | n | n | _ | n | n | n) | (_ | _ | x | x | x | x | x | _) | s | s | s
  all_goals try cases x
  all_goals simp [parts, numbered, ofParts, Error.ReadFailed]

theorem beginnings_tag {i j : Nat} (hi : i < 34) (hj : j < 34) {x y : Str}
    (h : beginnings.getD i [] ++ x = beginnings.getD j [] ++ y) : i = j := by
  have hl : beginnings.length = 34 := rfl
  have get : ∀ k (hk : k < beginnings.length), beginnings.getD k [] = beginnings[k] := fun k hk => by simp [List.getD, hk]
  rw [get i (by omega), get j (by omega)] at h
  rcases beginnings_apart _ (List.getElem_mem (show i < beginnings.length by omega)) _
    (List.getElem_mem (show j < beginnings.length by omega)) with he | ⟨a, b⟩
  · exact (List.getElem_inj beginnings_nodup).1 he
  · exact absurd h (append_ne a b)

/-- What comes after, by the beginning. -/
def closing (t : Nat) : Str :=
  if t = 21 then ",\n)".toList else if t = 25 then ",\n    ),\n)".toList else if t = 26 ∨ t = 27 then ")".toList else []

theorem parts_close (f : Foreign) (e : Error) : (parts f e).2.2.2 = closing (parts f e).1 := by
  rcases e with _ | (⟨_ | _ | _ | _⟩ | n | n | _ | n | n | n) | (_ | _ | x | x | x | x | x | _) | s | s | s
  all_goals try cases x
  all_goals rfl

/-- C96. Two errors of the library with the same text (whatever the texts of others) are the same error with the same numbers and
texts, or both say that reading failed. -/
theorem C96_errors (f f' : Foreign) (e e' : Error) (h : e.show f = e'.show f') : e = e' ∨ (e.ReadFailed ∧ e'.ReadFailed) := by
  rw [show_parts, show_parts] at h
  obtain ⟨a1, a2, a3, a4, a5⟩ := parts_facts f e
  obtain ⟨b1, b2, b3, b4, b5⟩ := parts_facts f' e'
  have ht := beginnings_tag (by omega) (by omega) h
  by_cases h29 : (parts f e).1 = 29
  · exact .inr ⟨a2 h29, b2 (ht ▸ h29)⟩
  · left
    rw [a3 h29, b3 (ht ▸ h29)]
    rw [ht] at h a4 a5 ⊢
    have h := List.append_cancel_left h
    have hc : (parts f e).2.2.2 = (parts f' e').2.2.2 := by rw [parts_close, parts_close, ht]
    rw [hc] at h
    have h := List.append_cancel_right h
    unfold middle at h
    rw [ht] at h
    cases hn : numbered.contains (parts f' e').1 with
    | true =>
      rw [hn, if_pos rfl, if_pos rfl] at h
      rw [a4 hn, b4 hn, showNat_inj h]
    | false =>
      rw [hn, if_neg (by simp), if_neg (by simp)] at h
      rw [a5 hn, b5 hn, h]

/-! ### Errors of the tool -/

/-- A file that cannot be opened and a library error of parsing: the text is the same. -/
def Failure.flat : Failure → Failure
  | .open_ e => .grib (.parseError e)
  | e => e

/-- The beginning by its place in the list, and the rest. -/
def tagged (f : Foreign) : Failure → Nat × Str
  | .open_ e => ((parts f (.parseError e)).1, middle (parts f (.parseError e)) ++ closing (parts f (.parseError e)).1)
  | .grib e => ((parts f e).1, middle (parts f e) ++ closing (parts f e).1)
  | .emptyData => (30, [])
  | .badIndex => (31, [])
  | .noSuchIndex ix => (32, showIndex ix)
  | .unexpected e => (33, e.show f)
  | .write => (33, [])

theorem show_flat (f : Foreign) (e : Failure) : e.flat.show f = e.show f := by cases e <;> rfl

theorem show_tagged (f : Foreign) (e : Failure) (h : e ≠ .write) : e.show f = beginnings.getD (tagged f e).1 [] ++ (tagged f e).2 := by
  cases e with
  | open_ e =>
    change Error.show f (.parseError e) = _
    rw [show_parts, parts_close]; rfl
  | grib e =>
    change Error.show f e = _
    rw [show_parts, parts_close]; rfl
  | emptyData => exact (List.append_nil _).symm
  | badIndex => exact (List.append_nil _).symm
  | noSuchIndex ix => rfl
  | unexpected e => rfl
  | write => exact absurd rfl h

theorem tagged_lt (f : Foreign) (e : Failure) : (tagged f e).1 < 34 := by
  cases e with
  | open_ e => have := (parts_facts f (.parseError e)).1; exact Nat.lt_of_lt_of_le this (by omega)
  | grib e => have := (parts_facts f e).1; exact Nat.lt_of_lt_of_le this (by omega)
  | _ => simp [tagged]

/-- C96. Two failures of the tool (other than of writing) with the same text after "error: " (whatever the texts of others) are
the same failure with the same numbers and texts, where opening a file and reading it later are not told apart; or both say
that reading failed. -/
theorem C96_failures (f f' : Foreign) (e e' : Failure) (he : e ≠ .write) (he' : e' ≠ .write) (h : e.show f = e'.show f') :
    e.flat = e'.flat ∨
    (∃ a b : Error, e.flat = .grib a ∧ e'.flat = .grib b ∧ a.ReadFailed ∧ b.ReadFailed) ∨
    (∃ a b : Error, e = .unexpected a ∧ e' = .unexpected b ∧ a.ReadFailed ∧ b.ReadFailed) := by
  have ht := h
  rw [show_tagged f e he, show_tagged f' e' he'] at ht
  have tag := beginnings_tag (tagged_lt f e) (tagged_lt f' e') ht
  have fl : ∀ (f : Foreign) (e : Failure), (∃ a, e.flat = .grib a ∧ (tagged f e).1 < 30) ∨ (30 ≤ (tagged f e).1 ∧ e.flat = e) := by
    intro f e
    cases e with
    | open_ e => exact .inl ⟨_, rfl, (parts_facts f (.parseError e)).1⟩
    | grib e => exact .inl ⟨_, rfl, (parts_facts f e).1⟩
    | _ => right; simp [tagged, Failure.flat]
  rcases fl f e with ⟨a, ha, h1⟩ | ⟨h1, ha⟩ <;> rcases fl f' e' with ⟨b, hb, h2⟩ | ⟨h2, hb⟩
  · have hs : Error.show f a = Error.show f' b := by
      have : (Failure.grib a).show f = (Failure.grib b).show f' := by rw [← ha, ← hb, show_flat, show_flat, h]
      exact this
    rcases C96_errors f f' a b hs with rfl | ⟨p, q⟩
    · exact .inl (ha.trans hb.symm)
    · exact .inr (.inl ⟨a, b, ha, hb, p, q⟩)
  · omega
  · omega
  · rw [ha, hb]
    cases e with
    | open_ e => cases ha
    | grib e => have := (parts_facts f e).1; exact absurd h1 (by dsimp only [tagged]; omega)
    | write => exact absurd rfl he
    | emptyData => cases e' with
      | emptyData => exact .inl rfl
      | open_ e => cases hb
      | grib e => have := (parts_facts f' e).1; exact absurd h2 (by dsimp only [tagged]; omega)
      | write => exact absurd rfl he'
      | _ => exact absurd tag (by simp [tagged])
    | badIndex => cases e' with
      | badIndex => exact .inl rfl
      | open_ e => cases hb
      | grib e => have := (parts_facts f' e).1; exact absurd h2 (by dsimp only [tagged]; omega)
      | write => exact absurd rfl he'
      | _ => exact absurd tag (by simp [tagged])
    | noSuchIndex ix => cases e' with
      | noSuchIndex jx =>
        rw [tag] at ht
        rw [C46_distinct ix jx (List.append_cancel_left ht)]
        exact .inl rfl
      | open_ e => cases hb
      | grib e => have := (parts_facts f' e).1; exact absurd h2 (by dsimp only [tagged]; omega)
      | write => exact absurd rfl he'
      | _ => exact absurd tag (by simp [tagged])
    | unexpected a => cases e' with
      | unexpected b =>
        rw [tag] at ht
        rcases C96_errors f f' a b (List.append_cancel_left ht) with rfl | ⟨p, q⟩
        · exact .inl rfl
        · exact .inr (.inr ⟨a, b, rfl, rfl, p, q⟩)
      | open_ e => cases hb
      | grib e => have := (parts_facts f' e).1; exact absurd h2 (by dsimp only [tagged]; omega)
      | write => exact absurd rfl he'
      | _ => exact absurd tag (by simp [tagged])

/-! ## The standard error stream -/

/-- C96. The standard error stream holds the warnings and, exactly when the exit status is 1, one line that begins with
"error: " and goes on with the text of the failure; warnings come with `decode` only. -/
theorem C96_stderr (f : Foreign) (s : Setting F G) (cmd : Command) (r : Rdr) :
    (exitStatus (Cli.runCommand s cmd r).2 = 0 → stderr f (runCommand f s cmd r) = some (runCommand f s cmd r).2.1) ∧
    (exitStatus (Cli.runCommand s cmd r).2 = 1 → ∃ e, (runCommand f s cmd r).2.2 = .err e ∧
      stderr f (runCommand f s cmd r) = some ((runCommand f s cmd r).2.1 ++ ("error: ".toList ++ e.show f ++ "\n".toList))) ∧
    ((cmd = .info ∨ (∃ x, cmd = .inspect x) ∨ ∃ x, cmd = .list x) → (runCommand f s cmd r).2.1 = []) := by
  rw [← (C96_same f s cmd r).2]
  refine ⟨?_, ?_, ?_⟩
  · unfold stderr
    cases (runCommand f s cmd r).2.2 with
    | ok a => intro _; rfl
    | err e => intro h; cases h
    | panic => intro h; cases h
  · unfold stderr
    cases (runCommand f s cmd r).2.2 with
    | ok a => intro h; cases h
    | err e => intro _; exact ⟨e, rfl, rfl⟩
    | panic => intro h; cases h
  · rintro (rfl | ⟨x, rfl⟩ | ⟨x, rfl⟩) <;> (dsimp only [runCommand]; cases openGrib r <;> rfl)

/-! ## `info` -/

theorem timeOf_eq {data : List UInt8} {m : SubMessage} (h : Faithful data m.s1.2) (hn : m.s1.2.num = 1) :
    infoLoop.timeOf m = Cli.timeOf data m.s1.2 := by
  obtain ⟨p, b, -, -, -, -, -, a, -, -⟩ := C38_identification (ε := Empty) data m.s1.2 h hn
  unfold infoLoop.timeOf
  rw [b]
  dsimp only
  rw [show (Identification.mk p.payload) = p from rfl, a]
  rfl

theorem infoLoop_skip (k : Constants) (xs ys : List ((Nat × Nat) × SubMessage)) (h : ∀ x ∈ xs, x.1.2 ≠ 0) :
    infoLoop k (xs ++ ys) = infoLoop k ys := by
  induction xs with
  | nil => rfl
  | cons x xs ih =>
    rw [List.cons_append, infoLoop, if_neg (h x (by simp)), ih fun y hy => h y (by simp [hy])]

theorem infoLoop_subs (k : Constants) (data : List UInt8) (d : Nat × SectionInfo)
    (ms : List (Message (Nat × SectionInfo))) (start : Nat)
    (hf : ∀ m ∈ ms, Faithful data m.indicator.2 ∧ m.indicator.2.num = 0 ∧ Faithful data m.ident.2 ∧ m.ident.2.num = 1) :
    (infoLoop k (asLoop (fileSubs d d start ms))).2 =
      match ms.find? fun m => !chronoValid (Cli.timeOf data m.ident.2) with
      | none => .ok ()
      | some m => .err (.grib (.invalidValueError (dateText (Cli.timeOf data m.ident.2)))) := by
  induction ms generalizing start with
  | nil => rfl
  | cons m ms ih =>
    obtain ⟨f0, n0, f1, n1⟩ := hf m (by simp)
    have ih := ih (start + 1) fun m hm => hf m (by simp [hm])
    have hsubs : ∃ x xs, m.subs d d start = x :: xs ∧ x.msg = start ∧ x.sub = 0 ∧ x.sects.s0 = m.indicator ∧
        x.sects.s1 = m.ident ∧ ∀ y ∈ xs, y.sub ≠ 0 := by
      unfold Message.subs
      rw [show m.groups.length = m.rest.length + 1 from rfl, List.range_succ_eq_map, List.map_cons]
      refine ⟨_, _, rfl, rfl, rfl, rfl, rfl, ?_⟩
      intro y hy
      simp only [List.map_map, List.mem_map, Function.comp_apply] at hy
      obtain ⟨j, -, rfl⟩ := hy
      simp
    obtain ⟨x, xs, e, hx1, hx2, hx3, hx4, hxs⟩ := hsubs
    rw [fileSubs, e, asLoop, List.map_append, List.map_cons, List.cons_append, infoLoop, if_pos hx2]
    dsimp only
    rw [infoBlock_eq k chronoValid (x.msg, x.sub) x.sects data (by rw [hx3]; exact f0) (by rw [hx3]; exact n0)
      (by rw [hx4]; exact f1) (by rw [hx4]; exact n1), hx3, hx4]
    rw [List.find?_cons]
    by_cases hv : chronoValid (Cli.timeOf data m.ident.2) = true
    · rw [if_pos hv, hv]
      dsimp only [Bool.not_true]
      rw [infoLoop_skip]
      · exact ih
      · intro y hy
        obtain ⟨z, hz, rfl⟩ := List.mem_map.1 hy
        exact hxs z hz
    · have hv' : chronoValid (Cli.timeOf data m.ident.2) = false := by simpa using hv
      rw [if_neg hv, hv']
      dsimp only [Bool.not_false]
      rw [timeOf_eq (data := data) (by rw [hx4]; exact f1) (by rw [hx4]; exact n1), hx4]
      rfl

/-- C96. `info` fails with the reference time (six numbers of octets 13 to 19) of the first message whose reference time is no
date and time, and only then. -/
theorem C96_info (f : Foreign) (s : Setting F G) (r : Rdr) (g : Grib2) (hr : Grib2.read r = .ok g) (hne : g.len ≠ 0) :
    ∃ ms : List (Message SectionInfo), (∀ m ∈ ms, m.Ok) ∧ g.sections = ms.flatMap Message.sections ∧
      (runCommand f s .info r).2 = ([], match ms.find? fun m => !chronoValid (Cli.timeOf r.data m.ident) with
        | none => .ok ()
        | some m => .err (.grib (.invalidValueError (dateText (Cli.timeOf r.data m.ident))))) := by
  obtain ⟨ms, hok, hs, hsub, hf⟩ := opened_messages hr
  refine ⟨ms, hok, hs, ?_⟩
  have e : SubIter.drain (g.len + 1) g.iter = asLoop (fileSubs (g.sect 0) (g.sect 0) 0 (numberMessages 0 ms)) := by
    rw [drain_eq hr, ← opened_resolve hs hsub, asLoop, List.map_map]
    rfl
  have hsnd := numberMessages_snd 0 ms
  have hopen : openGrib r = .ok g := by unfold openGrib; rw [hr]; simp [hne]
  dsimp only [runCommand]
  rw [hopen]
  dsimp only
  rw [e, infoLoop_subs s.tables r.data]
  · have hfind : (ms.find? fun m => !chronoValid (Cli.timeOf r.data m.ident)) =
        ((numberMessages 0 ms).find? fun m => !chronoValid (Cli.timeOf r.data m.ident.2)).map (Message.map Prod.snd) := by
      conv => lhs; rw [← hsnd]
      rw [List.find?_map]
      rfl
    rw [hfind]
    generalize (numberMessages 0 ms).find? (fun m => !chronoValid (Cli.timeOf r.data m.ident.2)) = z
    cases z <;> rfl
  · intro m hm
    have hm' : m.map Prod.snd ∈ ms := by rw [← hsnd]; exact List.mem_map_of_mem hm
    have ho := hok _ hm'
    have hi : ∀ s ∈ (m.map Prod.snd).sections, Faithful r.data s := fun s hs' =>
      hf s (by rw [hs]; exact List.mem_flatMap.2 ⟨_, hm', hs'⟩)
    exact ⟨hi _ (by simp [Message.sections, Message.map]), ho.indicator, hi _ (by simp [Message.sections, Message.map]), ho.ident⟩

/-! ### The date in the message -/

theorem pad_decimal (w n : Nat) : IsDecimal (zeroPad w (showNat n)) n ∧ w ≤ (zeroPad w (showNat n)).length := by
  obtain ⟨h1, h2, h3⟩ := (IsDecimal_iff _ _).1 (showNat_decimal n)
  refine ⟨(IsDecimal_iff _ _).2 ⟨?_, ?_, ?_⟩, ?_⟩
  · unfold zeroPad; simp [h1]
  · unfold zeroPad
    rw [List.all_append, h2, Bool.and_true]
    generalize w - (showNat n).length = k
    induction k with
    | zero => rfl
    | succ k ih => rw [List.replicate_succ, List.all_cons, ih]; rfl
  · unfold zeroPad
    have key : ∀ (k : Nat) (s : Str), digits (List.replicate k '0' ++ s) = digits s := by
      intro k s
      induction k with
      | zero => rfl
      | succ k ih =>
        rw [List.replicate_succ, List.cons_append, ← ih]
        unfold digits
        rw [List.foldl_cons]
        rfl
    exact (key _ _).trans h3
  · unfold zeroPad; rw [List.length_append, List.length_replicate]; omega

theorem digits_sep {a b x y : Str} {c : Char} (ha : a.all isDigit = true) (hb : b.all isDigit = true) (hc : isDigit c = false)
    (h : a ++ c :: x = b ++ c :: y) : a = b ∧ x = y := by
  induction a generalizing b with
  | nil =>
    cases b with
    | nil => exact ⟨rfl, (List.cons.inj h).2⟩
    | cons d b =>
      have hd := (List.cons.inj h).1
      subst hd
      rw [List.all_cons, hc] at hb; cases hb
  | cons d a ih =>
    cases b with
    | nil =>
      have hd := (List.cons.inj h).1
      subst hd
      rw [List.all_cons, hc] at ha; cases ha
    | cons e b =>
      obtain ⟨h1, h2⟩ := List.cons.inj h
      rw [List.all_cons, Bool.and_eq_true] at ha hb
      obtain ⟨h3, h4⟩ := ih ha.2 hb.2 h2
      exact ⟨by rw [h1, h3], h4⟩

/-- C96. The message of `info` shows the six numbers, each in decimal with leading zeros, and two messages that are equal show
equal numbers. -/
theorem C96_date (y mo d h mi s : Nat) :
    (∃ Y M D H I S, dateText [y, mo, d, h, mi, s] = "invalid date time: ".toList ++ (Y ++ '-' :: (M ++ '-' :: (D ++ ' ' ::
        (H ++ ':' :: (I ++ ':' :: S))))) ∧
      IsDecimal Y y ∧ 4 ≤ Y.length ∧ IsDecimal M mo ∧ 2 ≤ M.length ∧ IsDecimal D d ∧ 2 ≤ D.length ∧ IsDecimal H h ∧ 2 ≤ H.length ∧
      IsDecimal I mi ∧ 2 ≤ I.length ∧ IsDecimal S s ∧ 2 ≤ S.length) ∧
    ∀ y' mo' d' h' mi' s', dateText [y, mo, d, h, mi, s] = dateText [y', mo', d', h', mi', s'] →
      [y, mo, d, h, mi, s] = [y', mo', d', h', mi', s'] := by
  have e : ∀ y mo d h mi s, dateText [y, mo, d, h, mi, s] = "invalid date time: ".toList ++ (zeroPad 4 (showNat y) ++ '-' ::
      (zeroPad 2 (showNat mo) ++ '-' :: (zeroPad 2 (showNat d) ++ ' ' :: (zeroPad 2 (showNat h) ++ ':' ::
        (zeroPad 2 (showNat mi) ++ ':' :: zeroPad 2 (showNat s)))))) := by
    intro y mo d h mi s
    unfold dateText
    simp only [List.append_assoc]
    rfl
  refine ⟨⟨_, _, _, _, _, _, e y mo d h mi s, (pad_decimal 4 y).1, (pad_decimal 4 y).2, (pad_decimal 2 mo).1, (pad_decimal 2 mo).2,
    (pad_decimal 2 d).1, (pad_decimal 2 d).2, (pad_decimal 2 h).1, (pad_decimal 2 h).2, (pad_decimal 2 mi).1, (pad_decimal 2 mi).2,
    (pad_decimal 2 s).1, (pad_decimal 2 s).2⟩, ?_⟩
  intro y' mo' d' h' mi' s' heq
  rw [e, e] at heq
  have heq := List.append_cancel_left heq
  have dg : ∀ w n, (zeroPad w (showNat n)).all isDigit = true := fun w n => ((IsDecimal_iff _ _).1 (pad_decimal w n).1).2.1
  have inj : ∀ w {n m : Nat}, zeroPad w (showNat n) = zeroPad w (showNat m) → n = m := fun w n m hh =>
    (pad_decimal w n).1.unique (hh ▸ (pad_decimal w m).1)
  obtain ⟨a1, heq⟩ := digits_sep (dg _ _) (dg _ _) (by decide) heq
  obtain ⟨a2, heq⟩ := digits_sep (dg _ _) (dg _ _) (by decide) heq
  obtain ⟨a3, heq⟩ := digits_sep (dg _ _) (dg _ _) (by decide) heq
  obtain ⟨a4, heq⟩ := digits_sep (dg _ _) (dg _ _) (by decide) heq
  obtain ⟨a5, heq⟩ := digits_sep (dg _ _) (dg _ _) (by decide) heq
  rw [inj _ a1, inj _ a2, inj _ a3, inj _ a4, inj _ a5, inj _ heq]

/-! ## Warnings -/

/-- C96. A warning is written exactly for templates 5.40 with no bits per value and 5.41 (of an image that can be read) with a
number of bits per value (octet 20 of section 5) other than 16, when the values are floating-point numbers (octet 21). -/
theorem C96_warning (c : Codecs F) (t : Decoder) : warning c t =
    if 16 ≤ t.sect5.length ∧ sectNumber t.sect5 21 21 = 0 then
      if t.templateNum = 40 ∧ sectNumber t.sect5 20 20 = 0 then
        "WARNING: nbit = 0 for JPEG 2000 code stream format decoder is not tested.\n            Please report your data and help us develop the library.\n".toList
      else if t.templateNum = 41 ∧ (c.png t.sect7).isSome ∧ sectNumber t.sect5 20 20 = 0 then
        "WARNING: nbit = 0 for PNG decoder is not tested.\n            Please report your data and help us develop the library.\n".toList
      else if t.templateNum = 41 ∧ (c.png t.sect7).isSome ∧ sectNumber t.sect5 20 20 ≠ 16 then
        "WARNING: nbit != 16 for PNG decoder is not tested.\n            Please report your data and help us develop the library.\n".toList
      else []
    else [] := by
  have w1 : warning.warningText "nbit = 0 for JPEG 2000 code stream format decoder".toList = "WARNING: nbit = 0 for JPEG 2000 code stream format decoder is not tested.\n            Please report your data and help us develop the library.\n".toList := by
    decide +kernel
  have w2 : warning.warningText "nbit = 0 for PNG decoder".toList = "WARNING: nbit = 0 for PNG decoder is not tested.\n            Please report your data and help us develop the library.\n".toList := by
    decide +kernel
  have w3 : warning.warningText "nbit != 16 for PNG decoder".toList = "WARNING: nbit != 16 for PNG decoder is not tested.\n            Please report your data and help us develop the library.\n".toList := by
    decide +kernel
  unfold warning
  rw [← w1, ← w2, ← w3]
  generalize warning.warningText "nbit = 0 for JPEG 2000 code stream format decoder".toList = w1
  generalize warning.warningText "nbit = 0 for PNG decoder".toList = w2
  generalize warning.warningText "nbit != 16 for PNG decoder".toList = w3
  by_cases hl : 16 ≤ t.sect5.length
  swap
  · rw [fromSect5_short _ (by omega), if_neg (fun h => hl h.1)]
  by_cases ht : sectNumber t.sect5 21 21 = 0
  swap
  · rw [fromSect5_eq _ hl, if_pos ht, if_neg (fun h => ht h.2)]
  rw [fromSect5_eq _ hl, if_neg (by simpa using ht), if_pos ⟨hl, ht⟩]
  dsimp only
  by_cases h40 : t.templateNum = 40
  · by_cases hn : sectNumber t.sect5 20 20 = 0 <;> simp [h40, hn]
  · by_cases h41 : t.templateNum = 41 ∧ (c.png t.sect7).isSome
    · by_cases hn : sectNumber t.sect5 20 20 = 0 <;> simp [hn, h41]
    · have h1 : ∀ p : Prop, ¬ (t.templateNum = 41 ∧ (c.png t.sect7).isSome ∧ p) := fun p h => h41 ⟨h.1, h.2.1⟩
      rw [if_neg h40, if_neg h41, if_neg (fun h => h40 h.1), if_neg (h1 _), if_neg (h1 _)]

/-! ## `decode` -/

theorem prepared_chosen (f : Foreign) (o : GridOps G F) {r : Rdr} {g : Grib2} (hr : Grib2.read r = .ok g) (hne : g.len ≠ 0)
    {index : Str} {m : SubMessage} (hm : Chosen g index m) :
    prepared f o r index = (match subLatlons f o ⟨payloadAt r.data m.s3.2.offset m.s3.2.size⟩ with
      | .panic => .panic
      | l => do
        let dec ← (Decoder.fromSub m g.reader).1.mapErr fun e => .grib (plain e)
        .ok (l, dec)) := by
  obtain ⟨ix, hix, hx⟩ := hm.parse
  unfold prepared openGrib
  rw [hr]
  simp only [hne, if_false, Outcome.bind_ok, hix, Outcome.mapErr]
  rw [(C46_selects r g hr ix m).2 hx]
  dsimp only
  rw [(C17_accessors r g hr ix m hx).2.2.1, Outcome.bind_ok]
  cases subLatlons f o ⟨payloadAt r.data m.s3.2.offset m.s3.2.size⟩ <;> rfl

/-- What `prepared` has found when it goes on to the values. -/
theorem prepared_ok {f : Foreign} {o : GridOps G F} {r : Rdr} {index : Str} {l : Outcome Error (GridPoints F)} {dec : Decoder}
    (h : prepared f o r index = .ok (l, dec)) :
    ∃ g m, Grib2.read r = .ok g ∧ g.len ≠ 0 ∧ Chosen g index m ∧
      l = subLatlons f o ⟨payloadAt r.data m.s3.2.offset m.s3.2.size⟩ ∧ l ≠ .panic ∧ (Decoder.fromSub m g.reader).1 = .ok dec := by
  have h0 := h
  unfold prepared at h
  obtain ⟨g, hg, h⟩ := Outcome.bind_eq_ok h
  have hr : Grib2.read r = .ok g ∧ g.len ≠ 0 := by
    unfold openGrib at hg
    cases hx : Grib2.read r with
    | err e => rw [hx] at hg; cases hg
    | panic => rw [hx] at hg; cases hg
    | ok g' =>
      rw [hx] at hg
      dsimp only at hg
      split at hg
      · cases hg
      · obtain rfl := Outcome.ok.inj hg; exact ⟨rfl, by assumption⟩
  obtain ⟨ix, hix, h⟩ := Outcome.bind_eq_ok h
  have hix := of_mapErr_ok hix
  cases hf : findIndex ix (g.len + 1) g.iter with
  | none => rw [hf] at h; cases h
  | some x =>
    obtain ⟨ix', m⟩ := x
    have hix' : ix' = ix := by
      have := hf
      rw [findIndex_drain] at this
      simpa using List.find?_some this
    subst hix'
    have hmem := (C46_selects r g hr.1 ix' m).1 hf
    obtain ⟨a, b, hi, ha, hb, h1, h2⟩ := (C46_accepts index ix'.1 ix'.2).1 hix
    have hc : Chosen g index m := ⟨a, b, ix'.1, ix'.2, hi, ha, hb, h1, h2, hmem⟩
    rw [prepared_chosen f o hr.1 hr.2 hc] at h0
    cases hs : subLatlons f o ⟨payloadAt r.data m.s3.2.offset m.s3.2.size⟩ with
    | panic => rw [hs] at h0; cases h0
    | ok p =>
      rw [hs] at h0
      obtain ⟨d, hd, h0⟩ := Outcome.bind_eq_ok h0
      obtain ⟨rfl, rfl⟩ := Prod.mk.inj (Outcome.ok.inj h0)
      exact ⟨g, m, hr.1, hr.2, hc, hs.symm, fun h => (by cases h), of_mapErr_ok hd⟩
    | err p =>
      rw [hs] at h0
      obtain ⟨d, hd, h0⟩ := Outcome.bind_eq_ok h0
      obtain ⟨rfl, rfl⟩ := Prod.mk.inj (Outcome.ok.inj h0)
      exact ⟨g, m, hr.1, hr.2, hc, hs.symm, fun h => (by cases h), of_mapErr_ok hd⟩

theorem decodePrepare_warning (f : Foreign) (o : GridOps G F) (c : Codecs F) (r : Rdr) (index : Str) :
    (decodePrepare f o c r index).1 = (match prepared f o r index with | .ok x => warning c x.2 | _ => []) := by
  unfold decodePrepare
  cases prepared f o r index <;> rfl

theorem runCommand_warning (f : Foreign) (s : Setting F G) (r : Rdr) (index : Str) (big : Bool) (cmd : Command)
    (hcmd : cmd = .decode index ∨ cmd = .export big index) :
    (runCommand f s cmd r).2.1 = (decodePrepare f s.grid s.codecs r index).1 := by
  rcases hcmd with rfl | rfl
  · dsimp only [runCommand]
    unfold decodeShown
    generalize decodePrepare f s.grid s.codecs r index = z
    obtain ⟨w, z⟩ := z
    cases z with
    | err e => rfl
    | panic => rfl
    | ok x =>
      obtain ⟨l, v⟩ := x
      dsimp only
      cases v.toList s.codecs.ops with
      | done vs =>
        dsimp only
        cases textPoints s.codecs.ops vs.length l with
        | err e => rfl
        | panic => rfl
        | ok p =>
          dsimp only
          cases (p.sizeHint : Outcome Empty Nat) <;> rfl
      | _ => rfl
  · dsimp only [runCommand]
    unfold decodeBinary
    generalize decodePrepare f s.grid s.codecs r index = z
    obtain ⟨w, z⟩ := z
    cases z with
    | err e => rfl
    | panic => rfl
    | ok x =>
      obtain ⟨l, v⟩ := x
      dsimp only
      generalize writeOutput s.sched _ = q
      obtain ⟨q, q'⟩ := q
      cases q <;> rfl

/-- C96. What `decode` writes on the standard error stream before its end, for both kinds of output: the warning of the decoder of
the chosen submessage, if there is one and its coordinates could be looked at; nothing otherwise. -/
theorem C96_warnings (f : Foreign) (s : Setting F G) (r : Rdr) (g : Grib2) (hr : Grib2.read r = .ok g) (hne : g.len ≠ 0)
    (index : Str) (big : Bool) (cmd : Command) (hcmd : cmd = .decode index ∨ cmd = .export big index) :
    (∀ m dec, Chosen g index m → Model.subLatlons s.grid ⟨payloadAt r.data m.s3.2.offset m.s3.2.size⟩ ≠ .panic →
      (Decoder.fromSub m g.reader).1 = .ok dec → (runCommand f s cmd r).2.1 = warning s.codecs dec) ∧
    ((runCommand f s cmd r).2.1 ≠ [] → ∃ m dec, Chosen g index m ∧ (Decoder.fromSub m g.reader).1 = .ok dec ∧
      (runCommand f s cmd r).2.1 = warning s.codecs dec) := by
  rw [runCommand_warning f s r index big cmd hcmd, decodePrepare_warning]
  refine ⟨?_, ?_⟩
  · intro m dec hm hl hd
    rw [prepared_chosen f s.grid hr hne hm]
    have := subLatlons_erase f s.grid ⟨payloadAt r.data m.s3.2.offset m.s3.2.size⟩
    rw [← this] at hl
    cases hs : subLatlons f s.grid ⟨payloadAt r.data m.s3.2.offset m.s3.2.size⟩ with
    | panic => rw [hs] at hl; exact absurd rfl hl
    | ok p => dsimp only; rw [hd]; rfl
    | err e => dsimp only; rw [hd]; rfl
  · cases hp : prepared f s.grid r index with
    | err e => intro h; exact absurd rfl h
    | panic => intro h; exact absurd rfl h
    | ok x =>
      intro _
      obtain ⟨g', m, hr', -, hm, -, -, hd⟩ := prepared_ok (l := x.1) (dec := x.2) hp
      rw [hr] at hr'
      obtain rfl := Outcome.ok.inj hr'
      exact ⟨m, x.2, hm, hd, rfl⟩

/-! ### The errors of decoding -/

theorem erase_decode {e : Error} {x : DecodeError} (h : e.erase = .decodeError x) : e = .decodeError x := by
  cases e with
  | decodeError y => exact congrArg Error.decodeError (GribError.decodeError.inj h)
  | _ => cases h

theorem complexDecode3_order (ops : FloatOps F) (t : Decoder) (h : 43 ≤ t.sect5.length) (ht : sectNumber t.sect5 21 21 = 0)
    (ho : diffOrder t.sect5 ∉ [1, 2, 255]) : complexDecode3 ops t = .err (.notSupported (orderText (sectNumber t.sect5 48 48))) := by
  simp only [List.mem_cons, List.not_mem_nil, or_false, not_or] at ho
  unfold complexDecode3
  rw [fromSect5_eq ops (by omega), if_neg (by simpa using ht), Outcome.mapErr, Outcome.bind_ok, complexParam_eq (by omega), Outcome.bind_ok,
    rdAs_number (by omega), Outcome.bind_ok]
  dsimp only
  rw [if_pos (by exact ho)]
  rfl

theorem complexDecode3_err {ops : FloatOps F} {t : Decoder} {e : Error} (h : complexDecode3 ops t = .err e) :
    (∃ x, e = .decodeError x) ∨
    (sectNumber t.sect5 48 48 ∉ [1, 2, 255] ∧ e = .notSupported (orderText (sectNumber t.sect5 48 48))) := by
  have he := complexDecode3_erase ops t
  rw [h] at he
  have hc := (C68_outcome3 ops t _).1 he.symm
  generalize hq : e.erase = q at hc
  dsimp only [Outcome.mapErr] at hc
  rw [hq] at hc
  generalize hz : (Outcome.err q : Outcome GribError (Items F)) = z at hc
  cases hc with
  | type h1 h2 => exact .inl ⟨_, erase_decode (hq.trans (Outcome.err.inj hz))⟩
  | unsupported h1 h2 h3 h4 => exact .inl ⟨_, erase_decode (hq.trans (Outcome.err.inj hz))⟩
  | order h1 h2 h3 =>
    rw [complexDecode3_order ops t h1 h2 h3] at h
    exact .inr ⟨h3, (Outcome.err.inj h).symm⟩
  | _ => cases hz

theorem dispatch_err {c : Codecs F} {t : Decoder} {e : Error} (h : dispatch c t = .err e) :
    (∃ x, e = .decodeError x) ∨
    (t.templateNum = 3 ∧ sectNumber t.sect5 48 48 ∉ [1, 2, 255] ∧ e = .notSupported (orderText (sectNumber t.sect5 48 48))) := by
  unfold dispatch at h
  cases hv : decodeValues c t with
  | panic => rw [hv] at h; cases h
  | ok v =>
    rw [hv, Outcome.bind_ok] at h
    left
    unfold BitmapIter.new at h
    split at h
    · exact ⟨_, (Outcome.err.inj h).symm⟩
    · cases h
  | err e' =>
    rw [hv] at h
    obtain rfl := Outcome.err.inj h
    unfold decodeValues at hv
    by_cases h3 : t.templateNum = 3
    · rw [if_pos h3] at hv
      rcases complexDecode3_err hv with h | ⟨h, h'⟩
      · exact .inl h
      · exact .inr ⟨h3, h, h'⟩
    · rw [if_neg h3] at hv
      left
      cases hd : t.decodeValues c with
      | ok v => rw [hd] at hv; cases hv
      | panic => rw [hd] at hv; cases hv
      | err x =>
        rw [hd] at hv
        obtain rfl := Outcome.err.inj hv
        have hc := (C69_values c t _).1 hd
        generalize hz : (Outcome.err x : Outcome GribError (Items F)) = z at hc
        cases hc with
        | diff h => exact absurd h h3
        | unsupported h => rw [Outcome.err.inj hz]; exact ⟨_, rfl⟩
        | simple h ho => cases ho <;> first | (cases hz; done) | (cases hz; exact ⟨_, rfl⟩)
        | complex h ho => cases ho <;> first | (cases hz; done) | (cases hz; exact ⟨_, rfl⟩)
        | jpeg h ho => cases ho <;> first | (cases hz; done) | (cases hz; exact ⟨_, rfl⟩)
        | png h ho => cases ho <;> first | (cases hz; done) | (cases hz; exact ⟨_, rfl⟩)
        | runLength h ho => cases ho <;> first | (cases hz; done) | (cases hz; exact ⟨_, rfl⟩)

theorem rdAs_no_err {p : List UInt8} {a n : Nat} {e : GribError} (h : rdAs p a n = .err e) : False := by
  unfold rdAs at h
  generalize readBE? p a n = z at h
  cases z <;> cases h

theorem bind_err_cases {ε α β : Type} {x : Outcome ε α} {k : α → Outcome ε β} {e : ε} (h : x >>= k = .err e) :
    x = .err e ∨ ∃ a, x = .ok a ∧ k a = .err e := by
  cases x with
  | ok a => exact .inr ⟨a, rfl, h⟩
  | err e' => exact .inl (congrArg Outcome.err (Outcome.err.inj h))
  | panic => cases h

theorem fromSub_err {r : Rdr} {g : Grib2} (hr : Grib2.read r = .ok g) {ix : Nat × Nat} {m : SubMessage}
    (hm : (ix, m) ∈ SubIter.drain (g.len + 1) g.iter) {r' : Rdr} {e : GribError} (h : (Decoder.fromSub m r').1 = .err e) :
    (∃ k, e = .parseError k) ∨ e = .decodeError .bitMapIndicatorUnsupported := by
  have hk := (C17_accessors (ε := Unit) r g hr ix m hm).2.2.2.2.2
  obtain ⟨n3, -, f3⟩ := hk (m.s3, 3) (by simp)
  obtain ⟨n5, -, f5⟩ := hk (m.s5, 5) (by simp)
  obtain ⟨n6, -, f6⟩ := hk (m.s6, 6) (by simp)
  have b3 := f3.body
  have b5 := f5.body
  have b6 := f6.body
  dsimp only at n3 n5 n6 b3 b5 b6
  rw [n3] at b3; rw [n5] at b5; rw [n6] at b6
  simp only [BodyAt] at b3 b5 b6
  unfold Decoder.fromSub at h
  rw [b3, b5, b6] at h
  dsimp only at h
  generalize hn : (GridDefinition.numPoints _ : Outcome GribError Nat) = n at h
  cases n with
  | err e' => exact (rdAs_no_err hn).elim
  | panic => cases h
  | ok total =>
    dsimp only at h
    have rest : ∀ (bm : Outcome GribError (List UInt8) × Rdr),
        (∀ e, bm.1 = .err e → (∃ k, e = .parseError k) ∨ e = .decodeError .bitMapIndicatorUnsupported) →
        (match bm.1 with
          | .err e => ((.err e : Outcome GribError Decoder), bm.2)
          | .panic => (.panic, bm.2)
          | .ok bitmap =>
            match ((do let n ← (ReprDefinition.mk ((r.data.drop (m.s5.2.offset + 5)).take (m.s5.2.size - 5))).numPoints
                       let t ← (ReprDefinition.mk ((r.data.drop (m.s5.2.offset + 5)).take (m.s5.2.size - 5))).reprTmplNum
                       .ok (n, t)) : Outcome GribError (Nat × Nat)) with
            | .err e => (.err e, bm.2)
            | .panic => (.panic, bm.2)
            | .ok (encoded, tmpl) =>
              match ((readSectPayloadAsSlice m.s5.2 bm.2).1.mapErr GribError.parseError, (readSectPayloadAsSlice m.s5.2 bm.2).2) with
              | (.err e, r2) => (.err e, r2)
              | (.panic, r2) => (.panic, r2)
              | (.ok sect5, r2) =>
                match ((readSectPayloadAsSlice m.s7.2 r2).1.mapErr GribError.parseError, (readSectPayloadAsSlice m.s7.2 r2).2) with
                | (.err e, r3) => (.err e, r3)
                | (.panic, r3) => (.panic, r3)
                | (.ok sect7, r3) => (.ok ⟨total, encoded, tmpl, sect5, bitmap, sect7⟩, r3)).1 = .err e →
        (∃ k, e = .parseError k) ∨ e = .decodeError .bitMapIndicatorUnsupported := by
      rintro ⟨b, r1⟩ hb h
      dsimp only at hb h
      cases b with
      | err x => exact hb _ (congrArg Outcome.err (Outcome.err.inj h))
      | panic => cases h
      | ok bitmap =>
        dsimp only at h
        generalize hq : ((do let n ← (ReprDefinition.mk ((r.data.drop (m.s5.2.offset + 5)).take (m.s5.2.size - 5))).numPoints
                             let t ← (ReprDefinition.mk ((r.data.drop (m.s5.2.offset + 5)).take (m.s5.2.size - 5))).reprTmplNum
                             .ok (n, t)) : Outcome GribError (Nat × Nat)) = q at h
        cases q with
        | panic => cases h
        | err x =>
          exfalso
          rcases bind_err_cases hq with hq | ⟨_, -, hq⟩
          · exact rdAs_no_err hq
          · rcases bind_err_cases hq with hq | ⟨_, -, hq⟩
            · exact rdAs_no_err hq
            · cases hq
        | ok q =>
          dsimp only at h
          generalize readSectPayloadAsSlice m.s5.2 r1 = y at h
          obtain ⟨y, r2⟩ := y
          cases y with
          | err x => exact .inl ⟨x, (Outcome.err.inj h).symm⟩
          | panic => cases h
          | ok s5 =>
            dsimp only [Outcome.mapErr] at h
            generalize readSectPayloadAsSlice m.s7.2 r2 = z at h
            obtain ⟨z, r3⟩ := z
            cases z with
            | err x => exact .inl ⟨x, (Outcome.err.inj h).symm⟩
            | panic => cases h
            | ok s7 => cases h
    refine rest _ ?_ h
    intro e' he
    split at he
    · generalize readSectPayloadAsSlice m.s6.2 r' = z at he
      obtain ⟨z, r3⟩ := z
      cases z with
      | err x => exact .inl ⟨x, (Outcome.err.inj he).symm⟩
      | panic => cases he
      | ok s7 =>
        dsimp only [Outcome.mapErr] at he
        split at he <;> cases he
    · split at he
      · cases he
      · exact .inr (Outcome.err.inj he).symm

theorem openGrib_ok {r : Rdr} {g : Grib2} (hg : openGrib r = .ok g) : Grib2.read r = .ok g ∧ g.len ≠ 0 := by
  unfold openGrib at hg
  cases hx : Grib2.read r with
  | err e => rw [hx] at hg; cases hg
  | panic => rw [hx] at hg; cases hg
  | ok g' =>
    rw [hx] at hg
    dsimp only at hg
    split at hg
    · cases hg
    · obtain rfl := Outcome.ok.inj hg; exact ⟨rfl, by assumption⟩

theorem openGrib_err {r : Rdr} {e : Failure} (h : openGrib r = .err e) : (∃ p, e = .open_ p) ∨ e = .emptyData := by
  unfold openGrib at h
  cases hx : Grib2.read r with
  | err e => rw [hx] at h; exact .inl ⟨_, (Outcome.err.inj h).symm⟩
  | panic => rw [hx] at h; cases h
  | ok g' =>
    rw [hx] at h
    dsimp only at h
    split at h
    · exact .inr (Outcome.err.inj h).symm
    · cases h

/-- The errors before decoding. -/
theorem prepared_err {f : Foreign} {o : GridOps G F} {r : Rdr} {index : Str} {e : Failure} (h : prepared f o r index = .err e) :
    (∃ p, e = .open_ p) ∨ e = .emptyData ∨ e = .badIndex ∨ (∃ ix, e = .noSuchIndex ix) ∨
    ∃ g m x, Grib2.read r = .ok g ∧ Chosen g index m ∧ e = .grib x ∧
      ((∃ k, x = .parseError k) ∨ x = .decodeError .bitMapIndicatorUnsupported) := by
  have h0 := h
  unfold prepared at h
  rcases bind_err_cases h with h | ⟨g, hg, h⟩
  · rcases openGrib_err h with h | h
    · exact .inl h
    · exact .inr (.inl h)
  have hr := openGrib_ok hg
  rcases bind_err_cases h with h | ⟨ix, hix, h⟩
  · cases hp : parseIndex index with
    | ok a => rw [hp] at h; cases h
    | panic => rw [hp] at h; cases h
    | err a => rw [hp] at h; exact .inr (.inr (.inl (Outcome.err.inj h).symm))
  have hix := of_mapErr_ok hix
  cases hf : findIndex ix (g.len + 1) g.iter with
  | none => rw [hf] at h; exact .inr (.inr (.inr (.inl ⟨ix, (Outcome.err.inj h).symm⟩)))
  | some x =>
    obtain ⟨ix', m⟩ := x
    have hix' : ix' = ix := by
      have := hf
      rw [findIndex_drain] at this
      simpa using List.find?_some this
    subst hix'
    have hmem := (C46_selects r g hr.1 ix' m).1 hf
    obtain ⟨a, b, hi, ha, hb, h1, h2⟩ := (C46_accepts index ix'.1 ix'.2).1 hix
    have hc : Chosen g index m := ⟨a, b, ix'.1, ix'.2, hi, ha, hb, h1, h2, hmem⟩
    rw [prepared_chosen f o hr.1 hr.2 hc] at h0
    have fin : ∀ l : Outcome Error (GridPoints F), ((Decoder.fromSub m g.reader).1.mapErr (fun e => Failure.grib (plain e)) >>= fun dec =>
        (Outcome.ok (l, dec) : Outcome Failure _)) = .err e → ∃ x, e = .grib x ∧
          ((∃ k, x = .parseError k) ∨ x = .decodeError .bitMapIndicatorUnsupported) := by
      intro l hl
      rcases bind_err_cases hl with hl | ⟨_, -, hl⟩
      · cases hd : (Decoder.fromSub m g.reader).1 with
        | ok a => rw [hd] at hl; cases hl
        | panic => rw [hd] at hl; cases hl
        | err a =>
          rw [hd] at hl
          refine ⟨_, (Outcome.err.inj hl).symm, ?_⟩
          rcases fromSub_err hr.1 hmem hd with ⟨k, rfl⟩ | rfl
          · exact .inl ⟨k, rfl⟩
          · exact .inr rfl
      · cases hl
    refine .inr (.inr (.inr (.inr ?_)))
    cases hs : subLatlons f o ⟨payloadAt r.data m.s3.2.offset m.s3.2.size⟩ with
    | panic => rw [hs] at h0; cases h0
    | ok p =>
      rw [hs] at h0
      obtain ⟨x, hx⟩ := fin _ h0
      exact ⟨g, m, x, hr.1, hc, hx⟩
    | err p =>
      rw [hs] at h0
      obtain ⟨x, hx⟩ := fin _ h0
      exact ⟨g, m, x, hr.1, hc, hx⟩

/-- C96. When `decode` ends with "something unexpected happened", the rest of the message is one of the reasons of `Refused`, by
the octets of section 3 of the chosen submessage, other than "not supported". -/
theorem C96_unexpected (f : Foreign) (s : Setting F G) (ho : Counts s.grid) (r : Rdr) (index : Str) (e : Error)
    (h : (runCommand f s (.decode index) r).2.2 = .err (.unexpected e)) :
    ∃ g m, Grib2.read r = .ok g ∧ Chosen g index m ∧
      Refused f s.grid (payloadAt r.data m.s3.2.offset m.s3.2.size) e ∧ ∀ t, e ≠ .notSupported t := by
  dsimp only [runCommand] at h
  unfold decodeShown decodePrepare at h
  cases hp : prepared f s.grid r index with
  | err e' =>
    rw [hp] at h
    dsimp only at h
    obtain rfl := Outcome.err.inj h
    exfalso
    rcases prepared_err hp with ⟨_, h⟩ | h | h | ⟨_, h⟩ | ⟨_, _, _, -, -, h, -⟩ <;> cases h
  | panic => rw [hp] at h; cases h
  | ok x =>
    obtain ⟨l, dec⟩ := x
    rw [hp] at h
    obtain ⟨g, m, hr, -, hm, hl, -, -⟩ := prepared_ok hp
    dsimp only at h
    cases hd : dispatch s.codecs dec with
    | err e' => rw [hd] at h; cases h
    | panic => rw [hd] at h; cases h
    | ok v =>
      rw [hd] at h
      dsimp only [Outcome.mapErr, Outcome.bind_ok] at h
      cases hv : v.toList s.codecs.ops with
      | done vs =>
        rw [hv] at h
        dsimp only at h
        cases ht : textPoints s.codecs.ops vs.length l with
        | panic => rw [ht] at h; cases h
        | ok p =>
          rw [ht] at h
          dsimp only at h
          cases hz : (p.sizeHint : Outcome Empty Nat) with
          | ok a => rw [hz] at h; dsimp only at h; split at h <;> cases h
          | panic => rw [hz] at h; cases h
          | err e => exact e.elim
        | err e' =>
          rw [ht] at h
          obtain rfl := Outcome.err.inj h
          unfold textPoints at ht
          refine ⟨g, m, hr, hm, ?_⟩
          cases l with
          | ok p => cases ht
          | panic => cases ht
          | err x =>
            have hx : e = x ∧ ∀ t, x ≠ .notSupported t := by
              cases x with
              | notSupported t => cases ht
              | _ => exact ⟨(Failure.unexpected.inj (Outcome.err.inj ht)).symm, fun t h => (by cases h)⟩
            obtain ⟨rfl, hx⟩ := hx
            exact ⟨C96_coordinates f s.grid ho _ _ hl.symm, hx⟩
      | _ => rw [hv] at h; cases h

/-- C96. When `decode` or its binary output ends with an error of the library, it is an error of reading or parsing, a decoding
error, or the text about Code Table 5.6 with the value of octet 48 of section 5 (template 5.3). -/
theorem C96_decode (f : Foreign) (s : Setting F G) (r : Rdr) (index : Str) (big : Bool) (cmd : Command)
    (hcmd : cmd = .decode index ∨ cmd = .export big index) (e : Error) (h : (runCommand f s cmd r).2.2 = .err (.grib e)) :
    ∃ g m, Grib2.read r = .ok g ∧ Chosen g index m ∧
      ((∃ k, e = .parseError k) ∨ (∃ x, e = .decodeError x) ∨
        ∃ dec, (Decoder.fromSub m g.reader).1 = .ok dec ∧ dec.templateNum = 3 ∧ sectNumber dec.sect5 48 48 ∉ [1, 2, 255] ∧
          e = .notSupported ("Code Table 5.6 value '".toList ++ showNat (sectNumber dec.sect5 48 48) ++
            "' is not supported".toList)) := by
  have key : (decodePrepare f s.grid s.codecs r index).2 = .err (.grib e) := by
    rcases hcmd with rfl | rfl
    · dsimp only [runCommand] at h
      unfold decodeShown at h
      generalize decodePrepare f s.grid s.codecs r index = z at h ⊢
      obtain ⟨w, z⟩ := z
      cases z with
      | err e => exact congrArg Outcome.err (Outcome.err.inj h)
      | panic => cases h
      | ok x =>
        exfalso
        obtain ⟨l, v⟩ := x
        dsimp only at h
        cases hv : v.toList s.codecs.ops with
        | done vs =>
          rw [hv] at h
          dsimp only at h
          cases ht : textPoints s.codecs.ops vs.length l with
          | panic => rw [ht] at h; cases h
          | ok p =>
            rw [ht] at h
            dsimp only at h
            cases hz : (p.sizeHint : Outcome Empty Nat) with
            | ok a => rw [hz] at h; dsimp only at h; split at h <;> cases h
            | panic => rw [hz] at h; cases h
            | err e => exact e.elim
          | err e' =>
            rw [ht] at h
            obtain rfl := Outcome.err.inj h
            unfold textPoints at ht
            cases l with
            | ok p => cases ht
            | panic => cases ht
            | err x => cases x <;> cases ht
        | _ => rw [hv] at h; cases h
    · dsimp only [runCommand] at h
      unfold decodeBinary at h
      generalize decodePrepare f s.grid s.codecs r index = z at h ⊢
      obtain ⟨w, z⟩ := z
      cases z with
      | err e => exact congrArg Outcome.err (Outcome.err.inj h)
      | panic => cases h
      | ok x =>
        exfalso
        obtain ⟨l, v⟩ := x
        dsimp only at h
        generalize writeOutput s.sched _ = q at h
        obtain ⟨q, q'⟩ := q
        cases q with
        | ok u => dsimp only at h; split at h <;> cases h
        | err u => cases h
        | panic => cases h
  unfold decodePrepare at key
  cases hp : prepared f s.grid r index with
  | err e' =>
    rw [hp] at key
    obtain rfl := Outcome.err.inj key
    rcases prepared_err hp with ⟨_, h⟩ | h | h | ⟨_, h⟩ | ⟨g, m, x, hr, hm, h, hx⟩
    · cases h
    · cases h
    · cases h
    · cases h
    · obtain rfl := Failure.grib.inj h
      refine ⟨g, m, hr, hm, ?_⟩
      rcases hx with hx | hx
      · exact .inl hx
      · exact .inr (.inl ⟨_, hx⟩)
  | panic => rw [hp] at key; cases key
  | ok x =>
    obtain ⟨l, dec⟩ := x
    rw [hp] at key
    obtain ⟨g, m, hr, -, hm, hl, -, hdec⟩ := prepared_ok hp
    refine ⟨g, m, hr, hm, .inr ?_⟩
    dsimp only at key
    rcases bind_err_cases key with key | ⟨_, -, key⟩
    · cases hd : dispatch s.codecs dec with
      | ok v => rw [hd] at key; cases key
      | panic => rw [hd] at key; cases key
      | err e' =>
        rw [hd] at key
        obtain rfl := Failure.grib.inj (Outcome.err.inj key)
        rcases dispatch_err hd with h | ⟨h1, h2, h3⟩
        · exact .inl h
        · exact .inr ⟨dec, hdec, h1, h2, h3⟩
    · cases key

/-! ## Examples -/

/-- Texts of others for the examples. -/
def exampleTexts : Foreign := ⟨"no such file".toList, "oops".toList, "proj".toList⟩

/-- `gridRaw` that says five points on its grid of four. -/
def fivePointsRaw : RawMessage :=
  { gridRaw with first := { gridRaw.first with grid := gridRaw.first.grid.map fun p => [0, 0, 0, 0, 5] ++ p.drop 5 } }

/-- `gridRaw` with another section 5. -/
def withRepr (p : List UInt8) : RawMessage := { gridRaw with first := { gridRaw.first with repr := p } }

def stderrOf (cmd : Command) (raw : RawMessage) : Option Str :=
  stderr exampleTexts (runCommand exampleTexts exampleSetting cmd ⟨messagesBytes [([], raw)], 0, []⟩)

/-- Numbers of points that differ; a month 13; a bad index; a missing submessage; nothing for the good file. -/
example : stderrOf (.decode "0.0".toList) fivePointsRaw = some
      "error: something unexpected happened:: invalid value (number of grid points does not match: 5 (defined) vs 4 (decoded))\n".toList ∧
    stderrOf .info { gridRaw with ident := [0, 7, 0, 0, 2, 1, 0, 7, 228, 13, 2, 3, 4, 5, 0, 1] } = some
      "error: invalid value (invalid date time: 2020-13-02 03:04:05)\n".toList ∧
    stderrOf (.decode "0".toList) gridRaw = some
      "error: message index must be specified as 'N.M' where N and M are both integers\n".toList ∧
    stderrOf (.export true "12.3".toList) gridRaw = some "error: no such index: 12.3\n".toList ∧
    stderrOf (.decode "0.0".toList) gridRaw = some [] := by
  decide +kernel

/-- Template 5.40 with no bits per value: a warning; template 5.3 with 7 for octet 48; template 5.99. -/
example : stderrOf (.decode "0.0".toList) (withRepr [0, 0, 0, 2, 0, 40, 0, 0, 0, 0, 0, 0, 0, 0, 0, 0]) = some
      "WARNING: nbit = 0 for JPEG 2000 code stream format decoder is not tested.\n            Please report your data and help us develop the library.\n".toList ∧
    stderrOf (.export false "0.0".toList) (withRepr ([0, 0, 0, 2, 0, 3, 0, 0, 0, 0, 0, 0, 0, 0, 8, 0] ++ List.replicate 26 0 ++ [7, 1])) =
      some "error: not supported (Code Table 5.6 value '7' is not supported)\n".toList ∧
    stderrOf (.decode "0.0".toList) (withRepr [0, 0, 0, 2, 0, 99, 0, 0, 0, 0, 0, 0, 0, 0, 8, 0]) =
      some "error: TemplateNumberUnsupported\n".toList := by
  decide +kernel

/-- A run-length decoding error as `{:#?}` shows it; a file cut off. -/
example : (Failure.grib (.decodeError (.runLength (.invalidLevelValue 300)))).show exampleTexts =
      "RunLengthEncodingDecodeError(\n    InvalidLevelValue(\n        300,\n    ),\n)".toList ∧
    stderr exampleTexts (runCommand exampleTexts exampleSetting (.list true) ⟨gridFile.take 20, 0, []⟩) =
      some "error: Read error: no such file\n".toList := by
  decide +kernel

/-- The assumption about the projection library holds without one, and for a pointwise one. -/
example : Counts exampleSetting.grid ∧ Counts (⟨FloatOps.exact, toyGauss, some toyProj⟩ : GridOps (Option Rat) (Option Rat)) := by
  refine ⟨fun p h => (by cases h), fun p h d xs ys hy => ?_⟩
  cases h
  have e := allSome_length hy
  simpa using e

end Msg
end Grib
