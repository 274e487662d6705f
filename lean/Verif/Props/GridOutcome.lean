import Verif.Props.Projected

/-! # C63: the complete outcome of reading grid definitions and computing coordinates -/

namespace Grib.Props

open Grib.Model Grib.Spec

variable {ε F G : Type}

/-- What a computation comes to: it returns, is refused with an error, or panics (or never returns), under exactly the
stated conditions. -/
structure Comes {α : Type} (x : Outcome GribError α) (ok panic : Prop) (refused : GribError → Prop) : Prop where
  ok_iff : (∃ a, x = .ok a) ↔ ok
  err_iff : ∀ e, x = .err e ↔ refused e
  panic_iff : x = .panic ↔ panic

theorem Comes.of_ok {α : Type} {x : Outcome GribError α} {ok panic : Prop} {refused : GribError → Prop} {a : α}
    (h : x = .ok a) (h1 : ok) (h2 : ¬ panic) (h3 : ∀ e, ¬ refused e) : Comes x ok panic refused := by
  subst h
  exact ⟨⟨fun _ => h1, fun _ => ⟨a, rfl⟩⟩, fun e => ⟨fun h => (by cases h), fun h => (h3 e h).elim⟩,
    ⟨fun h => (by cases h), fun h => (h2 h).elim⟩⟩

theorem Comes.of_err {α : Type} {x : Outcome GribError α} {ok panic : Prop} {refused : GribError → Prop} {e0 : GribError}
    (h : x = .err e0) (h1 : ¬ ok) (h2 : ¬ panic) (h3 : ∀ e, refused e ↔ e = e0) : Comes x ok panic refused := by
  subst h
  refine ⟨⟨fun h => (by obtain ⟨a, h⟩ := h; cases h), fun h => (h1 h).elim⟩, fun e => ?_,
    ⟨fun h => (by cases h), fun h => (h2 h).elim⟩⟩
  rw [h3]
  constructor
  · intro h; cases h; rfl
  · intro h; rw [h]

theorem Comes.of_panic {α : Type} {x : Outcome GribError α} {ok panic : Prop} {refused : GribError → Prop}
    (h : x = .panic) (h1 : ¬ ok) (h2 : panic) (h3 : ∀ e, ¬ refused e) : Comes x ok panic refused := by
  subst h
  exact ⟨⟨fun h => (by obtain ⟨a, h⟩ := h; cases h), fun h => (h1 h).elim⟩, fun e => ⟨fun h => (by cases h), fun h => (h3 e h).elim⟩,
    ⟨fun _ => h2, fun _ => rfl⟩⟩

/-! ## Latitude/longitude grids -/

theorem evenlySpacedLongitudes_panic (ops : FloatOps F) {a b : Int} (n : Nat) (mode : ScanningMode) (h : ¬ fitsI32 (b - a)) :
    (evenlySpacedLongitudes ops a b n mode : Outcome ε _) = .panic := by
  unfold evenlySpacedLongitudes checkI32
  unfold fitsI32 at h
  rw [if_neg h]; rfl

/-- C63. Coordinates of a latitude/longitude grid: a panic exactly if the difference of the end latitudes does not fit a
signed 32-bit number, or, for a grid that would be accepted, if there are no rows or no columns or the difference of the end
longitudes does not fit; refused exactly if the end latitudes contradict the scanning direction, or else if an unsupported
scanning flag is set. -/
theorem C63_latlon (ops : FloatOps F) (g : LatLonGrid) :
    Comes (g.latlons ops)
      (fitsI32 (g.lastLat - g.firstLat) ∧ agreesJ g.firstLat g.lastLat g.mode ∧ g.mode % 16 = 0 ∧
        0 < g.ni ∧ 0 < g.nj ∧ fitsI32 (g.lastLon - g.firstLon))
      (¬ fitsI32 (g.lastLat - g.firstLat) ∨ (agreesJ g.firstLat g.lastLat g.mode ∧ g.mode % 16 = 0 ∧
        (g.ni = 0 ∨ g.nj = 0 ∨ ¬ fitsI32 (g.lastLon - g.firstLon))))
      (fun e => fitsI32 (g.lastLat - g.firstLat) ∧
        ((e = .invalidValueError ∧ ¬ agreesJ g.firstLat g.lastLat g.mode) ∨
          (e = .notSupported ∧ agreesJ g.firstLat g.lastLat g.mode ∧ g.mode % 16 ≠ 0))) := by
  by_cases hlat : fitsI32 (g.lastLat - g.firstLat)
  swap
  · exact .of_panic (C34_overflow_fails ops g hlat) (by tauto) (by tauto) (by tauto)
  obtain ⟨c, hc, hiff⟩ := isConsistentForJ_eq (ε := GribError) g.mode hlat
  by_cases hag : agreesJ g.firstLat g.lastLat g.mode
  swap
  · have : g.latlons ops = .err .invalidValueError := by
      unfold LatLonGrid.latlons
      rw [hc, Outcome.bind_ok, if_pos (by rw [hiff]; exact hag)]
    exact .of_err this (by tauto) (by tauto) (by tauto)
  by_cases hm : g.mode % 16 = 0
  swap
  · have : g.latlons ops = .err .notSupported := by
      unfold LatLonGrid.latlons
      rw [hc, Outcome.bind_ok, if_neg (by rw [hiff]; simpa using hag)]
      unfold gridIj
      rw [mode_unsupported, if_pos (by simpa using hm)]; rfl
    exact .of_err this (by tauto) (by tauto) (by tauto)
  by_cases h0 : g.ni = 0 ∨ g.nj = 0
  · exact .of_panic (C34_empty_fails ops g h0 hlat hag hm) (by omega) (.inr ⟨hag, hm, by tauto⟩) (by tauto)
  by_cases hlon : fitsI32 (g.lastLon - g.firstLon)
  · obtain ⟨it, hit⟩ := (C34_accepts_partial ops g (by omega) (by omega) hlat hlon).2.2 hag hm
    exact .of_ok hit ⟨hlat, hag, hm, by omega, by omega, hlon⟩ (by tauto) (by tauto)
  · have : g.latlons ops = .panic := by
      unfold LatLonGrid.latlons
      rw [hc, Outcome.bind_ok, if_neg (by rw [hiff]; simpa using hag)]
      unfold gridIj
      rw [mode_unsupported, if_neg (by simpa using hm), Outcome.bind_ok, if_neg (by omega), if_neg (by omega),
        evenlySpacedLongitudes_panic _ _ _ hlon]
      rfl
    exact .of_panic this (by tauto) (.inr ⟨hag, hm, by tauto⟩) (by tauto)

/-! ## Gaussian grids -/

/-- The search for Gaussian latitudes succeeds: for each of the `n` rows, one of the first eleven Newton corrections from
the initial guess is small. -/
def Converges (g : GaussOps G F) (n : Nat) : Prop := ∃ lats, gaussianLatitudes g n = .ok lats

/-- C63. Coordinates of a Gaussian grid.  In addition to latitude/longitude grids: a panic also if there are 1321123 or more
rows; refused with an unspecific error exactly if the search for the latitudes does not converge.  A grid without rows is
accepted. -/
theorem C63_gaussian (g : GaussOps G F) (ops : FloatOps F) (d : GaussianGrid) :
    Comes (d.latlons g ops)
      (fitsI32 (d.lastLat - d.firstLat) ∧ agreesJ d.firstLat d.lastLat d.mode ∧ d.mode % 16 = 0 ∧ d.nj < 1321123 ∧
        Converges g d.nj ∧ 0 < d.ni ∧ fitsI32 (d.lastLon - d.firstLon))
      (¬ fitsI32 (d.lastLat - d.firstLat) ∨ (agreesJ d.firstLat d.lastLat d.mode ∧ d.mode % 16 = 0 ∧
        (1321123 ≤ d.nj ∨ (Converges g d.nj ∧ (d.ni = 0 ∨ ¬ fitsI32 (d.lastLon - d.firstLon))))))
      (fun e => fitsI32 (d.lastLat - d.firstLat) ∧
        ((e = .invalidValueError ∧ ¬ agreesJ d.firstLat d.lastLat d.mode) ∨
          (agreesJ d.firstLat d.lastLat d.mode ∧ ((e = .notSupported ∧ d.mode % 16 ≠ 0) ∨
            (e = .unknown ∧ d.mode % 16 = 0 ∧ d.nj < 1321123 ∧ ¬ Converges g d.nj))))) := by
  by_cases hlat : fitsI32 (d.lastLat - d.firstLat)
  swap
  · have : d.latlons g ops = .panic := by
      unfold GaussianGrid.latlons
      rw [isConsistentForJ_panic d.mode hlat]; rfl
    exact .of_panic this (by tauto) (by tauto) (by tauto)
  obtain ⟨c, hc, hiff⟩ := isConsistentForJ_eq (ε := GribError) d.mode hlat
  by_cases hag : agreesJ d.firstLat d.lastLat d.mode
  swap
  · have : d.latlons g ops = .err .invalidValueError := by
      unfold GaussianGrid.latlons
      rw [hc, Outcome.bind_ok, if_pos (by rw [hiff]; exact hag)]
    exact .of_err this (by tauto) (by tauto) (by tauto)
  by_cases hm : d.mode % 16 = 0
  swap
  · have : d.latlons g ops = .err .notSupported := by
      unfold GaussianGrid.latlons
      rw [hc, Outcome.bind_ok, if_neg (by rw [hiff]; simpa using hag)]
      unfold gridIj
      rw [mode_unsupported, if_pos (by simpa using hm)]; rfl
    exact .of_err this (by tauto) (by tauto) (by tauto)
  have key : d.latlons g ops = gaussianLatitudes g d.nj >>= fun lat =>
      if d.ni = 0 then .panic else
        evenlySpacedLongitudes ops d.firstLon d.lastLon (d.ni - 1) d.mode >>= fun lon =>
          .ok ⟨(if d.mode.scansPositivelyForJ then lat.reverse else lat).map g.toF32, lon, GridIter.new d.ni d.nj d.mode⟩ := by
    unfold GaussianGrid.latlons
    rw [hc, Outcome.bind_ok, if_neg (by rw [hiff]; simpa using hag)]
    unfold gridIj
    rw [mode_unsupported, if_neg (by simpa using hm), Outcome.bind_ok]
  by_cases hj : d.nj < 1321123
  swap
  · have : d.latlons g ops = .panic := by rw [key, C35_overflow_fails g d.nj (by omega)]; rfl
    exact .of_panic this (by omega) (.inr ⟨hag, hm, .inl (by omega)⟩) (by
      rintro e ⟨-, h | ⟨-, h | h⟩⟩
      · exact h.2 hag
      · exact h.2 hm
      · exact hj h.2.2.1)
  rcases C35_total_partial g d.nj (by omega) with ⟨lats, hl⟩ | hl
  · have hcv : Converges g d.nj := ⟨lats, hl⟩
    have hnotrefused : ∀ e : GribError, ¬ (fitsI32 (d.lastLat - d.firstLat) ∧
        ((e = .invalidValueError ∧ ¬ agreesJ d.firstLat d.lastLat d.mode) ∨
          (agreesJ d.firstLat d.lastLat d.mode ∧ ((e = .notSupported ∧ d.mode % 16 ≠ 0) ∨
            (e = .unknown ∧ d.mode % 16 = 0 ∧ d.nj < 1321123 ∧ ¬ Converges g d.nj))))) := by
      rintro e ⟨-, h | ⟨-, h | h⟩⟩
      · exact h.2 hag
      · exact h.2 hm
      · exact h.2.2.2 hcv
    rw [hl, Outcome.bind_ok] at key
    by_cases h0 : d.ni = 0
    · rw [if_pos h0] at key
      exact .of_panic key (by omega) (.inr ⟨hag, hm, .inr ⟨hcv, .inl h0⟩⟩) hnotrefused
    rw [if_neg h0] at key
    by_cases hlon : fitsI32 (d.lastLon - d.firstLon)
    · obtain ⟨l, hl2⟩ := evenlySpacedLongitudes_total (ε := GribError) ops (d.ni - 1) d.mode hlon
      rw [hl2, Outcome.bind_ok] at key
      refine .of_ok key ⟨hlat, hag, hm, hj, hcv, by omega, hlon⟩ ?_ hnotrefused
      rintro (h | ⟨-, -, h | ⟨-, h | h⟩⟩)
      · exact h hlat
      · omega
      · exact h0 h
      · exact h hlon
    · rw [evenlySpacedLongitudes_panic _ _ _ hlon] at key
      exact .of_panic key (by tauto) (.inr ⟨hag, hm, .inr ⟨hcv, .inr hlon⟩⟩) hnotrefused
  · have hcv : ¬ Converges g d.nj := by
      rintro ⟨lats, h⟩
      rw [hl] at h; cases h
    rw [hl] at key
    refine .of_err key (by tauto) ?_ ?_
    · rintro (h | ⟨-, -, h | ⟨h, -⟩⟩)
      · exact h hlat
      · omega
      · exact hcv h
    · intro e
      constructor
      · rintro ⟨-, h | ⟨-, h | h⟩⟩
        · exact (h.2 hag).elim
        · exact (h.2 hm).elim
        · exact h.1
      · intro h
        exact ⟨hlat, .inr ⟨hag, .inr ⟨h, hm, hj, hcv⟩⟩⟩

/-! ## Projected grids -/

/-- The scan of an `ni × nj` grid consists of lines (rows, or columns if points are consecutive in `j`), all of them empty. -/
def OnlyEmptyLines (ni nj mode : Nat) : Prop :=
  if jConsecutive mode then 0 < ni ∧ nj = 0 else 0 < nj ∧ ni = 0

theorem collectIj_new (ni nj mode : Nat) :
    (OnlyEmptyLines ni nj mode → collectIj (GridIter.new ni nj mode) = .panic) ∧
    (¬ OnlyEmptyLines ni nj mode → collectIj (GridIter.new ni nj mode) = .ok ((List.range (ni * nj)).map (visit ni nj mode))) := by
  have hlen : (GridIter.new ni nj mode).majorLen * (GridIter.new ni nj mode).minorLen = ni * nj := by
    unfold GridIter.new
    dsimp only
    split <;> simp [Nat.mul_comm]
  constructor
  · intro h
    have h1 : (if jConsecutive mode then ni else nj) ≠ 0 ∧ (if jConsecutive mode then nj else ni) = 0 := by
      unfold OnlyEmptyLines at h
      cases hj : jConsecutive mode
      · rw [hj] at h; simp at h; simp; omega
      · rw [hj] at h; simp at h; simp; omega
    obtain ⟨ps, hps, -⟩ := (C32_empty_lines_fails (ε := Empty) ni nj mode h1.1 h1.2).2.1
      ((GridIter.new ni nj mode).majorLen * (GridIter.new ni nj mode).minorLen + 1)
    unfold collectIj
    rw [hps]
  · intro h
    by_cases hb : 0 < ni ∧ 0 < nj
    · unfold collectIj
      rw [hlen, C31_order ni nj mode hb.1 hb.2]
    · have hl : (if jConsecutive mode then ni else nj) = 0 := by
        unfold OnlyEmptyLines at h
        cases hj : jConsecutive mode
        · rw [hj] at h; simp at h; simp; omega
        · rw [hj] at h; simp at h; simp; omega
      have hz : ni * nj = 0 := by
        by_cases h1 : ni = 0
        · rw [h1, Nat.zero_mul]
        · rw [show nj = 0 by omega, Nat.mul_zero]
      unfold collectIj
      rw [hlen, hz, (C32_no_lines (ε := Empty) ni nj mode hl).1]
      rfl

/-- The `proj` library can do what is asked: set up the projection, and project the first point. -/
def Projects (p : ProjOps G F) (d : ProjDef G) (first : G × G) : Prop :=
  p.valid d = true ∧ (p.forward d (p.toRadians first.2, p.toRadians first.1)).isSome

/-- The library can convert the points of the grid back. -/
def ConvertsBack (p : ProjOps G F) (d : ProjDef G) (first delta : G × G) (ni nj mode : Nat) : Prop :=
  ∀ x0 y0, p.forward d (p.toRadians first.2, p.toRadians first.1) = some (x0, y0) →
    (p.inverseAll d ((List.range (ni * nj)).map fun k =>
      (p.ops.add x0 (p.ops.mul delta.1 (p.ops.ofInt (visit ni nj mode k).1)),
        p.ops.add y0 (p.ops.mul delta.2 (p.ops.ofInt (visit ni nj mode k).2))))).isSome

theorem latlonsFromProjection_comes (p : ProjOps G F) (d : ProjDef G) (first delta : G × G) (ni nj mode : Nat) :
    Comes (latlonsFromProjection p d first delta (GridIter.new ni nj mode))
      (Projects p d first ∧ ¬ OnlyEmptyLines ni nj mode ∧ ConvertsBack p d first delta ni nj mode)
      (Projects p d first ∧ OnlyEmptyLines ni nj mode)
      (fun e => e = .unknown ∧ (¬ Projects p d first ∨
        (¬ OnlyEmptyLines ni nj mode ∧ ¬ ConvertsBack p d first delta ni nj mode))) := by
  by_cases hv : p.valid d = true
  swap
  · have hp : ¬ Projects p d first := fun h => hv h.1
    have : latlonsFromProjection p d first delta (GridIter.new ni nj mode) = .err .unknown := by
      unfold latlonsFromProjection; rw [if_pos hv]
    exact .of_err this (by tauto) (by tauto) (by tauto)
  cases hf : p.forward d (p.toRadians first.2, p.toRadians first.1) with
  | none =>
    have hp : ¬ Projects p d first := by rintro ⟨-, h⟩; rw [hf] at h; cases h
    have : latlonsFromProjection p d first delta (GridIter.new ni nj mode) = .err .unknown := by
      unfold latlonsFromProjection; rw [if_neg (by simpa using hv), hf]
    exact .of_err this (by tauto) (by tauto) (by tauto)
  | some xy =>
    obtain ⟨x0, y0⟩ := xy
    have hp : Projects p d first := ⟨hv, by rw [hf]; rfl⟩
    by_cases hem : OnlyEmptyLines ni nj mode
    · have : latlonsFromProjection p d first delta (GridIter.new ni nj mode) = .panic := by
        unfold latlonsFromProjection
        rw [if_neg (by simpa using hv), hf]
        dsimp only
        rw [(collectIj_new ni nj mode).1 hem]; rfl
      exact .of_panic this (by tauto) (by tauto) (by tauto)
    · cases hb : p.inverseAll d ((List.range (ni * nj)).map fun k =>
        (p.ops.add x0 (p.ops.mul delta.1 (p.ops.ofInt (visit ni nj mode k).1)),
          p.ops.add y0 (p.ops.mul delta.2 (p.ops.ofInt (visit ni nj mode k).2)))) with
      | none =>
        have hcb : ¬ ConvertsBack p d first delta ni nj mode := by
          intro h
          have := h x0 y0 hf
          rw [hb] at this; cases this
        have : latlonsFromProjection p d first delta (GridIter.new ni nj mode) = .err .unknown := by
          unfold latlonsFromProjection
          rw [if_neg (by simpa using hv), hf]
          dsimp only
          rw [(collectIj_new ni nj mode).2 hem, Outcome.bind_ok, List.map_map]
          simp only [Function.comp_def]
          rw [hb]
        exact .of_err this (by tauto) (by tauto) (by tauto)
      | some lonlat =>
        have hcb : ConvertsBack p d first delta ni nj mode := by
          intro x y h
          rw [hf] at h
          cases h
          rw [hb]; rfl
        have : latlonsFromProjection p d first delta (GridIter.new ni nj mode) =
            .ok (lonlat.map fun (lon, lat) => (p.toF32 (p.toDegrees lat), p.toF32 (p.toDegrees lon))) := by
          unfold latlonsFromProjection
          rw [if_neg (by simpa using hv), hf]
          dsimp only
          rw [(collectIj_new ni nj mode).2 hem, Outcome.bind_ok, List.map_map]
          simp only [Function.comp_def]
          rw [hb]
        exact .of_ok this (by tauto) (by tauto) (by tauto)


theorem radii_some (ops : FloatOps G) (e : EarthShape) (h : e.shape < 9) : ∃ r, e.radii ops = some r := by
  obtain ⟨shape, e2, e3, e4, e5, e6, e7⟩ := e
  dsimp only at h
  have : shape = 0 ∨ shape = 1 ∨ shape = 2 ∨ shape = 3 ∨ shape = 4 ∨ shape = 5 ∨ shape = 6 ∨ shape = 7 ∨ shape = 8 := by omega
  rcases this with h | h | h | h | h | h | h | h | h <;> (subst h; exact ⟨_, rfl⟩)

/-- C63. Coordinates of a Lambert grid: refused as not supported exactly if the shape of the earth is not known or an
unsupported scanning flag is set; otherwise it is up to the projection library, except that the computation never returns if
there are lines and they are empty. -/
theorem C63_lambert (p : ProjOps G F) (g : LambertGrid) :
    ((9 ≤ g.earth.shape ∨ g.mode % 16 ≠ 0) → g.latlons p = .err .notSupported) ∧
    (g.earth.shape < 9 → g.mode % 16 = 0 → ∃ a b, g.earth.radii p.ops = some (a, b) ∧
      ∀ d first delta, d = .lcc a b (micro p.ops g.lad) (micro p.ops g.lov) (micro p.ops g.latin1) (micro p.ops g.latin2) →
      first = (micro p.ops g.firstLat, micro p.ops g.firstLon) →
      delta = (signedDelta p (!negativeI g.mode) (p.ops.mul (p.ops.ofInt g.dx) (p.ops.lit 1 (-3))),
        signedDelta p (positiveJ g.mode) (p.ops.mul (p.ops.ofInt g.dy) (p.ops.lit 1 (-3)))) →
      Comes (g.latlons p)
        (Projects p d first ∧ ¬ OnlyEmptyLines g.ni g.nj g.mode ∧ ConvertsBack p d first delta g.ni g.nj g.mode)
        (Projects p d first ∧ OnlyEmptyLines g.ni g.nj g.mode)
        (fun e => e = .unknown ∧ (¬ Projects p d first ∨
          (¬ OnlyEmptyLines g.ni g.nj g.mode ∧ ¬ ConvertsBack p d first delta g.ni g.nj g.mode)))) := by
  refine ⟨(C51_refused p).1 g, fun hs hm => ?_⟩
  obtain ⟨⟨a, b⟩, hr⟩ := radii_some p.ops g.earth hs
  refine ⟨a, b, hr, ?_⟩
  rintro d first delta rfl rfl rfl
  have := latlonsFromProjection_comes p (.lcc a b (micro p.ops g.lad) (micro p.ops g.lov) (micro p.ops g.latin1) (micro p.ops g.latin2))
    (micro p.ops g.firstLat, micro p.ops g.firstLon)
    (signedDelta p (!negativeI g.mode) (p.ops.mul (p.ops.ofInt g.dx) (p.ops.lit 1 (-3))),
        signedDelta p (positiveJ g.mode) (p.ops.mul (p.ops.ofInt g.dy) (p.ops.lit 1 (-3)))) g.ni g.nj g.mode
  have e : g.latlons p = latlonsFromProjection p
      (.lcc a b (micro p.ops g.lad) (micro p.ops g.lov) (micro p.ops g.latin1) (micro p.ops g.latin2))
      (micro p.ops g.firstLat, micro p.ops g.firstLon)
      (signedDelta p (!negativeI g.mode) (p.ops.mul (p.ops.ofInt g.dx) (p.ops.lit 1 (-3))),
        signedDelta p (positiveJ g.mode) (p.ops.mul (p.ops.ofInt g.dy) (p.ops.lit 1 (-3)))) (GridIter.new g.ni g.nj g.mode) := by
    unfold LambertGrid.latlons
    rw [hr]
    dsimp only
    unfold gridIj
    rw [mode_unsupported, if_neg (by simpa using hm), Outcome.bind_ok, mode_positiveI, mode_positiveJ]
  rw [e]
  exact this

/-- C63. Coordinates of a polar stereographic grid: likewise, with the reserved bits of the projection centre flag refused
too. -/
theorem C63_polar (p : ProjOps G F) (g : PolarGrid) :
    ((9 ≤ g.earth.shape ∨ g.centre % 64 ≠ 0 ∨ g.mode % 16 ≠ 0) → g.latlons p = .err .notSupported) ∧
    (g.earth.shape < 9 → g.centre % 64 = 0 → g.mode % 16 = 0 → ∃ a b, g.earth.radii p.ops = some (a, b) ∧
      ∀ d first delta, d = .stere a b (micro p.ops g.lad) (if flag g.centre 1 then p.ops.lit (-90) 0 else p.ops.lit 90 0)
        (micro p.ops g.lov) →
      first = (micro p.ops g.firstLat, micro p.ops g.firstLon) →
      delta = (signedDelta p (!negativeI g.mode) (p.ops.mul (p.ops.ofInt g.dx) (p.ops.lit 1 (-3))),
        signedDelta p (positiveJ g.mode) (p.ops.mul (p.ops.ofInt g.dy) (p.ops.lit 1 (-3)))) →
      Comes (g.latlons p)
        (Projects p d first ∧ ¬ OnlyEmptyLines g.ni g.nj g.mode ∧ ConvertsBack p d first delta g.ni g.nj g.mode)
        (Projects p d first ∧ OnlyEmptyLines g.ni g.nj g.mode)
        (fun e => e = .unknown ∧ (¬ Projects p d first ∨
          (¬ OnlyEmptyLines g.ni g.nj g.mode ∧ ¬ ConvertsBack p d first delta g.ni g.nj g.mode)))) := by
  refine ⟨(C51_refused p).2 g, fun hs hc hm => ?_⟩
  obtain ⟨⟨a, b⟩, hr⟩ := radii_some p.ops g.earth hs
  refine ⟨a, b, hr, ?_⟩
  rintro d first delta rfl rfl rfl
  have := latlonsFromProjection_comes p
    (.stere a b (micro p.ops g.lad) (if flag g.centre 1 then p.ops.lit (-90) 0 else p.ops.lit 90 0) (micro p.ops g.lov))
    (micro p.ops g.firstLat, micro p.ops g.firstLon)
    (signedDelta p (!negativeI g.mode) (p.ops.mul (p.ops.ofInt g.dx) (p.ops.lit 1 (-3))),
        signedDelta p (positiveJ g.mode) (p.ops.mul (p.ops.ofInt g.dy) (p.ops.lit 1 (-3)))) g.ni g.nj g.mode
  have hl : (if g.centre &&& 0b10000000 = 0 then p.ops.lit 90 0 else p.ops.lit (-90) 0) =
      (if flag g.centre 1 then p.ops.lit (-90) 0 else p.ops.lit 90 0) := by
    rw [show (0b10000000 : Nat) = 2 ^ 7 from rfl, and_pow]
    unfold flag
    have : g.centre / 128 % 2 = 0 ∨ g.centre / 128 % 2 = 1 := by omega
    rcases this with h | h <;> simp [h]
  have e : g.latlons p = latlonsFromProjection p
      (.stere a b (micro p.ops g.lad) (if flag g.centre 1 then p.ops.lit (-90) 0 else p.ops.lit 90 0) (micro p.ops g.lov))
      (micro p.ops g.firstLat, micro p.ops g.firstLon)
      (signedDelta p (!negativeI g.mode) (p.ops.mul (p.ops.ofInt g.dx) (p.ops.lit 1 (-3))),
        signedDelta p (positiveJ g.mode) (p.ops.mul (p.ops.ofInt g.dy) (p.ops.lit 1 (-3)))) (GridIter.new g.ni g.nj g.mode) := by
    unfold PolarGrid.latlons
    rw [hr]
    dsimp only
    rw [if_neg (by rw [show (0b00111111 : Nat) = 2 ^ 6 - 1 from rfl, Nat.and_two_pow_sub_one_eq_mod]; simpa using hc), hl]
    unfold gridIj
    rw [mode_unsupported, if_neg (by simpa using hm), Outcome.bind_ok, mode_positiveI, mode_positiveJ]
  rw [e]
  exact this

/-! ## Grid definitions -/

/-- C63. Reading a grid definition: it is read exactly if its template is supported and section 3 has the template's length
(at least it, for projected grids); a panic exactly if the section is shorter than its template; refused in all other cases. -/
theorem C63_definition (d : GridDefinition) :
    let n := d.payload.length
    let t := sectNumber d.payload 13 14
    Comes (GridTemplate.tryFrom d)
      (9 ≤ n ∧ ((t = 0 ∧ n = 67) ∨ (t = 20 ∧ 60 ≤ n) ∨ (t = 30 ∧ 68 ≤ n) ∨ (t = 40 ∧ n = 67)))
      (n < 9 ∨ (t = 0 ∧ n < 67) ∨ (t = 20 ∧ n < 60) ∨ (t = 30 ∧ n < 68) ∨ (t = 40 ∧ n < 67))
      (fun e => e = .notSupported ∧ 9 ≤ n ∧
        ((t ≠ 0 ∧ t ≠ 20 ∧ t ≠ 30 ∧ t ≠ 40) ∨ ((t = 0 ∨ t = 40) ∧ 67 < n))) := by
  dsimp only
  by_cases h9 : 9 ≤ d.payload.length
  swap
  · have : GridTemplate.tryFrom d = .panic := by
      unfold GridTemplate.tryFrom GridDefinition.gridTmplNum
      rw [rdAs_panic (by omega)]; rfl
    exact .of_panic this (by tauto) (by omega) (by tauto)
  by_cases hs : (sectNumber d.payload 13 14 ∈ [0, 40] ∧ d.payload.length < 67) ∨
      (sectNumber d.payload 13 14 = 20 ∧ d.payload.length < 60) ∨ (sectNumber d.payload 13 14 = 30 ∧ d.payload.length < 68)
  · have hp := C36_short_fails d h9 hs
    simp only [List.mem_cons, List.not_mem_nil, or_false] at hs
    exact .of_panic hp (by omega) (by omega) (by intro e; omega)
  by_cases hr : sectNumber d.payload 13 14 ∉ [0, 20, 30, 40] ∨ (sectNumber d.payload 13 14 ∈ [0, 40] ∧ 67 < d.payload.length)
  · have hp := C36_refused d h9 hr
    simp only [List.mem_cons, List.not_mem_nil, or_false] at hr hs
    exact .of_err hp (by omega) (by omega) (by intro e; constructor <;> intro h; exact h.1; exact ⟨h, h9, by omega⟩)
  simp only [List.mem_cons, List.not_mem_nil, or_false] at hr hs
  have h4 : (sectNumber d.payload 13 14 = 0 ∧ d.payload.length = 67) ∨ (sectNumber d.payload 13 14 = 20 ∧ 60 ≤ d.payload.length) ∨
      (sectNumber d.payload 13 14 = 30 ∧ 68 ≤ d.payload.length) ∨ (sectNumber d.payload 13 14 = 40 ∧ d.payload.length = 67) := by omega
  have hok : ∃ t, GridTemplate.tryFrom d = .ok t := by
    rcases h4 with h | h | h | h
    · exact ⟨_, C36_latlon d h.2 h.1⟩
    · exact ⟨_, C36_polar d h.2 h.1⟩
    · exact ⟨_, C36_lambert d h.2 h.1⟩
    · exact ⟨_, C36_gaussian d h.2 h.1⟩
  obtain ⟨t, ht⟩ := hok
  exact .of_ok ht ⟨h9, h4⟩ (by omega) (by intro e; omega)

/-- C63. Number of columns, number of rows and scanning mode of an accepted grid definition are in octets 31-34, 35-38 and 72
(templates 0 and 40) or 65 (templates 20 and 30) of its section, and its short name is that of its template; so `ij()` visits
the points in the order these octets say. -/
theorem C63_octets (d : GridDefinition) (t : GridTemplate) (h : GridTemplate.tryFrom d = .ok t) :
    t.gridShape = (sectNumber d.payload 31 34, sectNumber d.payload 35 38) ∧
    t.mode = (if sectNumber d.payload 13 14 = 0 ∨ sectNumber d.payload 13 14 = 40 then sectNumber d.payload 72 72
      else sectNumber d.payload 65 65) ∧
    (sectNumber d.payload 13 14, t.shortName) ∈
      [(0, "regular_ll"), (20, "polar_stereographic"), (30, "lambert"), (40, "regular_gg")] := by
  obtain ⟨-, hc⟩ := (C63_definition d).ok_iff.1 ⟨t, h⟩
  rcases hc with hc | hc | hc | hc
  · rw [C36_latlon d hc.2 hc.1] at h
    cases h
    refine ⟨rfl, ?_, ?_⟩
    · rw [if_pos (.inl hc.1)]; rfl
    · rw [hc.1]; simp [GridTemplate.shortName]
  · rw [C36_polar d hc.2 hc.1] at h
    cases h
    refine ⟨rfl, ?_, ?_⟩
    · rw [if_neg (by omega)]; rfl
    · rw [hc.1]; simp [GridTemplate.shortName]
  · rw [C36_lambert d hc.2 hc.1] at h
    cases h
    refine ⟨rfl, ?_, ?_⟩
    · rw [if_neg (by omega)]; rfl
    · rw [hc.1]; simp [GridTemplate.shortName]
  · rw [C36_gaussian d hc.2 hc.1] at h
    cases h
    refine ⟨rfl, ?_, ?_⟩
    · rw [if_pos (.inr hc.1)]; rfl
    · rw [hc.1]; simp [GridTemplate.shortName]

/-- C63. The order of points of a submessage: a panic exactly if reading the grid definition panics. -/
theorem C63_order (d : GridDefinition) : subIj d = .panic ↔ GridTemplate.tryFrom d = .panic := by
  unfold subIj GridDefinition.numPoints
  by_cases h9 : 9 ≤ d.payload.length
  swap
  · have h2 : GridTemplate.tryFrom d = .panic := (C63_definition d).panic_iff.2 (.inl (by omega))
    rw [h2]
    refine ⟨fun _ => rfl, fun _ => ?_⟩
    by_cases h5 : 5 ≤ d.payload.length
    · rw [rdAs_number (by omega)]; rfl
    · rw [rdAs_panic (by omega)]; rfl
  rw [rdAs_number (by omega), Outcome.bind_ok]
  cases ht : GridTemplate.tryFrom d with
  | panic => simp
  | err e => simp
  | ok t =>
    rw [Outcome.bind_ok]
    unfold GridTemplate.ij gridIj
    split
    · simp
    · rw [Outcome.bind_ok, GridIter.sizeHint_new, Outcome.bind_ok]
      split <;> simp

/-- C63. The coordinates of a submessage: a panic exactly if reading the grid definition panics, or it is read and computing
its coordinates panics. -/
theorem C63_coordinates (o : GridOps G F) (d : GridDefinition) :
    subLatlons o d = .panic ↔
      GridTemplate.tryFrom d = .panic ∨ ∃ t, GridTemplate.tryFrom d = .ok t ∧ t.latlons o = .panic := by
  unfold subLatlons GridDefinition.numPoints
  by_cases h9 : 9 ≤ d.payload.length
  swap
  · have h2 : GridTemplate.tryFrom d = .panic := (C63_definition d).panic_iff.2 (.inl (by omega))
    rw [h2]
    refine ⟨fun _ => .inl rfl, fun _ => ?_⟩
    by_cases h5 : 5 ≤ d.payload.length
    · rw [rdAs_number (by omega)]; rfl
    · rw [rdAs_panic (by omega)]; rfl
  rw [rdAs_number (by omega), Outcome.bind_ok]
  cases ht : GridTemplate.tryFrom d with
  | panic => simp
  | err e => simp
  | ok t =>
    rw [Outcome.bind_ok]
    simp only [reduceCtorEq, false_or, Outcome.ok.injEq, exists_eq_left']
    cases hl : t.latlons o with
    | panic => simp
    | err e => simp
    | ok pts =>
      have : ∃ n, pts.sizeHint = (.ok n : Outcome GribError _) := by
        cases pts with
        | lambert ps => exact ⟨_, rfl⟩
        | latLon it =>
          obtain ⟨hij, -, -⟩ := latlons_regular o t it hl
          refine ⟨t.gridShape.1 * t.gridShape.2, ?_⟩
          show it.ij.sizeHint = _
          rw [hij, GridIter.sizeHint_new]
      obtain ⟨n, hn⟩ := this
      rw [Outcome.bind_ok, hn, Outcome.bind_ok]
      split <;> simp

/-- How coordinates are computed for a grid of each kind: latitude/longitude and Gaussian grids always, projected grids only
if the crate was built with a projection library. -/
inductive ComputedAs (o : GridOps G F) : GridTemplate → Outcome GribError (GridPoints F) → Prop
  | latLon {g it} (h : g.latlons o.single = .ok it) : ComputedAs o (.template0 g) (.ok (.latLon it))
  | latLonRefused {g e} (h : g.latlons o.single = .err e) : ComputedAs o (.template0 g) (.err e)
  | gaussian {g it} (h : g.latlons o.gauss o.single = .ok it) : ComputedAs o (.template40 g) (.ok (.latLon it))
  | gaussianRefused {g e} (h : g.latlons o.gauss o.single = .err e) : ComputedAs o (.template40 g) (.err e)
  | polar {g p ps} (hp : o.proj = some p) (h : g.latlons p = .ok ps) : ComputedAs o (.template20 g) (.ok (.lambert ps))
  | polarRefused {g p e} (hp : o.proj = some p) (h : g.latlons p = .err e) : ComputedAs o (.template20 g) (.err e)
  | polarWithout {g} (hp : o.proj = none) : ComputedAs o (.template20 g) (.err .notSupported)
  | lambert {g p ps} (hp : o.proj = some p) (h : g.latlons p = .ok ps) : ComputedAs o (.template30 g) (.ok (.lambert ps))
  | lambertRefused {g p e} (hp : o.proj = some p) (h : g.latlons p = .err e) : ComputedAs o (.template30 g) (.err e)
  | lambertWithout {g} (hp : o.proj = none) : ComputedAs o (.template30 g) (.err .notSupported)
  | latLonPanic {g} (h : g.latlons o.single = .panic) : ComputedAs o (.template0 g) .panic
  | gaussianPanic {g} (h : g.latlons o.gauss o.single = .panic) : ComputedAs o (.template40 g) .panic
  | polarPanic {g p} (hp : o.proj = some p) (h : g.latlons p = .panic) : ComputedAs o (.template20 g) .panic
  | lambertPanic {g p} (hp : o.proj = some p) (h : g.latlons p = .panic) : ComputedAs o (.template30 g) .panic

theorem computedAs_iff (o : GridOps G F) (t : GridTemplate) (x : Outcome GribError (GridPoints F)) :
    ComputedAs o t x ↔ t.latlons o = x := by
  have back : ∀ x, ComputedAs o t x → t.latlons o = x := by
    intro x h
    unfold GridTemplate.latlons
    cases h <;> simp [*]
  refine ⟨back x, ?_⟩
  intro h
  suffices ∃ y, ComputedAs o t y by
    obtain ⟨y, hy⟩ := this
    rw [← h, back y hy]; exact hy
  cases t with
  | template0 g =>
    cases hl : g.latlons o.single with
    | ok it => exact ⟨_, .latLon hl⟩
    | err e => exact ⟨_, .latLonRefused hl⟩
    | panic => exact ⟨_, .latLonPanic hl⟩
  | template40 g =>
    cases hl : g.latlons o.gauss o.single with
    | ok it => exact ⟨_, .gaussian hl⟩
    | err e => exact ⟨_, .gaussianRefused hl⟩
    | panic => exact ⟨_, .gaussianPanic hl⟩
  | template20 g =>
    cases hp : o.proj with
    | none => exact ⟨_, .polarWithout hp⟩
    | some p =>
      cases hl : g.latlons p with
      | ok it => exact ⟨_, .polar hp hl⟩
      | err e => exact ⟨_, .polarRefused hp hl⟩
      | panic => exact ⟨_, .polarPanic hp hl⟩
  | template30 g =>
    cases hp : o.proj with
    | none => exact ⟨_, .lambertWithout hp⟩
    | some p =>
      cases hl : g.latlons p with
      | ok it => exact ⟨_, .lambert hp hl⟩
      | err e => exact ⟨_, .lambertRefused hp hl⟩
      | panic => exact ⟨_, .lambertPanic hp hl⟩

/-- The number of points for which coordinates were computed. -/
def computedPoints (t : GridTemplate) : GridPoints F → Nat
  | .latLon _ => t.gridShape.1 * t.gridShape.2
  | .lambert ps => ps.length

/-- C63. `latlons()` of a submessage, completely: it gives coordinates exactly if the grid definition is read, the
coordinates of a grid of its kind are computed and they are as many as octets 7 to 10 say; it is refused exactly for the
reasons that reading the definition or computing the coordinates give, or as an invalid value if the numbers differ. -/
theorem C63_submessage (o : GridOps G F) (d : GridDefinition) (h9 : 9 ≤ d.payload.length) :
    (∀ pts, subLatlons o d = .ok pts ↔ ∃ t, GridTemplate.tryFrom d = .ok t ∧ ComputedAs o t (.ok pts) ∧
      computedPoints t pts = sectNumber d.payload 7 10) ∧
    (∀ e, subLatlons o d = .err e ↔ GridTemplate.tryFrom d = .err e ∨ ∃ t, GridTemplate.tryFrom d = .ok t ∧
      (ComputedAs o t (.err e) ∨ (e = .invalidValueError ∧ ∃ pts, ComputedAs o t (.ok pts) ∧
        computedPoints t pts ≠ sectNumber d.payload 7 10))) := by
  simp only [computedAs_iff]
  unfold subLatlons GridDefinition.numPoints
  rw [rdAs_number (by omega), Outcome.bind_ok]
  rw [show number d.payload 1 4 = sectNumber d.payload 7 10 from rfl]
  cases ht : GridTemplate.tryFrom d with
  | panic => simp
  | err e => simp
  | ok t =>
    rw [Outcome.bind_ok]
    simp only [reduceCtorEq, false_or, Outcome.ok.injEq, exists_eq_left']
    cases hl : t.latlons o with
    | panic => simp
    | err e => simp
    | ok pts =>
      have hn : pts.sizeHint = (.ok (computedPoints t pts) : Outcome GribError _) := by
        cases pts with
        | lambert ps => rfl
        | latLon it =>
          obtain ⟨hij, -, -⟩ := latlons_regular o t it hl
          show it.ij.sizeHint = _
          rw [hij, GridIter.sizeHint_new]; rfl
      rw [Outcome.bind_ok, hn, Outcome.bind_ok]
      simp only [reduceCtorEq, false_or, Outcome.ok.injEq, exists_eq_left']
      by_cases he : sectNumber d.payload 7 10 = computedPoints t pts
      · rw [if_pos he]
        refine ⟨fun pts' => ?_, fun e => ?_⟩
        · simp only [Outcome.ok.injEq]
          constructor
          · rintro rfl; exact ⟨rfl, he.symm⟩
          · exact fun h => h.1
        · simp [he]
      · rw [if_neg he]
        refine ⟨fun pts' => ?_, fun e => ?_⟩
        · simp only [reduceCtorEq, false_iff, not_and]
          rintro rfl h; exact he h.symm
        · simp only [Outcome.err.injEq]
          constructor
          · rintro rfl; exact ⟨rfl, fun h => he h.symm⟩
          · exact fun h => h.1.symm

/-- C63. So without a projection library, polar stereographic and Lambert grids are always refused as not supported. -/
theorem C63_without_projections (o : GridOps G F) (hp : o.proj = none) (d : GridDefinition) (t : GridTemplate)
    (ht : GridTemplate.tryFrom d = .ok t) (h : sectNumber d.payload 13 14 = 20 ∨ sectNumber d.payload 13 14 = 30) :
    subLatlons o d = .err .notSupported := by
  obtain ⟨h9, hc⟩ := (C63_definition d).ok_iff.1 ⟨t, ht⟩
  refine ((C63_submessage o d h9).2 _).mpr (.inr ⟨t, ht, .inl ?_⟩)
  rcases h with h | h
  · rw [C36_polar d (by omega) h] at ht
    cases ht
    exact .polarWithout hp
  · rw [C36_lambert d (by omega) h] at ht
    cases ht
    exact .lambertWithout hp

/-! ## Cases -/

/-- A grid from 350° E to 20° E in 4 columns and 3 rows: accepted. -/
example : fitsI32 (sampleLatLon.lastLat - sampleLatLon.firstLat) ∧ agreesJ sampleLatLon.firstLat sampleLatLon.lastLat sampleLatLon.mode ∧
    sampleLatLon.mode % 16 = 0 ∧ 0 < sampleLatLon.ni ∧ 0 < sampleLatLon.nj ∧ fitsI32 (sampleLatLon.lastLon - sampleLatLon.firstLon) := by
  unfold fitsI32 agreesJ; decide +kernel

/-- Longitudes from -2000° to 2000°: a panic after everything else was accepted. -/
example : ({ sampleLatLon with firstLon := -2000000000, lastLon := 2000000000 } : LatLonGrid).latlons FloatOps.exact = .panic :=
  (C63_latlon FloatOps.exact { sampleLatLon with firstLon := -2000000000, lastLon := 2000000000 }).panic_iff.2
    (.inr (by unfold fitsI32 agreesJ; decide +kernel))

/-- No columns in 2 rows of a Lambert grid: the points are never all collected. -/
example : (⟨⟨6, 0, 0, 0, 0, 0, 0⟩, 0, 2, 10000000, 20000000, 0, 0, 1000, 2000, 0, 0, 0⟩ : LambertGrid).latlons toyProj = .panic := by
  decide +kernel

/-- No rows: no points. -/
example : (⟨⟨6, 0, 0, 0, 0, 0, 0⟩, 2, 0, 10000000, 20000000, 0, 0, 1000, 2000, 0, 0, 0⟩ : LambertGrid).latlons toyProj = .ok [] := by
  decide +kernel

example : GridTemplate.tryFrom ⟨sampleGrid.payload.take 66⟩ = .panic := by decide +kernel

/-- A Lambert grid without a projection library; the latitude/longitude grid with it. -/
example : subLatlons (⟨FloatOps.exact, toyGauss, none⟩ : GridOps (Option Rat) (Option Rat))
    ⟨[0, 0, 0, 0, 12, 0, 0, 0, 30] ++ List.replicate 59 0⟩ = .err .notSupported :=
  C63_without_projections _ rfl _ _ (C36_lambert _ (by decide +kernel) (by decide +kernel)) (.inr (by decide +kernel))

example : ∃ t it, GridTemplate.tryFrom sampleGrid = .ok t ∧
    ComputedAs (⟨FloatOps.exact, toyGauss, none⟩ : GridOps (Option Rat) (Option Rat)) t (.ok (.latLon it)) ∧
    computedPoints t (.latLon it) = 12 ∧ sectNumber sampleGrid.payload 7 10 = 12 := by
  obtain ⟨it, hit, -⟩ := Outcome.exists_of_ok? (x := (⟨4, 3, 45000000, 350000000, 15000000, 20000000, 0⟩ : LatLonGrid).latlons FloatOps.exact)
    (f := fun _ => ()) (b := ()) (by decide +kernel)
  exact ⟨_, it, by decide +kernel, .latLon hit, rfl, by decide +kernel⟩

end Grib.Props
