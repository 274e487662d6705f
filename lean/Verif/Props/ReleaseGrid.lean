import Verif.Lemmas.ReleaseGrid
import Verif.Props.GridOutcome
import Verif.Props.ReleaseDecode
import Verif.Props.Jpeg

/-! # C84: grids in a release build -/

namespace Grib.Props

open Grib.Model Grib.Spec

variable {ε F G : Type}

/-! ## Where a debug build does not panic -/

theorem sectNumber_lt4 (p : List UInt8) (a : Nat) : sectNumber p a (a + 3) < 2 ^ 32 := by
  unfold sectNumber
  have h := number_lt p (a - 6) (a + 3 + 1 - a)
  rw [show a + 3 + 1 - a = 4 by omega] at h ⊢
  exact h

theorem tryFrom_shape_lt {d : GridDefinition} {t : GridTemplate} (h : GridTemplate.tryFrom d = .ok t) :
    t.gridShape.1 < 2 ^ 32 ∧ t.gridShape.2 < 2 ^ 32 := by
  rw [(C63_octets d t h).1]
  exact ⟨sectNumber_lt4 _ 31, sectNumber_lt4 _ 35⟩

/-- C84. For every section 3: if `ij()` or `latlons()` does not panic in a debug build, it has the same result in a release
build; and what an iterator over coordinates returns, call by call, is the same as long as a debug build does not panic. -/
theorem C84_same (o : GridOps G F) (d : GridDefinition) :
    (subIj d ≠ .panic → Rel.subIj d = subIj d) ∧
    (subLatlons o d ≠ .panic → Rel.subLatlons o d = subLatlons o d) ∧
    ∀ (it : RegularIter F) (n : Nat), it.drain n ≠ .panic → Rel.regularDrain n it = it.drain n := by
  have of {α : Type} {a b : Outcome GribError α} (h : Rel.Fol a b) (hn : a ≠ .panic) : b = a := h.resolve_left hn
  refine ⟨of ?_, of ?_, fun it n h => (Rel.regularDrain_fol n it).resolve_left h⟩
  · unfold subIj Rel.subIj
    refine Rel.Fol.bind (.refl _) (fun n => ?_)
    cases ht : GridTemplate.tryFrom d with
    | panic => exact .inl rfl
    | err e => exact .refl _
    | ok t =>
      obtain ⟨hi, hj⟩ := tryFrom_shape_lt ht
      simp only [Outcome.bind_ok]
      cases hij : t.ij with
      | panic => exact .inl rfl
      | err e => exact .refl _
      | ok ij =>
        have := gridIj_ok hij
        subst this
        simp only [Outcome.bind_ok]
        rw [GridIter.sizeHint_new, Rel.gridSizeHint_new _ hi hj]
        exact .refl _
  · unfold subLatlons Rel.subLatlons
    refine Rel.Fol.bind (.refl _) (fun n => ?_)
    cases ht : GridTemplate.tryFrom d with
    | panic => exact .inl rfl
    | err e => exact .refl _
    | ok t =>
      obtain ⟨hi, hj⟩ := tryFrom_shape_lt ht
      simp only [Outcome.bind_ok]
      rcases Rel.templateLatlons_fol o t hi hj with h | h
      · rw [h]; exact .inl rfl
      · rw [h]
        cases hl : t.latlons o with
        | panic => exact .inl rfl
        | err e => exact .refl _
        | ok pts =>
          simp only [Outcome.bind_ok]
          cases pts with
          | lambert ps => exact .refl _
          | latLon it =>
            obtain ⟨hij, -, -⟩ := latlons_regular o t it hl
            have h1 : (GridPoints.latLon it).sizeHint = (.ok (t.gridShape.1 * t.gridShape.2) : Outcome GribError _) := by
              show it.ij.sizeHint = _
              rw [hij, GridIter.sizeHint_new]
            have h2 : Rel.pointsSizeHint (.latLon it) = t.gridShape.1 * t.gridShape.2 := by
              show Rel.gridSizeHint it.ij = _
              rw [hij, Rel.gridSizeHint_new _ hi hj]
            rw [h1, h2]
            exact .refl _

example : Rel.subIj sampleGrid = .ok (GridIter.new 4 3 0) := by
  rw [(C84_same (⟨FloatOps.exact, toyGauss, none⟩ : GridOps (Option Rat) (Option Rat)) sampleGrid).1 (by decide +kernel)]
  decide +kernel

/-! ## The order of the points -/

/-- C84. Iterating over indices is the same in both builds, for all grids, empty ones included, and any number of calls: in
a debug build `next` never panics. -/
theorem C84_index_iterator (ni nj mode n : Nat) :
    (GridIter.new ni nj mode).calls n = (.ok (Rel.gridCalls n (GridIter.new ni nj mode)) : Outcome ε _) :=
  Rel.calls_new ni nj mode n

/-- C84. So the points of a grid come in the order of its scanning mode, and the size hint is the number of points that are
still to come. -/
theorem C84_order (ni nj mode k : Nat) (hi : 0 < ni) (hj : 0 < nj) (hi32 : ni < 2 ^ 32) (hj32 : nj < 2 ^ 32) (hk : k ≤ ni * nj) :
    (Rel.gridCalls k (GridIter.new ni nj mode)).1 = (List.range k).map (visit ni nj mode) ∧
    Rel.gridSizeHint (Rel.gridCalls k (GridIter.new ni nj mode)).2 = ni * nj - k := by
  obtain ⟨it, h1, h2⟩ := C32_hint_partial (ε := Empty) ni nj mode k hi hj hk
  rw [C84_index_iterator] at h1
  have h1 := Outcome.ok.inj h1
  rw [h1]
  refine ⟨rfl, ?_⟩
  have hit : it = GridIter.at ni nj mode k := by
    have := GridIter.calls_at (ε := Empty) (ni := ni) (nj := nj) (mode := mode) k 0 (by omega)
    rw [← GridIter.new_eq, C84_index_iterator, h1, Nat.zero_add] at this
    exact (Prod.mk.inj (Outcome.ok.inj this)).2
  have hlt : ni * nj < USIZE := by
    calc ni * nj ≤ (2 ^ 32 - 1) * (2 ^ 32 - 1) := Nat.mul_le_mul (by omega) (by omega)
      _ < USIZE := by decide
  have := Rel.gridSizeHint_fol (ε := Empty) it (by
    rw [hit]
    unfold GridIter.at
    dsimp only
    refine lt_of_le_of_lt (Nat.mul_le_mul_right _ (Nat.sub_le _ _)) ?_
    rw [lines_mul]; exact hlt)
  rcases this with h | h
  · rw [h] at h2; cases h2
  · rw [h2] at h; exact Outcome.ok.inj h

example : (Rel.gridCalls 7 (GridIter.new 3 2 0b00010000)).1 = [(0, 0), (1, 0), (2, 0), (2, 1), (1, 1), (0, 1)] := by decide
example : Rel.gridSizeHint (Rel.gridCalls 4 (GridIter.new 3 2 0)).2 = 2 := by decide

/-- C84 fails: with lines but no points in them, after `k` calls (each of which returned a point) the size hint is
`2^64 - k`. -/
theorem C84_hint_fails (ni nj mode k : Nat) (he : OnlyEmptyLines ni nj mode) (hi32 : ni < 2 ^ 32) (hj32 : nj < 2 ^ 32)
    (hk1 : 1 ≤ k) (hk : k ≤ 2 ^ 64) :
    (Rel.gridCalls k (GridIter.new ni nj mode)).1.length = k ∧
    Rel.gridSizeHint (Rel.gridCalls k (GridIter.new ni nj mode)).2 = 2 ^ 64 - k := by
  have hl : lines ni nj mode ≠ 0 ∧ perLine ni nj mode = 0 := by
    unfold OnlyEmptyLines at he
    unfold lines perLine
    cases hj : jConsecutive mode <;> rw [hj] at he <;> simp at he ⊢ <;> omega
  have hat : GridIter.new ni nj mode = ⟨lines ni nj mode, 0, mode, 0, 0, true⟩ := by
    rw [GridIter.new_eq]
    unfold GridIter.at; rw [hl.2]; simp
  rw [hat]
  have key : ∀ n c, (Rel.gridCalls n ⟨lines ni nj mode, 0, mode, 0, c, true⟩).1.length = n ∧
      (Rel.gridCalls n ⟨lines ni nj mode, 0, mode, 0, c, true⟩).2 = ⟨lines ni nj mode, 0, mode, 0, c + n, true⟩ := by
    intro n
    induction n with
    | zero => intro c; exact ⟨rfl, rfl⟩
    | succ n ih =>
      intro c
      have hn : Rel.gridNext ⟨lines ni nj mode, 0, mode, 0, c, true⟩ =
          (some (if ScanningMode.isConsecutiveForI mode then (c, 0) else (0, c)), ⟨lines ni nj mode, 0, mode, 0, c + 1, true⟩) := by
        unfold Rel.gridNext
        rw [if_neg (by simpa using hl.1.symm)]
        simp
      obtain ⟨h1, h2⟩ := ih (c + 1)
      unfold Rel.gridCalls
      rw [hn]
      dsimp only
      refine ⟨?_, ?_⟩
      · rw [List.length_append, h1]; simp; omega
      · rw [h2, show c + 1 + n = c + (n + 1) by omega]
  refine ⟨(key k 0).1, ?_⟩
  rw [(key k 0).2]
  unfold Rel.gridSizeHint
  dsimp only
  rw [Nat.mul_zero, Nat.zero_mod]
  unfold Rel.usub
  rw [if_neg (by omega)]
  show 0 + USIZE - (0 + k) = 2 ^ 64 - k
  rw [show USIZE = 2 ^ 64 from rfl]
  omega

example : OnlyEmptyLines 0 3 0 := by unfold OnlyEmptyLines; decide
example : Rel.gridSizeHint (Rel.gridCalls 5 (GridIter.new 0 3 0)).2 = 18446744073709551611 := by decide

/-! ## Acceptance -/

theorem isConsistentForJ_release {a b : Int} (mode : ScanningMode) (ha : fitsI32 a) (hb : fitsI32 b) :
    Rel.isConsistentForJ a b mode = true ↔ (agreesJ a b mode ↔ fitsI32 (b - a)) := by
  have h := Rel.wrap32_pos ha hb
  unfold Rel.isConsistentForJ agreesJ
  rw [mode_positiveJ]
  unfold fitsI32
  by_cases h1 : 0 < Rel.wrap32 (b - a)
  · have h2 := h.1 h1
    cases positiveJ mode <;> simp [h1] <;> omega
  · have h2 := fun x => h1 (h.2 x)
    cases positiveJ mode <;> simp [h1] <;> omega

/-- C84. Coordinates of a latitude/longitude grid in a release build: never a panic.  Where the difference of the end
latitudes does not fit a signed 32-bit number the decision about the scanning direction is the wrong way round: the grid is
refused if the latitudes agree with the scanning mode, and accepted if they contradict it. -/
theorem C84_latlon (ops : FloatOps F) (g : LatLonGrid) (h1 : fitsI32 g.firstLat) (h2 : fitsI32 g.lastLat) :
    Comes (Rel.latLonLatlons ops g)
      ((agreesJ g.firstLat g.lastLat g.mode ↔ fitsI32 (g.lastLat - g.firstLat)) ∧ g.mode % 16 = 0)
      False
      (fun e => (e = .invalidValueError ∧ ¬ (agreesJ g.firstLat g.lastLat g.mode ↔ fitsI32 (g.lastLat - g.firstLat))) ∨
        (e = .notSupported ∧ (agreesJ g.firstLat g.lastLat g.mode ↔ fitsI32 (g.lastLat - g.firstLat)) ∧ g.mode % 16 ≠ 0)) := by
  rw [← isConsistentForJ_release g.mode h1 h2]
  by_cases hc : Rel.isConsistentForJ g.firstLat g.lastLat g.mode = true
  swap
  · have : Rel.latLonLatlons ops g = .err .invalidValueError := by unfold Rel.latLonLatlons; rw [if_pos hc]
    exact .of_err this (by tauto) (by tauto) (by tauto)
  by_cases hm : g.mode % 16 = 0
  · have : ∃ it, Rel.latLonLatlons ops g = .ok it := by
      unfold Rel.latLonLatlons gridIj
      rw [if_neg (by simpa using hc), mode_unsupported, if_neg (by simpa using hm)]
      exact ⟨_, rfl⟩
    obtain ⟨it, this⟩ := this
    exact .of_ok this ⟨hc, hm⟩ id (by tauto)
  · have : Rel.latLonLatlons ops g = .err .notSupported := by
      unfold Rel.latLonLatlons gridIj
      rw [if_neg (by simpa using hc), mode_unsupported, if_pos (by simpa using hm)]; rfl
    exact .of_err this (by tauto) (by tauto) (by tauto)

/-- Latitudes from 1100° to -1100° with rows scanned northwards: accepted. -/
example : ∃ it, Rel.latLonLatlons FloatOps.exact
    { sampleLatLon with firstLat := 1100000000, lastLat := -1100000000, mode := 0b01000000 } = .ok it :=
  (C84_latlon FloatOps.exact { sampleLatLon with firstLat := 1100000000, lastLat := -1100000000, mode := 0b01000000 }
    (by unfold fitsI32; decide) (by unfold fitsI32; decide)).ok_iff.2 (by unfold agreesJ fitsI32; decide +kernel)

/-- C84. Coordinates of a Gaussian grid in a release build: never a panic either. -/
theorem C84_gaussian (g : GaussOps G F) (ops : FloatOps F) (d : GaussianGrid) (h1 : fitsI32 d.firstLat) (h2 : fitsI32 d.lastLat) :
    Comes (Rel.gaussianLatlons g ops d)
      ((agreesJ d.firstLat d.lastLat d.mode ↔ fitsI32 (d.lastLat - d.firstLat)) ∧ d.mode % 16 = 0 ∧
        ∃ lats, Rel.gaussianLatitudes g d.nj = .ok lats)
      False
      (fun e => (e = .invalidValueError ∧ ¬ (agreesJ d.firstLat d.lastLat d.mode ↔ fitsI32 (d.lastLat - d.firstLat))) ∨
        ((agreesJ d.firstLat d.lastLat d.mode ↔ fitsI32 (d.lastLat - d.firstLat)) ∧ ((e = .notSupported ∧ d.mode % 16 ≠ 0) ∨
          (e = .unknown ∧ d.mode % 16 = 0 ∧ ¬ ∃ lats, Rel.gaussianLatitudes g d.nj = .ok lats)))) := by
  rw [← isConsistentForJ_release d.mode h1 h2]
  by_cases hc : Rel.isConsistentForJ d.firstLat d.lastLat d.mode = true
  swap
  · have : Rel.gaussianLatlons g ops d = .err .invalidValueError := by unfold Rel.gaussianLatlons; rw [if_pos hc]
    exact .of_err this (by tauto) (by tauto) (by tauto)
  by_cases hm : d.mode % 16 = 0
  swap
  · have : Rel.gaussianLatlons g ops d = .err .notSupported := by
      unfold Rel.gaussianLatlons gridIj
      rw [if_neg (by simpa using hc), mode_unsupported, if_pos (by simpa using hm)]; rfl
    exact .of_err this (by tauto) (by tauto) (by tauto)
  have key : Rel.gaussianLatlons g ops d = Rel.gaussianLatitudes g d.nj >>= fun lat =>
      .ok ⟨(if d.mode.scansPositivelyForJ then lat.reverse else lat).map g.toF32,
        Rel.evenlySpacedLongitudes ops d.firstLon d.lastLon (Rel.pred32 d.ni) d.mode, GridIter.new d.ni d.nj d.mode⟩ := by
    unfold Rel.gaussianLatlons gridIj
    rw [if_neg (by simpa using hc), mode_unsupported, if_neg (by simpa using hm), Outcome.bind_ok]
  have tot : (∃ lats, Rel.gaussianLatitudes g d.nj = .ok lats) ∨ Rel.gaussianLatitudes g d.nj = .err .unknown := by
    unfold Rel.gaussianLatitudes
    split
    · exact .inr rfl
    · exact .inl ⟨_, rfl⟩
  rcases tot with ⟨lats, h⟩ | h
  · rw [h, Outcome.bind_ok] at key
    exact .of_ok key ⟨hc, hm, lats, h⟩ id (by
      rintro e (he | ⟨-, he | he⟩)
      · exact he.2 hc
      · exact he.2 hm
      · exact he.2.2 ⟨lats, h⟩)
  · have hn : ¬ ∃ lats, Rel.gaussianLatitudes g d.nj = .ok lats := by
      rintro ⟨l, hl⟩; rw [h] at hl; cases hl
    rw [h] at key
    exact .of_err key (by tauto) id (by tauto)

theorem sectSigned_fits {p : List UInt8} {a : Nat} (h : a - 6 + 4 ≤ p.length) : fitsI32 (sectSigned p a (a + 3)) := by
  unfold sectSigned
  rw [show a + 3 + 1 - a = 4 by omega, ← asGribInt_number (n := 4) h (by omega)]
  have := number_lt p (a - 6) 4
  generalize number p (a - 6) 4 = v at *
  unfold asGribInt fitsI32
  split <;> omega

/-- C84. So in a release build, for every section 3: `ij()` panics exactly if the section is shorter than its template, and
`latlons()` panics (or never returns) exactly if it is, or if the points of a projected grid are never all collected (C63). -/
theorem C84_panics (o : GridOps G F) (d : GridDefinition) :
    (Rel.subIj d = .panic ↔ GridTemplate.tryFrom d = .panic) ∧
    (Rel.subLatlons o d = .panic ↔ GridTemplate.tryFrom d = .panic ∨ ∃ p, o.proj = some p ∧
      ((∃ g, GridTemplate.tryFrom d = .ok (.template20 g) ∧ g.latlons p = .panic) ∨
        (∃ g, GridTemplate.tryFrom d = .ok (.template30 g) ∧ g.latlons p = .panic))) := by
  by_cases h9 : 9 ≤ d.payload.length
  swap
  · have ht : GridTemplate.tryFrom d = .panic := (C63_definition d).panic_iff.2 (.inl (by omega))
    have h1 : Rel.subIj d = .panic := by
      unfold Rel.subIj
      rw [ht]
      unfold GridDefinition.numPoints
      exact bind_panic_of_noErr (fun e => rdAs_noErr _ _ _ e) (fun _ => rfl)
    have h2 : Rel.subLatlons o d = .panic := by
      unfold Rel.subLatlons
      rw [ht]
      unfold GridDefinition.numPoints
      exact bind_panic_of_noErr (fun e => rdAs_noErr _ _ _ e) (fun _ => rfl)
    simp [ht, h1, h2]
  unfold Rel.subIj Rel.subLatlons GridDefinition.numPoints
  rw [rdAs_number (by omega), Outcome.bind_ok, Outcome.bind_ok]
  cases ht : GridTemplate.tryFrom d with
  | panic => simp
  | err e => simp
  | ok t =>
    simp only [Outcome.bind_ok]
    constructor
    · simp only [reduceCtorEq, iff_false]
      unfold GridTemplate.ij gridIj
      split
      · simp
      · simp only [Outcome.bind_ok]; split <;> simp
    · have hbind : ∀ x : Outcome GribError (GridPoints F), (x >>= fun points =>
          if number d.payload 1 4 = Rel.pointsSizeHint points then Outcome.ok points else .err .invalidValueError) = .panic ↔ x = .panic := by
        intro x
        cases x with
        | ok a => simp only [Outcome.bind_ok, reduceCtorEq, iff_false]; split <;> simp
        | err e => simp
        | panic => simp
      rw [hbind]
      obtain ⟨-, hc⟩ := (C63_definition d).ok_iff.1 ⟨t, ht⟩
      cases t with
      | template0 g =>
        have hg : fitsI32 g.firstLat ∧ fitsI32 g.lastLat := by
          rcases hc with hc | hc | hc | hc
          · rw [C36_latlon d hc.2 hc.1] at ht
            cases ht
            exact ⟨sectSigned_fits (a := 47) (by omega), sectSigned_fits (a := 56) (by omega)⟩
          · rw [C36_polar d hc.2 hc.1] at ht; cases ht
          · rw [C36_lambert d hc.2 hc.1] at ht; cases ht
          · rw [C36_gaussian d hc.2 hc.1] at ht; cases ht
        have hp := (C84_latlon o.single g hg.1 hg.2).panic_iff
        unfold Rel.templateLatlons
        cases hx : Rel.latLonLatlons o.single g with
        | panic => exact (hp.1 hx).elim
        | ok a => dsimp only; rw [hx]; simp
        | err e => dsimp only; rw [hx]; simp
      | template40 g =>
        have hg : fitsI32 g.firstLat ∧ fitsI32 g.lastLat := by
          rcases hc with hc | hc | hc | hc
          · rw [C36_latlon d hc.2 hc.1] at ht; cases ht
          · rw [C36_polar d hc.2 hc.1] at ht; cases ht
          · rw [C36_lambert d hc.2 hc.1] at ht; cases ht
          · rw [C36_gaussian d hc.2 hc.1] at ht
            cases ht
            exact ⟨sectSigned_fits (a := 47) (by omega), sectSigned_fits (a := 56) (by omega)⟩
        have hp := (C84_gaussian o.gauss o.single g hg.1 hg.2).panic_iff
        unfold Rel.templateLatlons
        cases hx : Rel.gaussianLatlons o.gauss o.single g with
        | panic => exact (hp.1 hx).elim
        | ok a => dsimp only; rw [hx]; simp
        | err e => dsimp only; rw [hx]; simp
      | template20 g =>
        unfold Rel.templateLatlons
        cases hp : o.proj with
        | none => simp
        | some p =>
          dsimp only
          cases hx : g.latlons p <;> simp [hx]
      | template30 g =>
        unfold Rel.templateLatlons
        cases hp : o.proj with
        | none => simp
        | some p =>
          dsimp only
          cases hx : g.latlons p <;> simp [hx]

example : (Rel.subLatlons (⟨FloatOps.exact, toyGauss, none⟩ : GridOps (Option Rat) (Option Rat)) ⟨sampleGrid.payload.take 66⟩ = .panic) :=
  ((C84_panics _ _).2).2 (.inl (by decide +kernel))

/-! ## Grids without rows or columns -/

theorem release_lon_length (ops : FloatOps F) (a b : Int) (n : Nat) (mode : ScanningMode) :
    (Rel.evenlySpacedLongitudes ops a b n mode).length = n + 1 := by
  unfold Rel.evenlySpacedLongitudes
  dsimp only
  split
  · rw [evenlySpacedDegrees_length]
  · rw [List.length_map, evenlySpacedDegrees_length]

/-- Draining an iterator over empty lines: as many points as there are coordinates along a line, then a panic. -/
theorem release_empty_lines {ni nj mode : Nat} (he : OnlyEmptyLines ni nj mode) (lat lon : List F) (n limit : Nat)
    (hl : if jConsecutive mode then lat.length = limit ∧ 0 < lon.length else lon.length = limit ∧ 0 < lat.length) :
    (n ≤ limit → ∃ ps, Rel.regularDrain n ⟨lat, lon, GridIter.new ni nj mode⟩ = .more ps ∧ ps.length = n) ∧
    (limit < n → Rel.regularDrain n ⟨lat, lon, GridIter.new ni nj mode⟩ = .panic) := by
  have hle : lines ni nj mode ≠ 0 ∧ perLine ni nj mode = 0 := by
    unfold OnlyEmptyLines at he
    unfold lines perLine
    cases hj : jConsecutive mode <;> rw [hj] at he <;> simp at he ⊢ <;> omega
  have hat : GridIter.new ni nj mode = ⟨lines ni nj mode, 0, mode, 0, 0, true⟩ := by
    rw [GridIter.new_eq]
    unfold GridIter.at; rw [hle.2]; simp
  rw [hat]
  have hn : ∀ c, Rel.gridNext ⟨lines ni nj mode, 0, mode, 0, c, true⟩ =
      (some (if ScanningMode.isConsecutiveForI mode then (c, 0) else (0, c)), ⟨lines ni nj mode, 0, mode, 0, c + 1, true⟩) := by
    intro c
    unfold Rel.gridNext
    rw [if_neg (by simpa using hle.1.symm)]
    simp
  have hstep : ∀ c, (c < limit → ∃ p, (Rel.regularNext ⟨lat, lon, ⟨lines ni nj mode, 0, mode, 0, c, true⟩⟩ : Outcome Empty _) =
        .ok (some p, ⟨lat, lon, ⟨lines ni nj mode, 0, mode, 0, c + 1, true⟩⟩)) ∧
      (limit ≤ c → (Rel.regularNext ⟨lat, lon, ⟨lines ni nj mode, 0, mode, 0, c, true⟩⟩ : Outcome Empty _) = .panic) := by
    intro c
    unfold Rel.regularNext
    dsimp only
    rw [hn, mode_consecutive]
    dsimp only
    cases hj : jConsecutive mode
    · rw [hj] at hl
      simp only [Bool.false_eq_true, if_false] at hl
      simp only [Bool.not_false, if_true]
      rw [List.getElem?_eq_getElem (show 0 < lat.length by omega)]
      refine ⟨fun h => ?_, fun h => ?_⟩
      · rw [List.getElem?_eq_getElem (show c < lon.length by omega)]
        exact ⟨_, rfl⟩
      · rw [List.getElem?_eq_none (show lon.length ≤ c by omega)]; rfl
    · rw [hj] at hl
      simp only [if_true] at hl
      simp only [Bool.not_true, Bool.false_eq_true, if_false]
      rw [List.getElem?_eq_getElem (show 0 < lon.length by omega)]
      refine ⟨fun h => ?_, fun h => ?_⟩
      · rw [List.getElem?_eq_getElem (show c < lat.length by omega)]
        exact ⟨_, rfl⟩
      · rw [List.getElem?_eq_none (show lat.length ≤ c by omega)]; rfl
  have key : ∀ n c, (c + n ≤ limit → ∃ ps, Rel.regularDrain n ⟨lat, lon, ⟨lines ni nj mode, 0, mode, 0, c, true⟩⟩ = .more ps ∧ ps.length = n) ∧
      (c ≤ limit → limit < c + n → Rel.regularDrain n ⟨lat, lon, ⟨lines ni nj mode, 0, mode, 0, c, true⟩⟩ = .panic) := by
    intro n
    induction n with
    | zero => intro c; exact ⟨fun _ => ⟨[], rfl, rfl⟩, fun h1 h2 => (by omega)⟩
    | succ n ih =>
      intro c
      unfold Rel.regularDrain
      refine ⟨fun h => ?_, fun h1 h2 => ?_⟩
      · obtain ⟨p, hp⟩ := (hstep c).1 (by omega)
        obtain ⟨ps, h3, h4⟩ := (ih (c + 1)).1 (by omega)
        rw [hp]
        dsimp only
        rw [h3]
        exact ⟨_, rfl, by rw [List.length_cons, h4]⟩
      · rcases Nat.lt_or_ge c limit with h | h
        · obtain ⟨p, hp⟩ := (hstep c).1 h
          rw [hp]
          dsimp only
          rw [(ih (c + 1)).2 (by omega) (by omega)]
          rfl
        · rw [(hstep c).2 h]
  refine ⟨fun h => (key n 0).1 (by omega), fun h => (key n 0).2 (by omega) (by omega)⟩

/-- C84 fails for grids without columns (or, with columns as lines, without rows): a release build accepts them with no
points announced, computes `2^32` coordinates along the empty lines, returns `2^32` points, and panics then. -/
theorem C84_empty_fails (ops : FloatOps F) (g : LatLonGrid) (it : RegularIter F) (h : Rel.latLonLatlons ops g = .ok it)
    (he : OnlyEmptyLines g.ni g.nj g.mode) (hi : g.ni < 2 ^ 32) (hj : g.nj < 2 ^ 32) :
    Rel.gridSizeHint it.ij = 0 ∧
    (∀ n ≤ 2 ^ 32, ∃ ps, Rel.regularDrain n it = .more ps ∧ ps.length = n) ∧
    ∀ n > 2 ^ 32, Rel.regularDrain n it = .panic := by
  have hit : it = ⟨evenlySpacedDegrees ops (ops.ofInt g.firstLat) (ops.ofInt g.lastLat) (Rel.pred32 g.nj),
      Rel.evenlySpacedLongitudes ops g.firstLon g.lastLon (Rel.pred32 g.ni) g.mode, GridIter.new g.ni g.nj g.mode⟩ := by
    unfold Rel.latLonLatlons at h
    split at h
    · cases h
    · obtain ⟨ij, hij, h⟩ := Outcome.bind_eq_ok h
      rw [gridIj_ok hij] at h
      exact (Outcome.ok.inj h).symm
  have hz : g.ni * g.nj = 0 := by
    unfold OnlyEmptyLines at he
    cases hj : jConsecutive g.mode <;> rw [hj] at he <;> simp at he <;> rw [he.2] <;> simp
  have hl := fun n => release_empty_lines he
    (evenlySpacedDegrees ops (ops.ofInt g.firstLat) (ops.ofInt g.lastLat) (Rel.pred32 g.nj))
    (Rel.evenlySpacedLongitudes ops g.firstLon g.lastLon (Rel.pred32 g.ni) g.mode) n (2 ^ 32) (by
      rw [evenlySpacedDegrees_length, release_lon_length]
      unfold OnlyEmptyLines at he
      cases hj : jConsecutive g.mode <;> rw [hj] at he <;> simp at he ⊢ <;> rw [he.2, Rel.pred32_zero])
  subst hit
  exact ⟨by rw [Rel.gridSizeHint_new _ hi hj]; exact hz, fun n hn => (hl n).1 hn, fun n hn => (hl n).2 hn⟩

example : ∃ it, Rel.latLonLatlons FloatOps.exact { sampleLatLon with ni := 0 } = .ok it :=
  (C84_latlon FloatOps.exact { sampleLatLon with ni := 0 } (by unfold fitsI32; decide) (by unfold fitsI32; decide)).ok_iff.2
    (by unfold agreesJ fitsI32; decide +kernel)

/-- C84. With no rows at all (rows as lines) there are no points; a release build nevertheless computes `2^32` latitudes
for them. -/
theorem C84_no_rows (ops : FloatOps F) (g : LatLonGrid) (it : RegularIter F) (h : Rel.latLonLatlons ops g = .ok it)
    (hj : g.nj = 0) : it.lat.length = 2 ^ 32 ∧ (jConsecutive g.mode = false → Rel.regularDrain 1 it = .done []) := by
  unfold Rel.latLonLatlons at h
  split at h
  · cases h
  · obtain ⟨ij, hij, h⟩ := Outcome.bind_eq_ok h
    rw [gridIj_ok hij] at h
    have h := Outcome.ok.inj h
    rw [← h]
    refine ⟨by dsimp only; rw [evenlySpacedDegrees_length, hj, Rel.pred32_zero]; norm_num, fun hm => ?_⟩
    unfold Rel.regularDrain Rel.regularNext Rel.gridNext
    rw [if_pos (by
      dsimp only
      rw [GridIter.new_eq]
      unfold GridIter.at lines
      dsimp only
      rw [hm, hj]; simp)]

/-! ## Longitudes and latitudes far out of range -/

/-- C84 fails: longitudes eastwards from -2000° to 2000°, whose difference does not fit 32 bits, are taken for longitudes
that pass the meridian of 0°; in a release build the two columns are at -1640° and 1640°. -/
theorem C84_longitudes_fails :
    (Model.evenlySpacedLongitudes FloatOps.exact (-2000000000) 2000000000 1 0 : Outcome GribError _) = .panic ∧
    Rel.evenlySpacedLongitudes FloatOps.exact (-2000000000) 2000000000 1 0 = [some (-1640), some 1640] := by
  decide +kernel

theorem exact_legendre_none (steps k : Nat) (p : Option Rat × Option Rat) (h : p.2 = none) :
    (legendreLoop FloatOps.exact none steps k p).2 = none := by
  induction steps generalizing k p with
  | zero => exact h
  | succ n ih =>
    obtain ⟨p0, p1⟩ := p
    dsimp only at h
    subst h
    unfold legendreLoop
    dsimp only
    apply ih
    dsimp only [FloatOps.exact]
    simp

theorem exact_step_none (n : Nat) : legendreStep FloatOps.exact n none = none := by
  unfold legendreStep legendrePolynomial
  have := exact_legendre_none (n - 1) 2 (FloatOps.exact.ofInt 1, none) rfl
  generalize legendreLoop FloatOps.exact none (n - 1) 2 (FloatOps.exact.ofInt 1, none) = x at this
  obtain ⟨a, b⟩ := x
  dsimp only at this
  subst this
  dsimp only [FloatOps.exact]
  simp

theorem exact_findRoot_none (small : Option Rat → Bool) (hs : small none = false) (f : Option Rat → Option Rat)
    (hf : f none = none) (count : Nat) : (findRootLoop FloatOps.exact.sub small f count none).1 = none := by
  induction count with
  | zero =>
    unfold findRootLoop
    rw [hf]
    dsimp only
    rw [if_neg (by rw [hs]; simp)]
  | succ n ih =>
    unfold findRootLoop
    rw [hf]
    dsimp only
    rw [if_neg (by rw [hs]; simp)]
    exact ih

/-- When `8·n³` is a multiple of `2^64`, every root comes out as not a number in a release build. -/
theorem rel_gaussian_none (g : GaussOps (Option Rat) F) (hg : g.ops = FloatOps.exact) (hs : g.small none = false) (n : Nat) (hn : 0 < n)
    (hz : (8 * n * n * n) % USIZE = 0) : Rel.gaussianLatitudes g n = .err .unknown := by
  have hroots : Rel.legendreRoots g n = List.replicate n none := by
    unfold Rel.legendreRoots
    dsimp only
    rw [hz, hg]
    apply List.eq_replicate_iff.2
    refine ⟨by simp, ?_⟩
    intro x hx
    obtain ⟨i, -, rfl⟩ := List.mem_map.1 hx
    have hc : ∀ a y : Option Rat, FloatOps.exact.mul (FloatOps.exact.add a (FloatOps.exact.div (FloatOps.exact.lit 1 0) (FloatOps.exact.ofInt ((0 : Nat) : Int)))) y = none := by
      intro a y
      dsimp only [FloatOps.exact]
      simp
    rw [hc]
    exact exact_findRoot_none g.small hs _ (exact_step_none _) _
  unfold Rel.gaussianLatitudes
  obtain ⟨m, rfl⟩ : ∃ m, n = m + 1 := ⟨n - 1, by omega⟩
  rw [hroots, List.map_replicate, List.replicate_succ]
  rfl

/-- C84. From 1321123 rows on, where a debug build panics, a release build computes the first guesses from `8·n³` modulo
`2^64`.  For `2^21` rows, and every other multiple of that, this is zero: the guesses are not finite and the grid is refused
(in exact arithmetic, where a division by zero is not a number). -/
theorem C84_rows (g : GaussOps (Option Rat) F) (hg : g.ops = FloatOps.exact) (hs : g.small none = false) (k : Nat) (hk : 0 < k) :
    Model.gaussianLatitudes g (k * 2 ^ 21) = .panic ∧ Rel.gaussianLatitudes g (k * 2 ^ 21) = .err .unknown := by
  refine ⟨C35_overflow_fails g _ (by omega), ?_⟩
  obtain ⟨n, hn⟩ : ∃ n, n = k * 2 ^ 21 := ⟨_, rfl⟩
  rw [← hn]
  refine rel_gaussian_none g hg hs n (by omega) ?_
  rw [hn, show 8 * (k * 2 ^ 21) * (k * 2 ^ 21) * (k * 2 ^ 21) = (k * k * k * 4) * 2 ^ 64 by ring]
  exact Nat.mul_mod_left _ _

example : toyGauss.ops = FloatOps.exact ∧ toyGauss.small none = false := ⟨rfl, rfl⟩

/-! ## Counts -/

/-- C84. The size hint of an iterator over submessages is the number of those still to come; but after `nth(n)` beyond the
end, where a debug build panics, it is `2^64` minus the number of positions beyond the end. -/
theorem C84_submessages (it : SubIter) (hp : it.pos < 2 ^ 64) :
    (it.pos ≤ it.context.submessages.length → it.sizeHint = .ok (Rel.subIterSizeHint it) ∧
      Rel.subIterSizeHint it = it.context.submessages.length - it.pos) ∧
    (it.context.submessages.length < it.pos → it.sizeHint = .panic ∧
      Rel.subIterSizeHint it = 2 ^ 64 - (it.pos - it.context.submessages.length)) := by
  unfold SubIter.sizeHint Rel.subIterSizeHint Rel.usub
  refine ⟨fun h => ?_, fun h => ?_⟩
  · rw [if_neg (by omega), if_pos h]; exact ⟨rfl, rfl⟩
  · rw [if_pos h, if_neg (by omega), show USIZE = 2 ^ 64 from rfl]
    exact ⟨rfl, by omega⟩

/-- C84. `gribber list --dump` on a file without submessages, where a debug build panics, expects `2^64 - 1` lines in a
release build. -/
theorem C84_list_dump (g : Grib2) (h : g.submessages = []) :
    Cli.listNumLines true g = .panic ∧ Rel.listNumLines true g = 2 ^ 64 - 1 := by
  have hl : g.iter.context.submessages.length = 0 := by
    show g.submessages.length = 0
    rw [h]; rfl
  constructor
  · unfold Cli.listNumLines SubIter.sizeHint
    rw [hl]
    rfl
  · unfold Rel.listNumLines Rel.subIterSizeHint
    rw [hl]
    rfl

/-- C84. In all other cases `list` expects the same number of lines in both builds. -/
theorem C84_list_lines (dump : Bool) (g : Grib2) (h : Cli.listNumLines dump g ≠ .panic) (hn : 10 * g.submessages.length + 1 < 2 ^ 64) :
    Cli.listNumLines dump g = .ok (Rel.listNumLines dump g) := by
  have hl : g.iter.context.submessages.length = g.submessages.length := rfl
  have hp : g.iter.pos = 0 := rfl
  unfold Cli.listNumLines SubIter.sizeHint at h ⊢
  unfold Rel.listNumLines Rel.subIterSizeHint Rel.usub
  rw [hl, hp] at h ⊢
  simp only [Nat.not_lt_zero, if_false, Nat.sub_zero, Outcome.bind_ok, Nat.zero_le, if_true] at h ⊢
  cases dump with
  | false =>
    simp only [Bool.false_eq_true, if_false]
    rw [Nat.mod_eq_of_lt (by rw [show USIZE = 2 ^ 64 from rfl]; omega)]
  | true =>
    simp only [if_true] at h ⊢
    rw [Nat.mod_eq_of_lt (by rw [show USIZE = 2 ^ 64 from rfl]; omega)]
    by_cases h1 : 1 ≤ (8 + 2) * g.submessages.length
    · rw [if_pos h1]
      simp only [h1, decide_true]
      rfl
    · rw [decide_eq_false h1] at h
      exact absurd rfl h

/-! ## JPEG 2000 (C83) -/

/-- C83. Decoding a JPEG 2000 code stream in a release build: whatever the OpenJPEG library does, the result is that of a
debug build unless that panics (or would read beyond the end of the image). -/
theorem C83_jpeg (lib : OpjLib) (sect7 : List UInt8) (h : Model.decodeJp2 lib sect7 ≠ .panic)
    (hu : ∀ s s' image, lib.header.run (SliceWithOffset.ofBytes sect7) = .ok (true, s) → lib.body.run s = .ok (some image, s') →
      image.x1 < 2 ^ 32 ∧ image.y1 < 2 ^ 32) :
    Rel.decodeJp2 lib sect7 = some (Model.decodeJp2 lib sect7) := by
  unfold Model.decodeJp2 at h ⊢
  unfold Rel.decodeJp2
  by_cases hc : lib.create = true
  swap
  · rw [if_pos hc, if_pos hc]
  by_cases hs : lib.setup = true
  swap
  · rw [if_neg (by simpa using hc), if_pos hs, if_neg (by simpa using hc), if_pos hs]
  simp only [hc, hs, not_true_eq_false, if_false] at h ⊢
  cases hh : lib.header.run (SliceWithOffset.ofBytes sect7) with
  | panic => rfl
  | err e => exact e.elim
  | ok x =>
    obtain ⟨b, s⟩ := x
    cases b with
    | false => rfl
    | true =>
      rw [hh] at h
      dsimp only at h ⊢
      cases hb : lib.body.run s with
      | panic => rfl
      | err e => exact e.elim
      | ok y =>
        obtain ⟨im, s'⟩ := y
        cases im with
        | none => rfl
        | some image =>
          rw [hb] at h
          obtain ⟨hx, hy⟩ := hu s s' image hh hb
          dsimp only at h ⊢
          by_cases h0 : image.x1 < image.x0 ∨ image.y1 < image.y0 ∨ image.comps = []
          · rw [if_pos h0] at h; exact absurd rfl h
          rw [if_neg h0] at h ⊢
          rw [if_neg (by tauto)]
          have hsx : Rel.sub32 image.x1 image.x0 = image.x1 - image.x0 := by unfold Rel.sub32; omega
          have hsy : Rel.sub32 image.y1 image.y0 = image.y1 - image.y0 := by unfold Rel.sub32; omega
          rw [hsx, hsy]
          by_cases hf : image.factor ≥ 32
          · unfold Model.valueForDiscardLevel at h
            rw [if_pos hf] at h
            exact absurd rfl h
          have hv : ∀ u, Model.valueForDiscardLevel u image.factor = .ok (Rel.valueForDiscardLevel u image.factor) := by
            intro u
            unfold Model.valueForDiscardLevel Rel.valueForDiscardLevel
            rw [if_neg hf, Nat.mod_eq_of_lt (by omega : image.factor < 32)]
            dsimp only
            split <;> rfl
          rw [hv, hv, Outcome.bind_ok, Outcome.bind_ok] at h ⊢
          cases hcomps : image.comps with
          | nil => exact absurd hcomps (by tauto)
          | cons gray rest =>
            cases rest with
            | cons c cs => rfl
            | nil =>
              rw [hcomps] at h
              dsimp only at h ⊢
              rcases Rel.checkU32_fol (ε := Jpeg2000Error) (Rel.valueForDiscardLevel (image.x1 - image.x0) image.factor *
                Rel.valueForDiscardLevel (image.y1 - image.y0) image.factor) with h' | ⟨h', hm⟩
              · rw [h'] at h; exact absurd rfl h
              · rw [h', Outcome.bind_ok] at h ⊢
                rw [hm]
                by_cases hlen : gray.length < Rel.valueForDiscardLevel (image.x1 - image.x0) image.factor *
                    Rel.valueForDiscardLevel (image.y1 - image.y0) image.factor
                · rw [if_pos hlen] at h; exact absurd rfl h
                · rw [if_neg hlen, if_neg hlen]

example : Rel.decodeJp2 toyOpj [0xff, 0x4f, 17, 0, 31, 2] = some (.ok [17, 0, 31, 2]) := by decide

/-- C83 fails for JPEG 2000 images with `2^32` elements or more, where a debug build panics: a release build takes the
number of elements modulo `2^32`.  (An image of 65536 × 65537 elements: 65536 are taken.) -/
theorem C83_jpeg_large_fails (w h : Nat) (hw : w < 2 ^ 32) (hh : h < 2 ^ 32) (gray : List Int) (hg : w * h ≤ gray.length)
    (hbig : 2 ^ 32 ≤ w * h) (sect7 : List UInt8) :
    let lib : OpjLib := ⟨true, true, .done true, .done (some ⟨0, w, 0, h, 0, [gray]⟩)⟩
    Model.decodeJp2 lib sect7 = .panic ∧ Rel.decodeJp2 lib sect7 = some (.ok (gray.take (w * h % 2 ^ 32))) := by
  have hmv : ∀ n, Model.valueForDiscardLevel n 0 = .ok n := by
    intro n
    unfold Model.valueForDiscardLevel
    simp [Nat.mod_one]
  have hrv : ∀ n, Rel.valueForDiscardLevel n 0 = n := by
    intro n
    unfold Rel.valueForDiscardLevel
    simp [Nat.mod_one]
  have hs : ∀ n, n < 2 ^ 32 → Rel.sub32 n 0 = n := by
    intro n hn
    unfold Rel.sub32; omega
  constructor
  · unfold Model.decodeJp2
    simp only [OpjProg.run, not_true_eq_false, if_false]
    rw [if_neg (by simp)]
    simp only [Nat.sub_zero, hmv, Outcome.bind_ok]
    unfold checkU32
    rw [if_neg (by omega)]; rfl
  · unfold Rel.decodeJp2
    simp only [OpjProg.run, not_true_eq_false, if_false]
    rw [if_neg (by simp)]
    simp only [hs w hw, hs h hh, hrv]
    rw [if_neg (by have := Nat.mod_le (w * h) (2 ^ 32); omega)]

example : 65536 < 2 ^ 32 ∧ 65537 < 2 ^ 32 ∧ 2 ^ 32 ≤ 65536 * 65537 ∧ 65536 * 65537 % 2 ^ 32 = 65536 := by decide

end Grib.Props
