import Verif.Props.Grid

/-! # C75: grid points, call by call, for every grid -/

namespace Grib.Props

open Grib.Model Grib.Spec

variable {ε F G : Type}

/-- Lines are scanned but have no points: rows of no columns, or (if columns are scanned) columns of no rows. -/
def EmptyLines (ni nj mode : Nat) : Prop := if jConsecutive mode then ni ≠ 0 ∧ nj = 0 else nj ≠ 0 ∧ ni = 0

instance (ni nj mode : Nat) : Decidable (EmptyLines ni nj mode) := by unfold EmptyLines; infer_instance

/-- What call number `k` (from 0) gives: the `k`-th point in scanning order and nothing after the last one; but with empty
lines a point outside of the grid, farther away with every call. -/
def pointAt (ni nj mode k : Nat) : Option (Nat × Nat) :=
  if EmptyLines ni nj mode then some (if jConsecutive mode then (0, k) else (k, 0))
  else if k < ni * nj then some (visit ni nj mode k) else none

theorem emptyLines_iff (ni nj mode : Nat) : EmptyLines ni nj mode ↔ lines ni nj mode ≠ 0 ∧ perLine ni nj mode = 0 := by
  unfold EmptyLines lines perLine
  split <;> simp_all

theorem calls_succ (n : Nat) (it : GridIter) (ps : List (Nat × Nat)) (it1 it2 : GridIter) (p : Option (Nat × Nat))
    (h1 : it.calls n = (.ok (ps, it1) : Outcome ε _)) (h2 : it1.next = (.ok (p, it2) : Outcome ε _)) :
    it.calls (n + 1) = (.ok (ps ++ p.toList, it2) : Outcome ε _) := by
  induction n generalizing it ps with
  | zero =>
    unfold GridIter.calls at h1
    cases h1
    unfold GridIter.calls
    rw [h2]
    simp only [Outcome.bind_ok, GridIter.calls]
    simp
  | succ n ih =>
    unfold GridIter.calls at h1
    obtain ⟨q, hq, h1⟩ := Outcome.bind_eq_ok h1
    obtain ⟨q1, q2⟩ := q
    dsimp only at h1
    obtain ⟨r, hr, h1⟩ := Outcome.bind_eq_ok h1
    obtain ⟨r1, r2⟩ := r
    cases h1
    rw [GridIter.calls, hq]
    simp only [Outcome.bind_ok]
    rw [ih q2 r1 hr]
    simp only [Outcome.bind_ok, List.append_assoc]

/-- C75. For every grid, scanning mode and number `k` of calls made before (up to `2^64`): the calls gave the points said
by `pointAt`, the next one gives what `pointAt` says, and none of them panics.  The size hint is the number of points still
to come; with empty lines it is 0 at first and panics after the first call. -/
theorem C75_calls (ni nj mode k : Nat) : ∃ it,
    (GridIter.new ni nj mode).calls k = (.ok ((List.range k).filterMap (pointAt ni nj mode), it) : Outcome ε _) ∧
    (∃ it', it.next = (.ok (pointAt ni nj mode k, it') : Outcome ε _)) ∧
    it.sizeHint = (if EmptyLines ni nj mode ∧ k ≠ 0 then .panic else .ok (ni * nj - k) : Outcome ε _) := by
  rw [GridIter.new_eq]
  -- the state after `k` calls
  let st : Nat → GridIter := fun k =>
    if EmptyLines ni nj mode then ⟨lines ni nj mode, 0, mode, 0, k, true⟩ else GridIter.at ni nj mode (min k (ni * nj))
  have h0 : GridIter.at ni nj mode 0 = st 0 := by
    simp only [st]
    split
    · rename_i he
      rw [emptyLines_iff] at he
      unfold GridIter.at
      rw [he.2]; simp
    · rw [Nat.zero_min]
  have hstep : ∀ k, (st k).next = (.ok (pointAt ni nj mode k, st (k + 1)) : Outcome ε _) := by
    intro k
    simp only [st, pointAt]
    by_cases he : EmptyLines ni nj mode
    · simp only [if_pos he]
      rw [emptyLines_iff] at he
      unfold GridIter.next
      rw [if_neg (by simpa using he.1.symm), if_neg (by simp), mode_consecutive]
      cases jConsecutive mode <;> simp
    · simp only [if_neg he]
      rw [emptyLines_iff] at he
      by_cases hk : k < ni * nj
      · rw [if_pos hk, Nat.min_eq_left (by omega), Nat.min_eq_left (by omega), GridIter.next_at hk]
      · rw [if_neg hk, Nat.min_eq_right (by omega), Nat.min_eq_right (by omega)]
        rcases Nat.eq_zero_or_pos (perLine ni nj mode) with hp | hp
        · have hl : lines ni nj mode = 0 := by
            rcases Nat.eq_zero_or_pos (lines ni nj mode) with hl | hl
            · exact hl
            · exact absurd ⟨by omega, hp⟩ he
          unfold GridIter.next GridIter.at
          dsimp only
          rw [hl, hp, Nat.div_zero, if_pos rfl]
        · exact GridIter.next_end hp
  have hcalls : ∀ k, (st 0).calls k = (.ok ((List.range k).filterMap (pointAt ni nj mode), st k) : Outcome ε _) := by
    intro k
    induction k with
    | zero => rfl
    | succ k ih =>
      rw [calls_succ k (st 0) _ (st k) (st (k + 1)) _ ih (hstep k), List.range_succ, List.filterMap_append]
      congr 2
  refine ⟨st k, by rw [h0]; exact hcalls k, ⟨_, hstep k⟩, ?_⟩
  simp only [st]
  by_cases he : EmptyLines ni nj mode
  · rw [if_pos he]
    have hz : ni * nj = 0 := by
      rw [← lines_mul ni nj mode, ((emptyLines_iff _ _ _).1 he).2, Nat.mul_zero]
    unfold GridIter.sizeHint
    simp only [Nat.not_lt_zero, if_false, Nat.mul_zero, hz, Nat.zero_sub]
    by_cases hk : k = 0
    · subst hk; simp
    · rw [if_pos (by omega), if_pos ⟨he, hk⟩]
  · rw [if_neg he, if_neg (fun h => he h.1)]
    rw [emptyLines_iff] at he
    rcases Nat.eq_zero_or_pos (perLine ni nj mode) with hp | hp
    · have hl : lines ni nj mode = 0 := by
        rcases Nat.eq_zero_or_pos (lines ni nj mode) with hl | hl
        · exact hl
        · exact absurd ⟨by omega, hp⟩ he
      have hz : ni * nj = 0 := by rw [← lines_mul ni nj mode, hl, Nat.zero_mul]
      rw [hz, Nat.min_zero, Nat.zero_sub]
      unfold GridIter.sizeHint GridIter.at
      simp [hl]
    · rw [GridIter.sizeHint_at (Nat.min_le_right _ _) hp]
      congr 1
      omega

/-- C75. Iterating stops exactly if there are no empty lines; then it gives every point of the grid exactly once (none if
there are no rows or no columns), and after that nothing, however often it is asked. -/
theorem C75_stops (ni nj mode : Nat) :
    ((∃ n ps, (GridIter.new ni nj mode).drain n = .done ps) ↔ ¬ EmptyLines ni nj mode) ∧
    (¬ EmptyLines ni nj mode → ∃ ps, (GridIter.new ni nj mode).drain (ni * nj + 1) = .done ps ∧ ps.Nodup ∧
      (∀ i j, (i, j) ∈ ps ↔ i < ni ∧ j < nj) ∧ ∀ k, ni * nj ≤ k → pointAt ni nj mode k = none) := by
  have main : ¬ EmptyLines ni nj mode → ∃ ps, (GridIter.new ni nj mode).drain (ni * nj + 1) = .done ps ∧ ps.Nodup ∧
      (∀ i j, (i, j) ∈ ps ↔ i < ni ∧ j < nj) ∧ ∀ k, ni * nj ≤ k → pointAt ni nj mode k = none := by
    intro he
    have hlast : ∀ k, ni * nj ≤ k → pointAt ni nj mode k = none := by
      intro k hk
      rw [pointAt, if_neg he, if_neg (by omega)]
    by_cases hij : 0 < ni ∧ 0 < nj
    · obtain ⟨ps, h1, h2, -, h4⟩ := C32_once_partial ni nj mode hij.1 hij.2
      exact ⟨ps, h1, h2, h4, hlast⟩
    · have hz : ni * nj = 0 := by
        rcases Nat.eq_zero_or_pos ni with h | h
        · rw [h, Nat.zero_mul]
        · rw [show nj = 0 by omega, Nat.mul_zero]
      refine ⟨[], ?_, List.nodup_nil, ?_, hlast⟩
      · rw [hz]
        refine (C32_no_lines (ε := Empty) ni nj mode ?_).1
        unfold EmptyLines at he
        split <;> simp_all <;> omega
      · intro i j
        simp only [List.not_mem_nil, false_iff]
        omega
  refine ⟨⟨?_, fun he => ⟨_, (main he).imp fun _ h => h.1⟩⟩, main⟩
  rintro ⟨n, ps, h⟩ he
  obtain ⟨qs, hq, -⟩ := (C32_empty_lines_fails (ε := Empty) ni nj mode
    (by unfold EmptyLines at he; split <;> simp_all) (by unfold EmptyLines at he; split <;> simp_all)).2.1 n
  rw [h] at hq
  cases hq

/-- A grid of 3 columns and 2 rows, alternating; after the last point nothing comes. -/
example : (List.range 8).map (pointAt 3 2 0b00010000) =
    [some (0, 0), some (1, 0), some (2, 0), some (2, 1), some (1, 1), some (0, 1), none, none] := by decide
/-- Three rows of no columns: points that are not in the grid. -/
example : EmptyLines 0 3 0 ∧ (List.range 3).map (pointAt 0 3 0) = [some (0, 0), some (1, 0), some (2, 0)] := by decide
/-- The same grid scanned by columns: nothing. -/
example : ¬ EmptyLines 0 3 0b00100000 ∧ pointAt 0 3 0b00100000 0 = none := by decide

/-- The coordinates of the `k`-th point in scanning order. -/
def coordsAt (ops : FloatOps F) (it : RegularIter F) (ni nj mode k : Nat) : F × F :=
  (it.lat.getD (visit ni nj mode k).2 ops.nan, it.lon.getD (visit ni nj mode k).1 ops.nan)

theorem regular_drain (ops : FloatOps F) (it : RegularIter F) (ni nj mode : Nat) (hi : 0 < ni) (hj : 0 < nj)
    (hij : it.ij = GridIter.new ni nj mode) (hlat : it.lat.length = nj) (hlon : it.lon.length = ni) (k : Nat) :
    it.drain k = if k ≤ ni * nj then .more ((List.range k).map (coordsAt ops it ni nj mode))
      else .done ((List.range (ni * nj)).map (coordsAt ops it ni nj mode)) := by
  have hpos := perLine_pos mode hi hj
  have key : ∀ k c, c ≤ ni * nj → (⟨it.lat, it.lon, GridIter.at ni nj mode c⟩ : RegularIter F).drain k =
      if k + c ≤ ni * nj then .more ((List.range' c k).map (coordsAt ops it ni nj mode))
      else .done ((List.range' c (ni * nj - c)).map (coordsAt ops it ni nj mode)) := by
    intro k
    induction k with
    | zero => intro c hc; rw [if_pos (by omega)]; rfl
    | succ k ih =>
      intro c hc
      unfold RegularIter.drain RegularIter.next
      by_cases hlt : c < ni * nj
      · dsimp only
        rw [GridIter.next_at hlt, Outcome.bind_ok]
        dsimp only
        have hv := visit_lt (mode := mode) hlt
        rw [List.getElem?_eq_getElem (by rw [hlat]; exact hv.2), List.getElem?_eq_getElem (by rw [hlon]; exact hv.1)]
        simp only [Outcome.ofOption, Outcome.bind_ok]
        rw [ih (c + 1) (by omega)]
        have e1 : it.lat.getD (visit ni nj mode c).2 ops.nan = it.lat[(visit ni nj mode c).2]'(by rw [hlat]; exact hv.2) := by
          rw [List.getD_eq_getElem?_getD, List.getElem?_eq_getElem (by rw [hlat]; exact hv.2)]; rfl
        have e2 : it.lon.getD (visit ni nj mode c).1 ops.nan = it.lon[(visit ni nj mode c).1]'(by rw [hlon]; exact hv.1) := by
          rw [List.getD_eq_getElem?_getD, List.getElem?_eq_getElem (by rw [hlon]; exact hv.1)]; rfl
        by_cases hk : k + 1 + c ≤ ni * nj
        · rw [if_pos (by omega), if_pos hk, List.range'_succ, List.map_cons, coordsAt, e1, e2]
          rfl
        · rw [if_neg (by omega), if_neg hk, show ni * nj - c = (ni * nj - (c + 1)) + 1 by omega, List.range'_succ,
            List.map_cons, coordsAt, e1, e2]
          rfl
      · have : c = ni * nj := by omega
        subst this
        dsimp only
        rw [GridIter.next_end hpos, Outcome.bind_ok]
        dsimp only
        rw [if_neg (by omega), Nat.sub_self]
        rfl
  have := key k 0 (Nat.zero_le _)
  rw [← GridIter.new_eq, ← hij, Nat.sub_zero, Nat.add_zero, ← List.range_eq_range', ← List.range_eq_range'] at this
  exact this

theorem latlons_positive {ops : FloatOps F} {g : LatLonGrid} {it : RegularIter F} (h : g.latlons ops = .ok it) :
    0 < g.ni ∧ 0 < g.nj := by
  unfold LatLonGrid.latlons at h
  obtain ⟨c, -, h⟩ := Outcome.bind_eq_ok h
  split at h
  · cases h
  obtain ⟨ij, -, h⟩ := Outcome.bind_eq_ok h
  split at h
  · cases h
  split at h
  · cases h
  omega

/-- C75. Iterating over the coordinates of an accepted latitude/longitude grid: the first `n` calls give the pairs of the
first `n` points in scanning order; it stops after the last point of the grid; no call panics. -/
theorem C75_latlon (ops : FloatOps F) (g : LatLonGrid) (it : RegularIter F) (h : g.latlons ops = .ok it) (n : Nat) :
    it.drain n = if n ≤ g.ni * g.nj then .more ((List.range n).map (coordsAt ops it g.ni g.nj g.mode))
      else .done ((List.range (g.ni * g.nj)).map (coordsAt ops it g.ni g.nj g.mode)) := by
  obtain ⟨h1, h2, h3⟩ := LatLonGrid.latlons_ok h
  obtain ⟨hi, hj⟩ := latlons_positive h
  exact regular_drain ops it g.ni g.nj g.mode hi hj h1 h2 h3 n

example : ∃ it, (⟨2, 2, 10000000, 0, 0, 1000000, 0⟩ : LatLonGrid).latlons FloatOps.exact = .ok it ∧
    it.drain 3 = .more [(some 10, some 0), (some 10, some 1), (some 0, some 0)] :=
  Outcome.exists_of_ok? (f := fun it : RegularIter (Option Rat) => it.drain 3) (by decide +kernel)

/-- C75. The same for Gaussian grids with rows.  A grid without rows is accepted too: scanned by rows it has no points,
scanned by columns the first call panics. -/
theorem C75_gaussian (o : GaussOps G F) (ops : FloatOps F) (g : GaussianGrid) (it : RegularIter F)
    (h : g.latlons o ops = .ok it) (n : Nat) :
    (0 < g.nj → it.drain n = if n ≤ g.ni * g.nj then .more ((List.range n).map (coordsAt ops it g.ni g.nj g.mode))
      else .done ((List.range (g.ni * g.nj)).map (coordsAt ops it g.ni g.nj g.mode))) ∧
    (g.nj = 0 → it.drain (n + 1) = if jConsecutive g.mode then .panic else .done []) := by
  obtain ⟨h1, h2, h3⟩ := GaussianGrid.latlons_ok h
  have hi : 0 < g.ni := by
    unfold GaussianGrid.latlons at h
    obtain ⟨c, -, h⟩ := Outcome.bind_eq_ok h
    split at h
    · cases h
    obtain ⟨ij, -, h⟩ := Outcome.bind_eq_ok h
    obtain ⟨lat, -, h⟩ := Outcome.bind_eq_ok h
    dsimp only at h
    split at h
    · cases h
    omega
  refine ⟨fun hj => regular_drain ops it g.ni g.nj g.mode hi hj h1 h2 h3 n, fun hj => ?_⟩
  have hlat : it.lat = [] := by rw [← List.length_eq_zero_iff, h2, hj]
  obtain ⟨st, hst, ⟨st', hst'⟩, -⟩ := C75_calls (ε := Empty) g.ni g.nj g.mode 0
  have : st = it.ij := by
    unfold GridIter.calls at hst
    cases hst
    exact h1.symm
  subst this
  unfold RegularIter.drain RegularIter.next
  rw [hst', Outcome.bind_ok]
  cases hc : jConsecutive g.mode
  · have : pointAt g.ni g.nj g.mode 0 = none := by
      rw [pointAt, if_neg (by simp [EmptyLines, hc, hj]), if_neg (by simp [hj])]
    rw [this]
    rfl
  · have : pointAt g.ni g.nj g.mode 0 = some (0, 0) := by
      rw [pointAt, if_pos (by simp [EmptyLines, hc, hj]; omega)]; simp [hc]
    rw [this]
    dsimp only
    rw [hlat]
    rfl

end Grib.Props
