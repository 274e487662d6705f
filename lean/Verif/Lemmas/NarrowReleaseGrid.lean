import Verif.Lemmas.NarrowReleaseDecode
import Verif.Lemmas.ReleaseGrid

/-! # Release builds for 32 bits: grids agree with a debug build for 32 bits that does not panic -/

namespace Grib.Model.R32

open Grib.Model Grib.Spec
open Grib.Model.Rel (Fol)

variable {ε F G : Type}

theorem bind_err' {α β : Type} (e : ε) (f : α → Outcome ε β) : ((.err e : Outcome ε α) >>= f) = .err e := rfl

theorem bind_panic' {α β : Type} (f : α → Outcome ε β) : ((.panic : Outcome ε α) >>= f) = .panic := rfl

theorem gridNext_fol (it : GridIter) : Fol (it.next : Outcome ε _) (.ok (gridNext it)) := by
  unfold GridIter.next gridNext
  by_cases h : it.majorPos = it.majorLen
  · rw [if_pos h, if_pos h]; exact .refl _
  rw [if_neg h, if_neg h]
  by_cases h2 : it.increments = false ∧ it.minorLen < it.minorPos + 1
  · rw [if_pos h2]; exact .inl rfl
  rw [if_neg h2]
  refine .inr ?_
  cases hi : it.increments with
  | true => simp
  | false =>
    have : ¬ it.minorLen < it.minorPos + 1 := fun h => h2 ⟨hi, h⟩
    rw [usub_le (a := it.minorLen) (by omega), usub_le (by omega)]

theorem calls_new (ni nj mode n : Nat) : gridCalls n (GridIter.new ni nj mode) = Rel.gridCalls n (GridIter.new ni nj mode) := by
  suffices h : ∀ it : GridIter, it.increments = true ∨ it.minorPos < it.minorLen → gridCalls n it = Rel.gridCalls n it by
    exact h _ (.inl (by rw [GridIter.new_eq]; unfold GridIter.at; simp))
  induction n with
  | zero => intro it _; rfl
  | succ n ih =>
    intro it hit
    have hnp : gridNext it = Rel.gridNext it := by
      unfold gridNext Rel.gridNext
      split
      · rfl
      · rcases hit with h3 | h3
        · simp only [h3, if_true]
        · rw [usub_le (a := it.minorLen) (by omega), usub_le (by omega), Rel.usub_le (a := it.minorLen) (by omega),
            Rel.usub_le (by omega)]
    have hinv : (gridNext it).2.increments = true ∨ (gridNext it).2.minorPos < (gridNext it).2.minorLen := by
      unfold gridNext
      split
      · exact hit
      · dsimp only
        split
        · rename_i h; right; dsimp only at h ⊢; omega
        · rename_i h
          dsimp only at h ⊢
          rcases hit with h3 | h3
          · exact .inl h3
          · right; omega
    have := ih _ hinv
    unfold gridCalls Rel.gridCalls
    rw [hnp] at this ⊢
    dsimp only
    rw [this]

theorem gridSizeHint_new {ni nj : Nat} (mode : Nat) : gridSizeHint (GridIter.new ni nj mode) = (ni * nj) % 2 ^ 32 := by
  rw [GridIter.new_eq]
  unfold gridSizeHint GridIter.at
  simp only [Nat.zero_div, Nat.zero_mod]
  rw [usub_le (a := lines ni nj mode) (Nat.zero_le _), Nat.sub_zero, lines_mul, usub_le (Nat.zero_le _), Nat.sub_zero]

theorem gridSizeHint_fol (ni nj mode : Nat) :
    Fol (N32.gridSizeHint (GridIter.new ni nj mode) : Outcome ε _) (.ok (gridSizeHint (GridIter.new ni nj mode))) := by
  rw [gridSizeHint_new]
  unfold N32.gridSizeHint
  split
  · exact .inl rfl
  · rename_i h
    have e : ((GridIter.new ni nj mode).majorLen - (GridIter.new ni nj mode).majorPos) * (GridIter.new ni nj mode).minorLen = ni * nj := by
      rw [GridIter.new_eq]
      unfold GridIter.at
      simp only [Nat.zero_div, Nat.sub_zero]
      exact lines_mul _ _ _
    rw [e] at h
    rw [GridIter.sizeHint_new, Nat.mod_eq_of_lt (by omega)]
    exact .refl _

theorem latLonLatlons_fol (ops : FloatOps F) (g : LatLonGrid) (hi : g.ni < 2 ^ 32) (hj : g.nj < 2 ^ 32) :
    Fol (N32.latLonLatlons ops g) (latLonLatlons ops g) := by
  unfold N32.latLonLatlons latLonLatlons
  rcases Rel.latLonLatlons_fol ops g hi hj with h | h
  · rw [h]; exact .inl rfl
  · rw [h]
    cases hg : g.latlons ops with
    | err e => right; rw [bind_err', bind_err']
    | panic => left; rw [bind_panic']
    | ok x =>
      have hz : g.nj ≠ 0 ∧ g.ni ≠ 0 := by
        unfold LatLonGrid.latlons at hg
        obtain ⟨a, -, hg⟩ := N32.bind_ok_inv hg
        split at hg
        · cases hg
        · obtain ⟨ij, -, hg⟩ := N32.bind_ok_inv hg
          split at hg
          · cases hg
          · split at hg
            · cases hg
            · exact ⟨by assumption, by assumption⟩
      have e1 : Rel.pred32 g.nj + 1 = g.nj := by rw [Rel.pred32_pos (by omega) hj]; omega
      have e2 : Rel.pred32 g.ni + 1 = g.ni := by rw [Rel.pred32_pos (by omega) hi]; omega
      right
      rw [Outcome.bind_ok, Outcome.bind_ok, e1, e2]

theorem legendreLoop_eq (ops : FloatOps G) (x : G) (steps k : Nat) (p : G × G) (h : steps + k ≤ 2 ^ 31) (hk : 1 ≤ k) :
    legendreLoop ops x steps k p = Model.legendreLoop ops x steps k p := by
  induction steps generalizing k p with
  | zero => rfl
  | succ n ih =>
    obtain ⟨p0, p1⟩ := p
    unfold legendreLoop Model.legendreLoop
    rw [Nat.mod_eq_of_lt (by omega : 2 * k - 1 < 2 ^ 32)]
    exact ih _ _ (by omega) (by omega)

theorem legendreStep_eq (ops : FloatOps G) (n : Nat) (x : G) (h : n < 2 ^ 31) : legendreStep ops n x = Model.legendreStep ops n x := by
  unfold legendreStep Model.legendreStep legendrePolynomial
  rw [legendreLoop_eq ops x (n - 1) 2 _ (by omega) (by omega)]

theorem collectRows_eq {grow : Nat → Bool} (xs : List (Option G)) (acc : List G)
    (hg : ∀ n ≤ 8 * (acc.length + xs.length), grow n = true) :
    collectRows grow acc xs = match allSome xs with | none => .err .unknown | some ys => .ok (acc ++ ys) := by
  induction xs generalizing acc with
  | nil => simp [collectRows, allSome]
  | cons x xs ih =>
    cases x with
    | none => rfl
    | some x =>
      unfold collectRows allSome
      rw [if_pos (hg _ (by simp only [List.length_cons]; omega)), ih]
      · cases allSome xs with
        | none => rfl
        | some ys => simp
      · intro n hn
        apply hg
        simp only [List.length_append, List.length_cons, List.length_nil] at hn ⊢
        omega

theorem legendreRoots_small (g : GaussOps G F) {n : Nat} (h : 8 * n * n * n < 2 ^ 32) :
    (Model.legendreRoots g n : Outcome ε _) = .ok (legendreRoots g n) := by
  have hn : n < 2 ^ 10 := by
    apply Classical.byContradiction
    intro hc
    have h1 : 2 ^ 10 * 2 ^ 10 ≤ n * n := Nat.mul_le_mul (by omega) (by omega)
    have h2 : 2 ^ 10 * 2 ^ 10 * 2 ^ 10 ≤ n * n * n := Nat.mul_le_mul h1 (by omega)
    rw [show 8 * n * n * n = 8 * (n * n * n) by simp [Nat.mul_assoc]] at h
    omega
  have h2 : 8 * n * n < 2 ^ 32 := by
    have : n * n ≤ 2 ^ 10 * 2 ^ 10 := Nat.mul_le_mul (by omega) (by omega)
    rw [Nat.mul_assoc]
    omega
  unfold Model.legendreRoots legendreRoots
  rw [if_neg (by unfold USIZE; omega), Nat.mod_eq_of_lt h, Nat.mod_eq_of_lt h2, Nat.mod_eq_of_lt (by omega : 4 * n + 2 < 2 ^ 32)]
  refine congrArg Outcome.ok (List.map_congr_left fun i hi => ?_)
  have := List.mem_range.1 hi
  dsimp only
  rw [Nat.mod_eq_of_lt (by omega : 4 * i + 3 < 2 ^ 32)]
  congr 2
  funext x
  exact (legendreStep_eq _ _ _ (by omega)).symm

theorem gaussianLatitudes_fol {grow : Nat → Bool} (hg : ∀ n ≤ 2 ^ 30, grow n = true) (g : GaussOps G F) (n : Nat) :
    Fol (N32.gaussianLatitudes g n) (gaussianLatitudes grow g n) := by
  unfold N32.gaussianLatitudes gaussianLatitudes N32.legendreRoots
  split
  · exact .inl rfl
  · rename_i h
    have hr := legendreRoots_small (ε := GribError) g (n := n) (by omega)
    right
    rw [hr, Outcome.bind_ok, collectRows_eq]
    · simp only [List.nil_append]
      generalize (legendreRoots g n).map _ = xs
      cases allSome xs <;> rfl
    · have hl : (legendreRoots g n).length = n := by unfold legendreRoots; simp
      intro m hm
      apply hg
      simp only [List.length_nil, List.length_map, hl] at hm
      have : n < 2 ^ 10 := by
        apply Classical.byContradiction
        intro hc
        have h1 : 2 ^ 10 * 2 ^ 10 ≤ n * n := Nat.mul_le_mul (by omega) (by omega)
        have h2 : 2 ^ 10 * 2 ^ 10 * 2 ^ 10 ≤ n * n * n := Nat.mul_le_mul h1 (by omega)
        rw [show 8 * n * n * n = 8 * (n * n * n) by simp [Nat.mul_assoc]] at h
        omega
      omega

theorem gaussianLatlons_fol {grow : Nat → Bool} (hg : ∀ n ≤ 2 ^ 30, grow n = true) (g : GaussOps G F) (ops : FloatOps F)
    (d : GaussianGrid) (hi : d.ni < 2 ^ 32) : Fol (N32.gaussianLatlons g ops d) (gaussianLatlons grow g ops d) := by
  unfold N32.gaussianLatlons gaussianLatlons
  refine Rel.Fol.bind_ok (a := Rel.isConsistentForJ d.firstLat d.lastLat d.mode) (Rel.isConsistentForJ_fol _ _ _) ?_
  dsimp only
  by_cases hc : Rel.isConsistentForJ d.firstLat d.lastLat d.mode = true
  · rw [if_neg (by simpa using hc), if_neg (by simpa using hc)]
    refine Rel.Fol.bind (.refl _) (fun ij => ?_)
    refine Rel.Fol.bind (gaussianLatitudes_fol hg _ _) (fun lat => ?_)
    by_cases h1 : d.ni = 0
    · rw [if_pos h1]; exact .inl rfl
    rw [if_neg h1, Rel.pred32_pos (by omega) hi, show d.ni - 1 + 1 = d.ni by omega]
    refine Rel.Fol.bind_ok (Rel.evenlySpacedLongitudes_fol _ _ _ _ _) ?_
    exact .refl _
  · rw [if_pos hc, if_pos hc]; exact .refl _

theorem templateLatlons_fol {grow : Nat → Bool} (hg : ∀ n ≤ 2 ^ 30, grow n = true) (o : GridOps G F) (t : GridTemplate)
    (hi : t.gridShape.1 < 2 ^ 32) (hj : t.gridShape.2 < 2 ^ 32) : Fol (N32.templateLatlons o t) (templateLatlons grow o t) := by
  cases t with
  | template0 g => exact Rel.Fol.bind (latLonLatlons_fol _ g hi hj) (fun _ => .refl _)
  | template20 g => exact .refl _
  | template30 g => exact .refl _
  | template40 g => exact Rel.Fol.bind (gaussianLatlons_fol hg _ _ g hi) (fun _ => .refl _)

theorem regularNext_fol (it : RegularIter F) : Fol (it.next : Outcome ε _) (regularNext it) := by
  unfold RegularIter.next regularNext
  exact Rel.Fol.bind_ok (gridNext_fol it.ij) (.refl _)

theorem regularDrain_fol (fuel : Nat) (it : RegularIter F) : it.drain fuel = .panic ∨ regularDrain fuel it = it.drain fuel := by
  induction fuel generalizing it with
  | zero => exact .inr rfl
  | succ n ih =>
    unfold RegularIter.drain regularDrain
    rcases regularNext_fol (ε := Empty) it with h | h
    · rw [h]; exact .inl rfl
    · rw [h]
      cases hn : (it.next : Outcome Empty _) with
      | panic => exact .inl rfl
      | err e => exact e.elim
      | ok x =>
        obtain ⟨p, it'⟩ := x
        cases p with
        | none => exact .inr rfl
        | some p =>
          rcases ih it' with h' | h'
          · left; dsimp only; rw [h']; rfl
          · right; dsimp only; rw [h']

end Grib.Model.R32
