import Verif.Model.ReleaseGrid
import Verif.Lemmas.ReleaseDecode
import Verif.Lemmas.Grid

/-! # Release builds: grids agree with a debug build that does not panic -/

namespace Grib.Model.Rel

open Grib.Model Grib.Spec

variable {ε F G : Type}

theorem gridNext_fol (it : GridIter) : Fol (it.next : Outcome ε _) (.ok (gridNext it)) := by
  unfold GridIter.next gridNext
  by_cases h : it.majorPos = it.majorLen
  · rw [if_pos h, if_pos h]; exact .refl _
  rw [if_neg h, if_neg h]
  by_cases h2 : it.increments = false ∧ it.minorLen < it.minorPos + 1
  · rw [if_pos h2]; exact .inl rfl
  rw [if_neg h2]
  refine .inr ?_
  cases hi : it.increments with
  | true => simp
  | false =>
    have : ¬ it.minorLen < it.minorPos + 1 := fun h => h2 ⟨hi, h⟩
    rw [usub_le (a := it.minorLen) (by omega), usub_le (by omega)]

theorem gridNext_of_ok {it : GridIter} {x} (h : it.next = (.ok x : Outcome ε _)) : gridNext it = x := by
  rcases gridNext_fol (ε := ε) it with h' | h'
  · rw [h] at h'; cases h'
  · rw [h] at h'; exact Outcome.ok.inj h'

/-- From its beginning on, `next` of a debug build has no panic. -/
theorem calls_new (ni nj mode n : Nat) :
    (GridIter.new ni nj mode).calls n = (.ok (gridCalls n (GridIter.new ni nj mode)) : Outcome ε _) := by
  suffices h : ∀ it : GridIter, it.increments = true ∨ it.minorPos < it.minorLen →
      it.calls n = (.ok (gridCalls n it) : Outcome ε _) by
    exact h _ (.inl (by unfold GridIter.new; split <;> rfl))
  induction n with
  | zero => intro it _; rfl
  | succ n ih =>
    intro it hit
    have hnp : (it.next : Outcome ε _) = .ok (gridNext it) := by
      rcases gridNext_fol (ε := ε) it with h' | h'
      · exfalso
        unfold GridIter.next at h'
        split at h'
        · cases h'
        · split at h'
          · rename_i h2
            rcases hit with h3 | h3
            · rw [h3] at h2; simp at h2
            · omega
          · cases h'
      · exact h'.symm
    have hinv : (gridNext it).2.increments = true ∨ (gridNext it).2.minorPos < (gridNext it).2.minorLen := by
      unfold gridNext
      split
      · exact hit
      · dsimp only
        split
        · rename_i h; right; dsimp only at h ⊢; omega
        · rename_i h
          dsimp only at h ⊢
          rcases hit with h3 | h3
          · exact .inl h3
          · right; omega
    unfold GridIter.calls gridCalls
    rw [hnp, Outcome.bind_ok]
    have := ih _ hinv
    generalize gridNext it = x at this
    obtain ⟨p, it'⟩ := x
    dsimp only at this ⊢
    rw [this]
    rfl

theorem gridSizeHint_fol (it : GridIter) (h : (it.majorLen - it.majorPos) * it.minorLen < USIZE) :
    Fol (it.sizeHint : Outcome ε _) (.ok (gridSizeHint it)) := by
  unfold GridIter.sizeHint gridSizeHint
  split
  · exact .inl rfl
  · rename_i h1
    rw [usub_le (a := it.majorLen) (by omega)]
    split
    · exact .inl rfl
    · rename_i h2
      rw [Nat.mod_eq_of_lt h, usub_le (by omega)]
      exact .refl _

theorem gridSizeHint_new {ni nj : Nat} (mode : Nat) (hi : ni < 2 ^ 32) (hj : nj < 2 ^ 32) :
    gridSizeHint (GridIter.new ni nj mode) = ni * nj := by
  have hlt : ni * nj < USIZE := by
    calc ni * nj ≤ (2 ^ 32 - 1) * (2 ^ 32 - 1) := Nat.mul_le_mul (by omega) (by omega)
      _ < USIZE := by decide
  rw [GridIter.new_eq]
  unfold gridSizeHint GridIter.at
  simp only [Nat.zero_div, Nat.zero_mod]
  rw [usub_le (a := lines ni nj mode) (Nat.zero_le _), Nat.sub_zero, lines_mul, Nat.mod_eq_of_lt hlt, usub_le (Nat.zero_le _), Nat.sub_zero]

/-! ## Signs of wrapped differences -/

theorem wrap32_pos {a b : Int} (ha : -2 ^ 31 ≤ a ∧ a < 2 ^ 31) (hb : -2 ^ 31 ≤ b ∧ b < 2 ^ 31) :
    (0 < wrap32 (b - a)) ↔ ((a < b) ↔ (-2 ^ 31 ≤ b - a ∧ b - a < 2 ^ 31)) := by
  unfold wrap32
  by_cases h : -2 ^ 31 ≤ b - a ∧ b - a < 2 ^ 31
  · rw [show Int.bmod (b - a) (2 ^ 32) = b - a from wrap32_of_range h]
    simp only [h, and_self, iff_true]
    omega
  · rw [Int.bmod_def]
    omega

theorem isConsistentForJ_fol (a b : Int) (mode : ScanningMode) :
    Fol (Model.isConsistentForJ a b mode : Outcome ε Bool) (.ok (isConsistentForJ a b mode)) := by
  unfold Model.isConsistentForJ isConsistentForJ
  rcases checkI32_fol (ε := ε) (b - a) with h | ⟨h, hw⟩
  · rw [h]; exact .inl rfl
  · rw [h, hw]; exact .refl _

theorem evenlySpacedLongitudes_fol (ops : FloatOps F) (a b : Int) (n : Nat) (mode : ScanningMode) :
    Fol (Model.evenlySpacedLongitudes ops a b n mode : Outcome ε _) (.ok (evenlySpacedLongitudes ops a b n mode)) := by
  unfold Model.evenlySpacedLongitudes evenlySpacedLongitudes
  rcases checkI32_fol (ε := ε) (b - a) with h | ⟨h, hw⟩
  · rw [h]; exact .inl rfl
  · rw [h, hw]
    refine .inr ?_
    simp only [Outcome.bind_ok]
    exact (apply_ite Outcome.ok _ _ _)

theorem pred32_pos {n : Nat} (h : 0 < n) (hn : n < 2 ^ 32) : pred32 n = n - 1 := by
  unfold pred32
  rw [show n + 2 ^ 32 - 1 = n - 1 + 2 ^ 32 by omega, Nat.add_mod_right, Nat.mod_eq_of_lt (by omega)]

theorem pred32_zero : pred32 0 = 2 ^ 32 - 1 := by decide

/-- Continuing with a result that is known in one build. -/
theorem Fol.bind_ok {α β : Type} {d : Outcome ε α} {a : α} {f : α → Outcome ε β} {r : Outcome ε β} (h : Fol d (.ok a))
    (hfg : Fol (f a) r) : Fol (d.bind f) r := by
  rcases h with h | h
  · rw [h]; exact .inl rfl
  · rw [← h]; exact hfg

theorem latLonLatlons_fol (ops : FloatOps F) (g : LatLonGrid) (hi : g.ni < 2 ^ 32) (hj : g.nj < 2 ^ 32) :
    Fol (g.latlons ops) (latLonLatlons ops g) := by
  unfold LatLonGrid.latlons latLonLatlons
  refine Fol.bind_ok (a := isConsistentForJ g.firstLat g.lastLat g.mode) (isConsistentForJ_fol _ _ _) ?_
  dsimp only
  by_cases hc : isConsistentForJ g.firstLat g.lastLat g.mode = true
  · rw [if_neg (by simpa using hc), if_neg (by simpa using hc)]
    refine Fol.bind (.refl _) (fun ij => ?_)
    by_cases h0 : g.nj = 0
    · rw [if_pos h0]; exact .inl rfl
    by_cases h1 : g.ni = 0
    · rw [if_neg h0, if_pos h1]; exact .inl rfl
    rw [if_neg h0, if_neg h1, pred32_pos (by omega) hj, pred32_pos (by omega) hi]
    exact Fol.bind_ok (evenlySpacedLongitudes_fol _ _ _ _ _) (.refl _)
  · rw [if_pos hc, if_pos hc]; exact .refl _

theorem gaussianLatitudes_fol (g : GaussOps G F) (n : Nat) : Fol (Model.gaussianLatitudes g n) (gaussianLatitudes g n) := by
  unfold Model.gaussianLatitudes gaussianLatitudes Model.legendreRoots
  split
  · exact .inl rfl
  · rename_i h
    have h3 : 8 * n * n * n < USIZE := by omega
    have h2 : 8 * n * n < USIZE := by
      rcases Nat.eq_zero_or_pos n with h0 | h0
      · subst h0; decide
      · exact Nat.lt_of_le_of_lt (Nat.le_mul_of_pos_right _ h0) h3
    unfold legendreRoots
    rw [Nat.mod_eq_of_lt h3, Nat.mod_eq_of_lt h2]
    exact .refl _

theorem gaussianLatlons_fol (g : GaussOps G F) (ops : FloatOps F) (d : GaussianGrid) (hi : d.ni < 2 ^ 32) :
    Fol (d.latlons g ops) (gaussianLatlons g ops d) := by
  unfold GaussianGrid.latlons gaussianLatlons
  refine Fol.bind_ok (a := isConsistentForJ d.firstLat d.lastLat d.mode) (isConsistentForJ_fol _ _ _) ?_
  dsimp only
  by_cases hc : isConsistentForJ d.firstLat d.lastLat d.mode = true
  · rw [if_neg (by simpa using hc), if_neg (by simpa using hc)]
    refine Fol.bind (.refl _) (fun ij => ?_)
    refine Fol.bind (gaussianLatitudes_fol _ _) (fun lat => ?_)
    by_cases h1 : d.ni = 0
    · rw [if_pos h1]; exact .inl rfl
    rw [if_neg h1, pred32_pos (by omega) hi]
    exact Fol.bind_ok (evenlySpacedLongitudes_fol _ _ _ _ _) (.refl _)
  · rw [if_pos hc, if_pos hc]; exact .refl _

theorem templateLatlons_fol (o : GridOps G F) (t : GridTemplate) (hi : t.gridShape.1 < 2 ^ 32) (hj : t.gridShape.2 < 2 ^ 32) :
    Fol (t.latlons o) (templateLatlons o t) := by
  cases t with
  | template0 g => exact Fol.bind (latLonLatlons_fol _ g hi hj) (fun _ => .refl _)
  | template20 g => exact .refl _
  | template30 g => exact .refl _
  | template40 g => exact Fol.bind (gaussianLatlons_fol _ _ g hi) (fun _ => .refl _)

theorem regularNext_fol (it : RegularIter F) : Fol (it.next : Outcome ε _) (regularNext it) := by
  unfold RegularIter.next regularNext
  exact Fol.bind_ok (gridNext_fol it.ij) (.refl _)

theorem regularDrain_fol (fuel : Nat) (it : RegularIter F) : it.drain fuel = .panic ∨ regularDrain fuel it = it.drain fuel := by
  induction fuel generalizing it with
  | zero => exact .inr rfl
  | succ n ih =>
    unfold RegularIter.drain regularDrain
    rcases regularNext_fol (ε := Empty) it with h | h
    · rw [h]; exact .inl rfl
    · rw [h]
      cases hn : (it.next : Outcome Empty _) with
      | panic => exact .inl rfl
      | err e => exact e.elim
      | ok x =>
        obtain ⟨p, it'⟩ := x
        cases p with
        | none => exact .inr rfl
        | some p =>
          rcases ih it' with h' | h'
          · left; dsimp only; rw [h']; rfl
          · right; dsimp only; rw [h']

end Grib.Model.Rel
