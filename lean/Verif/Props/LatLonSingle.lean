import Verif.Lemmas.Spacing
import Verif.Props.LatLon
import Verif.Props.Gaussian

/-! # C61: coordinates of latitude/longitude grids as single-precision arithmetic computes them

The exact coordinates are those of C33 (`rowLatitude`, `columnLongitude`).  Here the grid is evaluated with IEEE-754 single
precision, as the program does. -/

namespace Grib.Props

open Grib.Model Grib.Spec

/-- The program's arithmetic (the powers play no role for coordinates). -/
abbrev single (powi : Fl → Int → Fl) (pf : Nat → Fl) : FloatOps Fl := FloatOps.ieee .single powi pf

theorem single_of_microdegrees {a : Int} (ha : |a| ≤ 2 ^ 32) :
    ∃ s, (Fmt.single.ofRat false ((a : Int) : Rat)).val = some s ∧ s = Fmt.single.round a ∧ |s - a| ≤ 1 / 2 ^ 24 * |(a : Rat)| := by
  refine ⟨_, single_ofInt_val ha false, rfl, ?_⟩
  have := Fmt.single.round_int (by decide) a
  rwa [single_u] at this

/-- One list of coordinates: from `a` to `b` microdegrees in `n` steps. -/
theorem evenly_close (powi pf) {S E : Fl} {s e a b M : Rat} {n : Nat} (hS : S.val = some s) (hE : E.val = some e)
    (hn : 1 ≤ n) (hn' : n ≤ 2 ^ 32) (hM1 : 1 ≤ M) (hM2 : M ≤ 2 ^ 40) (ha : |a| ≤ M) (hb : |b| ≤ M)
    (hs : |s - a| ≤ 3 / 2 ^ 24 * M) (he : |e - b| ≤ 3 / 2 ^ 24 * M) {x : Nat} (hx : x ≤ n) :
    ∃ v y, (evenlySpacedDegrees (single powi pf) S E n)[x]? = some v ∧ v.val = some y ∧
      |y - (a + x * ((b - a) / n)) / 1000000| ≤ 25 / 2 ^ 24 * (M / 1000000) := by
  obtain ⟨y, hy, hc⟩ := spacing_close hS hE hn hn' hx hM1 hM2 ha hb hs he
  unfold evenlySpacedDegrees
  rw [List.getElem?_map, List.getElem?_range (by omega)]
  refine ⟨_, y, rfl, ?_, hc⟩
  rw [← hy]
  show Fl.val (Fmt.single.div _ (Fmt.single.ofRat false ((1000000 : Int) : Rat))) = _
  rw [ofInt_million]
  rfl

theorem evenly_mono (powi pf) {S E : Fl} {s e : Rat} {n : Nat} (hS : S.val = some s) (hE : E.val = some e)
    (hn : 1 ≤ n) (hn' : n ≤ 2 ^ 32) (hs : |s| ≤ 2 ^ 40) (he : |e| ≤ 2 ^ 40) {x x' : Nat} (hx : x ≤ x') (hx' : x' ≤ n) :
    ∃ v w, (evenlySpacedDegrees (single powi pf) S E n)[x]? = some v ∧ (evenlySpacedDegrees (single powi pf) S E n)[x']? = some w ∧
      (s ≤ e → NotAbove v w) ∧ (e ≤ s → NotAbove w v) := by
  have := spacing_mono hS hE hn hn' hx hx' hs he
  unfold evenlySpacedDegrees
  rw [List.getElem?_map, List.getElem?_map, List.getElem?_range (by omega), List.getElem?_range (by omega)]
  refine ⟨_, _, rfl, rfl, ?_⟩
  show (_ → NotAbove (Fmt.single.div _ (Fmt.single.ofRat false ((1000000 : Int) : Rat)))
    (Fmt.single.div _ (Fmt.single.ofRat false ((1000000 : Int) : Rat)))) ∧
    (_ → NotAbove (Fmt.single.div _ (Fmt.single.ofRat false ((1000000 : Int) : Rat)))
      (Fmt.single.div _ (Fmt.single.ofRat false ((1000000 : Int) : Rat))))
  rw [ofInt_million]
  exact this

/-- Microdegrees of a coordinate of at most `M` degrees, in single precision. -/
theorem coordinate {a : Int} {M : Rat} (h : |(a : Rat)| ≤ M * 1000000) (hM : M ≤ 2 ^ 12) :
    ∃ s, (Fmt.single.ofRat false ((a : Int) : Rat)).val = some s ∧ s = Fmt.single.round a ∧
      |s - a| ≤ 1 / 2 ^ 24 * (M * 1000000) := by
  have h32 : |a| ≤ 2 ^ 32 := by
    have : |(a : Rat)| ≤ 2 ^ 32 := by norm_num at hM ⊢; linarith
    exact_mod_cast this
  obtain ⟨s, h1, h2, h3⟩ := single_of_microdegrees h32
  exact ⟨s, h1, h2, le_trans h3 (mul_le_mul_of_nonneg_left h (by norm_num))⟩

theorem abs_of_close {s a M : Rat} (h : |s - a| ≤ 1 / 2 ^ 24 * (M * 1000000)) (ha : |a| ≤ M * 1000000) (hM : M ≤ 2 ^ 12) :
    |s| ≤ 2 ^ 40 := by
  have := abs_sub_abs_le_abs_sub s a
  norm_num at *
  linarith

/-- C61. With two rows or more, every latitude is a finite number within `M·2^-19` degrees of the exact one, if the first
and the last latitude are at most `M` degrees in size. -/
theorem C61_latitudes (powi pf) (g : LatLonGrid) (it : RegularIter Fl) (h : g.latlons (single powi pf) = .ok it)
    (h2 : 2 ≤ g.nj) (hj : g.nj ≤ 2 ^ 32) (M : Rat) (hM1 : 1 ≤ M) (hM2 : M ≤ 2 ^ 12)
    (hf : |(g.firstLat : Rat)| ≤ M * 1000000) (hl : |(g.lastLat : Rat)| ≤ M * 1000000) (j : Nat) (hjn : j < g.nj) :
    ∃ v y, it.lat[j]? = some v ∧ v.val = some y ∧ |y - rowLatitude g j| ≤ M / 2 ^ 19 := by
  obtain ⟨s, hs1, -, hs3⟩ := coordinate hf hM2
  obtain ⟨e, he1, -, he3⟩ := coordinate hl hM2
  have hlat : it.lat = evenlySpacedDegrees (single powi pf) (Fmt.single.ofRat false (g.firstLat : Rat))
      (Fmt.single.ofRat false (g.lastLat : Rat)) (g.nj - 1) := by
    rw [(C33_points _ g it h).1]
    unfold evenlySpacedDegrees
    rw [show g.nj - 1 + 1 = g.nj by omega]
    rfl
  obtain ⟨v, y, h1, h2', h3⟩ := evenly_close powi pf hs1 he1 (n := g.nj - 1) (by omega) (by omega) (M := M * 1000000)
    (by linarith) (by norm_num at hM2 ⊢; linarith) hf hl (by linarith) (by linarith) (x := j) (by omega)
  rw [hlat]
  refine ⟨v, y, h1, h2', le_trans h3 ?_⟩
  rw [mul_div_assoc, show (1000000 / 1000000 : Rat) = 1 by norm_num]
  linarith

/-- C61. The latitudes keep their order: they never decrease if the last one is not below the first one, and never increase
if it is not above. -/
theorem C61_latitude_order (powi pf) (g : LatLonGrid) (it : RegularIter Fl) (h : g.latlons (single powi pf) = .ok it)
    (h2 : 2 ≤ g.nj) (hj : g.nj ≤ 2 ^ 32) (hf : |(g.firstLat : Rat)| ≤ 2 ^ 31) (hl : |(g.lastLat : Rat)| ≤ 2 ^ 31)
    (i j : Nat) (hij : i ≤ j) (hjn : j < g.nj) :
    ∃ v w, it.lat[i]? = some v ∧ it.lat[j]? = some w ∧
      (g.firstLat ≤ g.lastLat → NotAbove v w) ∧ (g.lastLat ≤ g.firstLat → NotAbove w v) := by
  have hf' : |(g.firstLat : Rat)| ≤ (2 ^ 31 / 1000000) * 1000000 := by norm_num at hf ⊢; exact hf
  have hl' : |(g.lastLat : Rat)| ≤ (2 ^ 31 / 1000000) * 1000000 := by norm_num at hl ⊢; exact hl
  have hM : (2 ^ 31 / 1000000 : Rat) ≤ 2 ^ 12 := by norm_num
  obtain ⟨s, hs1, hs2, hs3⟩ := coordinate hf' hM
  obtain ⟨e, he1, he2, he3⟩ := coordinate hl' hM
  have hlat : it.lat = evenlySpacedDegrees (single powi pf) (Fmt.single.ofRat false (g.firstLat : Rat))
      (Fmt.single.ofRat false (g.lastLat : Rat)) (g.nj - 1) := by
    rw [(C33_points _ g it h).1]
    unfold evenlySpacedDegrees
    rw [show g.nj - 1 + 1 = g.nj by omega]
    rfl
  obtain ⟨v, w, h1, h2', h3, h4⟩ := evenly_mono powi pf hs1 he1 (n := g.nj - 1) (by omega) (by omega)
    (abs_of_close hs3 hf' hM) (abs_of_close he3 hl' hM) hij (by omega)
  rw [hlat]
  refine ⟨v, w, h1, h2', fun hle => h3 ?_, fun hle => h4 ?_⟩
  · rw [hs2, he2]
    exact Fmt.single.round_mono (by decide) (by exact_mod_cast hle)
  · rw [hs2, he2]
    exact Fmt.single.round_mono (by decide) (by exact_mod_cast hle)

/-! ## Longitudes -/

theorem ofInt_turn : Fmt.single.ofRat false ((360000000 : Int) : Rat) = .fin 360000000 := by decide +kernel
theorem ofInt_360 : Fmt.single.ofRat false ((360 : Int) : Rat) = .fin 360 := by decide +kernel

/-- A coordinate and a turn. -/
theorem coordinate_turn {a : Int} {M : Rat} (h : |(a : Rat)| ≤ M * 1000000) (hM1 : 1 ≤ M) (hM : M ≤ 2 ^ 12) :
    ∃ s, (Fmt.single.add (Fmt.single.ofRat false ((a : Int) : Rat)) (Fmt.single.ofRat false ((360000000 : Int) : Rat))).val = some s ∧
      |s - (a + 360000000)| ≤ 3 / 2 ^ 24 * ((M + 360) * 1000000) ∧ |(a : Rat) + 360000000| ≤ (M + 360) * 1000000 := by
  obtain ⟨s, h1, -, h3⟩ := coordinate h hM
  rw [ofInt_turn]
  obtain ⟨z, hz⟩ := Fmt.single.add_val h1 (show (Fl.fin 360000000).val = some 360000000 from rfl)
  have hA : |(a : Rat) + 360000000| ≤ (M + 360) * 1000000 := by
    have := abs_add_le (a : Rat) 360000000
    rw [abs_of_pos (show (0 : Rat) < 360000000 by norm_num)] at this
    linarith
  have c1 : |s + 360000000 - (a + 360000000)| ≤ 1 / 2 ^ 24 * ((M + 360) * 1000000) + 0 := by
    rw [add_sub_add_right_eq_sub]
    norm_num at h3 ⊢
    linarith
  have c2 := single_close (c' := (25 / 10) / 2 ^ 24) (e' := 1 / 2 ^ 150) c1 hA (by norm_num) (by norm_num)
  have c3 : |Fmt.single.round (s + 360000000) - (a + 360000000)| ≤ 3 / 2 ^ 24 * ((M + 360) * 1000000) := by
    refine le_trans c2 ?_
    norm_num
    linarith
  refine ⟨_, ?_, c3, hA⟩
  rw [hz]
  apply Fmt.ofRat_fin
  rw [single_top]
  have := abs_sub_abs_le_abs_sub (Fmt.single.round (s + 360000000)) ((a : Rat) + 360000000)
  norm_num at c3 hM hA ⊢
  linarith

/-- Bringing a longitude back by a turn. -/
theorem turn_back {v : Fl} {y P N : Rat} (hv : v.val = some y) (hN1 : 361 ≤ N) (hN2 : N ≤ 2 ^ 13)
    (hc : |y - P| ≤ 25 / 2 ^ 24 * N) (hP : |P| ≤ N) (powi pf) :
    ∃ y', (if (single powi pf).lt v ((single powi pf).ofInt 360) then v
        else (single powi pf).sub v ((single powi pf).ofInt 360)).val = some y' ∧
      (|y' - P| ≤ N / 2 ^ 19 ∨ |y' - (P - 360)| ≤ N / 2 ^ 19) := by
  show ∃ y', (if Fl.lt v (Fmt.single.ofRat false ((360 : Int) : Rat)) then v
        else Fmt.single.add v (Fmt.single.ofRat false ((360 : Int) : Rat)).neg).val = some y' ∧ _
  rw [ofInt_360]
  split
  · refine ⟨y, hv, .inl (le_trans hc ?_)⟩
    linarith
  · rename_i hlt
    have h360 : (Fl.fin 360).val = some 360 := rfl
    rw [Fl.lt_val hv h360] at hlt
    have hy : 360 ≤ y := by simpa using hlt
    obtain ⟨z, hz⟩ := Fmt.single.add_val hv (Fl.neg_val h360)
    have hP' : |P - 360| ≤ N := by
      rw [abs_le] at hP hc ⊢
      constructor <;> linarith [hc.1, hc.2]
    have c1 : |y + -360 - (P - 360)| ≤ 25 / 2 ^ 24 * N + 0 := by
      rw [show y + -360 - (P - 360) = y - P by ring]
      linarith
    have c2 := single_close (c' := 27 / 2 ^ 24) (e' := 1 / 2 ^ 150) c1 hP' (by norm_num) (by norm_num)
    have c3 : |Fmt.single.round (y + -360) - (P - 360)| ≤ N / 2 ^ 19 := by
      refine le_trans c2 ?_
      norm_num
      linarith
    refine ⟨Fmt.single.round (y + -360), ?_, .inr c3⟩
    rw [hz]
    apply Fmt.ofRat_fin
    rw [single_top]
    have := abs_sub_abs_le_abs_sub (Fmt.single.round (y + -360)) (P - 360)
    norm_num at c3 hN2 hP' ⊢
    linarith

/-- Equal steps stay between the ends. -/
theorem between {a b N : Rat} {n x : Nat} (hn : 1 ≤ n) (hx : x ≤ n) (ha : |a| ≤ N) (hb : |b| ≤ N) :
    |a + x * ((b - a) / n)| ≤ N := by
  have hnp : (1 : Rat) ≤ n := by exact_mod_cast hn
  have hxn : (x : Rat) ≤ n := by exact_mod_cast hx
  have hx0 : (0 : Rat) ≤ x := Nat.cast_nonneg x
  have e6 : a + x * ((b - a) / n) = a * ((n - x) / n) + b * (x / n) := by field_simp; ring
  rw [e6]
  have w1 : 0 ≤ ((n : Rat) - x) / n := div_nonneg (by linarith) (by linarith)
  have w2 : 0 ≤ (x : Rat) / n := div_nonneg hx0 (by linarith)
  have w3 : ((n : Rat) - x) / n + x / n = 1 := by field_simp; ring
  have := abs_add_le (a * (((n : Rat) - x) / n)) (b * (x / n))
  rw [abs_mul, abs_mul, abs_of_nonneg w1, abs_of_nonneg w2] at this
  have h1 := mul_le_mul_of_nonneg_right ha w1
  have h2 := mul_le_mul_of_nonneg_right hb w2
  have h3 : N * (((n : Rat) - x) / n) + N * (x / n) = N := by rw [← mul_add, w3, mul_one]
  linarith

/-- Any list of longitudes of a regular grid. -/
theorem longitudes_close {ε : Type} (powi pf) {first last : Int} {ni : Nat} {mode : ScanningMode} {lons : List Fl} (h2 : 2 ≤ ni)
    (hi : ni ≤ 2 ^ 32)
    (h : (evenlySpacedLongitudes (single powi pf) first last (ni - 1) mode : Outcome ε _) = .ok lons)
    (hne : first ≠ last ∨ negativeI mode) (M : Rat) (hM1 : 1 ≤ M) (hM2 : M ≤ 2 ^ 12)
    (hf : |(first : Rat)| ≤ M * 1000000) (hl : |(last : Rat)| ≤ M * 1000000) (i : Nat) (hin : i < ni) :
    ∃ v y, lons[i]? = some v ∧ v.val = some y ∧
      ∃ turns : Int, |y - (columnLongitude first last mode ni i + 360 * turns)| ≤ (M + 360) / 2 ^ 19 := by
  unfold evenlySpacedLongitudes at h
  obtain ⟨diff, hd, h⟩ := Outcome.bind_eq_ok h
  have hdiff : diff = last - first := by
    unfold checkI32 at hd
    split at hd <;> cases hd
    rfl
  subst hdiff
  rw [mode_positiveI] at h
  obtain ⟨s, hs1, -, hs3⟩ := coordinate hf hM2
  obtain ⟨e, he1, -, he3⟩ := coordinate hl hM2
  have h0 : ((ni - 1 : Nat) : Rat) ≠ 0 := by exact_mod_cast (by omega : ni - 1 ≠ 0)
  have plain : ∃ v y, (evenlySpacedDegrees (single powi pf) (Fmt.single.ofRat false (first : Rat))
      (Fmt.single.ofRat false (last : Rat)) (ni - 1))[i]? = some v ∧ v.val = some y ∧
      |y - ((first : Rat) + i * (((last : Rat) - first) / ((ni - 1 : Nat) : Rat))) / 1000000| ≤ (M + 360) / 2 ^ 19 := by
    obtain ⟨v, y, h1, h2', h3⟩ := evenly_close powi pf hs1 he1 (n := ni - 1) (by omega) (by omega) (M := M * 1000000)
      (by linarith) (by norm_num at hM2 ⊢; linarith) hf hl (by linarith) (by linarith) (x := i) (by omega)
    refine ⟨v, y, h1, h2', le_trans h3 ?_⟩
    rw [mul_div_assoc, show (1000000 / 1000000 : Rat) = 1 by norm_num]
    linarith
  have hwide : M * 1000000 ≤ (M + 360) * 1000000 := by linarith
  have shrink : ∀ {t : Rat}, |t / 1000000| ≤ M + 360 ↔ |t| ≤ (M + 360) * 1000000 := by
    intro t
    rw [abs_div, abs_of_pos (show (0 : Rat) < 1000000 by norm_num), div_le_iff₀ (by norm_num)]
  have wrapped : ∀ {S E : Fl} {s e a b : Rat}, S.val = some s → E.val = some e → |a| ≤ (M + 360) * 1000000 →
      |b| ≤ (M + 360) * 1000000 → |s - a| ≤ 3 / 2 ^ 24 * ((M + 360) * 1000000) → |e - b| ≤ 3 / 2 ^ 24 * ((M + 360) * 1000000) →
      (∃ k : Int, (a + i * ((b - a) / ((ni - 1 : Nat) : Rat))) / 1000000 = columnLongitude first last mode ni i + 360 * k) →
      ∃ v y, ((evenlySpacedDegrees (single powi pf) S E (ni - 1)).map fun x =>
        if (single powi pf).lt x ((single powi pf).ofInt 360) then x else (single powi pf).sub x ((single powi pf).ofInt 360))[i]? =
          some v ∧ v.val = some y ∧
        ∃ turns : Int, |y - (columnLongitude first last mode ni i + 360 * turns)| ≤ (M + 360) / 2 ^ 19 := by
    intro S E s e a b hS hE ha hb hs he hk
    obtain ⟨k, hk⟩ := hk
    obtain ⟨v, y, h1, h2', h3⟩ := evenly_close powi pf hS hE (n := ni - 1) (by omega) (by omega) (M := (M + 360) * 1000000)
      (by linarith) (by norm_num at hM2 ⊢; linarith) ha hb hs he (x := i) (by omega)
    have hB := shrink.2 (between (n := ni - 1) (x := i) (by omega) (by omega) ha hb)
    rw [hk] at h3 hB
    rw [mul_div_assoc (M + 360), show (1000000 / 1000000 : Rat) = 1 by norm_num, mul_one] at h3
    obtain ⟨y', hy', hor⟩ := turn_back h2' (by linarith) (by norm_num at hM2 ⊢; linarith) h3 hB powi pf
    rw [List.getElem?_map, h1]
    refine ⟨_, y', rfl, hy', ?_⟩
    rcases hor with h | h
    · exact ⟨k, h⟩
    · refine ⟨k - 1, ?_⟩
      rw [show columnLongitude first last mode ni i + 360 * ((k - 1 : Int) : Rat) =
        columnLongitude first last mode ni i + 360 * (k : Rat) - 360 by push_cast; ring]
      exact h
  by_cases hlt : first < last
  · cases hneg : negativeI mode
    · simp only [hneg, Bool.not_false, show last - first > 0 by omega, decide_true, Bool.xor_self, if_true] at h
      injection h with h
      rw [← h]
      obtain ⟨v, y, h1, h2', h3⟩ := plain
      refine ⟨v, y, h1, h2', 0, ?_⟩
      have e : columnLongitude first last mode ni i + 360 * ((0 : Int) : Rat) =
          ((first : Rat) + i * (((last : Rat) - first) / ((ni - 1 : Nat) : Rat))) / 1000000 := by
        simp [columnLongitude, longitudeSpan, hneg, hlt]
      rw [e]
      exact h3
    · simp only [hneg, Bool.not_true, show last - first > 0 by omega, decide_true, Bool.xor_false, Bool.false_eq_true, if_false,
        show ¬ first > last by omega] at h
      injection h with h
      rw [← h]
      obtain ⟨s', hs1', hs3', hA⟩ := coordinate_turn hf hM1 hM2
      refine wrapped hs1' he1 hA (le_trans hl hwide) hs3' (by linarith) ⟨1, ?_⟩
      unfold columnLongitude longitudeSpan
      rw [if_pos hneg, if_neg (by omega)]
      push_cast
      field_simp
      ring
  · cases hneg : negativeI mode
    · have hgt : first > last := by
        rcases hne with h1 | h1
        · omega
        · rw [hneg] at h1; cases h1
      simp only [hneg, Bool.not_false, show ¬ last - first > 0 by omega, decide_false, Bool.xor_true, Bool.not_true, Bool.false_eq_true, if_false,
        hgt, if_true] at h
      injection h with h
      rw [← h]
      obtain ⟨e', he1', he3', hA⟩ := coordinate_turn hl hM1 hM2
      refine wrapped hs1 he1' (le_trans hf hwide) hA (by linarith) he3' ⟨0, ?_⟩
      unfold columnLongitude longitudeSpan
      rw [if_neg (by rw [hneg]; decide), if_neg (by omega)]
      push_cast
      field_simp
      ring
    · simp only [hneg, Bool.not_true, show ¬ last - first > 0 by omega, decide_false, Bool.xor_self, Bool.not_false, if_true] at h
      injection h with h
      rw [← h]
      obtain ⟨v, y, h1, h2', h3⟩ := plain
      refine ⟨v, y, h1, h2', 0, ?_⟩
      have e : columnLongitude first last mode ni i + 360 * ((0 : Int) : Rat) =
          ((first : Rat) + i * (((last : Rat) - first) / ((ni - 1 : Nat) : Rat))) / 1000000 := by
        simp [columnLongitude, longitudeSpan, hneg, show last ≤ first by omega]
      rw [e]
      exact h3

/-- C61. With two columns or more, every longitude is a finite number within `(M + 360)·2^-19` degrees of the exact one, up
to whole turns, if the first and the last longitude are at most `M` degrees in size (and differ, for columns scanned
eastwards: see `C33_full_circle_fails`). -/
theorem C61_longitudes (powi pf) (g : LatLonGrid) (it : RegularIter Fl) (h : g.latlons (single powi pf) = .ok it)
    (h2 : 2 ≤ g.ni) (hi : g.ni ≤ 2 ^ 32) (hne : g.firstLon ≠ g.lastLon ∨ negativeI g.mode) (M : Rat) (hM1 : 1 ≤ M) (hM2 : M ≤ 2 ^ 12)
    (hf : |(g.firstLon : Rat)| ≤ M * 1000000) (hl : |(g.lastLon : Rat)| ≤ M * 1000000) (i : Nat) (hin : i < g.ni) :
    ∃ v y, it.lon[i]? = some v ∧ v.val = some y ∧
      ∃ turns : Int, |y - (columnLongitude g.firstLon g.lastLon g.mode g.ni i + 360 * turns)| ≤ (M + 360) / 2 ^ 19 :=
  longitudes_close powi pf h2 hi (latlons_lon h).1 hne M hM1 hM2 hf hl i hin

/-- C61. The same holds for the longitudes of Gaussian grids. -/
theorem C61_gaussian_longitudes {G : Type} (powi pf) (o : GaussOps G Fl) (g : GaussianGrid) (it : RegularIter Fl)
    (h : g.latlons o (single powi pf) = .ok it)
    (h2 : 2 ≤ g.ni) (hi : g.ni ≤ 2 ^ 32) (hne : g.firstLon ≠ g.lastLon ∨ negativeI g.mode) (M : Rat) (hM1 : 1 ≤ M) (hM2 : M ≤ 2 ^ 12)
    (hf : |(g.firstLon : Rat)| ≤ M * 1000000) (hl : |(g.lastLon : Rat)| ≤ M * 1000000) (i : Nat) (hin : i < g.ni) :
    ∃ v y, it.lon[i]? = some v ∧ v.val = some y ∧
      ∃ turns : Int, |y - (columnLongitude g.firstLon g.lastLon g.mode g.ni i + 360 * turns)| ≤ (M + 360) / 2 ^ 19 := by
  unfold GaussianGrid.latlons at h
  obtain ⟨c, -, h⟩ := Outcome.bind_eq_ok h
  split at h
  · cases h
  obtain ⟨ij, -, h⟩ := Outcome.bind_eq_ok h
  obtain ⟨lat, -, h⟩ := Outcome.bind_eq_ok h
  dsimp only at h
  split at h
  · cases h
  obtain ⟨lon, hlon, h⟩ := Outcome.bind_eq_ok h
  cases h
  exact longitudes_close powi pf h2 hi hlon hne M hM1 hM2 hf hl i hin

/-- C61. The points of a grid read from a file, as the program computes them: as many as rows times columns, and point `k`
is within `2^-19·90` degrees of latitude (0.00018) and `2^-19·720` degrees of longitude (0.0014) of the exact point that
the scanning order visits as the `k`-th. -/
theorem C61_points (powi pf) (g : LatLonGrid) (it : RegularIter Fl) (h : g.latlons (single powi pf) = .ok it)
    (hi2 : 2 ≤ g.ni) (hj2 : 2 ≤ g.nj) (hi : g.ni ≤ 2 ^ 32) (hj : g.nj ≤ 2 ^ 32)
    (hne : g.firstLon ≠ g.lastLon ∨ negativeI g.mode)
    (hlat1 : |g.firstLat| ≤ 90000000) (hlat2 : |g.lastLat| ≤ 90000000)
    (hlon1 : |g.firstLon| ≤ 360000000) (hlon2 : |g.lastLon| ≤ 360000000) :
    ∃ pts, it.drain (g.ni * g.nj + 1) = .done pts ∧ pts.length = g.ni * g.nj ∧
      ∀ k < g.ni * g.nj, ∃ a b x y, pts[k]? = some (a, b) ∧ a.val = some x ∧ b.val = some y ∧
        |x - rowLatitude g (visit g.ni g.nj g.mode k).2| ≤ 90 / 2 ^ 19 ∧
        ∃ turns : Int, |y - (columnLongitude g.firstLon g.lastLon g.mode g.ni (visit g.ni g.nj g.mode k).1 + 360 * turns)| ≤
          720 / 2 ^ 19 := by
  obtain ⟨-, -, hdr⟩ := C33_points _ g it h
  refine ⟨_, hdr, by simp, fun k hk => ?_⟩
  have hv := visit_lt (ni := g.ni) (nj := g.nj) (mode := g.mode) hk
  have a1 : |(g.firstLat : Rat)| ≤ 90 * 1000000 := by
    have : |(g.firstLat : Rat)| ≤ 90000000 := by exact_mod_cast hlat1
    linarith
  have a2 : |(g.lastLat : Rat)| ≤ 90 * 1000000 := by
    have : |(g.lastLat : Rat)| ≤ 90000000 := by exact_mod_cast hlat2
    linarith
  have a3 : |(g.firstLon : Rat)| ≤ 360 * 1000000 := by
    have : |(g.firstLon : Rat)| ≤ 360000000 := by exact_mod_cast hlon1
    linarith
  have a4 : |(g.lastLon : Rat)| ≤ 360 * 1000000 := by
    have : |(g.lastLon : Rat)| ≤ 360000000 := by exact_mod_cast hlon2
    linarith
  obtain ⟨a, x, p1, p2, p3⟩ := C61_latitudes powi pf g it h hj2 hj 90 (by norm_num) (by norm_num) a1 a2 _ hv.2
  obtain ⟨b, y, q1, q2, q3⟩ := C61_longitudes powi pf g it h hi2 hi hne 360 (by norm_num) (by norm_num) a3 a4 _ hv.1
  refine ⟨a, b, x, y, ?_, p2, q2, p3, ?_⟩
  · rw [List.getElem?_map, List.getElem?_range hk, Option.map_some, List.getD_eq_getElem?_getD, List.getD_eq_getElem?_getD, p1, q1]
    rfl
  · obtain ⟨t, ht⟩ := q3
    exact ⟨t, le_trans ht (by norm_num)⟩

/-- C61. Distinct rows stay distinct if they are more than `M·2^-18` degrees apart (0.00035 degrees for latitudes). -/
theorem C61_distinct_rows (powi pf) (g : LatLonGrid) (it : RegularIter Fl) (h : g.latlons (single powi pf) = .ok it)
    (h2 : 2 ≤ g.nj) (hj : g.nj ≤ 2 ^ 32) (M : Rat) (hM1 : 1 ≤ M) (hM2 : M ≤ 2 ^ 12)
    (hf : |(g.firstLat : Rat)| ≤ M * 1000000) (hl : |(g.lastLat : Rat)| ≤ M * 1000000) (i j : Nat) (hi : i < g.nj) (hjn : j < g.nj)
    (hd : rowLatitude g i + M / 2 ^ 18 < rowLatitude g j) :
    ∃ v w, it.lat[i]? = some v ∧ it.lat[j]? = some w ∧ Fl.lt v w = true := by
  obtain ⟨v, x, h1, h2', h3⟩ := C61_latitudes powi pf g it h h2 hj M hM1 hM2 hf hl i hi
  obtain ⟨w, y, p1, p2, p3⟩ := C61_latitudes powi pf g it h h2 hj M hM1 hM2 hf hl j hjn
  refine ⟨v, w, h1, p1, ?_⟩
  rw [Fl.lt_val h2' p2]
  rw [abs_le] at h3 p3
  have := h3.2
  have := p3.1
  simp only [decide_eq_true_eq]
  linarith

/-- C61. Columns keep their order, too, if the longitudes need not pass the 360-degree line. -/
theorem C61_longitude_order (powi pf) (g : LatLonGrid) (it : RegularIter Fl) (h : g.latlons (single powi pf) = .ok it)
    (h2 : 2 ≤ g.ni) (hi : g.ni ≤ 2 ^ 32) (hf : |(g.firstLon : Rat)| ≤ 2 ^ 31) (hl : |(g.lastLon : Rat)| ≤ 2 ^ 31)
    (hdir : if negativeI g.mode then g.lastLon ≤ g.firstLon else g.firstLon < g.lastLon)
    (i j : Nat) (hij : i ≤ j) (hjn : j < g.ni) :
    ∃ v w, it.lon[i]? = some v ∧ it.lon[j]? = some w ∧ if negativeI g.mode then NotAbove w v else NotAbove v w := by
  have hf' : |(g.firstLon : Rat)| ≤ (2 ^ 31 / 1000000) * 1000000 := by norm_num at hf ⊢; exact hf
  have hl' : |(g.lastLon : Rat)| ≤ (2 ^ 31 / 1000000) * 1000000 := by norm_num at hl ⊢; exact hl
  have hM : (2 ^ 31 / 1000000 : Rat) ≤ 2 ^ 12 := by norm_num
  obtain ⟨s, hs1, hs2, hs3⟩ := coordinate hf' hM
  obtain ⟨e, he1, he2, he3⟩ := coordinate hl' hM
  have hlon := (latlons_lon h).1
  unfold evenlySpacedLongitudes at hlon
  obtain ⟨diff, hd, hlon⟩ := Outcome.bind_eq_ok hlon
  have hdiff : diff = g.lastLon - g.firstLon := by
    unfold checkI32 at hd
    split at hd <;> cases hd
    rfl
  subst hdiff
  rw [mode_positiveI] at hlon
  have hlon' : it.lon = evenlySpacedDegrees (single powi pf) (Fmt.single.ofRat false (g.firstLon : Rat))
      (Fmt.single.ofRat false (g.lastLon : Rat)) (g.ni - 1) := by
    cases hneg : negativeI g.mode
    · rw [hneg, if_neg (by decide)] at hdir
      simp only [hneg, Bool.not_false, show g.lastLon - g.firstLon > 0 by omega, decide_true, Bool.xor_self, if_true] at hlon
      injection hlon with hlon
      exact hlon.symm
    · rw [hneg, if_pos rfl] at hdir
      simp only [hneg, Bool.not_true, show ¬ g.lastLon - g.firstLon > 0 by omega, decide_false, Bool.xor_self, Bool.not_false, if_true] at hlon
      injection hlon with hlon
      exact hlon.symm
  obtain ⟨v, w, h1, h2', h3, h4⟩ := evenly_mono powi pf hs1 he1 (n := g.ni - 1) (by omega) (by omega)
    (abs_of_close hs3 hf' hM) (abs_of_close he3 hl' hM) hij (by omega)
  rw [hlon']
  refine ⟨v, w, h1, h2', ?_⟩
  split
  · rename_i hn
    rw [if_pos hn] at hdir
    apply h4
    rw [hs2, he2]
    exact Fmt.single.round_mono (by decide) (by exact_mod_cast hdir)
  · rename_i hn
    rw [if_neg hn] at hdir
    apply h3
    rw [hs2, he2]
    exact Fmt.single.round_mono (by decide) (by exact_mod_cast hdir.le)

theorem rdAs_lt {p : List UInt8} {i n v : Nat} (h : (rdAs p i n : Outcome GribError Nat) = .ok v) : v < 2 ^ (8 * n) := by
  by_cases hl : i + n ≤ p.length
  · rw [rdAs_number hl] at h
    cases h
    exact number_lt p i n
  · rw [rdAs_panic (by omega)] at h; cases h

theorem asGribInt_range {v : Nat} (h : v < 2 ^ 32) : |asGribInt 32 v| < 2 ^ 31 := by
  unfold asGribInt
  rw [abs_lt]
  split <;> omega

/-- C61. The numbers of a grid read from a section 3 are within the ranges asked for above. -/
theorem C61_ranges (d : GridDefinition) (g : LatLonGrid) (h : GridTemplate.tryFrom d = .ok (.template0 g)) :
    g.ni < 2 ^ 32 ∧ g.nj < 2 ^ 32 ∧ |g.firstLat| < 2 ^ 31 ∧ |g.lastLat| < 2 ^ 31 ∧ |g.firstLon| < 2 ^ 31 ∧ |g.lastLon| < 2 ^ 31 := by
  unfold GridTemplate.tryFrom at h
  obtain ⟨num, -, h⟩ := Outcome.bind_eq_ok h
  dsimp only at h
  split at h
  · split at h
    · cases h
    obtain ⟨rest, -, h⟩ := Outcome.bind_eq_ok h
    obtain ⟨g', hg, h⟩ := Outcome.bind_eq_ok h
    cases h
    unfold LatLonGrid.fromBuf at hg
    obtain ⟨ni, h1, hg⟩ := Outcome.bind_eq_ok hg
    obtain ⟨nj, h2, hg⟩ := Outcome.bind_eq_ok hg
    obtain ⟨a, h3, hg⟩ := Outcome.bind_eq_ok hg
    obtain ⟨b, h4, hg⟩ := Outcome.bind_eq_ok hg
    obtain ⟨c, h5, hg⟩ := Outcome.bind_eq_ok hg
    obtain ⟨e, h6, hg⟩ := Outcome.bind_eq_ok hg
    obtain ⟨m, -, hg⟩ := Outcome.bind_eq_ok hg
    cases hg
    exact ⟨rdAs_lt h1, rdAs_lt h2, asGribInt_range (rdAs_lt h3), asGribInt_range (rdAs_lt h5), asGribInt_range (rdAs_lt h4),
      asGribInt_range (rdAs_lt h6)⟩
  · obtain ⟨rest, -, h⟩ := Outcome.bind_eq_ok h
    obtain ⟨g', -, h⟩ := Outcome.bind_eq_ok h
    cases h
  · obtain ⟨rest, -, h⟩ := Outcome.bind_eq_ok h
    obtain ⟨g', -, h⟩ := Outcome.bind_eq_ok h
    cases h
  · split at h
    · cases h
    obtain ⟨rest, -, h⟩ := Outcome.bind_eq_ok h
    obtain ⟨g', -, h⟩ := Outcome.bind_eq_ok h
    cases h
  · cases h

/-! ## Cases -/

/-- From 20.1N 120.05E to 47.9N 149.95E in steps of 0.1 and 0.05 degrees: 279 rows of 599 columns. -/
def fineGrid : LatLonGrid := ⟨599, 279, 20100000, 120050000, 47900000, 149950000, 0b01000000⟩

/-- It is accepted and meets the hypotheses of all theorems above. -/
example (powi pf) : (∃ it, fineGrid.latlons (single powi pf) = .ok it) ∧ 2 ≤ fineGrid.ni ∧ 2 ≤ fineGrid.nj ∧ fineGrid.ni ≤ 2 ^ 32 ∧
    fineGrid.nj ≤ 2 ^ 32 ∧ (fineGrid.firstLon ≠ fineGrid.lastLon ∨ negativeI fineGrid.mode) ∧ |fineGrid.firstLat| ≤ 90000000 ∧
    |fineGrid.lastLat| ≤ 90000000 ∧ |fineGrid.firstLon| ≤ 360000000 ∧ |fineGrid.lastLon| ≤ 360000000 ∧
    rowLatitude fineGrid 7 + 90 / 2 ^ 18 < rowLatitude fineGrid 8 :=
  ⟨(C34_accepts_partial _ fineGrid (by decide) (by decide) (by unfold fitsI32; decide) (by unfold fitsI32; decide)).2.2
    (by unfold agreesJ; decide +kernel) (by decide), by decide, by decide, by decide, by decide, by decide, by decide, by decide,
    by decide, by decide, by decide +kernel⟩

/-- The sample of C33, passing the 360-degree line, in single precision: the exact values of 350, 0, 10, 20. -/
example : sampleLatLon.latlons (single (compilerRtPowi .single) fun _ => .nan) =
    .ok ⟨[.fin 45, .fin 30, .fin 15], [.fin 350, .fin 0, .fin 10, .fin 20], GridIter.new 4 3 0⟩ := by decide +kernel

/-- Latitudes from 20.1 to 20.5 in four steps: here, the nearest single-precision numbers of 20.1, 20.2, 20.3, 20.4, 20.5. -/
example : ((⟨2, 5, 20100000, 0, 20500000, 10000000, 0b01000000⟩ : LatLonGrid).latlons (single (compilerRtPowi .single) fun _ => .nan)) =
    .ok ⟨[.ofBits32 0x41a0cccd, .ofBits32 0x41a1999a, .ofBits32 0x41a26666, .ofBits32 0x41a33333, .ofBits32 0x41a40000],
      [.fin 0, .fin 10], GridIter.new 2 5 64⟩ := by decide +kernel

/-- C61, limits. Rows a few microdegrees apart collapse: distinct exact latitudes, the same computed one. -/
theorem C61_collapse_fails : ∃ (g : LatLonGrid) (it : RegularIter Fl),
    g.latlons (single (compilerRtPowi .single) fun _ => .nan) = .ok it ∧ |g.firstLat| ≤ 90000000 ∧ |g.lastLat| ≤ 90000000 ∧
    rowLatitude g 0 ≠ rowLatitude g 1 ∧ it.lat[0]? = it.lat[1]? ∧ (it.lat[0]?).isSome :=
  ⟨⟨2, 3, 89999996, 0, 90000000, 10000000, 0b01000000⟩, _, rfl, by decide, by decide, by decide +kernel, by decide +kernel,
    by decide +kernel⟩

end Grib.Props
