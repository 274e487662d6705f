import Verif.Lemmas.LegendreNewton
import Mathlib.Analysis.Real.Pi.Bounds
import Mathlib.Analysis.SpecialFunctions.Trigonometric.Inverse
import Mathlib.Analysis.SpecialFunctions.Trigonometric.InverseDeriv

/-! # The zeros of a Legendre polynomial and the first guesses of the search for them -/

namespace Grib.Spec

open Real

section

variable (n : Nat)

/-! ## The phase south of the equator -/

theorem pa_symm (θ : ℝ) : pa n (π - θ) = (-1) ^ n * pa n θ := by
  unfold pa; rw [cos_pi_sub, P_neg]

theorem pb_symm (θ : ℝ) : pb n (π - θ) = -(-1) ^ n * pb n θ := by
  unfold pb; rw [cos_pi_sub, sin_pi_sub, P_neg, P'_neg]; ring

theorem rate_symm (θ : ℝ) : rate n (π - θ) = rate n θ := by
  unfold rate
  rw [pa_symm, pb_symm, sin_pi_sub]
  have : ((-1 : ℝ) ^ n) ^ 2 = 1 := by rw [← pow_mul, mul_comm, pow_mul]; norm_num
  rw [mul_pow, mul_pow, neg_sq, this, one_mul, one_mul]

theorem phase_symm {θ : ℝ} (h : θ ∈ Set.Ioo 0 π) : phase n (π - θ) = n * π - phase n θ := by
  have hm : ∀ t ∈ Set.Ioo (0:ℝ) π, π - t ∈ Set.Ioo (0:ℝ) π := fun t ht => ⟨by linarith [ht.2], by linarith [ht.1]⟩
  have hd : ∀ t ∈ Set.Ioo (0:ℝ) π, HasDerivAt (fun t => phase n (π - t) + phase n t) 0 t := by
    intro t ht
    have h1 := (hasDerivAt_phase n (hm t ht)).comp t ((hasDerivAt_id t).const_sub π)
    have h2 := h1.add (hasDerivAt_phase n ht)
    refine HasDerivAt.congr_deriv h2 ?_
    rw [rate_symm]; ring
  have hh : π / 2 ∈ Set.Ioo 0 π := ⟨by positivity, by linarith [pi_pos]⟩
  have := (convex_Ioo (0:ℝ) π).is_const_of_fderivWithin_eq_zero (𝕜 := ℝ) (f := fun t => phase n (π - t) + phase n t)
    (fun t ht => (hd t ht).differentiableAt.differentiableWithinAt) (fun t ht => by
      rw [fderivWithin_of_isOpen isOpen_Ioo ht, (hd t ht).hasFDerivAt.fderiv]
      ext; simp) h hh
  rw [show π - π / 2 = π / 2 by ring, phase_half] at this
  linarith

/-! ## The zeros -/

/-- The angle of the first guess number `i`. -/
noncomputable def guessAngle (i : Nat) : ℝ := (i + 3 / 4) * π / NN n

theorem guessAngle_mul (i : Nat) : NN n * guessAngle n i = (i + 3 / 4) * π := by
  have := (NN_pos n).ne'
  unfold guessAngle
  field_simp

theorem guessAngle_pos (i : Nat) : 0 < guessAngle n i := by
  have := NN_pos n
  unfold guessAngle
  positivity

theorem guessAngle_le {i : Nat} (hi : 2 * i + 1 ≤ n) : guessAngle n i ≤ π / 2 := by
  have hN := NN_pos n
  have := pi_pos
  unfold guessAngle
  rw [div_le_iff₀ hN]
  have : (2 * (i : ℝ) + 1) ≤ n := by exact_mod_cast hi
  unfold NN
  nlinarith

theorem exists_angle {i : Nat} (hi : i < n) : ∃ θ ∈ Set.Ioo 0 π, phase n θ = π / 2 + i * π := by
  have hpi := pi_pos
  have north : ∀ i : Nat, 2 * i + 1 ≤ n → ∃ θ ∈ Set.Ioo 0 π, phase n θ = π / 2 + i * π := by
    intro i hi
    have h0 := guessAngle_pos n i
    have h1 := guessAngle_le n hi
    have hsub : Set.Icc (guessAngle n i) (π / 2) ⊆ Set.Ioo 0 π := fun t ht => ⟨by linarith [ht.1], by linarith [ht.2]⟩
    have hc : ContinuousOn (phase n) (Set.Icc (guessAngle n i) (π / 2)) :=
      fun t ht => (hasDerivAt_phase n (hsub ht)).continuousAt.continuousWithinAt
    have hlo : phase n (guessAngle n i) ≤ π / 2 + i * π := by
      have := (phase_bounds n h0 h1).2
      rw [guessAngle_mul] at this
      linarith
    have hhi : π / 2 + i * π ≤ phase n (π / 2) := by
      rw [phase_half]
      have : (2 * (i : ℝ) + 1) ≤ n := by exact_mod_cast hi
      nlinarith
    obtain ⟨θ, hθ, he⟩ := intermediate_value_Icc h1 hc ⟨hlo, hhi⟩
    exact ⟨θ, hsub hθ, he⟩
  by_cases h : 2 * i + 1 ≤ n
  · exact north i h
  · obtain ⟨θ, hθ, he⟩ := north (n - 1 - i) (by omega)
    refine ⟨π - θ, ⟨by linarith [hθ.2], by linarith [hθ.1]⟩, ?_⟩
    rw [phase_symm n hθ, he]
    have : ((n - 1 - i : ℕ) : ℝ) = n - 1 - i := by
      rw [Nat.cast_sub (by omega), Nat.cast_sub (by omega)]; simp
    rw [this]; ring

/-- The angle of zero number `i`, from north to south. -/
noncomputable def zeroAngle (i : Nat) : ℝ := if h : i < n then (exists_angle n h).choose else 0

theorem zeroAngle_spec {i : Nat} (h : i < n) : zeroAngle n i ∈ Set.Ioo 0 π ∧ phase n (zeroAngle n i) = π / 2 + i * π := by
  unfold zeroAngle
  rw [dif_pos h]
  exact (exists_angle n h).choose_spec

/-- Zero number `i`. -/
noncomputable def zero (i : Nat) : ℝ := cos (zeroAngle n i)

theorem zeroAngle_lt {i j : Nat} (hij : i < j) (hj : j < n) : zeroAngle n i < zeroAngle n j := by
  obtain ⟨h1, e1⟩ := zeroAngle_spec n (hij.trans hj)
  obtain ⟨h2, e2⟩ := zeroAngle_spec n hj
  rw [← (phase_strictMono n).lt_iff_lt h1 h2, e1, e2]
  have : (i : ℝ) < j := by exact_mod_cast hij
  nlinarith [pi_pos]

theorem zero_lt {i j : Nat} (hij : i < j) (hj : j < n) : zero n j < zero n i := by
  have h1 := (zeroAngle_spec n (hij.trans hj)).1
  have h2 := (zeroAngle_spec n hj).1
  exact cos_lt_cos_of_nonneg_of_le_pi h1.1.le h2.2.le (zeroAngle_lt n hij hj)

theorem zero_is_zero {i : Nat} (hi : i < n) : P n (zero n i) = 0 := by
  obtain ⟨h1, e1⟩ := zeroAngle_spec n hi
  unfold zero
  rw [P_zero_iff n h1, e1, cos_add, cos_pi_div_two, sin_nat_mul_pi]
  ring

theorem zero_mem {i : Nat} (hi : i < n) : -1 < zero n i ∧ zero n i < 1 := by
  have h1 := (zeroAngle_spec n hi).1
  unfold zero
  constructor
  · rw [← cos_pi]
    exact cos_lt_cos_of_nonneg_of_le_pi h1.1.le le_rfl h1.2
  · rw [← cos_zero]
    exact cos_lt_cos_of_nonneg_of_le_pi le_rfl h1.2.le h1.1

theorem zeroAngle_symm {i : Nat} (hi : i < n) : zeroAngle n (n - 1 - i) = π - zeroAngle n i := by
  obtain ⟨h1, e1⟩ := zeroAngle_spec n hi
  obtain ⟨h2, e2⟩ := zeroAngle_spec n (show n - 1 - i < n by omega)
  have h3 : π - zeroAngle n i ∈ Set.Ioo 0 π := ⟨by linarith [h1.2], by linarith [h1.1]⟩
  apply (phase_strictMono n).injOn h2 h3
  rw [e2, phase_symm n h1, e1]
  have : ((n - 1 - i : ℕ) : ℝ) = n - 1 - i := by
    rw [Nat.cast_sub (by omega), Nat.cast_sub (by omega)]; simp
  rw [this]; ring

theorem zero_symm {i : Nat} (hi : i < n) : zero n (n - 1 - i) = -zero n i := by
  unfold zero
  rw [zeroAngle_symm n hi, cos_pi_sub]

open Polynomial in
theorem natDegree_le : (legendreR n).natDegree ≤ n := by
  unfold legendreR
  refine natDegree_map_le.trans ?_
  unfold legendre
  refine (natDegree_C_mul_le _ _).trans ?_
  refine (natDegree_iterate_derivative _ _).trans ?_
  have h1 : ((X ^ 2 - 1 : ℚ[X]) ^ n).natDegree ≤ n * 2 := by
    refine natDegree_pow_le_of_le n ?_
    refine (natDegree_sub_le _ _).trans ?_
    simp
  omega

/-- These are all zeros. -/
theorem P_eq_zero_iff (x : ℝ) : P n x = 0 ↔ ∃ i < n, zero n i = x := by
  classical
  constructor
  · intro hx
    have hne : legendreR n ≠ 0 := by
      intro h0
      have := P_at_one n
      unfold P at this
      rw [h0] at this
      simp at this
    have hinj : Set.InjOn (zero n) (Finset.range n : Set ℕ) := by
      intro i hi j hj hij
      rw [Finset.coe_range, Set.mem_Iio] at hi hj
      rcases lt_trichotomy i j with h | h | h
      · exact absurd hij (zero_lt n h hj).ne'
      · exact h
      · exact absurd hij (zero_lt n h hi).ne
    have hcard : ((Finset.range n).image (zero n)).card = n := by
      rw [Finset.card_image_of_injOn hinj, Finset.card_range]
    have hsub : (Finset.range n).image (zero n) ⊆ (legendreR n).roots.toFinset := by
      intro y hy
      rw [Finset.mem_image] at hy
      obtain ⟨i, hi, rfl⟩ := hy
      rw [Multiset.mem_toFinset, Polynomial.mem_roots hne]
      exact zero_is_zero n (Finset.mem_range.mp hi)
    have hle : (legendreR n).roots.toFinset.card ≤ n :=
      (Multiset.toFinset_card_le _).trans ((Polynomial.card_roots' _).trans (natDegree_le n))
    have heq := Finset.eq_of_subset_of_card_le hsub (by rw [hcard]; exact hle)
    have hmem : x ∈ (legendreR n).roots.toFinset := by
      rw [Multiset.mem_toFinset, Polynomial.mem_roots hne]
      exact hx
    rw [← heq, Finset.mem_image] at hmem
    obtain ⟨i, hi, hix⟩ := hmem
    exact ⟨i, Finset.mem_range.mp hi, hix⟩
  · rintro ⟨i, hi, rfl⟩
    exact zero_is_zero n hi

/-! ## The first guess -/

/-- The factor of the first guess. -/
noncomputable def shrink : ℝ := 1 - 1 / (8 * (n : ℝ) ^ 2) + 1 / (8 * (n : ℝ) ^ 3)

/-- First guess number `i`. -/
noncomputable def guess (i : Nat) : ℝ := shrink n * cos (guessAngle n i)

theorem shrink_bounds (hn : 1 ≤ n) : 0 < shrink n ∧ shrink n ≤ 1 ∧ (1 - shrink n) * NN n ^ 2 ≤ 1 / 8 := by
  have h1 : (1:ℝ) ≤ n := by exact_mod_cast hn
  have e : 1 - shrink n = ((n : ℝ) - 1) / (8 * n ^ 3) := by
    unfold shrink
    have : (n : ℝ) ≠ 0 := by positivity
    field_simp
    ring
  have hp : (0:ℝ) < 8 * n ^ 3 := by positivity
  have h3 : (n : ℝ) ≤ n ^ 3 := by nlinarith [sq_nonneg ((n:ℝ) - 1), mul_nonneg (sub_nonneg.mpr h1) (sub_nonneg.mpr h1)]
  refine ⟨?_, ?_, ?_⟩
  · have : ((n : ℝ) - 1) / (8 * n ^ 3) < 1 := by rw [div_lt_one hp]; linarith
    linarith
  · have : 0 ≤ ((n : ℝ) - 1) / (8 * n ^ 3) := div_nonneg (by linarith) hp.le
    linarith
  · rw [e, div_mul_eq_mul_div, div_le_iff₀ hp]
    unfold NN
    nlinarith

theorem guess_symm {i : Nat} (hi : i < n) : guess n (n - 1 - i) = -guess n i := by
  have hc : ((n - 1 - i : ℕ) : ℝ) = n - 1 - i := by
    rw [Nat.cast_sub (by omega), Nat.cast_sub (by omega)]; simp
  have : guessAngle n (n - 1 - i) = π - guessAngle n i := by
    have hN := (NN_pos n).ne'
    unfold guessAngle
    rw [hc]
    rw [eq_sub_iff_add_eq, ← add_div, div_eq_iff hN]
    unfold NN; ring
  unfold guess
  rw [this, cos_pi_sub]; ring

theorem mul_cos_le_sin {x : ℝ} (h0 : 0 < x) (h1 : x ≤ π / 2) : x * cos x ≤ sin x := by
  rcases h1.lt_or_eq with h | h
  · have := (lt_tan h0 h).le
    have hc := cos_pos_of_mem_Ioo ⟨by linarith, h⟩
    rw [tan_eq_sin_div_cos, le_div_iff₀ hc] at this
    exact this
  · rw [h, cos_pi_div_two, sin_pi_div_two]; norm_num

theorem cos_sub_ge {a b : ℝ} (ha : 0 ≤ a) (hab : a ≤ b) (hb : b ≤ π / 2) : sin a * (b - a) ≤ cos a - cos b := by
  rcases hab.eq_or_lt with h | h
  · rw [h]; simp
  · obtain ⟨c, hc, he⟩ := exists_hasDerivAt_eq_slope cos (fun x => -sin x) h continuous_cos.continuousOn
      (fun x _ => hasDerivAt_cos x)
    have hba : 0 < b - a := by linarith
    have hs : sin a ≤ sin c := sin_le_sin_of_le_of_le_pi_div_two (by linarith [pi_pos]) (by linarith [hc.2]) hc.1.le
    rw [eq_div_iff hba.ne'] at he
    nlinarith

theorem cos_sub_le {a b : ℝ} (ha : a ∈ Set.Ioo 0 π) (hb : b ∈ Set.Ioo 0 π) :
    |cos a - cos b| ≤ |a - b| * (sin b + |a - b|) := by
  have key : ∀ x y : ℝ, x ∈ Set.Ioo 0 π → y ∈ Set.Ioo 0 π → x ≤ y → |cos x - cos y| ≤ (y - x) * (sin x + (y - x)) ∧
      |cos x - cos y| ≤ (y - x) * (sin y + (y - x)) := by
    intro x y hx hy hxy
    rcases hxy.eq_or_lt with h | h
    · rw [h]; simp
    · obtain ⟨c, hc, he⟩ := exists_hasDerivAt_eq_slope cos (fun x => -sin x) h continuous_cos.continuousOn
        (fun x _ => hasDerivAt_cos x)
      have hba : 0 < y - x := by linarith
      rw [eq_div_iff hba.ne'] at he
      have hsc : 0 ≤ sin c := sin_nonneg_of_nonneg_of_le_pi (by linarith [hx.1, hc.1]) (by linarith [hy.2, hc.2])
      have e : |cos x - cos y| = sin c * (y - x) := by
        rw [show cos x - cos y = sin c * (y - x) by linarith, abs_of_nonneg (mul_nonneg hsc hba.le)]
      have lip : ∀ u v : ℝ, sin u ≤ sin v + |u - v| := by
        intro u v
        have := abs_sin_sub_sin_le u v
        have := (abs_le.mp this).2
        linarith
      have h1 := lip c x
      have h2 := lip c y
      rw [abs_of_nonneg (by linarith [hc.1])] at h1
      rw [abs_of_nonpos (by linarith [hc.2])] at h2
      rw [e, mul_comm]
      constructor
      · exact mul_le_mul_of_nonneg_left (by linarith [hc.2]) hba.le
      · exact mul_le_mul_of_nonneg_left (by linarith [hc.1]) hba.le
  rcases le_total a b with h | h
  · rw [abs_of_nonpos (show a - b ≤ 0 by linarith)]
    have := (key a b ha hb h).2
    rwa [neg_sub]
  · rw [abs_of_nonneg (show 0 ≤ a - b by linarith), abs_sub_comm]
    exact (key b a hb ha h).1


theorem sin_guessAngle {i : Nat} (hn : 2 ≤ n) (hi : 2 * i + 1 ≤ n) : 1.95 ≤ NN n * sin (guessAngle n i) := by
  have hN := NN_pos n
  have hpi := pi_pos
  have hp1 : π < 3.1416 := pi_lt_d4
  have hp2 : 3.1415 < π := pi_gt_d4
  have hN2 : 2.5 ≤ NN n := by
    have : (2:ℝ) ≤ n := by exact_mod_cast hn
    unfold NN; linarith
  have hle : guessAngle n 0 ≤ guessAngle n i := by
    unfold guessAngle
    apply div_le_div_of_nonneg_right _ hN.le
    apply mul_le_mul_of_nonneg_right _ hpi.le
    have : (0:ℝ) ≤ i := Nat.cast_nonneg i
    push_cast
    linarith
  have h0 := guessAngle_pos n 0
  have hs := sin_le_sin_of_le_of_le_pi_div_two (by linarith) (guessAngle_le n hi) hle
  have hm := guessAngle_mul n 0
  have hc := (sin_gt_sub_cube h0).le
  generalize guessAngle n 0 = φ at *
  have hφ : φ ≤ 0.943 := by
    have : 2.5 * φ ≤ NN n * φ := mul_le_mul_of_nonneg_right hN2 h0.le
    rw [hm] at this
    push_cast at this
    linarith
  have h2 : φ ^ 2 ≤ 0.89 := by nlinarith
  have h3 : φ * (1 - 0.89 / 6) ≤ sin φ := by nlinarith
  have h4 := mul_le_mul_of_nonneg_left (h3.trans hs) hN.le
  rw [← mul_assoc, hm] at h4
  push_cast at h4
  linarith

/-- The phase of the first guess is nearly that of the zero. -/
theorem guess_phase {i : Nat} (hn : 2 ≤ n) (hi : 2 * i + 1 ≤ n) : ∃ θ ∈ Set.Ioo 0 π, cos θ = guess n i ∧
    |phase n θ - (π / 2 + i * π)| ≤ 0.1062 ∧ 0 ≤ cos θ ∧ cos θ / (2 * sin θ) ≤ 0.2123 * NN n ∧ 1.95 ≤ NN n * sin θ := by
  have hN := NN_pos n
  have hpi := pi_pos
  have hp2 : 3.1415 < π := pi_gt_d4
  obtain ⟨hc0, hc1, hc2⟩ := shrink_bounds n (by omega)
  have hsin := sin_guessAngle n hn hi
  have hφ0 := guessAngle_pos n i
  have hφ1 := guessAngle_le n hi
  have hφm := guessAngle_mul n i
  have hφp := phase_bounds n hφ0 hφ1
  have hcot := mul_cos_le_sin hφ0 hφ1
  have hi0 : (0:ℝ) ≤ i := Nat.cast_nonneg i
  unfold guess
  generalize guessAngle n i = φ at *
  have hφpi : φ < π := by linarith
  have hcφ : 0 ≤ cos φ := cos_nonneg_of_neg_pi_div_two_le_of_le (by linarith) hφ1
  have hsφ : 0 < sin φ := sin_pos_of_mem_Ioo ⟨hφ0, hφpi⟩
  have hNφ : 2.356 ≤ NN n * φ := by rw [hφm]; nlinarith
  have hg0 : 0 ≤ shrink n * cos φ := mul_nonneg hc0.le hcφ
  have hg1 : shrink n * cos φ ≤ cos φ := mul_le_of_le_one_left hcφ hc1
  have hgone : shrink n * cos φ ≤ 1 := hg1.trans (cos_le_one φ)
  refine ⟨arccos (shrink n * cos φ), ?_⟩
  have hcos : cos (arccos (shrink n * cos φ)) = shrink n * cos φ := cos_arccos (by linarith) hgone
  have hle : φ ≤ arccos (shrink n * cos φ) := by
    have := arccos_le_arccos hg1
    rwa [arccos_cos hφ0.le hφpi.le] at this
  have hhalf : arccos (shrink n * cos φ) ≤ π / 2 := arccos_le_pi_div_two.mpr hg0
  generalize arccos (shrink n * cos φ) = θ at *
  have hθ : θ ∈ Set.Ioo 0 π := ⟨by linarith, by linarith⟩
  have hss : sin φ ≤ sin θ := sin_le_sin_of_le_of_le_pi_div_two (by linarith) hhalf hle
  have hd : NN n * (θ - φ) ≤ 0.0531 := by
    have h1 := cos_sub_ge hφ0.le hle hhalf
    rw [hcos] at h1
    have h2 : cos φ - shrink n * cos φ = (1 - shrink n) * cos φ := by ring
    rw [h2] at h1
    -- multiply by `N^2 φ`
    have h3 : φ * (sin φ * (θ - φ)) ≤ (1 - shrink n) * sin φ := by
      calc φ * (sin φ * (θ - φ)) ≤ φ * ((1 - shrink n) * cos φ) := mul_le_mul_of_nonneg_left h1 hφ0.le
        _ = (1 - shrink n) * (φ * cos φ) := by ring
        _ ≤ (1 - shrink n) * sin φ := mul_le_mul_of_nonneg_left hcot (by linarith)
    have h4 : φ * (θ - φ) ≤ 1 - shrink n := by
      have : sin φ * (φ * (θ - φ)) ≤ sin φ * (1 - shrink n) := by linarith
      exact le_of_mul_le_mul_left this hsφ
    have h5 : NN n ^ 2 * (φ * (θ - φ)) ≤ 1 / 8 := by
      have := mul_le_mul_of_nonneg_left h4 (pow_pos hN 2).le
      linarith
    have h6 : (NN n * φ) * (NN n * (θ - φ)) ≤ 1 / 8 := by linarith
    have h7 : 0 ≤ NN n * (θ - φ) := mul_nonneg hN.le (by linarith)
    have h8 : 2.356 * (NN n * (θ - φ)) ≤ (NN n * φ) * (NN n * (θ - φ)) := mul_le_mul_of_nonneg_right hNφ h7
    linarith
  refine ⟨hθ, hcos, ?_, ?_, ?_, ?_⟩
  · rw [abs_le]
    constructor
    · have h1 : phase n φ ≤ phase n θ := (phase_strictMono n).monotoneOn ⟨hφ0, hφpi⟩ hθ hle
      have h2 : cos φ / sin φ / (4 * NN n) ≤ 0.1062 := by
        rw [div_div, div_le_iff₀ (by positivity)]
        have h3 : 2.356 * cos φ ≤ NN n * φ * cos φ := mul_le_mul_of_nonneg_right hNφ hcφ
        have h4 : NN n * (φ * cos φ) ≤ NN n * sin φ := mul_le_mul_of_nonneg_left hcot hN.le
        nlinarith [mul_pos hN hsφ]
      have := hφp.1
      rw [hφm] at this
      linarith
    · have := (phase_bounds n hθ.1 hhalf).2
      have e : NN n * θ = NN n * φ + NN n * (θ - φ) := by ring
      rw [e, hφm] at this
      linarith
  · rw [hcos]; exact hg0
  · have hsθ : 0 < sin θ := lt_of_lt_of_le hsφ hss
    rw [div_le_iff₀ (by positivity), hcos]
    have h3 : 2.356 * cos φ ≤ NN n * φ * cos φ := mul_le_mul_of_nonneg_right hNφ hcφ
    have h4 : NN n * (φ * cos φ) ≤ NN n * sin φ := mul_le_mul_of_nonneg_left hcot hN.le
    have h5 : NN n * sin φ ≤ NN n * sin θ := mul_le_mul_of_nonneg_left hss hN.le
    have h6 := mul_pos hN hsφ
    nlinarith
  · exact hsin.trans (mul_le_mul_of_nonneg_left hss hN.le)

/-- How far apart the phases of a guess and of a zero may be. -/
theorem tan_small {δ : ℝ} (h : |δ| ≤ 0.1062) : 0.994 ≤ cos δ ∧ |sin δ| ≤ 0.1069 * cos δ ∧ |δ| ≤ 1.003 * |sin δ| := by
  have h2 : δ ^ 2 ≤ 0.0113 := by rw [← sq_abs]; nlinarith [abs_nonneg δ]
  have hc : 1 - δ ^ 2 / 2 ≤ cos δ := one_sub_sq_div_two_le_cos
  have hs : |sin δ| ≤ |δ| := abs_sin_le_abs
  refine ⟨by linarith, by linarith, ?_⟩
  have key : ∀ x : ℝ, 0 < x → x ^ 2 ≤ 0.0113 → x ≤ 1.003 * sin x := by
    intro x hx hx2
    have := (sin_gt_sub_cube hx).le
    have e : x ^ 3 = x * x ^ 2 := by ring
    have : x * x ^ 2 ≤ x * 0.0113 := mul_le_mul_of_nonneg_left hx2 hx.le
    linarith
  rcases lt_trichotomy δ 0 with h0 | h0 | h0
  · have := key (-δ) (by linarith) (by rw [neg_sq]; exact h2)
    rw [sin_neg] at this
    rw [abs_of_neg h0]
    have := neg_abs_le (sin δ)
    linarith
  · rw [h0]; simp
  · have := key δ h0 h2
    rw [abs_of_pos h0]
    have := le_abs_self (sin δ)
    linarith

theorem guess_near_north {i : Nat} (hn : 2 ≤ n) (hi : 2 * i + 1 ≤ n) :
    ∃ h, Near n (guess n i) h 0.11 ∧ |zero n i - guess n i| ≤ 1.5 * |h| := by
  obtain ⟨θ, hθ, hcos, hδ, hc0, hcs, hsin⟩ := guess_phase n hn hi
  have hN := NN_pos n
  have hs : 0 < sin θ := sin_pos_of_mem_Ioo hθ
  obtain ⟨hα, hαp⟩ := zeroAngle_spec n (show i < n by omega)
  have hsq : √(1 - guess n i ^ 2) = sin θ := by
    rw [← hcos, show 1 - cos θ ^ 2 = sin θ ^ 2 by linarith [sin_sq_add_cos_sq θ]]
    exact sqrt_sq hs.le
  have hspec := phase_spec n hθ
  have hamp := amp_pos n hs.ne'
  set δ := phase n θ - (π / 2 + i * π) with hδd
  have hphase : phase n θ = π / 2 + (δ + i * π) := by rw [hδd]; ring
  obtain ⟨hcδ, htan, hsinδ⟩ := tan_small hδ
  -- the phase equation
  have hq : |pb n θ| * |sin δ| = NN n * |pa n θ| * cos δ := by
    have h1 : cos (phase n θ) = -((-1) ^ i * sin δ) := by
      rw [hphase, cos_add, cos_pi_div_two, sin_pi_div_two, sin_add_nat_mul_pi]; ring
    have h2 : sin (phase n θ) = (-1) ^ i * cos δ := by
      rw [hphase, sin_add, cos_pi_div_two, sin_pi_div_two, cos_add_nat_mul_pi]; ring
    rw [h1, h2] at hspec
    have h3 := congrArg abs hspec
    rw [abs_mul, abs_neg, abs_mul, abs_mul, abs_mul, abs_mul, abs_pow, abs_neg, abs_one, one_pow, one_mul, one_mul,
      abs_of_pos hN, abs_of_pos (show 0 < cos δ by linarith)] at h3
    exact h3
  -- bounds on `pa` and `pb`
  have hpa : NN n * |pa n θ| ≤ 0.1069 * |pb n θ| := by
    have h1 : |pb n θ| * |sin δ| ≤ |pb n θ| * (0.1069 * cos δ) := mul_le_mul_of_nonneg_left htan (abs_nonneg _)
    rw [hq] at h1
    have h2 : cos δ * (NN n * |pa n θ|) ≤ cos δ * (0.1069 * |pb n θ|) := by linarith
    exact le_of_mul_le_mul_left h2 (by linarith)
  have hk0 : 0 ≤ cos θ / (2 * sin θ) := by positivity
  have hdiff : |pb n θ - sin θ * P' n (cos θ)| ≤ 0.2123 * (NN n * |pa n θ|) := by
    have e : pb n θ - sin θ * P' n (cos θ) = -(cos θ / (2 * sin θ) * pa n θ) := by unfold pb pa; ring
    rw [e, abs_neg, abs_mul, abs_of_nonneg hk0, ← mul_assoc]
    exact mul_le_mul_of_nonneg_right hcs (abs_nonneg _)
  have hsp : |sin θ * P' n (cos θ)| = sin θ * |P' n (cos θ)| := by rw [abs_mul, abs_of_pos hs]
  have hb1 : |pb n θ| ≤ sin θ * |P' n (cos θ)| + 0.2123 * (NN n * |pa n θ|) := by
    have := abs_sub_abs_le_abs_sub (pb n θ) (sin θ * P' n (cos θ))
    rw [hsp] at this; linarith
  have hb2 : sin θ * |P' n (cos θ)| - 0.2123 * (NN n * |pa n θ|) ≤ |pb n θ| := by
    have := abs_sub_abs_le_abs_sub (sin θ * P' n (cos θ)) (pb n θ)
    rw [hsp, abs_sub_comm] at this; linarith
  have hsP : |pb n θ| * 0.9773 ≤ sin θ * |P' n (cos θ)| := by linarith
  have hpb : 0 < |pb n θ| := by
    rw [abs_pos]
    intro h0
    rw [h0, abs_zero, mul_zero] at hpa
    have h1 : |pa n θ| = 0 := by
      have := abs_nonneg (pa n θ)
      by_contra hne
      have : 0 < |pa n θ| := lt_of_le_of_ne this (Ne.symm hne)
      nlinarith
    rw [abs_eq_zero] at h1
    rw [h0, h1] at hamp
    simp at hamp
  have hP' : 0 < |P' n (cos θ)| := by
    have : 0 < sin θ * |P' n (cos θ)| := by linarith
    exact (pos_iff_pos_of_mul_pos this).mp hs
  have hP'0 : P' n (cos θ) ≠ 0 := abs_pos.mp hP'
  have hNpa : NN n * |pa n θ| ≤ 0.1094 * (sin θ * |P' n (cos θ)|) := by linarith
  have hpbl : 0.976 * (sin θ * |P' n (cos θ)|) ≤ |pb n θ| := by linarith
  -- the step
  have hpaH : |pa n θ| = |P n (cos θ) / P' n (cos θ)| * |P' n (cos θ)| := by
    rw [← abs_mul, div_mul_cancel₀ _ hP'0]; rfl
  rw [← hcos]
  rw [← hcos] at hsq
  refine ⟨P n (cos θ) / P' n (cos θ), ?_, ?_⟩
  · refine ⟨?_, ?_, hP'0, by norm_num, by norm_num, ?_, ?_⟩
    · have := sin_sq_add_cos_sq θ
      nlinarith
    · rw [div_mul_cancel₀ _ hP'0]
    · rw [hsq]
      have : (|P n (cos θ) / P' n (cos θ)| * NN n) * |P' n (cos θ)| ≤ (0.11 * sin θ) * |P' n (cos θ)| := by
        have e : (|P n (cos θ) / P' n (cos θ)| * NN n) * |P' n (cos θ)| = NN n * |pa n θ| := by rw [hpaH]; ring
        rw [e]
        have := mul_pos hs hP'
        linarith
      exact le_of_mul_le_mul_right this hP'
    · rw [hsq]; linarith
  · have hH := abs_nonneg (P n (cos θ) / P' n (cos θ))
    generalize |P n (cos θ) / P' n (cos θ)| = H at *
    -- the zero is within `|δ|/N` in angle
    have hang : NN n * |zeroAngle n i - θ| ≤ |δ| := by
      rcases le_total (zeroAngle n i) θ with h | h
      · have := phase_lower n hα hθ h
        rw [hαp] at this
        rw [abs_of_nonpos (by linarith), neg_sub]
        exact this.trans (le_abs_self δ)
      · have := phase_lower n hθ hα h
        rw [hαp] at this
        rw [abs_of_nonneg (by linarith)]
        refine this.trans ?_
        have := neg_abs_le δ
        linarith
    have hcl := cos_sub_le hα hθ
    unfold zero
    refine hcl.trans ?_
    have hA := abs_nonneg (zeroAngle n i - θ)
    generalize |zeroAngle n i - θ| = A at *
    generalize |P' n (cos θ)| = p' at *
    generalize |pa n θ| = a at *
    generalize |pb n θ| = b at *
    have hA1 : A ≤ 0.055 * sin θ := by
      have h1 : NN n * A ≤ NN n * (0.055 * sin θ) := by linarith
      exact le_of_mul_le_mul_left h1 hN
    have hA2 : sin θ * A ≤ 1.03 * H := by
      -- `N A ≤ 1.003 |sin δ|`, `b |sin δ| = N a cos δ ≤ N a = N H p'`, `b ≥ 0.976 s p'`
      have h1 : b * (NN n * A) ≤ 1.003 * (b * |sin δ|) := by
        have := mul_le_mul_of_nonneg_left (hang.trans hsinδ) hpb.le
        linarith
      have ha0 : 0 ≤ a := by
        by_contra hneg
        rw [not_le] at hneg
        have h1 : 0 ≤ b * |sin δ| := by positivity
        rw [hq] at h1
        have := mul_neg_of_pos_of_neg hN hneg
        have := mul_neg_of_neg_of_pos this (show 0 < cos δ by linarith)
        linarith
      have h2 : NN n * a * cos δ ≤ NN n * a := mul_le_of_le_one_right (by positivity) (cos_le_one δ)
      have h3 : 0.976 * (sin θ * p') * (NN n * A) ≤ b * (NN n * A) := mul_le_mul_of_nonneg_right hpbl (by positivity)
      have h4 : (NN n * p') * (0.976 * (sin θ * A)) ≤ (NN n * p') * (1.003 * H) := by
        rw [hpaH] at h2 hq
        linarith
      have := le_of_mul_le_mul_left h4 (mul_pos hN hP')
      linarith
    calc A * (sin θ + A) ≤ A * (1.055 * sin θ) := mul_le_mul_of_nonneg_left (by linarith) hA
      _ ≤ 1.5 * H := by linarith

theorem guess_near {i : Nat} (hn : 2 ≤ n) (hi : i < n) :
    ∃ h, Near n (guess n i) h 0.11 ∧ |zero n i - guess n i| ≤ 1.5 * |h| := by
  by_cases hN : 2 * i + 1 ≤ n
  · exact guess_near_north n hn hN
  · obtain ⟨h, hnear, hz⟩ := guess_near_north n hn (show 2 * (n - 1 - i) + 1 ≤ n by omega)
    have e1 := guess_symm n hi
    have e2 := zero_symm n hi
    refine ⟨-h, ?_, ?_⟩
    · have := hnear.neg
      rwa [e1, neg_neg] at this
    · rw [e1, e2] at hz
      rw [abs_neg]
      rw [show zero n i - guess n i = -(-zero n i - -guess n i) by ring, abs_neg]
      exact hz

/-! ## Iterations -/

/-- Bounds on the corrections. -/
noncomputable def eta : Nat → ℝ
  | 0 => 0.11
  | k + 1 => 2.84 * eta k ^ 2

/-- Newton's method. -/
noncomputable def iter (x : ℝ) : Nat → ℝ
  | 0 => x
  | k + 1 => iter x k - P n (iter x k) / P' n (iter x k)

theorem iter_near {x h z : ℝ} (H : Near n x h 0.11) (hz : |z - x| ≤ 1.5 * |h|) (h0 : P n z = 0) (k : Nat) :
    Near n (iter n x k) (P n (iter n x k) / P' n (iter n x k)) (eta k) ∧
      |z - iter n x k| ≤ 1.5 * |P n (iter n x k) / P' n (iter n x k)| ∧
      1.7 * |P n (iter n x (k + 1)) / P' n (iter n x (k + 1))| ≤
        2.64 * NN n ^ 2 * (P n (iter n x k) / P' n (iter n x k)) ^ 2 := by
  have quot : ∀ {y g η : ℝ}, Near n y g η → P n y / P' n y = g := by
    intro y g η hN
    rw [hN.heq, mul_div_cancel_right₀ _ hN.hd]
  have both : ∀ k, Near n (iter n x k) (P n (iter n x k) / P' n (iter n x k)) (eta k) ∧
      |z - iter n x k| ≤ 1.5 * |P n (iter n x k) / P' n (iter n x k)| := by
    intro k
    induction k with
    | zero =>
      change Near n x (P n x / P' n x) 0.11 ∧ |z - x| ≤ 1.5 * |P n x / P' n x|
      rw [quot H]
      exact ⟨H, hz⟩
    | succ k ih =>
      obtain ⟨h1, n1, -, r1⟩ := ih.1.step
      have hq := quot n1
      change Near n (iter n x (k + 1)) h1 (eta (k + 1)) at n1
      change P n (iter n x (k + 1)) / P' n (iter n x (k + 1)) = h1 at hq
      rw [hq]
      exact ⟨n1, r1 z ih.2 h0⟩
  refine ⟨(both k).1, (both k).2, ?_⟩
  obtain ⟨h1, n1, b1, -⟩ := (both k).1.step
  have hq := quot n1
  change P n (iter n x (k + 1)) / P' n (iter n x (k + 1)) = h1 at hq
  rw [hq]
  exact b1

theorem eta_five : eta 5 ≤ 2.5e-17 := by
  simp only [eta]; norm_num

theorem eta_nonneg (k : Nat) : 0 ≤ eta k := by
  induction k with
  | zero => simp only [eta]; norm_num
  | succ k ih => simp only [eta]; positivity

/-- Within six evaluations the correction falls below `2^-52`, and the iterate is then close to the zero. -/
theorem iter_converges {x h z : ℝ} (H : Near n x h 0.11) (hz : |z - x| ≤ 1.5 * |h|) (h0 : P n z = 0) :
    |P n (iter n x 5) / P' n (iter n x 5)| < 2 ^ (-52 : ℤ) ∧
    ∀ k, |P n (iter n x k) / P' n (iter n x k)| < 2 ^ (-52 : ℤ) →
      |z - iter n x (k + 1)| ≤ ((n : ℝ) + 1) ^ 2 * 2 ^ (-102 : ℤ) := by
  have hN := NN_pos n
  constructor
  · obtain ⟨h1, -, -⟩ := iter_near n H hz h0 5
    obtain ⟨s0, s1, -, hw, -, -⟩ := h1.nums
    have hh := h1.hh
    have he := eta_five
    have he0 := eta_nonneg 5
    have hN1 : 1 ≤ NN n := by nlinarith
    have hb : |P n (iter n x 5) / P' n (iter n x 5)| ≤ eta 5 := by
      have := abs_nonneg (P n (iter n x 5) / P' n (iter n x 5))
      generalize |P n (iter n x 5) / P' n (iter n x 5)| = g at *
      have h2 : eta 5 * √(1 - iter n x 5 ^ 2) ≤ eta 5 * 1 := mul_le_mul_of_nonneg_left s1 he0
      have h3 : g * 1 ≤ g * NN n := mul_le_mul_of_nonneg_left hN1 this
      linarith
    refine lt_of_le_of_lt (hb.trans he) ?_
    norm_num
  · intro k hk
    obtain ⟨-, -, h3⟩ := iter_near n H hz h0 k
    obtain ⟨-, h2, -⟩ := iter_near n H hz h0 (k + 1)
    refine h2.trans ?_
    have hsq : (P n (iter n x k) / P' n (iter n x k)) ^ 2 ≤ 2 ^ (-104 : ℤ) := by
      rw [← sq_abs]
      have : ((2:ℝ) ^ (-52 : ℤ)) ^ 2 = 2 ^ (-104 : ℤ) := by norm_num
      rw [← this]
      exact pow_le_pow_left₀ (abs_nonneg _) hk.le 2
    have e : (2:ℝ) ^ (-102 : ℤ) = 4 * 2 ^ (-104 : ℤ) := by norm_num
    rw [e]
    have hp : (0:ℝ) < 2 ^ (-104 : ℤ) := by positivity
    generalize (2:ℝ) ^ (-104 : ℤ) = t at *
    generalize (P n (iter n x k) / P' n (iter n x k)) ^ 2 = q at *
    generalize |P n (iter n x (k + 1)) / P' n (iter n x (k + 1))| = g at *
    have h5 : 2.64 * NN n ^ 2 * q ≤ 2.64 * NN n ^ 2 * t := mul_le_mul_of_nonneg_left hsq (by positivity)
    have h6 : NN n ^ 2 * t ≤ ((n:ℝ) + 1) ^ 2 * t := by
      apply mul_le_mul_of_nonneg_right _ hp.le
      apply pow_le_pow_left₀ hN.le
      unfold NN; linarith
    have h7 : 0 ≤ ((n:ℝ) + 1) ^ 2 * t := by positivity
    linarith

/-! ## Latitudes and distances -/

/-- Taking the arcsine of an iterate instead of that of the zero. -/
theorem arcsin_near {x h η z : ℝ} (H : Near n x h η) (hz : |z - x| ≤ 1.5 * |h|) :
    |arcsin x - arcsin z| ≤ 0.67 * NN n * |z - x| := by
  have hN := NN_pos n
  obtain ⟨s0, s1, s2, hw, -, -⟩ := H.nums
  have hseg : ∀ ξ ∈ Set.uIcc x z, |ξ - x| ≤ 1.5 * |h| := fun ξ hξ => by
    refine le_trans ?_ hz
    exact Set.abs_sub_left_of_mem_uIcc hξ
  have hder : ∀ ξ ∈ Set.uIcc x z, HasDerivWithinAt arcsin (1 / √(1 - ξ ^ 2)) (Set.uIcc x z) ξ := by
    intro ξ hξ
    obtain ⟨-, h1⟩ := H.width (hseg ξ hξ)
    apply HasDerivAt.hasDerivWithinAt
    apply hasDerivAt_arcsin
    · rintro rfl; norm_num at h1
    · rintro rfl; norm_num at h1
  have hbound : ∀ ξ ∈ Set.uIcc x z, ‖1 / √(1 - ξ ^ 2)‖ ≤ 0.67 * NN n := by
    intro ξ hξ
    obtain ⟨h1, h2⟩ := H.width (hseg ξ hξ)
    have hpos : 0 < √(1 - ξ ^ 2) := sqrt_pos.mpr (by linarith)
    have hlow : 0.88 * √(1 - x ^ 2) ≤ √(1 - ξ ^ 2) := by
      apply le_sqrt_of_sq_le
      rw [mul_pow, s2]
      have : 0 < 1 - x ^ 2 := by linarith [H.hx]
      linarith
    rw [Real.norm_eq_abs, abs_of_pos (by positivity), div_le_iff₀ hpos]
    have := mul_le_mul_of_nonneg_left hlow hN.le
    linarith
  have := (convex_uIcc x z).norm_image_sub_le_of_norm_hasDerivWithin_le hder hbound Set.right_mem_uIcc Set.left_mem_uIcc
  rw [Real.norm_eq_abs, Real.norm_eq_abs, abs_sub_comm x z] at this
  exact this

theorem zeroAngle_near_north {i : Nat} (hi : 2 * i + 1 ≤ n) : guessAngle n i ≤ zeroAngle n i ∧
    NN n * (zeroAngle n i - guessAngle n i) ≤ 0.1062 := by
  have hN := NN_pos n
  have hpi := pi_pos
  have hp2 : 3.1415 < π := pi_gt_d4
  obtain ⟨hα, hαp⟩ := zeroAngle_spec n (show i < n by omega)
  have hφ0 := guessAngle_pos n i
  have hφ1 := guessAngle_le n hi
  have hφm := guessAngle_mul n i
  have hφp := phase_bounds n hφ0 hφ1
  have hcot := mul_cos_le_sin hφ0 hφ1
  have hi0 : (0:ℝ) ≤ i := Nat.cast_nonneg i
  generalize guessAngle n i = φ at *
  have hφ : φ ∈ Set.Ioo 0 π := ⟨hφ0, by linarith⟩
  have hcφ : 0 ≤ cos φ := cos_nonneg_of_neg_pi_div_two_le_of_le (by linarith) hφ1
  have hsφ : 0 < sin φ := sin_pos_of_mem_Ioo hφ
  have hNφ : 2.356 ≤ NN n * φ := by rw [hφm]; nlinarith
  rw [hφm] at hφp
  have hle : φ ≤ zeroAngle n i := by
    rw [← (phase_strictMono n).le_iff_le hφ hα, hαp]
    linarith [hφp.2]
  refine ⟨hle, (phase_lower n hφ hα hle).trans ?_⟩
  have h2 : cos φ / sin φ / (4 * NN n) ≤ 0.1062 := by
    rw [div_div, div_le_iff₀ (by positivity)]
    have h3 : 2.356 * cos φ ≤ NN n * φ * cos φ := mul_le_mul_of_nonneg_right hNφ hcφ
    have h4 : NN n * (φ * cos φ) ≤ NN n * sin φ := mul_le_mul_of_nonneg_left hcot hN.le
    nlinarith [mul_pos hN hsφ]
  rw [hαp]
  linarith [hφp.1]

theorem zeroAngle_near {i : Nat} (hi : i < n) : NN n * |zeroAngle n i - guessAngle n i| ≤ 0.1062 := by
  by_cases h : 2 * i + 1 ≤ n
  · obtain ⟨h1, h2⟩ := zeroAngle_near_north n h
    rwa [abs_of_nonneg (by linarith)]
  · obtain ⟨h1, h2⟩ := zeroAngle_near_north n (show 2 * (n - 1 - i) + 1 ≤ n by omega)
    rw [zeroAngle_symm n hi] at h1 h2
    have e : guessAngle n (n - 1 - i) = π - guessAngle n i := by
      have hc : ((n - 1 - i : ℕ) : ℝ) = n - 1 - i := by
        rw [Nat.cast_sub (by omega), Nat.cast_sub (by omega)]; simp
      have hN := (NN_pos n).ne'
      unfold guessAngle
      rw [hc]
      rw [eq_sub_iff_add_eq, ← add_div, div_eq_iff hN]
      unfold NN; ring
    rw [e] at h1 h2
    rw [abs_of_nonpos (by linarith)]
    linarith

/-- Neighbouring zeros are at least `2/(n + 1/2)²` apart. -/
theorem zero_gap {i : Nat} (hi : i + 1 < n) : 2 ≤ NN n ^ 2 * (zero n i - zero n (i + 1)) := by
  have hN := NN_pos n
  have hpi := pi_pos
  have hp2 : 3.1415 < π := pi_gt_d4
  have hp3 : π < 3.1416 := pi_lt_d4
  have h1 := zeroAngle_near n (show i < n by omega)
  have h2 := zeroAngle_near n hi
  have m1 := guessAngle_mul n i
  have m2 := guessAngle_mul n (i + 1)
  obtain ⟨a1, -⟩ := zeroAngle_spec n (show i < n by omega)
  obtain ⟨a2, -⟩ := zeroAngle_spec n hi
  have hlt := zeroAngle_lt n (Nat.lt_succ_self i) hi
  have hi0 : (0:ℝ) ≤ i := Nat.cast_nonneg i
  have hin : (i:ℝ) + 2 ≤ n := by exact_mod_cast hi
  have hNN : NN n * π = ((n:ℝ) + 1 / 2) * π := rfl
  push_cast at m2
  unfold zero
  generalize zeroAngle n i = α at *
  generalize zeroAngle n (i + 1) = β at *
  have b1 : |NN n * α - (i + 3 / 4) * π| ≤ 0.1062 := by
    rw [← m1, ← mul_sub, abs_mul, abs_of_pos hN]; exact h1
  have b2 : |NN n * β - (i + 1 + 3 / 4) * π| ≤ 0.1062 := by
    rw [← m2, ← mul_sub, abs_mul, abs_of_pos hN]; exact h2
  rw [abs_le] at b1 b2
  have hgap : 2.9 ≤ NN n * (β - α) := by linarith [b1.2, b2.1]
  have hi1 : 0 ≤ (i:ℝ) * π := by positivity
  have hmid1 : 2.2 ≤ NN n * ((α + β) / 2) := by linarith [b1.1, b2.1]
  have hmid2 : 2.2 ≤ NN n * (π - (α + β) / 2) := by
    have : ((i:ℝ) + 2) * π ≤ n * π := mul_le_mul_of_nonneg_right hin hpi.le
    linarith [b1.2, b2.2]
  have e : cos α - cos β = 2 * sin ((α + β) / 2) * sin ((β - α) / 2) := by
    rw [cos_sub_cos, show (α - β) / 2 = -((β - α) / 2) by ring, sin_neg]; ring
  have two_pi : 0.636 ≤ 2 / π := by rw [le_div_iff₀ hpi]; linarith
  have hd : 0.92 ≤ NN n * sin ((β - α) / 2) := by
    have := mul_le_sin (show 0 ≤ (β - α) / 2 by linarith) (by linarith [a2.2, a1.1])
    have h3 : 0.636 * ((β - α) / 2) ≤ 2 / π * ((β - α) / 2) := mul_le_mul_of_nonneg_right two_pi (by linarith)
    have := mul_le_mul_of_nonneg_left (h3.trans this) hN.le
    linarith
  have hm : 1.3 ≤ NN n * sin ((α + β) / 2) := by
    rcases le_total ((α + β) / 2) (π / 2) with h | h
    · have hp := mul_le_sin (show 0 ≤ (α + β) / 2 by linarith [a1.1, a2.1]) h
      have h3 : 0.636 * ((α + β) / 2) ≤ 2 / π * ((α + β) / 2) := mul_le_mul_of_nonneg_right two_pi (by linarith [a1.1, a2.1])
      have := mul_le_mul_of_nonneg_left (h3.trans hp) hN.le
      linarith
    · have hp := mul_le_sin (show 0 ≤ π - (α + β) / 2 by linarith [a1.2, a2.2]) (by linarith)
      rw [sin_pi_sub] at hp
      have h3 : 0.636 * (π - (α + β) / 2) ≤ 2 / π * (π - (α + β) / 2) :=
        mul_le_mul_of_nonneg_right two_pi (by linarith [a1.2, a2.2])
      have := mul_le_mul_of_nonneg_left (h3.trans hp) hN.le
      linarith
  rw [e]
  have := mul_le_mul hm hd (by norm_num) (by linarith)
  have e2 : NN n ^ 2 * (2 * sin ((α + β) / 2) * sin ((β - α) / 2)) =
      2 * (NN n * sin ((α + β) / 2) * (NN n * sin ((β - α) / 2))) := by ring
  rw [e2]
  linarith

end

end Grib.Spec
