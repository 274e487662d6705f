import Verif.Lemmas.LegendreReal
import Mathlib.Analysis.SpecialFunctions.Trigonometric.Bounds
import Mathlib.Analysis.SpecialFunctions.Trigonometric.Deriv
import Mathlib.MeasureTheory.Integral.IntervalIntegral.FundThmCalculus

/-! # The phase of a Legendre polynomial

With `x = cos θ`, `N = n + 1/2`, the function `√(sin θ) P_n(cos θ)` oscillates with a phase `Ψ` whose derivative is between
`N` and `N + 1/(4 N sin² θ)` and which is `nπ/2` at the equator.  Zeros are where the phase is an odd multiple of `π/2`. -/

namespace Grib.Spec

open Real

section

variable (n : Nat)

noncomputable def NN : ℝ := (n : ℝ) + 1 / 2

/-- `P_n(cos θ)`, and the derivative of `√(sin θ) P_n(cos θ)` divided by `-√(sin θ)`. -/
noncomputable def pa (θ : ℝ) : ℝ := P n (cos θ)
noncomputable def pb (θ : ℝ) : ℝ := sin θ * P' n (cos θ) - cos θ / (2 * sin θ) * P n (cos θ)

theorem NN_pos : 0 < NN n := by unfold NN; positivity

theorem hasDerivAt_pa (θ : ℝ) :
    HasDerivAt (pa n) (-(pb n θ) - cos θ / (2 * sin θ) * pa n θ) θ := by
  have h := (hasDerivAt_P n (cos θ)).comp θ (hasDerivAt_cos θ)
  have e : P' n (cos θ) * -sin θ = -(pb n θ) - cos θ / (2 * sin θ) * pa n θ := by unfold pa pb; ring
  rw [e] at h
  exact h

theorem hasDerivAt_pb (θ : ℝ) (hs : sin θ ≠ 0) :
    HasDerivAt (pb n) ((NN n ^ 2 + 1 / (4 * sin θ ^ 2)) * pa n θ - cos θ / (2 * sin θ) * pb n θ) θ := by
  have h0 := (hasDerivAt_P n (cos θ)).comp θ (hasDerivAt_cos θ)
  have h1 := (hasDerivAt_P' n (cos θ)).comp θ (hasDerivAt_cos θ)
  have h2 := (hasDerivAt_sin θ).mul h1
  have h3 := ((hasDerivAt_cos θ).div ((hasDerivAt_sin θ).const_mul 2) (mul_ne_zero two_ne_zero hs)).mul h0
  have h4 := h2.sub h3
  have hc : cos θ ^ 2 ≠ 1 := by
    intro h
    apply hs
    have := sin_sq_add_cos_sq θ
    have : sin θ ^ 2 = 0 := by linarith
    exact pow_eq_zero_iff (two_ne_zero) |>.mp this
  have hode := P_ode n (cos θ) hc
  have hsc := sin_sq_add_cos_sq θ
  refine HasDerivAt.congr_deriv h4 ?_
  unfold pa pb NN
  simp only [Function.comp_apply, Pi.div_apply]
  have hpp : sin θ ^ 2 * P'' n (cos θ) = 2 * cos θ * P' n (cos θ) - n * (n + 1) * P n (cos θ) := by
    rw [← hode]
    have e : sin θ ^ 2 = 1 - cos θ ^ 2 := by linarith
    rw [e]
  field_simp
  linear_combination (-16 * sin θ ^ 2) * hpp + 4 * P n (cos θ) * hsc

theorem amp_pos {θ : ℝ} (hs : sin θ ≠ 0) : 0 < NN n ^ 2 * pa n θ ^ 2 + pb n θ ^ 2 := by
  have hN := NN_pos n
  by_cases ha : pa n θ = 0
  · have hb : pb n θ ≠ 0 := by
      intro hb
      unfold pb at hb
      unfold pa at ha
      rw [ha] at hb
      have : sin θ * P' n (cos θ) = 0 := by linarith
      exact P_simple n (cos θ) ⟨ha, (mul_eq_zero.mp this).resolve_left hs⟩
    have := sq_pos_of_ne_zero hb
    have := mul_nonneg (sq_nonneg (NN n)) (sq_nonneg (pa n θ))
    linarith
  · have := mul_pos (pow_pos hN 2) (sq_pos_of_ne_zero ha)
    have := sq_nonneg (pb n θ)
    linarith

/-- The rate of the phase. -/
noncomputable def rate (θ : ℝ) : ℝ := NN n + NN n * pa n θ ^ 2 / (4 * sin θ ^ 2 * (NN n ^ 2 * pa n θ ^ 2 + pb n θ ^ 2))

/-- The phase. -/
noncomputable def phase (θ : ℝ) : ℝ := (n : ℝ) * (π / 2) + ∫ t in (π / 2)..θ, rate n t

theorem sin_ne {θ : ℝ} (h : θ ∈ Set.Ioo 0 π) : sin θ ≠ 0 := (sin_pos_of_mem_Ioo h).ne'

theorem continuousOn_rate : ContinuousOn (rate n) (Set.Ioo 0 π) := by
  intro θ hθ
  have hs := sin_ne hθ
  have ha : ContinuousAt (pa n) θ := (hasDerivAt_pa n θ).continuousAt
  have hb : ContinuousAt (pb n) θ := (hasDerivAt_pb n θ hs).continuousAt
  have hsin : ContinuousAt sin θ := continuous_sin.continuousAt
  apply ContinuousAt.continuousWithinAt
  unfold rate
  refine continuousAt_const.add ?_
  refine ContinuousAt.div (continuousAt_const.mul (ha.pow 2)) ?_ ?_
  · exact (continuousAt_const.mul (hsin.pow 2)).mul ((continuousAt_const.mul (ha.pow 2)).add (hb.pow 2))
  · exact mul_ne_zero (mul_ne_zero four_ne_zero (pow_ne_zero 2 hs)) (amp_pos n hs).ne'

theorem hasDerivAt_phase {θ : ℝ} (h : θ ∈ Set.Ioo 0 π) : HasDerivAt (phase n) (rate n θ) θ := by
  unfold phase
  refine HasDerivAt.const_add _ ?_
  have hsub : Set.uIcc (π / 2) θ ⊆ Set.Ioo 0 π := by
    have : (Set.Ioo (0:ℝ) π).OrdConnected := Set.ordConnected_Ioo
    exact this.uIcc_subset ⟨by positivity, by linarith [pi_pos]⟩ h
  have hint : IntervalIntegrable (rate n) MeasureTheory.volume (π / 2) θ :=
    ((continuousOn_rate n).mono hsub).intervalIntegrable
  refine intervalIntegral.integral_hasDerivAt_right hint ?_ ?_
  · exact (continuousOn_rate n).stronglyMeasurableAtFilter isOpen_Ioo θ h
  · exact (continuousOn_rate n).continuousAt (isOpen_Ioo.mem_nhds h)

theorem phase_half : phase n (π / 2) = (n : ℝ) * (π / 2) := by simp [phase]

/-- The rate is between `N` and `N + 1/(4 N sin²)`. -/
theorem rate_ge {θ : ℝ} (h : θ ∈ Set.Ioo 0 π) : NN n ≤ rate n θ := by
  have hs := sin_ne h
  have h1 := amp_pos n hs
  have hN := NN_pos n
  unfold rate
  have : 0 ≤ NN n * pa n θ ^ 2 / (4 * sin θ ^ 2 * (NN n ^ 2 * pa n θ ^ 2 + pb n θ ^ 2)) := by positivity
  linarith

theorem rate_le {θ : ℝ} (h : θ ∈ Set.Ioo 0 π) : rate n θ ≤ NN n + 1 / (4 * NN n * sin θ ^ 2) := by
  have hs := sin_ne h
  have h1 := amp_pos n hs
  have hN := NN_pos n
  have hs2 : 0 < sin θ ^ 2 := by positivity
  unfold rate
  have : NN n * pa n θ ^ 2 / (4 * sin θ ^ 2 * (NN n ^ 2 * pa n θ ^ 2 + pb n θ ^ 2)) ≤ 1 / (4 * NN n * sin θ ^ 2) := by
    rw [div_le_div_iff₀ (by positivity) (by positivity)]
    have : 0 ≤ 4 * sin θ ^ 2 * pb n θ ^ 2 := by positivity
    nlinarith
  linarith

/-- The phase is the phase: `pb cos Ψ = N pa sin Ψ`. -/
theorem phase_spec {θ : ℝ} (h : θ ∈ Set.Ioo 0 π) :
    pb n θ * cos (phase n θ) = NN n * pa n θ * sin (phase n θ) := by
  -- the square of the difference over the amplitude is constant
  let D : ℝ → ℝ := fun θ => (pb n θ * cos (phase n θ) - NN n * pa n θ * sin (phase n θ)) ^ 2 /
    (NN n ^ 2 * pa n θ ^ 2 + pb n θ ^ 2)
  have hD : ∀ θ ∈ Set.Ioo 0 π, HasDerivAt D 0 θ := by
    intro θ hθ
    have hs := sin_ne hθ
    have ha := hasDerivAt_pa n θ
    have hb := hasDerivAt_pb n θ hs
    have hp := hasDerivAt_phase n hθ
    have hamp := amp_pos n hs
    have hd := (hb.mul hp.cos).sub ((ha.const_mul (NN n)).mul hp.sin)
    have hr := ((ha.pow 2).const_mul (NN n ^ 2)).add (hb.pow 2)
    have hq := (hd.pow 2).div hr hamp.ne'
    refine HasDerivAt.congr_deriv hq ?_
    simp only [Pi.add_apply, Pi.mul_apply, Pi.sub_apply, Pi.pow_apply]
    rw [div_eq_zero_iff]
    left
    have hω : rate n θ * (NN n ^ 2 * pa n θ ^ 2 + pb n θ ^ 2) =
        NN n * (pa n θ * ((NN n ^ 2 + 1 / (4 * sin θ ^ 2)) * pa n θ - cos θ / (2 * sin θ) * pb n θ) -
          pb n θ * (-(pb n θ) - cos θ / (2 * sin θ) * pa n θ)) := by
      unfold rate
      have hamp' := hamp.ne'
      field_simp
      ring
    generalize (NN n ^ 2 + 1 / (4 * sin θ ^ 2)) * pa n θ - cos θ / (2 * sin θ) * pb n θ = b' at *
    generalize -(pb n θ) - cos θ / (2 * sin θ) * pa n θ = a' at *
    generalize cos (phase n θ) = c
    generalize sin (phase n θ) = s'
    generalize pa n θ = a at *
    generalize pb n θ = b at *
    generalize rate n θ = ω at *
    generalize NN n = N at *
    norm_num
    linear_combination (-2 * (b * c - N * a * s') * (b * s' + N * a * c)) * hω
  have hconst : D θ = D (π / 2) := by
    have hconv : Convex ℝ (Set.Ioo (0:ℝ) π) := convex_Ioo 0 π
    refine hconv.is_const_of_fderivWithin_eq_zero (𝕜 := ℝ) ?_ ?_ h ⟨by positivity, by linarith [pi_pos]⟩
    · intro t ht; exact (hD t ht).differentiableAt.differentiableWithinAt
    · intro t ht
      rw [fderivWithin_of_isOpen isOpen_Ioo ht, (hD t ht).hasFDerivAt.fderiv]
      ext; simp
  have h0 : D (π / 2) = 0 := by
    have : pb n (π / 2) * cos (phase n (π / 2)) - NN n * pa n (π / 2) * sin (phase n (π / 2)) = 0 := by
      rw [phase_half]
      unfold pa pb
      rw [cos_pi_div_two, sin_pi_div_two]
      rcases Nat.mod_two_eq_zero_or_one n with he | ho
      · obtain ⟨k, rfl⟩ := Nat.even_iff.mpr he
        rw [P'_zero_even _ he]
        have : ((k + k : ℕ) : ℝ) * (π / 2) = k * π := by push_cast; ring
        rw [this, sin_nat_mul_pi]; ring
      · obtain ⟨k, rfl⟩ := Nat.odd_iff.mpr ho
        rw [P_zero_odd _ ho]
        have : ((2 * k + 1 : ℕ) : ℝ) * (π / 2) = k * π + π / 2 := by push_cast; ring
        rw [this, cos_add, sin_nat_mul_pi, cos_pi_div_two]; ring
    simp only [D]
    rw [this]; simp
  rw [h0] at hconst
  simp only [D] at hconst
  rcases div_eq_zero_iff.mp hconst with h1 | h1
  · have := pow_eq_zero_iff (two_ne_zero) |>.mp h1
    linarith
  · exact absurd h1 (amp_pos n (sin_ne h)).ne'

/-- A zero of the polynomial is a zero of the cosine of the phase. -/
theorem P_zero_iff {θ : ℝ} (h : θ ∈ Set.Ioo 0 π) : P n (cos θ) = 0 ↔ cos (phase n θ) = 0 := by
  have hs := phase_spec n h
  have hamp := amp_pos n (sin_ne h)
  have hN := NN_pos n
  change pa n θ = 0 ↔ _
  constructor
  · intro ha
    rw [ha] at hs hamp
    have hb : pb n θ ≠ 0 := by
      intro hb; rw [hb] at hamp; simp at hamp
    have : pb n θ * cos (phase n θ) = 0 := by linarith
    exact (mul_eq_zero.mp this).resolve_left hb
  · intro hc
    rw [hc] at hs
    have h1 : sin (phase n θ) ≠ 0 := by
      intro h1
      have := sin_sq_add_cos_sq (phase n θ)
      rw [h1, hc] at this
      norm_num at this
    have : NN n * pa n θ * sin (phase n θ) = 0 := by linarith
    have := (mul_eq_zero.mp this).resolve_right h1
    exact (mul_eq_zero.mp this).resolve_left hN.ne'

theorem phase_strictMono : StrictMonoOn (phase n) (Set.Ioo 0 π) := by
  apply strictMonoOn_of_deriv_pos (convex_Ioo 0 π)
  · exact fun θ h => (hasDerivAt_phase n h).continuousAt.continuousWithinAt
  · intro θ h
    rw [interior_Ioo] at h
    rw [(hasDerivAt_phase n h).deriv]
    exact lt_of_lt_of_le (NN_pos n) (rate_ge n h)

/-- The phase advances at least at the rate `N`. -/
theorem phase_lower {s t : ℝ} (hs : s ∈ Set.Ioo 0 π) (ht : t ∈ Set.Ioo 0 π) (hst : s ≤ t) :
    NN n * (t - s) ≤ phase n t - phase n s := by
  have hmono : MonotoneOn (fun θ => phase n θ - NN n * θ) (Set.Ioo 0 π) := by
    apply monotoneOn_of_deriv_nonneg (convex_Ioo 0 π)
    · exact fun θ h => ((hasDerivAt_phase n h).sub ((hasDerivAt_id θ).const_mul (NN n))).continuousAt.continuousWithinAt
    · intro θ h
      rw [interior_Ioo] at h
      exact ((hasDerivAt_phase n h).sub ((hasDerivAt_id θ).const_mul (NN n))).differentiableAt.differentiableWithinAt
    · intro θ h
      rw [interior_Ioo] at h
      have := ((hasDerivAt_phase n h).sub ((hasDerivAt_id θ).const_mul (NN n))).deriv
      have e : deriv (fun θ => phase n θ - NN n * θ) θ = rate n θ - NN n * 1 := this
      rw [e]
      have := rate_ge n h
      linarith
  have := hmono hs ht hst
  dsimp only at this
  linarith

/-- North of the equator the phase is at most `Nθ - π/4`, and at least that less `cot θ/(4N)`. -/
theorem phase_bounds {θ : ℝ} (h0 : 0 < θ) (h1 : θ ≤ π / 2) :
    NN n * θ - π / 4 - cos θ / sin θ / (4 * NN n) ≤ phase n θ ∧ phase n θ ≤ NN n * θ - π / 4 := by
  have hpi := pi_pos
  have hm : θ ∈ Set.Ioo 0 π := ⟨h0, by linarith⟩
  have hh : π / 2 ∈ Set.Ioo 0 π := ⟨by positivity, by linarith⟩
  have hN := NN_pos n
  have e : (n : ℝ) * (π / 2) = NN n * (π / 2) - π / 4 := by unfold NN; ring
  constructor
  · have hd : ∀ θ ∈ Set.Ioo 0 π, HasDerivAt (fun θ => NN n * θ - cos θ / sin θ / (4 * NN n) - phase n θ)
        (NN n * 1 - ((-sin θ) * sin θ - cos θ * cos θ) / sin θ ^ 2 / (4 * NN n) - rate n θ) θ := fun θ h =>
      (((hasDerivAt_id θ).const_mul (NN n)).sub (((hasDerivAt_cos θ).div (hasDerivAt_sin θ) (sin_ne h)).div_const _)).sub
        (hasDerivAt_phase n h)
    have hmono : MonotoneOn (fun θ => NN n * θ - cos θ / sin θ / (4 * NN n) - phase n θ) (Set.Ioo 0 π) := by
      apply monotoneOn_of_deriv_nonneg (convex_Ioo 0 π)
      · exact fun θ h => (hd θ h).continuousAt.continuousWithinAt
      · intro θ h
        rw [interior_Ioo] at h
        exact (hd θ h).differentiableAt.differentiableWithinAt
      · intro θ h
        rw [interior_Ioo] at h
        rw [(hd θ h).deriv]
        have h2 := rate_le n h
        have hs := sin_ne h
        have e2 : ((-sin θ) * sin θ - cos θ * cos θ) / sin θ ^ 2 / (4 * NN n) = -(1 / (4 * NN n * sin θ ^ 2)) := by
          have := sin_sq_add_cos_sq θ
          field_simp
          linarith
        rw [e2]
        linarith
    have := hmono hm hh h1
    dsimp only at this
    rw [phase_half, cos_pi_div_two, e] at this
    simp only [zero_div] at this
    linarith
  · have := phase_lower n hm hh h1
    rw [phase_half, e] at this
    linarith

end

end Grib.Spec
