import Verif.Lemmas.LegendrePhase
import Mathlib.Analysis.Calculus.Deriv.MeanValue
import Mathlib.Analysis.SpecialFunctions.Sqrt
import Mathlib.Analysis.SpecialFunctions.Trigonometric.Deriv

/-! # Newton's method on a Legendre polynomial

A point `x` at which the correction `h = P_n/P_n'` is small compared to the distance of neighbouring zeros (`|h| N ≤ 0.11 s`,
where `N = n + 1/2` and `s = √(1 - x²)`) has a zero within `1.5 |h|`, only one, and Newton's method converges to it
quadratically. -/

namespace Grib.Spec

section

variable (n : Nat)

/-- The energy. -/
noncomputable def energy (x : ℝ) : ℝ := n * (n + 1) * P n x ^ 2 + (1 - x ^ 2) * P' n x ^ 2

theorem energy_neg (x : ℝ) : energy n (-x) = energy n x := by
  unfold energy
  rw [P_neg, P'_neg]
  have : ((-1 : ℝ) ^ n) ^ 2 = 1 := by rw [← pow_mul, mul_comm, pow_mul]; norm_num
  linear_combination (n * (n + 1) * P n x ^ 2 + (1 - x ^ 2) * P' n x ^ 2) * this

theorem energy_abs (x : ℝ) : energy n |x| = energy n x := by
  rcases abs_choice x with h | h <;> rw [h]
  exact energy_neg n x

theorem hasDerivAt_energy {x : ℝ} (hx : x ^ 2 ≠ 1) : HasDerivAt (energy n) (2 * x * P' n x ^ 2) x := by
  have h1 := ((hasDerivAt_P n x).pow 2).const_mul ((n : ℝ) * (n + 1))
  have h2 := (((hasDerivAt_id x).pow 2).const_sub 1).mul ((hasDerivAt_P' n x).pow 2)
  have h3 := h1.add h2
  refine HasDerivAt.congr_deriv h3 ?_
  simp only [Pi.pow_apply, id]
  have := P_ode n x hx
  norm_num
  linear_combination 2 * P' n x * this

theorem energy_mono : MonotoneOn (energy n) (Set.Ico 0 1) := by
  have hne : ∀ x ∈ Set.Ico (0:ℝ) 1, x ^ 2 ≠ 1 := fun x hx h => by nlinarith [hx.1, hx.2]
  apply monotoneOn_of_deriv_nonneg (convex_Ico 0 1)
  · exact fun x hx => (hasDerivAt_energy n (hne x hx)).continuousAt.continuousWithinAt
  · exact fun x hx => (hasDerivAt_energy n (hne x (interior_subset hx))).differentiableAt.differentiableWithinAt
  · intro x hx
    have hx := interior_subset hx
    rw [(hasDerivAt_energy n (hne x hx)).deriv]
    have := hx.1
    positivity

theorem energy_anti : AntitoneOn (fun x => (1 - x ^ 2) * energy n x) (Set.Ico 0 1) := by
  have hne : ∀ x ∈ Set.Ico (0:ℝ) 1, x ^ 2 ≠ 1 := fun x hx h => by nlinarith [hx.1, hx.2]
  have hd : ∀ x ∈ Set.Ico (0:ℝ) 1, HasDerivAt (fun x => (1 - x ^ 2) * energy n x)
      (-(2 * x) * (n * (n + 1) * P n x ^ 2)) x := by
    intro x hx
    refine HasDerivAt.congr_deriv ((((hasDerivAt_id x).pow 2).const_sub 1).mul (hasDerivAt_energy n (hne x hx))) ?_
    simp only [Pi.pow_apply, id]
    unfold energy
    norm_num
    ring
  apply antitoneOn_of_deriv_nonpos (convex_Ico 0 1)
  · exact fun x hx => (hd x hx).continuousAt.continuousWithinAt
  · exact fun x hx => (hd x (interior_subset hx)).differentiableAt.differentiableWithinAt
  · intro x hx
    have hx := interior_subset hx
    rw [(hd x hx).deriv]
    have := hx.1
    have : 0 ≤ 2 * x * (n * (n + 1) * P n x ^ 2) := by positivity
    linarith

theorem energy_nonneg {x : ℝ} (hx : x ^ 2 < 1) : 0 ≤ energy n x := by
  unfold energy
  have : 0 ≤ 1 - x ^ 2 := by linarith
  positivity

/-- The energy varies little where `1 - x²` does. -/
theorem energy_le {x y q : ℝ} (hx : x ^ 2 < 1) (hy : y ^ 2 < 1) (hq1 : q ≤ 1) (h : q * (1 - x ^ 2) ≤ 1 - y ^ 2) :
    q * energy n y ≤ energy n x := by
  have hx' : |x| ∈ Set.Ico (0:ℝ) 1 := ⟨abs_nonneg x, by rw [← sq_lt_one_iff_abs_lt_one]; exact hx⟩
  have hy' : |y| ∈ Set.Ico (0:ℝ) 1 := ⟨abs_nonneg y, by rw [← sq_lt_one_iff_abs_lt_one]; exact hy⟩
  have h0 := energy_nonneg n hy
  rcases le_total |y| |x| with hle | hle
  · have := energy_mono n hy' hx' hle
    rw [energy_abs, energy_abs] at this
    nlinarith
  · have := energy_anti n hx' hy' hle
    dsimp only at this
    rw [energy_abs, energy_abs, sq_abs, sq_abs] at this
    have h1 : 0 < 1 - x ^ 2 := by linarith
    have : (1 - x ^ 2) * (q * energy n y) ≤ (1 - x ^ 2) * energy n x := by nlinarith
    exact le_of_mul_le_mul_left this h1

/-- A point near a zero: `h` is the correction of Newton's method there, and it is small. -/
structure Near (x h η : ℝ) : Prop where
  hx : x ^ 2 < 1
  heq : P n x = h * P' n x
  hd : P' n x ≠ 0
  η0 : 0 ≤ η
  η1 : η ≤ 0.11
  hh : |h| * NN n ≤ η * √(1 - x ^ 2)
  hs : 1.7 + 1.65 * η ≤ NN n * √(1 - x ^ 2)

variable {n} {x h η : ℝ}

theorem Near.neg (H : Near n x h η) : Near n (-x) (-h) η := by
  obtain ⟨h1, h2, h3, h4, h5, h6, h7⟩ := H
  have e : (-x) ^ 2 = x ^ 2 := by ring
  refine ⟨by rw [e]; exact h1, ?_, ?_, h4, h5, by rw [abs_neg, e]; exact h6, by rw [e]; exact h7⟩
  · rw [P_neg, P'_neg, h2]; ring
  · rw [P'_neg]
    exact mul_ne_zero (neg_ne_zero.mpr (pow_ne_zero _ (by norm_num))) h3

/-- Its numbers: `s = √(1 - x²)` is positive, at most 1, and the correction is at most `0.0648 s²`. -/
theorem Near.nums (H : Near n x h η) : 0 < √(1 - x ^ 2) ∧ √(1 - x ^ 2) ≤ 1 ∧ √(1 - x ^ 2) ^ 2 = 1 - x ^ 2 ∧
    1.7 ≤ NN n * √(1 - x ^ 2) ∧ 1.7 * |h| ≤ 0.11 * √(1 - x ^ 2) ^ 2 ∧ |x| ≤ 1 := by
  have h1 : 0 < 1 - x ^ 2 := by linarith [H.hx]
  have hs0 : 0 < √(1 - x ^ 2) := Real.sqrt_pos.mpr h1
  have hs2 : √(1 - x ^ 2) ^ 2 = 1 - x ^ 2 := Real.sq_sqrt h1.le
  have hx0 := sq_nonneg x
  refine ⟨hs0, ?_, hs2, ?_, ?_, ?_⟩
  · exact Real.sqrt_le_one.mpr (by linarith)
  · linarith [H.hs, H.η0]
  · have a := H.hh
    have b := H.hs
    have c := abs_nonneg h
    have d := H.η0
    have e := H.η1
    generalize √(1 - x ^ 2) = s at *
    have h2 : |h| * (1.7 * s) ≤ |h| * (NN n * s * s) := by
      apply mul_le_mul_of_nonneg_left _ c
      nlinarith
    have h3 : |h| * (NN n * s * s) ≤ η * s * s * s := by nlinarith [mul_pos hs0 hs0]
    have h4 : η * s * s * s ≤ 0.11 * (s * s * s) := by nlinarith [mul_pos (mul_pos hs0 hs0) hs0]
    have h5 : (1.7 * |h|) * s ≤ (0.11 * s ^ 2) * s := by nlinarith
    exact le_of_mul_le_mul_right h5 hs0
  · exact abs_le_one_iff_mul_self_le_one.mpr (by nlinarith [H.hx])

/-- Around it, `1 - ξ²` stays above `0.79 s²`. -/
theorem Near.width (H : Near n x h η) {ξ : ℝ} (hξ : |ξ - x| ≤ 1.5 * |h|) :
    0.79 * (1 - x ^ 2) ≤ 1 - ξ ^ 2 ∧ ξ ^ 2 < 1 := by
  obtain ⟨hs0, hs1, hs2, hw, he, hx1⟩ := H.nums
  have hn := abs_nonneg h
  rw [hs2] at he
  have h1 : 0 < 1 - x ^ 2 := by linarith [H.hx]
  have hle : 1 - x ^ 2 ≤ 1 := by nlinarith [sq_nonneg x]
  have e1 : ξ ^ 2 = x ^ 2 + 2 * (x * (ξ - x)) + (ξ - x) ^ 2 := by ring
  have e2 : x * (ξ - x) ≤ 1.5 * |h| := by
    calc x * (ξ - x) ≤ |x * (ξ - x)| := le_abs_self _
      _ = |x| * |ξ - x| := abs_mul _ _
      _ ≤ 1 * (1.5 * |h|) := mul_le_mul hx1 hξ (abs_nonneg _) zero_le_one
      _ = 1.5 * |h| := one_mul _
  have e3 : (ξ - x) ^ 2 ≤ (1.5 * |h|) ^ 2 := by
    rw [← sq_abs (ξ - x)]
    exact pow_le_pow_left₀ (abs_nonneg _) hξ 2
  have e4 : |h| ≤ 0.065 := by nlinarith
  have e5 : (1.5 * |h|) ^ 2 ≤ 0.147 * |h| := by nlinarith
  have hmain : 0.79 * (1 - x ^ 2) ≤ 1 - ξ ^ 2 := by
    rw [e1]; nlinarith
  exact ⟨hmain, by linarith⟩

/-- Around it, the second derivative is bounded by the first one at the point. -/
theorem Near.second (H : Near n x h η) {ξ : ℝ} (hξ : |ξ - x| ≤ 1.5 * |h|) :
    √(1 - x ^ 2) * |P'' n ξ| ≤ 3.34 * NN n * |P' n x| := by
  obtain ⟨hs0, hs1, hs2, hw, he, hx1⟩ := H.nums
  obtain ⟨hq, hξ1⟩ := H.width hξ
  have hE := energy_le n H.hx hξ1 (by norm_num) hq
  have hN := NN_pos n
  have hΛ : (n : ℝ) * (n + 1) ≤ NN n ^ 2 := by unfold NN; nlinarith
  have hΛ0 : 0 ≤ (n : ℝ) * (n + 1) := by positivity
  have hode := P_ode n ξ hξ1.ne
  -- the energy at the point
  have hEx : energy n x ≤ 1.0121 * (√(1 - x ^ 2) * |P' n x|) ^ 2 := by
    unfold energy
    rw [H.heq, mul_pow, mul_pow, sq_abs, hs2]
    have a : (|h| * NN n) ^ 2 ≤ (η * √(1 - x ^ 2)) ^ 2 :=
      pow_le_pow_left₀ (mul_nonneg (abs_nonneg _) hN.le) H.hh 2
    rw [mul_pow, mul_pow, sq_abs, hs2] at a
    have b : η ^ 2 ≤ 0.0121 := by nlinarith [H.η0, H.η1]
    have c : n * (n + 1) * h ^ 2 ≤ 0.0121 * (1 - x ^ 2) := by
      have : (n:ℝ) * (n + 1) * h ^ 2 ≤ NN n ^ 2 * h ^ 2 := mul_le_mul_of_nonneg_right hΛ (sq_nonneg h)
      have : η ^ 2 * (1 - x ^ 2) ≤ 0.0121 * (1 - x ^ 2) := mul_le_mul_of_nonneg_right b (by linarith [H.hx])
      linarith
    have := mul_le_mul_of_nonneg_right c (sq_nonneg (P' n x))
    nlinarith
  have hpos : 0 < |P' n x| := abs_pos.mpr H.hd
  -- the first derivative nearby
  have h1 : |P' n ξ| ≤ 1.28 * |P' n x| := by
    apply abs_le_of_sq_le_sq _ (by positivity)
    have a : (1 - ξ ^ 2) * P' n ξ ^ 2 ≤ energy n ξ := by
      unfold energy
      have := mul_nonneg hΛ0 (sq_nonneg (P n ξ))
      linarith
    have b : 0.79 * (1 - x ^ 2) * P' n ξ ^ 2 ≤ (1 - ξ ^ 2) * P' n ξ ^ 2 := mul_le_mul_of_nonneg_right hq (sq_nonneg _)
    have c : (1 - x ^ 2) * (0.79 * 0.79 * P' n ξ ^ 2) ≤ (1 - x ^ 2) * (1.0121 * P' n x ^ 2) := by
      rw [mul_pow, sq_abs, hs2] at hEx
      nlinarith
    have d := le_of_mul_le_mul_left c (by linarith [H.hx])
    rw [mul_pow, sq_abs]
    have := sq_nonneg (P' n x)
    linarith
  -- the polynomial nearby
  have h2 : n * (n + 1) * |P n ξ| ≤ 1.132 * NN n * √(1 - x ^ 2) * |P' n x| := by
    have a : (n * (n + 1)) * P n ξ ^ 2 ≤ energy n ξ := by
      unfold energy
      have := mul_nonneg (show 0 ≤ 1 - ξ ^ 2 by linarith) (sq_nonneg (P' n ξ))
      linarith
    have b : ((n : ℝ) * (n + 1)) * (0.79 * ((n * (n + 1)) * P n ξ ^ 2)) ≤ NN n ^ 2 * (1.0121 * (√(1 - x ^ 2) * |P' n x|) ^ 2) :=
      mul_le_mul hΛ (by linarith) (by positivity) (by positivity)
    apply le_of_sq_le_sq _ (by positivity)
    rw [mul_pow, sq_abs]
    have : 0 ≤ NN n ^ 2 * (√(1 - x ^ 2) * |P' n x|) ^ 2 := by positivity
    nlinarith
  -- the equation
  have h3 : (1 - ξ ^ 2) * |P'' n ξ| ≤ 2.638 * NN n * √(1 - x ^ 2) * |P' n x| := by
    have e1 : (1 - ξ ^ 2) * |P'' n ξ| = |2 * ξ * P' n ξ - n * (n + 1) * P n ξ| := by
      rw [← hode, abs_mul, abs_of_pos (show 0 < 1 - ξ ^ 2 by linarith)]
    have e2 : |2 * ξ * P' n ξ - n * (n + 1) * P n ξ| ≤ 2 * |P' n ξ| + n * (n + 1) * |P n ξ| := by
      refine (abs_sub _ _).trans ?_
      rw [abs_mul, abs_mul, abs_mul, abs_of_nonneg hΛ0, abs_two]
      have : |ξ| ≤ 1 := abs_le_one_iff_mul_self_le_one.mpr (by nlinarith)
      have : 2 * |ξ| * |P' n ξ| ≤ 2 * |P' n ξ| := by nlinarith [abs_nonneg (P' n ξ)]
      linarith
    have e3 : 1.7 * |P' n x| ≤ NN n * √(1 - x ^ 2) * |P' n x| := mul_le_mul_of_nonneg_right hw hpos.le
    rw [e1]
    linarith
  have h4 : 0.79 * √(1 - x ^ 2) ^ 2 * |P'' n ξ| ≤ 2.638 * NN n * √(1 - x ^ 2) * |P' n x| := by
    rw [hs2]
    exact (mul_le_mul_of_nonneg_right hq (abs_nonneg _)).trans h3
  have h5 : √(1 - x ^ 2) * (0.79 * (√(1 - x ^ 2) * |P'' n ξ|)) ≤ √(1 - x ^ 2) * (2.638 * NN n * |P' n x|) := by
    linarith
  have h6 := le_of_mul_le_mul_left h5 hs0
  have : 0 ≤ NN n * |P' n x| := by positivity
  linarith

/-- The bound of the second derivative. -/
noncomputable def bend (n : Nat) (x : ℝ) : ℝ := 3.34 * NN n * |P' n x| / √(1 - x ^ 2)

theorem Near.bend_nonneg (H : Near n x h η) : 0 ≤ bend n x := by
  have := H.nums.1
  have := NN_pos n
  unfold bend
  positivity

theorem Near.bend_mul (H : Near n x h η) : |h| * bend n x ≤ 3.34 * η * |P' n x| := by
  obtain ⟨hs0, -⟩ := H.nums
  unfold bend
  rw [← mul_div_assoc, div_le_iff₀ hs0]
  have := mul_le_mul_of_nonneg_right H.hh (abs_nonneg (P' n x))
  nlinarith

theorem Near.deriv_near (H : Near n x h η) {ξ : ℝ} (hξ : |ξ - x| ≤ 1.5 * |h|) :
    |P' n ξ - P' n x| ≤ bend n x * |ξ - x| := by
  obtain ⟨hs0, -⟩ := H.nums
  have hc : Convex ℝ (Metric.closedBall x (1.5 * |h|)) := convex_closedBall _ _
  have := hc.norm_image_sub_le_of_norm_hasDerivWithin_le (f := P' n) (f' := P'' n) (C := bend n x) (x := x) (y := ξ)
    (fun t _ => (hasDerivAt_P' n t).hasDerivWithinAt) (fun t ht => by
      rw [Metric.mem_closedBall, Real.dist_eq] at ht
      have := H.second ht
      unfold bend
      rw [Real.norm_eq_abs, le_div_iff₀ hs0]
      linarith) (Metric.mem_closedBall_self (by positivity)) (by rw [Metric.mem_closedBall, Real.dist_eq]; exact hξ)
  simpa only [Real.norm_eq_abs] using this

theorem Near.taylor (H : Near n x h η) {ξ : ℝ} (hξ : |ξ - x| ≤ 1.5 * |h|) :
    |P n ξ - P n x - P' n x * (ξ - x)| ≤ bend n x * (ξ - x) ^ 2 / 2 := by
  let d := ξ - x
  have hd : ∀ t, HasDerivAt (fun t => P n (x + t * d) - P n x - P' n x * (t * d)) ((P' n (x + t * d) - P' n x) * d) t := by
    intro t
    have h1 : HasDerivAt (fun t => x + t * d) d t := by
      simpa using ((hasDerivAt_id t).mul_const d).const_add x
    have h2 := (hasDerivAt_P n (x + t * d)).comp t h1
    have h3 : HasDerivAt (fun t => P' n x * (t * d)) (P' n x * d) t := by
      have := ((hasDerivAt_id t).mul_const d).const_mul (P' n x)
      simpa using this
    have h4 := (h2.sub_const (P n x)).sub h3
    refine HasDerivAt.congr_deriv h4 ?_
    ring
  have key := image_norm_le_of_norm_deriv_right_le_deriv_boundary (a := 0) (b := 1)
    (f := fun t => P n (x + t * d) - P n x - P' n x * (t * d)) (f' := fun t => (P' n (x + t * d) - P' n x) * d)
    (B := fun t => bend n x * d ^ 2 / 2 * t ^ 2) (B' := fun t => bend n x * d ^ 2 * t)
    (fun t _ => (hd t).continuousAt.continuousWithinAt) (fun t _ => (hd t).hasDerivWithinAt) (by simp)
    (fun t => by
      have := ((hasDerivAt_id t).pow 2).const_mul (bend n x * d ^ 2 / 2)
      refine HasDerivAt.congr_deriv this ?_
      simp only [id]
      norm_num
      ring)
    (fun t ht => by
      have h0 := ht.1
      have h1 := ht.2.le
      have e : |x + t * d - x| = t * |d| := by rw [add_sub_cancel_left, abs_mul, abs_of_nonneg h0]
      have hle : |x + t * d - x| ≤ 1.5 * |h| := by
        rw [e]
        have : t * |d| ≤ 1 * |d| := mul_le_mul_of_nonneg_right h1 (abs_nonneg d)
        rw [one_mul] at this
        exact this.trans hξ
      have := H.deriv_near hle
      rw [e] at this
      rw [Real.norm_eq_abs, abs_mul]
      have h2 := mul_le_mul_of_nonneg_right this (abs_nonneg d)
      rw [← sq_abs d]
      linarith)
  have := key (x := 1) ⟨zero_le_one, le_refl 1⟩
  rw [Real.norm_eq_abs] at this
  have e : x + 1 * d = ξ := by simp only [d]; ring
  rw [e] at this
  simp only [one_mul] at this
  calc |P n ξ - P n x - P' n x * (ξ - x)| ≤ bend n x * d ^ 2 / 2 * 1 ^ 2 := this
    _ = bend n x * (ξ - x) ^ 2 / 2 := by simp only [d]; ring

/-- Around the point the derivative does not vanish, and keeps its sign. -/
theorem Near.deriv_sign (H : Near n x h η) {ξ : ℝ} (hξ : |ξ - x| ≤ 1.5 * |h|) : 0 < P' n ξ * P' n x := by
  have h1 := H.deriv_near hξ
  have h2 := H.bend_mul
  have h3 := H.bend_nonneg
  have hpos : 0 < |P' n x| := abs_pos.mpr H.hd
  have h4 : bend n x * |ξ - x| ≤ bend n x * (1.5 * |h|) := mul_le_mul_of_nonneg_left hξ h3
  have h5 : |P' n ξ - P' n x| ≤ 0.56 * |P' n x| := by
    have := mul_le_mul_of_nonneg_right H.η1 hpos.le
    linarith
  have h6 : |(P' n ξ - P' n x) * P' n x| ≤ 0.56 * |P' n x| * |P' n x| := by
    rw [abs_mul]
    exact mul_le_mul_of_nonneg_right h5 hpos.le
  have h7 := (abs_le.mp h6).1
  have h8 : |P' n x| * |P' n x| = P' n x * P' n x := abs_mul_abs_self _
  have h9 : 0 < P' n x * P' n x := by rw [← h8]; positivity
  rw [mul_assoc, h8] at h7
  linarith

/-- There is exactly one zero within `1.5 |h|`. -/
theorem Near.unique (H : Near n x h η) {r r' : ℝ} (hr : |r - x| ≤ 1.5 * |h|) (hr' : |r' - x| ≤ 1.5 * |h|)
    (h0 : P n r = 0) (h0' : P n r' = 0) : r = r' := by
  by_contra hne
  wlog hlt : r < r' generalizing r r'
  · exact this hr' hr h0' h0 (Ne.symm hne) (lt_of_le_of_ne (not_lt.mp hlt) (Ne.symm hne))
  obtain ⟨c, hc, hc0⟩ := exists_hasDerivAt_eq_zero (f := P n) (f' := P' n) hlt (continuous_P n).continuousOn (by rw [h0, h0'])
    (fun t _ => hasDerivAt_P n t)
  have : |c - x| ≤ 1.5 * |h| := by
    have h1 := abs_le.mp hr
    have h2 := abs_le.mp hr'
    rw [abs_le]
    constructor <;> linarith [hc.1, hc.2]
  have := H.deriv_sign this
  rw [hc0] at this
  simp at this

theorem Near.exists (H : Near n x h η) : ∃ r, |r - x| ≤ 1.5 * |h| ∧ P n r = 0 := by
  -- the sign of the polynomial changes between `x` and `x - 1.5 h`
  have hξ : |(x - 1.5 * h) - x| ≤ 1.5 * |h| := by
    rw [show x - 1.5 * h - x = -(1.5 * h) by ring, abs_neg, abs_mul]; norm_num
  have ht := H.taylor hξ
  have hpos : 0 < |P' n x| := abs_pos.mpr H.hd
  have h2 := H.bend_mul
  have h3 := H.bend_nonneg
  have hη := mul_le_mul_of_nonneg_right H.η1 hpos.le
  have e1 : (x - 1.5 * h - x) ^ 2 = 2.25 * (|h| * |h|) := by rw [abs_mul_abs_self]; ring
  have e2 : bend n x * (x - 1.5 * h - x) ^ 2 / 2 ≤ 0.4135 * |h| * |P' n x| := by
    rw [e1]
    have := mul_le_mul_of_nonneg_left h2 (abs_nonneg h)
    have := mul_le_mul_of_nonneg_left hη (abs_nonneg h)
    have : 0 ≤ |h| * |P' n x| := by positivity
    linarith
  have h4 := ht.trans e2
  have e3 : P n (x - 1.5 * h) - P n x - P' n x * (x - 1.5 * h - x) = P n (x - 1.5 * h) + 0.5 * P n x := by
    rw [H.heq]; ring
  rw [e3] at h4
  have h5 : |P n x| = |h| * |P' n x| := by rw [H.heq, abs_mul]
  rw [mul_assoc, ← h5] at h4
  have hprod : P n (x - 1.5 * h) * P n x ≤ 0 := by
    have h6 : |(P n (x - 1.5 * h) + 0.5 * P n x) * P n x| ≤ 0.4135 * |P n x| * |P n x| := by
      rw [abs_mul]
      exact mul_le_mul_of_nonneg_right h4 (abs_nonneg _)
    have h7 := (abs_le.mp h6).2
    rw [mul_assoc, abs_mul_abs_self] at h7
    have := mul_self_nonneg (P n x)
    nlinarith
  have hcont : ContinuousOn (P n) (Set.uIcc x (x - 1.5 * h)) := (continuous_P n).continuousOn
  have hmem : (0 : ℝ) ∈ Set.uIcc (P n x) (P n (x - 1.5 * h)) := by
    rw [Set.mem_uIcc]
    rcases le_total 0 (P n x) with hp | hp
    · right
      refine ⟨?_, hp⟩
      by_contra hcon
      rw [not_le] at hcon
      rcases hp.eq_or_lt with hp0 | hp0
      · -- `x` itself is a zero
        rw [← hp0] at h4
        simp at h4
        linarith
      · nlinarith
    · left
      refine ⟨hp, ?_⟩
      by_contra hcon
      rw [not_le] at hcon
      rcases hp.eq_or_lt with hp0 | hp0
      · rw [hp0] at h4
        simp at h4
        linarith
      · nlinarith
  obtain ⟨r, hr, hr0⟩ := intermediate_value_uIcc hcont hmem
  refine ⟨r, ?_, hr0⟩
  have h6 : |r - x| ≤ |(x - 1.5 * h) - x| := Set.abs_sub_left_of_mem_uIcc hr
  exact h6.trans hξ

theorem step_a {N e h1 s s1 η : ℝ} (hs0 : 0 < s) (he : 0 ≤ e) (hN : 0 < N) (hη : 0 ≤ η) (hNe : e * N ≤ η * s)
    (hb : h1 * s ≤ 2.64 * N * (e * e)) (hs1 : 0.9305 * s ≤ s1) : h1 * N ≤ 2.84 * η ^ 2 * s1 := by
  have a : (e * N) * (e * N) ≤ (η * s) * (η * s) := mul_le_mul hNe hNe (by positivity) (by positivity)
  have b : (h1 * N) * s ≤ (2.64 * η ^ 2 * s) * s := by
    have := mul_le_mul_of_nonneg_right hb hN.le
    linarith
  have c := le_of_mul_le_mul_right b hs0
  have d : 2.64 * η ^ 2 * s ≤ 2.84 * η ^ 2 * s1 := by
    have := mul_le_mul_of_nonneg_left hs1 (sq_nonneg η)
    have : 0 ≤ η ^ 2 * s := by positivity
    linarith
  exact c.trans d

theorem step_b {N e s s1 η : ℝ} (hN : 0 < N) (hη : 0 ≤ η) (hη1 : η ≤ 0.11) (hs1 : 0 ≤ s1)
    (hNe : e * N ≤ η * s) (hw : s ^ 2 - 2.065 * e ≤ s1 ^ 2) (hwη : 1.7 + 1.65 * η ≤ N * s) :
    1.7 + 1.65 * (2.84 * η ^ 2) ≤ N * s1 := by
  apply le_of_sq_le_sq _ (by positivity)
  have a : N ^ 2 * (s ^ 2 - 2.065 * e) ≤ N ^ 2 * s1 ^ 2 := mul_le_mul_of_nonneg_left hw (sq_nonneg _)
  have b : N * (e * N) ≤ N * (η * s) := mul_le_mul_of_nonneg_left hNe hN.le
  have c : (N * s) ^ 2 - 2.065 * (η * (N * s)) ≤ (N * s1) ^ 2 := by linarith
  refine le_trans ?_ c
  generalize N * s = w at *
  have d : 2.84 * η ^ 2 ≤ 0.3124 * η := by nlinarith
  have e : (1.7 + 1.65 * (2.84 * η ^ 2)) ^ 2 ≤ (1.7 + 0.5155 * η) ^ 2 :=
    pow_le_pow_left₀ (by positivity) (by linarith) 2
  refine e.trans ?_
  have f : 0 ≤ (w - (1.7 + 1.65 * η)) * (w + (1.7 + 1.65 * η) - 2.065 * η) :=
    mul_nonneg (by linarith) (by linarith)
  nlinarith

theorem step_c {N e h1 s : ℝ} (hh1 : 0 ≤ h1) (hN : 0 < N) (hb : h1 * s ≤ 2.64 * N * (e * e)) (hw : 1.7 ≤ N * s) :
    1.7 * h1 ≤ 2.64 * N ^ 2 * (e * e) := by
  have a := mul_le_mul_of_nonneg_right hb hN.le
  have b : h1 * 1.7 ≤ h1 * (N * s) := mul_le_mul_of_nonneg_left hw hh1
  linarith

theorem step_d {N e h1 s η : ℝ} (hs0 : 0 < s) (he : 0 ≤ e) (hη1 : η ≤ 0.11) (hNe : e * N ≤ η * s)
    (hb : h1 * s ≤ 2.64 * N * (e * e)) : h1 ≤ 0.2905 * e := by
  have a : e * N * e ≤ η * s * e := mul_le_mul_of_nonneg_right hNe he
  have b : η * (s * e) ≤ 0.11 * (s * e) := mul_le_mul_of_nonneg_right hη1 (mul_nonneg hs0.le he)
  have c : h1 * s ≤ (0.2905 * e) * s := by
    have : 0 ≤ s * e := by positivity
    linarith
  exact le_of_mul_le_mul_right c hs0

/-- One step of Newton's method: the new correction is bounded by the square of the old one, and the zero nearby is the same. -/
theorem Near.step (H : Near n x h η) : ∃ h1, Near n (x - h) h1 (2.84 * η ^ 2) ∧ 1.7 * |h1| ≤ 2.64 * NN n ^ 2 * h ^ 2 ∧
    ∀ r, |r - x| ≤ 1.5 * |h| → P n r = 0 → |r - (x - h)| ≤ 1.5 * |h1| := by
  obtain ⟨hs0, hs1, hs2, hw, he, hx1⟩ := H.nums
  have hN := NN_pos n
  have hξ : |(x - h) - x| ≤ 1.5 * |h| := by
    rw [show x - h - x = -h by ring, abs_neg]
    linarith [abs_nonneg h]
  have e0 : |(x - h) - x| = |h| := by rw [show x - h - x = -h by ring, abs_neg]
  have hpos : 0 < |P' n x| := abs_pos.mpr H.hd
  have h2 := H.bend_mul
  have h3 := H.bend_nonneg
  have hη := mul_le_mul_of_nonneg_right H.η1 hpos.le
  have hdn := H.deriv_near hξ
  rw [e0] at hdn
  have hsign := H.deriv_sign hξ
  have hd1 : P' n (x - h) ≠ 0 := fun h0 => by rw [h0, zero_mul] at hsign; exact lt_irrefl _ hsign
  have hlow : 0.6326 * |P' n x| ≤ |P' n (x - h)| := by
    have := abs_sub_abs_le_abs_sub (P' n x) (P' n (x - h))
    rw [abs_sub_comm] at this
    linarith
  have ht := H.taylor hξ
  have e1 : P n (x - h) - P n x - P' n x * (x - h - x) = P n (x - h) := by rw [H.heq]; ring
  have e2 : (x - h - x) ^ 2 = |h| * |h| := by rw [abs_mul_abs_self]; ring
  rw [e1, e2] at ht
  let h1 := P n (x - h) / P' n (x - h)
  have heq1 : P n (x - h) = h1 * P' n (x - h) := by simp only [h1]; field_simp
  -- the size of the new correction
  have hb : |h1| * √(1 - x ^ 2) ≤ 2.64 * NN n * (|h| * |h|) := by
    have a : |h1| * |P' n (x - h)| ≤ bend n x * (|h| * |h|) / 2 := by rw [← abs_mul, ← heq1]; exact ht
    have b : |h1| * (0.6326 * |P' n x|) ≤ |h1| * |P' n (x - h)| := mul_le_mul_of_nonneg_left hlow (abs_nonneg _)
    have c : bend n x * √(1 - x ^ 2) = 3.34 * NN n * |P' n x| := by unfold bend; field_simp
    have d : (|h1| * √(1 - x ^ 2)) * |P' n x| ≤ (2.64 * NN n * (|h| * |h|)) * |P' n x| := by
      have := mul_le_mul_of_nonneg_right (b.trans a) hs0.le
      have e : bend n x * (|h| * |h|) / 2 * √(1 - x ^ 2) = (3.34 * NN n * |P' n x|) * (|h| * |h|) / 2 := by rw [← c]; ring
      rw [e] at this
      have : 0 ≤ NN n * |P' n x| * (|h| * |h|) := by positivity
      linarith
    exact le_of_mul_le_mul_right d hpos
  -- the new width
  have hwid : 0.866 * (1 - x ^ 2) ≤ 1 - (x - h) ^ 2 ∧ (1 - x ^ 2) - 2.065 * |h| ≤ 1 - (x - h) ^ 2 := by
    have a : x * -h ≤ |h| := by
      calc x * -h ≤ |x * -h| := le_abs_self _
        _ = |x| * |h| := by rw [abs_mul, abs_neg]
        _ ≤ 1 * |h| := mul_le_mul_of_nonneg_right hx1 (abs_nonneg _)
        _ = |h| := one_mul _
    have b : |h| ≤ 0.065 := by
      have : 1 - x ^ 2 ≤ 1 := by nlinarith [sq_nonneg x]
      rw [hs2] at he
      linarith
    have c : h ^ 2 ≤ 0.065 * |h| := by
      rw [← sq_abs, pow_two]; exact mul_le_mul_of_nonneg_right b (abs_nonneg h)
    rw [hs2] at he
    have d : (x - h) ^ 2 = x ^ 2 + 2 * (x * -h) + h ^ 2 := by ring
    rw [d]
    constructor <;> linarith
  have hx1' : (x - h) ^ 2 < 1 := (H.width hξ).2
  have hs1pos : 0 < 1 - (x - h) ^ 2 := by linarith
  have hs1sq : √(1 - (x - h) ^ 2) ^ 2 = 1 - (x - h) ^ 2 := Real.sq_sqrt hs1pos.le
  have hs1' : 0.9305 * √(1 - x ^ 2) ≤ √(1 - (x - h) ^ 2) := by
    apply Real.le_sqrt_of_sq_le
    rw [mul_pow, hs2]
    have := H.hx
    linarith [hwid.1]
  have hNe : |h| * NN n ≤ η * √(1 - x ^ 2) := H.hh
  have hη0 := H.η0
  have hη1 := H.η1
  have hwη := H.hs
  have hh0 := abs_nonneg h
  have hh1 := abs_nonneg h1
  have hwid2 := hwid.2
  rw [← hs2, ← hs1sq] at hwid2
  have hNew : Near n (x - h) h1 (2.84 * η ^ 2) :=
    ⟨hx1', heq1, hd1, by positivity, by nlinarith, step_a hs0 hh0 hN hη0 hNe hb hs1',
      step_b hN hη0 hη1 (Real.sqrt_nonneg _) hNe hwid2 hwη⟩
  refine ⟨h1, hNew, ?_, ?_⟩
  · have := step_c hh1 hN hb hw
    rw [abs_mul_abs_self, ← pow_two] at this
    exact this
  · intro r hr hr0
    obtain ⟨r', hr', hr0'⟩ := hNew.exists
    have hsmall : |h1| ≤ 0.2905 * |h| := step_d hs0 hh0 hη1 hNe hb
    have hr'x : |r' - x| ≤ 1.5 * |h| := by
      have : r' - x = (r' - (x - h)) + (-h) := by ring
      rw [this]
      refine (abs_add_le _ _).trans ?_
      rw [abs_neg]
      linarith
    rw [H.unique hr hr'x hr0 hr0']
    exact hr'

end

end Grib.Spec
