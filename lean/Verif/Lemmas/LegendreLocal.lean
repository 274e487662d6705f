import Verif.Lemmas.LegendreGuess

/-! # Newton's method near a zero of a Legendre polynomial, seen from the zero

At a zero `z` with `s = √(1 - z²)` and `N s ≥ 2` (`N = n + 1/2`), a point whose distance from `z` is at most `0.2 s / N` is
brought at least twice as near by Newton's method, with room for errors. -/

namespace Grib.Spec

open Real

/-! ## The size of two successive polynomials -/

/-- The square of the size of a pair of successive values of the recurrence at `x`. -/
def size2 (x a b : ℝ) : ℝ := a ^ 2 - 2 * x * (a * b) + b ^ 2

theorem size2_left (x a b : ℝ) : size2 x a b = (a - x * b) ^ 2 + (1 - x ^ 2) * b ^ 2 := by unfold size2; ring

theorem size2_right (x a b : ℝ) : size2 x a b = (b - x * a) ^ 2 + (1 - x ^ 2) * a ^ 2 := by unfold size2; ring

/-- A step of the recurrence does not increase the size, and decreases it at most by the factor `(k-1)/k`. -/
theorem size2_step {x a b c k : ℝ} (hx : x ^ 2 ≤ 1) (hk : 1 ≤ k) (hc : k * c = (2 * k - 1) * x * b - (k - 1) * a) :
    size2 x c b ≤ size2 x b a ∧ (k - 1) ^ 2 * size2 x b a ≤ k ^ 2 * size2 x c b := by
  have hk0 : 0 < k ^ 2 := by positivity
  have e : k * (c - x * b) = (k - 1) * (x * b - a) := by linear_combination hc
  have e2 : k ^ 2 * (c - x * b) ^ 2 = (k - 1) ^ 2 * (a - x * b) ^ 2 := by
    have := congrArg (· ^ 2) e
    simp only [mul_pow] at this
    rw [this]; ring
  have h1 : (k - 1) ^ 2 ≤ k ^ 2 := by nlinarith
  rw [size2_left, size2_right x b a]
  have hp : 0 ≤ (1 - x ^ 2) * b ^ 2 := mul_nonneg (by linarith) (sq_nonneg b)
  have hr := sq_nonneg (a - x * b)
  constructor
  · have : k ^ 2 * (c - x * b) ^ 2 ≤ k ^ 2 * (a - x * b) ^ 2 := by
      rw [e2]; exact mul_le_mul_of_nonneg_right h1 hr
    have := le_of_mul_le_mul_left this hk0
    linarith
  · have := mul_le_mul_of_nonneg_right h1 hp
    rw [mul_add, mul_add, e2]
    linarith

/-- Adding an error to the newest value increases the size by that error at most. -/
theorem size2_add {x a b η R : ℝ} (hx : x ^ 2 ≤ 1) (hR : 0 ≤ R) (h : size2 x a b ≤ R ^ 2) :
    size2 x (a + η) b ≤ (R + |η|) ^ 2 := by
  rw [size2_left] at *
  have hp : 0 ≤ (1 - x ^ 2) * b ^ 2 := mul_nonneg (by linarith) (sq_nonneg b)
  have h1 : |a - x * b| ≤ R := abs_le_of_sq_le_sq (by linarith) hR
  have h2 : η * (a - x * b) ≤ |η| * R := by
    calc η * (a - x * b) ≤ |η * (a - x * b)| := le_abs_self _
      _ = |η| * |a - x * b| := abs_mul _ _
      _ ≤ |η| * R := mul_le_mul_of_nonneg_left h1 (abs_nonneg _)
  have h3 := sq_abs η
  nlinarith

/-- What the size bounds. -/
theorem size2_bounds {x a b R : ℝ} (hx : x ^ 2 ≤ 1) (hR : 0 ≤ R) (h : size2 x a b ≤ R ^ 2) :
    |b - x * a| ≤ R ∧ √(1 - x ^ 2) * |a| ≤ R ∧ √(1 - x ^ 2) * |b| ≤ R := by
  have hv : 0 ≤ 1 - x ^ 2 := by linarith
  have ha : 0 ≤ (1 - x ^ 2) * a ^ 2 := mul_nonneg hv (sq_nonneg a)
  have hb : 0 ≤ (1 - x ^ 2) * b ^ 2 := mul_nonneg hv (sq_nonneg b)
  have h1 := h
  have h2 := h
  rw [size2_left] at h1
  rw [size2_right] at h2
  refine ⟨abs_le_of_sq_le_sq (by linarith) hR, ?_, ?_⟩
  · apply le_of_sq_le_sq _ hR
    rw [mul_pow, sq_sqrt hv, sq_abs]
    have := sq_nonneg (b - x * a)
    linarith
  · apply le_of_sq_le_sq _ hR
    rw [mul_pow, sq_sqrt hv, sq_abs]
    have := sq_nonneg (a - x * b)
    linarith

theorem size2_P {x : ℝ} (hx : x ^ 2 ≤ 1) (m : Nat) :
    size2 x (P (m + 1) x) (P m x) ≤ 1 - x ^ 2 ∧ 1 - x ^ 2 ≤ ((m : ℝ) + 1) ^ 2 * size2 x (P (m + 1) x) (P m x) := by
  induction m with
  | zero =>
    have : size2 x (P (0 + 1) x) (P 0 x) = 1 - x ^ 2 := by rw [P_zero, P_one]; unfold size2; ring
    rw [this]; norm_num
  | succ m ih =>
    have hb := P_bonnet m x
    obtain ⟨h1, h2⟩ := size2_step (c := P (m + 1 + 1) x) (a := P m x) (b := P (m + 1) x) (k := (m : ℝ) + 2) hx
      (by have : (0:ℝ) ≤ m := Nat.cast_nonneg m
          linarith) (by linear_combination hb)
    refine ⟨h1.trans ih.1, ih.2.trans ?_⟩
    have e : ((m : ℝ) + 2 - 1) = m + 1 := by ring
    rw [e] at h2
    push_cast
    rw [show (m : ℝ) + 1 + 1 = m + 2 by ring]
    exact h2

/-- The polynomials are at most 1. -/
theorem abs_P_le {x : ℝ} (hx : x ^ 2 < 1) (m : Nat) : |P m x| ≤ 1 := by
  have hv : 0 < 1 - x ^ 2 := by linarith
  have h := (size2_P hx.le m).1
  rw [size2_left] at h
  have h1 : (1 - x ^ 2) * P m x ^ 2 ≤ (1 - x ^ 2) * 1 := by
    have := sq_nonneg (P (m + 1) x - x * P m x)
    linarith
  have := le_of_mul_le_mul_left h1 hv
  exact abs_le_of_sq_le_sq (by linarith) zero_le_one

/-- A zero of the polynomial of degree `n`, `s` being the cosine of its latitude. -/
structure AtZero (n : Nat) (z s : ℝ) : Prop where
  s0 : 0 < s
  s2 : s ^ 2 = 1 - z ^ 2
  root : P n z = 0
  wide : 2 ≤ NN n * s

namespace AtZero

variable {n : Nat} {z s : ℝ}

theorem z1 (H : AtZero n z s) : z ^ 2 < 1 := by
  have := H.s2
  have := pow_pos H.s0 2
  linarith

theorem s1 (H : AtZero n z s) : s ≤ 1 := by
  have h := H.s2
  nlinarith [sq_nonneg z, H.s0]

/-- Around it, `1 - ξ²` stays above `0.734 s²`. -/
theorem width (H : AtZero n z s) {ξ : ℝ} (hξ : NN n * |ξ - z| ≤ 0.25 * s) :
    0.734 * s ^ 2 ≤ 1 - ξ ^ 2 ∧ ξ ^ 2 < 1 ∧ |ξ - z| ≤ 0.125 * s ^ 2 := by
  have s0 := H.s0
  have s1 := H.s1
  have s2 := H.s2
  have hw := H.wide
  have hd := abs_nonneg (ξ - z)
  have h1 : |ξ - z| ≤ 0.125 * s ^ 2 := by
    have a : 2 * |ξ - z| ≤ NN n * s * |ξ - z| := mul_le_mul_of_nonneg_right hw hd
    have b : s * (NN n * |ξ - z|) ≤ s * (0.25 * s) := mul_le_mul_of_nonneg_left hξ s0.le
    nlinarith
  have z1 : |z| ≤ 1 := abs_le_one_iff_mul_self_le_one.mpr (by nlinarith [H.z1])
  have e1 : ξ ^ 2 = z ^ 2 + 2 * (z * (ξ - z)) + (ξ - z) ^ 2 := by ring
  have e2 : z * (ξ - z) ≤ 0.125 * s ^ 2 := by
    calc z * (ξ - z) ≤ |z * (ξ - z)| := le_abs_self _
      _ = |z| * |ξ - z| := abs_mul _ _
      _ ≤ 1 * (0.125 * s ^ 2) := mul_le_mul z1 h1 hd zero_le_one
      _ = 0.125 * s ^ 2 := one_mul _
  have hsq : s ^ 2 ≤ 1 := by nlinarith
  have e3 : (ξ - z) ^ 2 ≤ 0.016 * s ^ 2 := by
    rw [← sq_abs (ξ - z)]
    have a : |ξ - z| ^ 2 ≤ (0.125 * s ^ 2) ^ 2 := pow_le_pow_left₀ hd h1 2
    have b : (s ^ 2) * (s ^ 2) ≤ 1 * s ^ 2 := mul_le_mul_of_nonneg_right hsq (sq_nonneg s)
    nlinarith
  have hp : 0 < s ^ 2 := by positivity
  refine ⟨by linarith, by linarith, h1⟩

/-- Around it, the second derivative is bounded by the first one at the zero. -/
theorem second (H : AtZero n z s) {ξ : ℝ} (hξ : NN n * |ξ - z| ≤ 0.25 * s) :
    s * |P'' n ξ| ≤ 2.45 * NN n * |P' n z| := by
  have s0 := H.s0
  have s2 := H.s2
  have hw := H.wide
  have hN := NN_pos n
  obtain ⟨hq, hξ1, -⟩ := H.width hξ
  have hE := energy_le n (q := 0.734) H.z1 hξ1 (by norm_num) (by rw [← s2]; exact hq)
  have hEz : energy n z = s ^ 2 * P' n z ^ 2 := by
    unfold energy
    rw [H.root, s2]; ring
  have hΛ : (n : ℝ) * (n + 1) ≤ NN n ^ 2 := by unfold NN; nlinarith
  have hΛ0 : 0 ≤ (n : ℝ) * (n + 1) := by positivity
  have hode := P_ode n ξ hξ1.ne
  rw [hEz] at hE
  have hE0 : 0 ≤ energy n ξ := energy_nonneg n hξ1
  unfold energy at hE hE0
  have hsq : ξ ^ 2 ≤ 1 := hξ1.le
  generalize P' n ξ = b at *
  generalize P n ξ = a at *
  generalize P'' n ξ = c at *
  generalize hv : 1 - ξ ^ 2 = v at *
  generalize (n : ℝ) * (n + 1) = Λ at *
  have hs2p : 0 < s ^ 2 := by positivity
  have hv0 : 0 < v := by linarith
  -- Cauchy-Schwarz
  have cs : v * (2 * ξ * b - Λ * a) ^ 2 ≤ (4 + v * Λ) * (Λ * a ^ 2 + v * b ^ 2) := by
    have h1 : v * (2 * ξ * b - Λ * a) ^ 2 ≤ (4 * ξ ^ 2 + v * Λ) * (Λ * a ^ 2 + v * b ^ 2) := by
      have : (4 * ξ ^ 2 + v * Λ) * (Λ * a ^ 2 + v * b ^ 2) - v * (2 * ξ * b - Λ * a) ^ 2 = Λ * (2 * ξ * a + v * b) ^ 2 := by ring
      have := mul_nonneg hΛ0 (sq_nonneg (2 * ξ * a + v * b))
      linarith
    have h2 : (4 * ξ ^ 2 + v * Λ) * (Λ * a ^ 2 + v * b ^ 2) ≤ (4 + v * Λ) * (Λ * a ^ 2 + v * b ^ 2) := by
      apply mul_le_mul_of_nonneg_right _ hE0
      linarith
    linarith
  rw [← hode] at cs
  generalize Λ * a ^ 2 + v * b ^ 2 = E at *
  generalize P' n z = d at *
  have h4 : 4 ≤ (NN n * s) ^ 2 := by nlinarith
  have hΛ' : (4 + v * Λ) ≤ NN n ^ 2 * (s ^ 2 + v) := by
    have := mul_le_mul_of_nonneg_left hΛ hv0.le
    nlinarith
  -- v³ c² ≤ N² (s² + v) E
  have k1 : v ^ 3 * c ^ 2 ≤ NN n ^ 2 * (s ^ 2 + v) * E := by
    have := mul_le_mul_of_nonneg_right hΛ' hE0
    nlinarith
  -- 0.734 (s² + v) ≤ 1.734 v
  have k2 : 0.734 * (s ^ 2 + v) ≤ 1.734 * v := by linarith
  have k3 : 0.734 * 0.734 * (v ^ 3 * c ^ 2) ≤ NN n ^ 2 * (1.734 * v) * (s ^ 2 * d ^ 2) := by
    have a1 : NN n ^ 2 * (0.734 * (s ^ 2 + v)) * (0.734 * E) ≤ NN n ^ 2 * (1.734 * v) * (s ^ 2 * d ^ 2) := by
      apply mul_le_mul _ hE (by positivity) (by positivity)
      exact mul_le_mul_of_nonneg_left k2 (sq_nonneg _)
    nlinarith
  have k4 : 0.734 * 0.734 * (v ^ 2 * c ^ 2) ≤ NN n ^ 2 * 1.734 * (s ^ 2 * d ^ 2) := by
    have : v * (0.734 * 0.734 * (v ^ 2 * c ^ 2)) ≤ v * (NN n ^ 2 * 1.734 * (s ^ 2 * d ^ 2)) := by linarith
    exact le_of_mul_le_mul_left this hv0
  have k5 : (0.734 * s ^ 2) ^ 2 ≤ v ^ 2 := pow_le_pow_left₀ (by positivity) hq 2
  have k6 : 0.734 * 0.734 * ((0.734 * s ^ 2) ^ 2 * c ^ 2) ≤ NN n ^ 2 * 1.734 * (s ^ 2 * d ^ 2) := by
    have := mul_le_mul_of_nonneg_right k5 (sq_nonneg c)
    linarith
  have k7 : 0.734 ^ 4 * (s ^ 2 * c ^ 2) ≤ NN n ^ 2 * 1.734 * d ^ 2 := by
    have : s ^ 2 * (0.734 ^ 4 * (s ^ 2 * c ^ 2)) ≤ s ^ 2 * (NN n ^ 2 * 1.734 * d ^ 2) := by linarith
    exact le_of_mul_le_mul_left this hs2p
  apply le_of_sq_le_sq _ (by positivity)
  rw [mul_pow, mul_pow, mul_pow, sq_abs, sq_abs]
  have : 0 ≤ NN n ^ 2 * d ^ 2 := by positivity
  have h8 : s ^ 2 * c ^ 2 * 0.734 ^ 4 ≤ 6.0025 * NN n ^ 2 * d ^ 2 * 0.734 ^ 4 := by
    nlinarith
  have h9 := le_of_mul_le_mul_right h8 (by norm_num)
  calc s ^ 2 * c ^ 2 ≤ 6.0025 * NN n ^ 2 * d ^ 2 := h9
    _ = 2.45 ^ 2 * NN n ^ 2 * d ^ 2 := by norm_num

theorem deriv_ne (H : AtZero n z s) (hn : 1 ≤ n) : P' n z ≠ 0 := by
  obtain ⟨m, rfl⟩ : ∃ m, n = m + 1 := ⟨n - 1, by omega⟩
  intro h0
  have hd := P_derivative m z
  rw [h0, H.root, mul_zero, mul_zero, sub_zero] at hd
  have hm : ((m : ℝ) + 1) ≠ 0 := by positivity
  have hp : P m z = 0 := by
    rcases mul_eq_zero.mp hd.symm with h | h
    · exact absurd h hm
    · exact h
  have := (size2_P H.z1.le m).2
  rw [H.root, hp] at this
  have h1 := H.z1
  rw [show size2 z 0 0 = 0 by unfold size2; ring, mul_zero] at this
  linarith

theorem deriv_near (H : AtZero n z s) {ξ : ℝ} (hξ : NN n * |ξ - z| ≤ 0.25 * s) :
    |P' n ξ - P' n z| ≤ 2.45 * NN n * |P' n z| / s * |ξ - z| := by
  have s0 := H.s0
  have hN := NN_pos n
  have hc : Convex ℝ (Metric.closedBall z |ξ - z|) := convex_closedBall _ _
  have := hc.norm_image_sub_le_of_norm_hasDerivWithin_le (f := P' n) (f' := P'' n) (C := 2.45 * NN n * |P' n z| / s) (x := z)
    (y := ξ) (fun t _ => (hasDerivAt_P' n t).hasDerivWithinAt) (fun t ht => by
      rw [Metric.mem_closedBall, Real.dist_eq] at ht
      have := H.second ((mul_le_mul_of_nonneg_left ht hN.le).trans hξ)
      rw [Real.norm_eq_abs, le_div_iff₀ s0]
      linarith) (Metric.mem_closedBall_self (by positivity)) (by rw [Metric.mem_closedBall, Real.dist_eq])
  simpa only [Real.norm_eq_abs] using this

/-- What is left of Newton's equation. -/
theorem taylor (H : AtZero n z s) {ξ : ℝ} (hξ : NN n * |ξ - z| ≤ 0.25 * s) :
    |(ξ - z) * P' n ξ - P n ξ| ≤ 2.45 * NN n * |P' n z| / s * (ξ - z) ^ 2 / 2 := by
  have s0 := H.s0
  have hN := NN_pos n
  generalize hB : 2.45 * NN n * |P' n z| / s = B
  let d := ξ - z
  have hd : ∀ t, HasDerivAt (fun t => (t * d) * P' n (z + t * d) - P n (z + t * d)) (t * d * (P'' n (z + t * d) * d)) t := by
    intro t
    have h1 : HasDerivAt (fun t => z + t * d) d t := by
      simpa using ((hasDerivAt_id t).mul_const d).const_add z
    have h2 := (hasDerivAt_P n (z + t * d)).comp t h1
    have h3 := (hasDerivAt_P' n (z + t * d)).comp t h1
    have h5 : HasDerivAt (fun t : ℝ => t * d) d t := by simpa using (hasDerivAt_id t).mul_const d
    have h4 := (h5.mul h3).sub h2
    refine HasDerivAt.congr_deriv h4 ?_
    simp only [Function.comp]
    ring
  have key := image_norm_le_of_norm_deriv_right_le_deriv_boundary (a := 0) (b := 1)
    (f := fun t => (t * d) * P' n (z + t * d) - P n (z + t * d)) (f' := fun t => t * d * (P'' n (z + t * d) * d))
    (B := fun t => B * d ^ 2 / 2 * t ^ 2) (B' := fun t => B * d ^ 2 * t)
    (fun t _ => (hd t).continuousAt.continuousWithinAt) (fun t _ => (hd t).hasDerivWithinAt) (by simp [H.root])
    (fun t => by
      have := ((hasDerivAt_id t).pow 2).const_mul (B * d ^ 2 / 2)
      refine HasDerivAt.congr_deriv this ?_
      simp only [id]
      norm_num
      ring)
    (fun t ht => by
      have h0 := ht.1
      have h1 := ht.2.le
      have e : |z + t * d - z| = t * |d| := by rw [add_sub_cancel_left, abs_mul, abs_of_nonneg h0]
      have hle : NN n * |z + t * d - z| ≤ 0.25 * s := by
        rw [e]
        have : t * |d| ≤ 1 * |d| := mul_le_mul_of_nonneg_right h1 (abs_nonneg d)
        rw [one_mul] at this
        exact (mul_le_mul_of_nonneg_left this hN.le).trans hξ
      have h2 : |P'' n (z + t * d)| ≤ B := by
        rw [← hB, le_div_iff₀ s0]
        have := H.second hle
        linarith
      rw [Real.norm_eq_abs, abs_mul, abs_mul, abs_mul, abs_of_nonneg h0]
      have h3 := mul_le_mul_of_nonneg_left h2 (show 0 ≤ t * (|d| * |d|) by positivity)
      rw [← sq_abs d]
      linarith)
  have := key (x := 1) ⟨zero_le_one, le_refl 1⟩
  rw [Real.norm_eq_abs] at this
  have e : z + 1 * d = ξ := by simp only [d]; ring
  rw [e] at this
  simp only [one_mul] at this
  calc |(ξ - z) * P' n ξ - P n ξ| ≤ B * d ^ 2 / 2 * 1 ^ 2 := this
    _ = B * (ξ - z) ^ 2 / 2 := by simp only [d]; ring

/-- A step of Newton's method from a point near the zero. -/
theorem newton (H : AtZero n z s) (hn : 1 ≤ n) {ξ : ℝ} (hξ : NN n * |ξ - z| ≤ 0.2 * s) :
    P' n ξ ≠ 0 ∧ |ξ - P n ξ / P' n ξ - z| ≤ 0.481 * |ξ - z| ∧ |P n ξ / P' n ξ| ≤ 1.481 * |ξ - z| ∧
      |ξ - z| ≤ 1.927 * |P n ξ / P' n ξ| := by
  have s0 := H.s0
  have hN := NN_pos n
  have hpos : 0 < |P' n z| := abs_pos.mpr (H.deriv_ne hn)
  have hξ' : NN n * |ξ - z| ≤ 0.25 * s := by linarith
  have h1 := H.deriv_near hξ'
  have h2 := H.taylor hξ'
  have hd0 := abs_nonneg (ξ - z)
  have hK : 2.45 * NN n * |P' n z| / s * |ξ - z| ≤ 0.49 * |P' n z| := by
    rw [div_mul_eq_mul_div, div_le_iff₀ s0]
    have := mul_le_mul_of_nonneg_right hξ hpos.le
    linarith
  have hder : 0.51 * |P' n z| ≤ |P' n ξ| := by
    have := abs_sub_abs_le_abs_sub (P' n z) (P' n ξ)
    rw [abs_sub_comm] at this
    linarith
  have hder0 : 0 < |P' n ξ| := by linarith
  have hne : P' n ξ ≠ 0 := abs_pos.mp hder0
  have hstep : |ξ - P n ξ / P' n ξ - z| ≤ 0.481 * |ξ - z| := by
    have e : (ξ - P n ξ / P' n ξ - z) * P' n ξ = (ξ - z) * P' n ξ - P n ξ := by
      field_simp
      ring
    have h3 : |ξ - P n ξ / P' n ξ - z| * |P' n ξ| ≤ (0.49 * |P' n z|) * |ξ - z| / 2 := by
      rw [← abs_mul, e]
      refine h2.trans ?_
      rw [← sq_abs (ξ - z)]
      have := mul_le_mul_of_nonneg_right hK hd0
      linarith
    have h4 : |ξ - P n ξ / P' n ξ - z| * (0.51 * |P' n z|) ≤ (0.49 * |P' n z|) * |ξ - z| / 2 :=
      (mul_le_mul_of_nonneg_left hder (abs_nonneg _)).trans h3
    have h5 : |P' n z| * (0.51 * |ξ - P n ξ / P' n ξ - z|) ≤ |P' n z| * (0.245 * |ξ - z|) := by linarith
    have h6 := le_of_mul_le_mul_left h5 hpos
    linarith
  refine ⟨hne, hstep, ?_, ?_⟩
  · have : |P n ξ / P' n ξ| ≤ |ξ - z| + |ξ - P n ξ / P' n ξ - z| := by
      have := abs_sub (ξ - z) (ξ - P n ξ / P' n ξ - z)
      rwa [show ξ - z - (ξ - P n ξ / P' n ξ - z) = P n ξ / P' n ξ by ring] at this
    linarith
  · have : |ξ - z| ≤ |P n ξ / P' n ξ| + |ξ - P n ξ / P' n ξ - z| := by
      have := abs_add_le (P n ξ / P' n ξ) (ξ - P n ξ / P' n ξ - z)
      rwa [show P n ξ / P' n ξ + (ξ - P n ξ / P' n ξ - z) = ξ - z by ring] at this
    linarith

end AtZero

/-! ## The zeros -/

theorem sin_zeroAngle {n i : Nat} (hn : 2 ≤ n) (hi : i < n) : 2 ≤ NN n * sin (zeroAngle n i) := by
  have north : ∀ i, 2 * i + 1 ≤ n → 2 ≤ NN n * sin (zeroAngle n i) := by
    intro i hi
    have hN := NN_pos n
    have hpi := pi_pos
    have hp2 : 3.1415 < π := pi_gt_d4
    have hp1 : π < 3.1416 := pi_lt_d4
    have hN2 : 2.5 ≤ NN n := by
      have : (2:ℝ) ≤ n := by exact_mod_cast hn
      unfold NN; linarith
    have hle : guessAngle n 0 ≤ guessAngle n i := by
      unfold guessAngle
      apply div_le_div_of_nonneg_right _ hN.le
      apply mul_le_mul_of_nonneg_right _ hpi.le
      have : (0:ℝ) ≤ i := Nat.cast_nonneg i
      push_cast
      linarith
    have h0 := guessAngle_pos n 0
    have hz := (zeroAngle_near_north n hi).1
    have hhalf : zeroAngle n i ≤ π / 2 := by
      have hi' : i < n := by omega
      have hs := zeroAngle_symm n hi'
      rcases Nat.lt_or_ge i (n - 1 - i) with h | h
      · have := zeroAngle_lt n h (by omega)
        linarith
      · have : n - 1 - i = i := by omega
        rw [this] at hs
        linarith
    have hs := sin_le_sin_of_le_of_le_pi_div_two (by linarith) hhalf (hle.trans hz)
    have hm := guessAngle_mul n 0
    have hc := (sin_gt_sub_cube h0).le
    generalize guessAngle n 0 = φ at *
    have hφ : φ ≤ 0.943 := by
      have : 2.5 * φ ≤ NN n * φ := mul_le_mul_of_nonneg_right hN2 h0.le
      rw [hm] at this
      push_cast at this
      linarith
    have h2 : φ ^ 2 ≤ 0.89 := by nlinarith
    have h3 : φ * (1 - 0.89 / 6) ≤ sin φ := by nlinarith
    have h4 := mul_le_mul_of_nonneg_left (h3.trans hs) hN.le
    rw [← mul_assoc, hm] at h4
    push_cast at h4
    linarith
  by_cases h : 2 * i + 1 ≤ n
  · exact north i h
  · have := north (n - 1 - i) (by omega)
    rwa [zeroAngle_symm n hi, sin_pi_sub] at this

theorem atZero {n i : Nat} (hn : 2 ≤ n) (hi : i < n) : AtZero n (zero n i) (sin (zeroAngle n i)) := by
  have h := (zeroAngle_spec n hi).1
  refine ⟨sin_pos_of_pos_of_lt_pi h.1 h.2, ?_, zero_is_zero n hi, sin_zeroAngle hn hi⟩
  unfold zero
  have := sin_sq_add_cos_sq (zeroAngle n i)
  linarith

/-- The first guess is near. -/
theorem guess_close {n i : Nat} (hn : 2 ≤ n) (hi : i < n) : NN n * |guess n i - zero n i| ≤ 0.186 * sin (zeroAngle n i) := by
  obtain ⟨h, hN, hz⟩ := guess_near n hn hi
  have H := atZero hn hi
  have hNp := NN_pos n
  obtain ⟨hq, -⟩ := hN.width hz
  obtain ⟨s0, s1, s2, -⟩ := hN.nums
  have hh := hN.hh
  rw [← H.s2] at hq
  have hs0 := H.s0
  generalize sin (zeroAngle n i) = s at *
  have h1 : √(1 - guess n i ^ 2) ≤ 1.1252 * s := by
    apply le_of_sq_le_sq _ (by positivity)
    rw [s2, mul_pow]
    have : 0 < s ^ 2 := by positivity
    linarith
  rw [abs_sub_comm]
  have h2 := mul_le_mul_of_nonneg_left hz hNp.le
  linarith

end Grib.Spec
