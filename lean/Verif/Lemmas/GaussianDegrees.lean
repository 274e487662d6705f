import Verif.Lemmas.GaussianDouble
import Verif.Spec.GaussianLatitudes

/-! # Roots and latitudes in double precision -/

set_option exponentiation.threshold 3000

namespace Grib.Spec

open Grib.Model

variable {powi : Fl → Int → Fl} {pf : Nat → Fl} {cos asin : Fl → Fl}

/-! ## Degree 1 -/

theorem guess_one : guess 1 0 = 0 := by
  unfold guess guessAngle NN
  have : (((0 : ℕ) : ℝ) + 3 / 4) * Real.pi / (((1 : ℕ) : ℝ) + 1 / 2) = Real.pi / 2 := by push_cast; ring
  rw [this, Real.cos_pi_div_two, mul_zero]

theorem zero_one : zero 1 0 = 0 := by
  have := zero_is_zero 1 (show 0 < 1 by omega)
  rwa [P_one] at this

theorem one_bound {u t x q y w v d r : ℝ} (u0 : 0 < u) (u1 : u ≤ 1e-15) (t1 : t ≤ 1e-40 * u)
    (hx : |x| ≤ 25 * u) (hq : |q - x * x| ≤ u * |x * x| + t) (hy : |y - (1 - q)| ≤ u * |1 - q| + t)
    (hw : |w - 1 * y| ≤ u * |1 * y| + t) (hv : |v - w / y| ≤ u * |w / y| + t)
    (hd : |d - x / v| ≤ u * |x / v| + t) (hr : |r - (x - d)| ≤ u * |x - d| + t) :
    |q| ≤ 1e-12 * u ∧ |y - 1| ≤ 1.01 * u ∧ |w - 1| ≤ 2.1 * u ∧ |v - 1| ≤ 4.5 * u ∧ |d - x| ≤ 1e-12 * u ∧ |r| ≤ 1e-11 * u := by
  have hxx : |x * x| ≤ 6.3e-13 * u := by
    rw [abs_mul]
    have h1 := mul_le_mul hx hx (abs_nonneg _) (by linarith)
    have h2 := mul_le_mul_of_nonneg_left u1 u0.le
    linarith
  have lt1 : ∀ {a : ℝ}, |a| ≤ 3 → u * |a| ≤ 3e-15 := fun {a} h => by
    have := mul_le_mul u1 h (abs_nonneg _) (by norm_num)
    linarith
  have q1 : |q| ≤ 1e-12 * u := by
    have a := abs_sub_abs_le_abs_sub q (x * x)
    have b := mul_le_mul u1 hxx (abs_nonneg _) (by norm_num)
    linarith
  have m1 : |1 - q| ≤ 1 + 1e-12 * u := by
    have := abs_sub (1 : ℝ) q
    rw [abs_one] at this
    linarith
  have y1 : |y - 1| ≤ 1.01 * u := by
    have a := abs_sub_le y (1 - q) 1
    have e : |1 - q - 1| = |q| := by rw [show 1 - q - 1 = -q by ring, abs_neg]
    rw [e] at a
    have b := mul_le_mul_of_nonneg_left (m1.trans (show 1 + 1e-12 * u ≤ 1.001 by linarith)) u0.le
    linarith
  have y2 := abs_le.mp y1
  have hyp : 0 < y := by linarith
  rw [one_mul] at hw
  have w1 : |w - 1| ≤ 2.1 * u := by
    have a := abs_sub_le w y 1
    have c : |y| ≤ 1.001 := by rw [abs_of_pos hyp]; linarith
    have b := mul_le_mul_of_nonneg_left c u0.le
    linarith
  have wy : |w / y - 1| ≤ 3.2 * u := by
    rw [show w / y - 1 = (w - y) / y by field_simp, abs_div, abs_of_pos hyp, div_le_iff₀ hyp]
    have a := abs_sub_le w 1 y
    rw [abs_sub_comm 1 y] at a
    have b : (3.2 * u) * 0.99 ≤ 3.2 * u * y := mul_le_mul_of_nonneg_left (by linarith) (by linarith)
    linarith
  have v1 : |v - 1| ≤ 4.5 * u := by
    have a := abs_sub_le v (w / y) 1
    have c : |w / y| ≤ 1.001 := by
      have := abs_sub_abs_le_abs_sub (w / y) 1
      rw [abs_one] at this
      linarith
    have b := mul_le_mul_of_nonneg_left c u0.le
    linarith
  have v2 := abs_le.mp v1
  have hvp : 0 < v := by linarith
  have xv : |x / v - x| ≤ 1.3e-13 * u := by
    rw [show x / v - x = x * (1 - v) / v by field_simp, abs_div, abs_of_pos hvp, div_le_iff₀ hvp, abs_mul, abs_sub_comm]
    have a := mul_le_mul hx v1 (abs_nonneg _) (by linarith)
    have h2 := mul_le_mul_of_nonneg_left u1 u0.le
    have b : (1.3e-13 * u) * 0.99 ≤ 1.3e-13 * u * v := mul_le_mul_of_nonneg_left (by linarith) (by linarith)
    linarith
  have d1 : |d - x| ≤ 1e-12 * u := by
    have a := abs_sub_le d (x / v) x
    have c : |x / v| ≤ 26 * u := by
      have := abs_sub_abs_le_abs_sub (x / v) x
      linarith
    have b := mul_le_mul u1 c (abs_nonneg _) (by norm_num)
    linarith
  refine ⟨q1, y1, w1, v1, d1, ?_⟩
  have a := abs_sub_abs_le_abs_sub r (x - d)
  rw [abs_sub_comm x d] at a hr
  have b := mul_le_mul u1 d1 (abs_nonneg _) (by norm_num)
  linarith

theorem step_one {X : Fl} {x : ℝ} (hX : HasValue X x) (hx : |x| ≤ 25 * uu) :
    ∃ d x', HasValue (legendreStep (doubleGauss powi pf cos asin).ops 1 X) d ∧
      HasValue ((doubleGauss powi pf cos asin).ops.sub X (legendreStep (doubleGauss powi pf cos asin).ops 1 X)) x' ∧
      |d - x| ≤ 1e-12 * uu ∧ |x'| ≤ 1e-11 * uu := by
  have u0 := uu_pos
  have u1 := uu_le
  have t1 := tt_le
  have o1 : HasValue (Fmt.double.ofRat false (((1 : Nat) : Int) : Rat)) (1 : ℝ) := by
    have := rv_int (k := 1) (by norm_num)
    exact_mod_cast this
  have big : (100 : ℝ) ≤ 2 ^ 900 := by norm_num
  -- bounds before the values are known
  have hx1 : |x| ≤ 1 := by linarith
  have hxx : |x * x| ≤ 1 := by rw [abs_mul]; exact mul_le_one₀ hx1 (abs_nonneg _) hx1
  obtain ⟨q, vq, eq⟩ := hX.mul hX (by linarith)
  have hq2 : |q| ≤ 2 := by
    have a := abs_sub_abs_le_abs_sub q (x * x)
    have b := mul_le_mul_of_nonneg_left hxx u0.le
    linarith
  obtain ⟨y, vy, ey⟩ := o1.sub vq (by
    have := abs_sub (1 : ℝ) q
    rw [abs_one] at this
    linarith)
  have rf : ∀ a : ℝ, |a - a| ≤ uu * |a| + tt := fun a => by
    have := tt_pos
    rw [sub_self, abs_zero]
    exact add_nonneg (mul_nonneg u0.le (abs_nonneg _)) this.le
  obtain ⟨-, y1, -⟩ := one_bound u0 u1 t1 hx eq ey (rf (1 * y)) (rf _) (rf _) (rf _)
  have y2 := abs_le.mp y1
  obtain ⟨w, vw, ew⟩ := o1.mul vy (by rw [one_mul, abs_of_pos (by linarith)]; linarith)
  obtain ⟨-, -, w1, -⟩ := one_bound u0 u1 t1 hx eq ey ew (rf _) (rf _) (rf _)
  have w2 := abs_le.mp w1
  have hyp : 0 < y := by linarith
  obtain ⟨v, vv, ev⟩ := vw.div vy hyp.ne' (by
    rw [abs_div, abs_of_pos hyp, div_le_iff₀ hyp, abs_of_pos (by linarith)]
    have := mul_le_mul big (show 0.9 ≤ y by linarith) (by norm_num) (by norm_num)
    linarith)
  obtain ⟨-, -, -, v1, -⟩ := one_bound u0 u1 t1 hx eq ey ew ev (rf _) (rf _)
  have v2 := abs_le.mp v1
  have hvp : 0 < v := by linarith
  obtain ⟨d, vd, ed⟩ := hX.div vv hvp.ne' (by
    rw [abs_div, abs_of_pos hvp, div_le_iff₀ hvp]
    have := mul_le_mul big (show 0.9 ≤ v by linarith) (by norm_num) (by norm_num)
    linarith)
  obtain ⟨-, -, -, -, d1, -⟩ := one_bound u0 u1 t1 hx eq ey ew ev ed (rf _)
  obtain ⟨r, vr, er⟩ := hX.sub vd (by rw [abs_sub_comm]; linarith)
  obtain ⟨-, -, -, -, -, r1⟩ := one_bound u0 u1 t1 hx eq ey ew ev ed er
  exact ⟨d, r, vd, vr, d1, r1⟩

/-- With one row the search ends, at the second evaluation if not before. -/
theorem search_found_one {X : Fl} {x : ℝ} (hX : HasValue X x) (hx : |x| ≤ 25 * uu) :
    ∃ r ρ, (findRoot (doubleGauss powi pf cos asin).ops.sub (doubleGauss powi pf cos asin).small X
        (legendreStep (doubleGauss powi pf cos asin).ops 1)).1 = some r ∧ HasValue r ρ ∧ |ρ| ≤ 1e-11 * uu := by
  have u0 := uu_pos
  obtain ⟨d, x', hd, hx', h1, h2⟩ := step_one (powi := powi) (pf := pf) (cos := cos) (asin := asin) hX hx
  obtain ⟨e, x'', he, hx'', h3, h4⟩ := step_one (powi := powi) (pf := pf) (cos := cos) (asin := asin) hx' (by linarith)
  have hs : (doubleGauss powi pf cos asin).small (legendreStep (doubleGauss powi pf cos asin).ops 1
      ((doubleGauss powi pf cos asin).ops.sub X (legendreStep (doubleGauss powi pf cos asin).ops 1 X))) = true := by
    rw [small_value he]
    have := abs_sub_abs_le_abs_sub e x'
    linarith
  unfold findRoot maxIter findRootLoop
  dsimp only
  split
  · exact ⟨_, x', rfl, hx', h2⟩
  · unfold findRootLoop
    dsimp only
    rw [if_pos hs]
    exact ⟨_, x'', rfl, hx'', h4⟩

/-! ## The arcsine -/

theorem AtZero.arcsin_close {n : Nat} {z s x : ℝ} (H : AtZero n z s) (hx : NN n * |x - z| ≤ 0.25 * s) :
    x ^ 2 < 1 ∧ |Real.arcsin x - Real.arcsin z| ≤ 0.67 * NN n * |x - z| := by
  have hN := NN_pos n
  have s0 := H.s0
  have hin : ∀ ξ ∈ Set.uIcc x z, NN n * |ξ - z| ≤ 0.25 * s := fun ξ hξ => by
    refine le_trans (mul_le_mul_of_nonneg_left ?_ hN.le) hx
    rw [abs_sub_comm ξ z, abs_sub_comm x z]
    have := Set.abs_sub_right_of_mem_uIcc hξ
    exact this
  refine ⟨(H.width hx).2.1, ?_⟩
  have hder : ∀ ξ ∈ Set.uIcc x z, HasDerivWithinAt Real.arcsin (1 / √(1 - ξ ^ 2)) (Set.uIcc x z) ξ := by
    intro ξ hξ
    obtain ⟨-, h1, -⟩ := H.width (hin ξ hξ)
    apply HasDerivAt.hasDerivWithinAt
    apply Real.hasDerivAt_arcsin
    · rintro rfl; norm_num at h1
    · rintro rfl; norm_num at h1
  have hbound : ∀ ξ ∈ Set.uIcc x z, ‖1 / √(1 - ξ ^ 2)‖ ≤ 0.67 * NN n := by
    intro ξ hξ
    obtain ⟨h1, h2, h3⟩ := H.width (hin ξ hξ)
    have hpos : 0 < √(1 - ξ ^ 2) := Real.sqrt_pos.mpr (by linarith)
    have hlow : 0.856 * s ≤ √(1 - ξ ^ 2) := by
      apply Real.le_sqrt_of_sq_le
      rw [mul_pow]
      have := pow_pos s0 2
      linarith
    have hw := H.wide
    rw [Real.norm_eq_abs, abs_of_pos (by positivity), div_le_iff₀ hpos]
    have := mul_le_mul_of_nonneg_left hlow hN.le
    linarith
  have := (convex_uIcc x z).norm_image_sub_le_of_norm_hasDerivWithin_le hder hbound Set.right_mem_uIcc Set.left_mem_uIcc
  rw [Real.norm_eq_abs, Real.norm_eq_abs] at this
  exact this

/-- What a search that ends finds. -/
theorem root_found {n i : Nat} (hn2 : n ≤ 2 ^ 14) (hi : i < n) (g : Fl) (x : ℝ) (hg : HasValue g x)
    (hx : |x - guess n i| ≤ 24 * uu) (r : Fl)
    (hr : (findRoot (doubleGauss powi pf cos asin).ops.sub (doubleGauss powi pf cos asin).small g
        (legendreStep (doubleGauss powi pf cos asin).ops n)).1 = some r) :
    ∃ ρ, HasValue r ρ ∧ |ρ - zero n i| ≤ 36 * n * uu ∧ ρ ^ 2 < 1 ∧
      |Real.arcsin ρ - Real.arcsin (zero n i)| ≤ 32 * n ^ 2 * uu := by
  have u0 := uu_pos
  have u1 := uu_le
  rcases Nat.lt_or_ge n 2 with h | h
  · have : n = 1 := by omega
    subst this
    have : i = 0 := by omega
    subst this
    rw [guess_one, sub_zero] at hx
    obtain ⟨r', ρ, h1, h2, h3⟩ := search_found_one (powi := powi) (pf := pf) (cos := cos) (asin := asin) hg (by linarith)
    rw [h1] at hr
    cases hr
    have h4 := abs_le.mp h3
    refine ⟨ρ, h2, ?_, ?_, ?_⟩
    · rw [zero_one, sub_zero]; push_cast; linarith
    · nlinarith
    · rw [zero_one, Real.arcsin_zero, sub_zero]
      push_cast
      have h5 : |Real.arcsin ρ| ≤ Real.pi / 2 * |ρ| := by
        have := Real.mul_le_sin (x := |Real.arcsin ρ|) (abs_nonneg _) (abs_le.mpr ⟨Real.neg_pi_div_two_le_arcsin _, Real.arcsin_le_pi_div_two _⟩)
        have e : Real.sin |Real.arcsin ρ| = |ρ| := by
          rcases abs_cases (Real.arcsin ρ) with ⟨e, h6⟩ | ⟨e, h6⟩
          · rw [e, Real.sin_arcsin (by linarith) (by linarith), abs_of_nonneg (Real.arcsin_nonneg.mp h6)]
          · rw [e, Real.sin_neg, Real.sin_arcsin (by linarith) (by linarith), abs_of_neg (Real.arcsin_lt_zero.mp h6)]
        rw [e] at this
        have hp := Real.pi_pos
        calc |Real.arcsin ρ| = Real.pi / 2 * (2 / Real.pi * |Real.arcsin ρ|) := by field_simp
          _ ≤ _ := mul_le_mul_of_nonneg_left this (by positivity)
      have h6 := mul_le_mul (show Real.pi / 2 ≤ 2 by linarith [Real.pi_lt_d2]) h3 (abs_nonneg _) (by norm_num)
      linarith
  · have H := atZero h hi
    have hN := NN_pos n
    have hw := H.wide
    have s0 := H.s0
    have hc := guess_close h hi
    generalize Real.sin (zeroAngle n i) = s at *
    generalize zero n i = z at *
    have hnr : (2 : ℝ) ≤ n := by exact_mod_cast h
    have hn16 : (n : ℝ) ≤ 16384 := by
      have : n ≤ 16384 := hn2
      exact_mod_cast this
    have hN16 : NN n ≤ 16384.5 := by unfold NN; linarith
    have hN2 : NN n ^ 2 ≤ 2.7e8 := by
      have := pow_le_pow_left₀ hN.le hN16 2
      linarith
    have hNs : 2 ≤ 16384.5 * s := by
      have := mul_le_mul_of_nonneg_right hN16 s0.le
      linarith
    have hnear : NN n * |x - z| ≤ 0.2 * s := by
      have a := abs_sub_le x (guess n i) z
      have b := mul_le_mul_of_nonneg_left a hN.le
      have c := mul_le_mul_of_nonneg_left hx hN.le
      have d : NN n * (24 * uu) ≤ 16384.5 * (24e-15) := mul_le_mul hN16 (by linarith) (by linarith) (by norm_num)
      linarith
    obtain ⟨ρ, h1, h2⟩ := search_found (powi := powi) (pf := pf) (cos := cos) (asin := asin) H h hn2 _ g x hg hnear r hr
    have h3 : NN n * |ρ - z| ≤ 0.25 * s := by
      have b := mul_le_mul_of_nonneg_left h2 hN.le
      have d : NN n * (36 * n * uu) ≤ 16384.5 * (36 * 16384 * 1e-15) :=
        mul_le_mul hN16 (mul_le_mul (by linarith) u1 u0.le (by norm_num)) (by positivity) (by norm_num)
      linarith
    obtain ⟨h4, h5⟩ := H.arcsin_close h3
    refine ⟨ρ, h1, h2, h4, h5.trans ?_⟩
    have h6 : NN n ≤ 1.25 * n := by unfold NN; linarith
    calc 0.67 * NN n * |ρ - z| ≤ 0.67 * (1.25 * n) * (36 * n * uu) := by
          apply mul_le_mul (by linarith) h2 (abs_nonneg _) (by linarith)
      _ = 30.15 * (n ^ 2 * uu) := by ring
      _ ≤ 32 * n ^ 2 * uu := by nlinarith [mul_nonneg (sq_nonneg (n : ℝ)) u0.le]

/-! ## Degrees -/

/-- The latitude of a root in double precision. -/
theorem degrees_rounded (ha : AccurateAsin asin) {r : Fl} {ρ z e : ℝ} (hr : HasValue r ρ) (h1 : ρ ^ 2 < 1)
    (he : |Real.arcsin ρ - Real.arcsin z| ≤ e * uu) (he1 : e ≤ 1e10) :
    ∃ l, HasValue ((doubleGauss powi pf cos asin).toDegrees ((doubleGauss powi pf cos asin).asin r)) l ∧
      |l - latitudeOf z| ≤ (60 * e + 1024) * uu := by
  have u0 := uu_pos
  have u1 := uu_le
  have t1 := tt_le
  have big : (100 : ℝ) ≤ 2 ^ 900 := by norm_num
  have hpi2 := Real.pi_lt_d6
  have hpi3 := Real.pi_gt_d6
  have hpc := pi_close
  have hρ := abs_lt.mp ((sq_lt_one_iff_abs_lt_one ρ).mp h1)
  obtain ⟨a, va, ea⟩ := ha r ρ hr hρ.1.le hρ.2.le
  have h50 : (1 : ℝ) / 2 ^ 50 = 8 * uu := by unfold uu; norm_num
  rw [h50] at ea
  have da : |a - Real.arcsin z| ≤ (8 + e) * uu := by
    have := abs_sub_le a (Real.arcsin ρ) (Real.arcsin z)
    linarith
  have v180 : HasValue (.fin 180) (180 : ℝ) := ⟨180, rfl, by norm_num⟩
  obtain ⟨f, vf, ef⟩ := v180.div pi_value (by norm_num) (by rw [abs_of_pos (by norm_num)]; norm_num)
  have hp0 : (3.14 : ℝ) ≤ 884279719003555 / 281474976710656 := by norm_num
  generalize (884279719003555 : ℝ) / 281474976710656 = p at *
  have hpi0 := Real.pi_pos
  have hp1 : 0 < p := by linarith
  have c1 : |180 / p - 180 / Real.pi| ≤ 22 * uu := by
    rw [div_sub_div _ _ hp1.ne' hpi0.ne', abs_div, abs_of_pos (mul_pos hp1 hpi0), div_le_iff₀ (mul_pos hp1 hpi0),
      show 180 * Real.pi - p * 180 = -(180 * (p - Real.pi)) by ring, abs_neg, abs_mul, abs_of_pos (by norm_num : (0 : ℝ) < 180)]
    have h3 : (3.14 : ℝ) * 3.14 ≤ p * Real.pi := mul_le_mul hp0 (by linarith) (by norm_num) hp1.le
    have h4 := mul_le_mul_of_nonneg_left h3 (show 0 ≤ 22 * uu by linarith)
    linarith
  have q1 : 180 / Real.pi ≤ 57.3 := by rw [div_le_iff₀ hpi0]; linarith
  have q0 : 0 < 180 / Real.pi := by positivity
  have c2 : |180 / p| ≤ 57.31 := by
    have := abs_sub_abs_le_abs_sub (180 / p) (180 / Real.pi)
    rw [abs_of_pos q0] at this
    linarith
  have c3 : |f - 180 / Real.pi| ≤ 80 * uu := by
    have := rounded_close u0 u1 t1 ef c2 c1
    linarith
  have c4 : |f| ≤ 57.32 := by
    have := abs_sub_abs_le_abs_sub f (180 / Real.pi)
    rw [abs_of_pos q0] at this
    linarith
  have hA : |Real.arcsin z| ≤ 1.571 := by
    rw [abs_le]
    have h3 := Real.neg_pi_div_two_le_arcsin z
    have h4 := Real.arcsin_le_pi_div_two z
    constructor <;> linarith
  have c5 : |a * f - latitudeOf z| ≤ (57.32 * (8 + e) + 126) * uu := by
    unfold latitudeOf
    rw [show a * f - Real.arcsin z * (180 / Real.pi) = (a - Real.arcsin z) * f + Real.arcsin z * (f - 180 / Real.pi) by ring]
    refine (abs_add_le _ _).trans ?_
    rw [abs_mul, abs_mul]
    have h3 := mul_le_mul da c4 (abs_nonneg _) ((abs_nonneg _).trans da)
    have h4 := mul_le_mul hA c3 (abs_nonneg _) (by norm_num)
    linarith
  have heu : 0 ≤ e * uu := (abs_nonneg _).trans he
  have he1u : e * uu ≤ 1e-4 := by
    have := mul_le_mul he1 u1 u0.le (by norm_num)
    linarith
  have c6 : |a * f| ≤ 91 := by
    have h3 := abs_sub_abs_le_abs_sub (a * f) (latitudeOf z)
    have h4 : |latitudeOf z| ≤ 1.571 * 57.3 := by
      unfold latitudeOf
      rw [abs_mul, abs_of_pos q0]
      exact mul_le_mul hA q1 q0.le (by norm_num)
    linarith
  obtain ⟨l, vl, el⟩ := va.mul vf (by linarith)
  refine ⟨l, vl, ?_⟩
  have := rounded_close u0 u1 t1 el c6 c5
  linarith

/-! ## Distances of the latitudes -/

theorem latitudeOf_zero {n i : Nat} (hi : i < n) : latitudeOf (zero n i) = (Real.pi / 2 - zeroAngle n i) * (180 / Real.pi) := by
  unfold latitudeOf zero
  have h := (zeroAngle_spec n hi).1
  rw [← Real.sin_pi_div_two_sub, Real.arcsin_sin (by linarith [h.2]) (by linarith [h.1])]

theorem latitude_gap {n i : Nat} (hi : i + 1 < n) : 167 ≤ NN n * (latitudeOf (zero n i) - latitudeOf (zero n (i + 1))) := by
  have hN := NN_pos n
  have h1 := zeroAngle_near n (show i < n by omega)
  have h2 := zeroAngle_near n hi
  have hpi := Real.pi_pos
  have hg : NN n * (guessAngle n (i + 1) - guessAngle n i) = Real.pi := by
    unfold guessAngle
    push_cast
    field_simp
    ring
  rw [latitudeOf_zero hi, latitudeOf_zero (by omega)]
  have h3 : Real.pi - 0.2124 ≤ NN n * (zeroAngle n (i + 1) - zeroAngle n i) := by
    have a := mul_le_mul_of_nonneg_left (neg_abs_le (zeroAngle n (i + 1) - guessAngle n (i + 1))) hN.le
    have b := mul_le_mul_of_nonneg_left (le_abs_self (zeroAngle n i - guessAngle n i)) hN.le
    linarith
  have h4 := mul_le_mul_of_nonneg_right h3 (show 0 ≤ 180 / Real.pi by positivity)
  have h5 : (Real.pi - 0.2124) * (180 / Real.pi) = 180 - 0.2124 * (180 / Real.pi) := by field_simp
  have h6 : 180 / Real.pi ≤ 57.4 := by rw [div_le_iff₀ hpi]; linarith [Real.pi_gt_d4]
  linarith

end Grib.Spec
