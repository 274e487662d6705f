import Verif.Lemmas.LegendreRounding
import Verif.Model.GaussianDouble
import Mathlib.Analysis.Real.Pi.Bounds

/-! # The root searches of Gaussian latitudes in double precision -/

set_option exponentiation.threshold 3000

namespace Grib.Spec

open Grib.Model

variable {powi : Fl → Int → Fl} {pf : Nat → Fl} {cos asin : Fl → Fl}

theorem fl_abs_value {a : Fl} {x : ℝ} (h : HasValue a x) : HasValue a.abs |x| := by
  obtain ⟨q, hq, rfl⟩ := h
  rcases Fl.val_some hq with rfl | ⟨rfl, rfl⟩
  · refine ⟨if q < 0 then -q else q, rfl, ?_⟩
    split
    · rename_i h
      rw [abs_of_neg (by exact_mod_cast h)]; push_cast; rfl
    · rename_i h
      rw [abs_of_nonneg (by exact_mod_cast not_lt.mp h)]
  · exact ⟨0, rfl, by simp⟩

theorem small_value {d : Fl} {x : ℝ} (h : HasValue d x) :
    (doubleGauss powi pf cos asin).small d = true ↔ |x| < 2 * uu := by
  obtain ⟨q, hq, e⟩ := fl_abs_value h
  have h1 : (doubleGauss powi pf cos asin).small d = decide (q < 1 / 2 ^ 52) := Fl.lt_val hq rfl
  rw [h1, decide_eq_true_iff, ← e]
  have h2 : 2 * uu = ((1 / 2 ^ 52 : Rat) : ℝ) := by unfold uu; norm_num
  rw [h2]
  exact Rat.cast_lt.symm

/-- A step of the search from a point near the zero. -/
theorem search_step {n : Nat} {z s x : ℝ} {X : Fl} (H : AtZero n z s) (hn : 2 ≤ n) (hn2 : n ≤ 2 ^ 14) (hX : HasValue X x)
    (hx : NN n * |x - z| ≤ 0.2 * s) :
    ∃ d x', HasValue (legendreStep (doubleGauss powi pf cos asin).ops n X) d ∧
      HasValue ((doubleGauss powi pf cos asin).ops.sub X (legendreStep (doubleGauss powi pf cos asin).ops n X)) x' ∧
      NN n * |x' - z| ≤ 0.2 * s ∧ (|d| < 2 * uu → |x' - z| ≤ 36 * n * uu) := by
  obtain ⟨d, hd, he⟩ := step_rounded powi pf H hn hn2 hX hx
  obtain ⟨hx1, hx1', -, -, -, -, hnum⟩ := H.numbers hn hn2 hx
  obtain ⟨-, h1, h2, h3⟩ := H.newton (by omega) hx
  have hN := NN_pos n
  have u0 := uu_pos
  have u1 := uu_le
  have t1 := tt_le
  have hw := H.wide
  have s0 := H.s0
  have hnr : (2 : ℝ) ≤ n := by exact_mod_cast hn
  generalize P n x / P' n x = h at *
  obtain ⟨R, hR⟩ : ∃ R, R = 15 * uu * (n : ℝ) := ⟨_, rfl⟩
  have hR30 : 30 * uu ≤ R := by rw [hR]; nlinarith
  rw [← hR] at he
  have hNR : NN n * R ≤ 2.4e-7 * (s * NN n) := by rw [hR]; linarith
  have hNR2 : NN n * R ≤ 0.01 * s := by
    have hn16 : NN n ≤ 16384.5 := by
      have : (n : ℝ) ≤ 16384 := by
        have : n ≤ 16384 := hn2
        exact_mod_cast this
      unfold NN; linarith
    have := mul_le_mul_of_nonneg_left hn16 s0.le
    linarith
  -- the new point before rounding
  have e1 : |x - d - z| ≤ 0.511 * |x - z| + 1.1 * R := by
    have a := abs_sub_le (x - d - z) (x - h - z) 0
    rw [sub_zero, sub_zero, show x - d - z - (x - h - z) = -(d - h) by ring, abs_neg] at a
    linarith
  have hin : NN n * |x - d - z| ≤ 0.25 * s := by
    have := mul_le_mul_of_nonneg_left e1 hN.le
    linarith
  obtain ⟨-, hy1, -⟩ := H.width hin
  have hy : |x - d| ≤ 1 := abs_le_one_iff_mul_self_le_one.mpr (by nlinarith)
  have big : (1 : ℝ) ≤ 2 ^ 900 := by norm_num
  obtain ⟨x', vx, ex⟩ := hX.sub hd (hy.trans big)
  have e2 : |x' - (x - d)| ≤ 1.01 * uu := by
    have := mul_le_mul_of_nonneg_left hy u0.le
    linarith
  have e3 : |x' - z| ≤ 0.511 * |x - z| + 1.14 * R := by
    have a := abs_sub_le x' (x - d) z
    linarith
  refine ⟨d, x', hd, vx, ?_, ?_⟩
  · have := mul_le_mul_of_nonneg_left e3 hN.le
    linarith
  · intro hs
    have e4 : |h| ≤ |d| + |d - h| := by
      have a := abs_sub_abs_le_abs_sub h d
      rw [abs_sub_comm] at a
      linarith
    have e5 : 0.98 * |h| ≤ 1.17 * R := by linarith
    have e6 : |x' - z| ≤ 2.4 * R := by linarith
    rw [hR] at e6
    linarith

/-- A search that ends finds the zero. -/
theorem search_found {n : Nat} {z s : ℝ} (H : AtZero n z s) (hn : 2 ≤ n) (hn2 : n ≤ 2 ^ 14) :
    ∀ (count : Nat) (X : Fl) (x : ℝ), HasValue X x → NN n * |x - z| ≤ 0.2 * s → ∀ r,
      (findRootLoop (doubleGauss powi pf cos asin).ops.sub (doubleGauss powi pf cos asin).small
        (legendreStep (doubleGauss powi pf cos asin).ops n) count X).1 = some r →
      ∃ ρ, HasValue r ρ ∧ |ρ - z| ≤ 36 * n * uu := by
  intro count
  induction count with
  | zero =>
    intro X x hX hx r hr
    obtain ⟨d, x', hd, hx', -, hs⟩ := search_step (powi := powi) (pf := pf) (cos := cos) (asin := asin) H hn hn2 hX hx
    unfold findRootLoop at hr
    dsimp only at hr
    split at hr
    · rename_i hsm
      cases hr
      exact ⟨x', hx', hs ((small_value hd).mp hsm)⟩
    · cases hr
  | succ count ih =>
    intro X x hX hx r hr
    obtain ⟨d, x', hd, hx', hnear, hs⟩ := search_step (powi := powi) (pf := pf) (cos := cos) (asin := asin) H hn hn2 hX hx
    unfold findRootLoop at hr
    dsimp only at hr
    split at hr
    · rename_i hsm
      cases hr
      exact ⟨x', hx', hs ((small_value hd).mp hsm)⟩
    · exact ih _ x' hx' hnear r hr

/-! ## The first guess -/

theorem rounded_close {u t v w r c e : ℝ} (u0 : 0 < u) (u1 : u ≤ 1e-15) (t1 : t ≤ 1e-40 * u) (hr : |r - v| ≤ u * |v| + t)
    (hv : |v| ≤ c) (hw : |v - w| ≤ e * u) : |r - w| ≤ (e + c + 1e-9) * u := by
  have a := abs_sub_le r v w
  have b := mul_le_mul_of_nonneg_left hv u0.le
  linarith

theorem pi_value : HasValue piDouble ((884279719003555 : ℝ) / 281474976710656) := by
  refine ⟨_, rfl, ?_⟩
  push_cast
  rfl

theorem pi_close : |(884279719003555 : ℝ) / 281474976710656 - Real.pi| ≤ 1.2 * uu := by
  have h1 := Real.pi_gt_d20
  have h2 := Real.pi_lt_d20
  unfold uu
  rw [abs_le]
  constructor
  · have : (884279719003555 : ℝ) / 281474976710656 ≥ 3.14159265358979311599 := by norm_num
    have : (1.2 : ℝ) * (1 / 2 ^ 53) ≥ 1.3e-16 := by norm_num
    linarith
  · have : (884279719003555 : ℝ) / 281474976710656 ≤ 3.1415926535897931160 := by norm_num
    have : (0 : ℝ) ≤ 1.2 * (1 / 2 ^ 53) := by norm_num
    linarith

theorem angle_rounded {n i : Nat} (hn2 : n ≤ 2 ^ 14) (hi : i < n) :
    ∃ α, HasValue ((doubleGauss powi pf cos asin).ops.div ((doubleGauss powi pf cos asin).ops.mul
        ((doubleGauss powi pf cos asin).ops.ofInt (4 * i + 3 : Nat)) (doubleGauss powi pf cos asin).pi)
        ((doubleGauss powi pf cos asin).ops.ofInt (4 * n + 2 : Nat))) α ∧
      |α - guessAngle n i| ≤ 8 * uu := by
  have u0 := uu_pos
  have u1 := uu_le
  have t0 := tt_pos
  have t1 := tt_le
  have hin : (i : ℝ) + 1 ≤ n := by exact_mod_cast hi
  have hnr2 : (n : ℝ) ≤ 16384 := by
    have : n ≤ 16384 := hn2
    exact_mod_cast this
  have hi0 : (0 : ℝ) ≤ i := Nat.cast_nonneg i
  have i1 : HasValue ((doubleGauss powi pf cos asin).ops.ofInt (4 * i + 3 : Nat)) (4 * i + 3) := by
    have := rv_int (k := 4 * i + 3) (by omega)
    push_cast at this
    exact_mod_cast this
  have i2 : HasValue ((doubleGauss powi pf cos asin).ops.ofInt (4 * n + 2 : Nat)) (4 * n + 2) := by
    have := rv_int (k := 4 * n + 2) (by omega)
    push_cast at this
    exact_mod_cast this
  have hpi := pi_close
  have hpi2 := Real.pi_lt_d2
  have hpi3 := Real.pi_gt_d2
  have hg : guessAngle n i = (4 * i + 3) * Real.pi / (4 * n + 2) := by
    unfold guessAngle NN
    rw [div_eq_div_iff (by positivity) (by positivity)]
    ring
  have hpv : (884279719003555 : ℝ) / 281474976710656 ≤ 3.15 := by norm_num
  have hpp : (0 : ℝ) ≤ 884279719003555 / 281474976710656 := by norm_num
  have big : (1e6 : ℝ) ≤ 2 ^ 900 := by norm_num
  obtain ⟨r1, v1, e1⟩ := i1.mul pi_value (by
    rw [abs_of_nonneg (by positivity)]
    have : (4 * (i : ℝ) + 3) * (884279719003555 / 281474976710656) ≤ 65540 * 3.15 :=
      mul_le_mul (by linarith) hpv hpp (by norm_num)
    linarith)
  generalize (884279719003555 : ℝ) / 281474976710656 = p at *
  have hK : 0 < 4 * (i : ℝ) + 3 := by linarith
  have hM : 0 < 4 * (n : ℝ) + 2 := by linarith
  have b1 : |(4 * (i : ℝ) + 3) * p| ≤ 3.15 * (4 * n + 2) := by
    rw [abs_of_nonneg (by positivity)]
    have : (4 * (i : ℝ) + 3) * p ≤ (4 * n + 2) * 3.15 := mul_le_mul (by linarith) hpv hpp hM.le
    linarith
  have d1 : |r1 - (4 * i + 3) * Real.pi| ≤ 4.4 * uu * (4 * n + 2) := by
    have a := abs_sub_le r1 ((4 * i + 3) * p) ((4 * i + 3) * Real.pi)
    have b : |(4 * (i : ℝ) + 3) * p - (4 * i + 3) * Real.pi| ≤ (4 * n + 2) * (1.2 * uu) := by
      rw [← mul_sub, abs_mul, abs_of_pos hK]
      exact mul_le_mul (by linarith) hpi (abs_nonneg _) hM.le
    have c := mul_le_mul_of_nonneg_left b1 u0.le
    have d : uu ≤ uu * (4 * n + 2) := le_mul_of_one_le_right u0.le (by linarith)
    linarith
  have d2 : |r1 / (4 * n + 2) - guessAngle n i| ≤ 4.4 * uu := by
    rw [hg, ← sub_div, abs_div, abs_of_pos hM, div_le_iff₀ hM]
    exact d1
  have ga : |guessAngle n i| ≤ 3.15 := by
    rw [hg, abs_of_nonneg (by positivity), div_le_iff₀ hM]
    have : (4 * (i : ℝ) + 3) * Real.pi ≤ (4 * n + 2) * 3.15 := mul_le_mul (by linarith) hpi2.le Real.pi_pos.le hM.le
    linarith
  have b2 : |r1 / (4 * n + 2)| ≤ 3.2 := by
    have := abs_sub_abs_le_abs_sub (r1 / (4 * n + 2)) (guessAngle n i)
    linarith
  obtain ⟨r2, v2, e2⟩ := v1.div i2 hM.ne' (by linarith)
  refine ⟨r2, v2, ?_⟩
  have := rounded_close u0 u1 t1 e2 b2 d2
  linarith

theorem one_value : HasValue ((doubleGauss powi pf cos asin).ops.lit 1 0) 1 := by
  have e : (doubleGauss powi pf cos asin).ops.lit 1 0 = .fin 1 := by
    change Fmt.double.ofRat _ _ = _
    decide +kernel
  rw [e]
  exact ⟨1, rfl, by norm_num⟩

theorem coeff_rounded {n : Nat} (hn : 1 ≤ n) (hn2 : n ≤ 2 ^ 14) :
    ∃ c, HasValue ((doubleGauss powi pf cos asin).ops.add ((doubleGauss powi pf cos asin).ops.sub
        ((doubleGauss powi pf cos asin).ops.lit 1 0) ((doubleGauss powi pf cos asin).ops.div
          ((doubleGauss powi pf cos asin).ops.lit 1 0) ((doubleGauss powi pf cos asin).ops.ofInt (8 * n * n : Nat))))
        ((doubleGauss powi pf cos asin).ops.div ((doubleGauss powi pf cos asin).ops.lit 1 0)
          ((doubleGauss powi pf cos asin).ops.ofInt (8 * n * n * n : Nat)))) c ∧
      |c - shrink n| ≤ 3 * uu := by
  have u0 := uu_pos
  have u1 := uu_le
  have t1 := tt_le
  have hnr : (1 : ℝ) ≤ n := by exact_mod_cast hn
  have hb2 : n * n ≤ 2 ^ 28 := by
    have := Nat.mul_le_mul hn2 hn2
    norm_num at this ⊢
    exact this
  have hb3 : n * n * n ≤ 2 ^ 42 := by
    have := Nat.mul_le_mul hb2 hn2
    norm_num at this ⊢
    exact this
  have i2 : HasValue ((doubleGauss powi pf cos asin).ops.ofInt (8 * n * n : Nat)) (8 * n ^ 2) := by
    have := rv_int (k := 8 * n * n) (by rw [Nat.mul_assoc]; omega)
    have e : ((8 * n * n : Nat) : ℝ) = 8 * n ^ 2 := by push_cast; ring
    rw [← e]
    exact this
  have i3 : HasValue ((doubleGauss powi pf cos asin).ops.ofInt (8 * n * n * n : Nat)) (8 * n ^ 3) := by
    have := rv_int (k := 8 * n * n * n) (by rw [Nat.mul_assoc 8, Nat.mul_assoc 8]; omega)
    have e : ((8 * n * n * n : Nat) : ℝ) = 8 * n ^ 3 := by push_cast; ring
    rw [← e]
    exact this
  have h2 : (1 : ℝ) ≤ n ^ 2 := one_le_pow₀ hnr
  have h3 : (1 : ℝ) ≤ n ^ 3 := one_le_pow₀ hnr
  have big : (10 : ℝ) ≤ 2 ^ 900 := by norm_num
  have q2 : |1 / (8 * (n : ℝ) ^ 2)| ≤ 1 / 8 := by
    rw [abs_of_pos (by positivity), div_le_div_iff₀ (by positivity) (by norm_num)]; linarith
  have q3 : |1 / (8 * (n : ℝ) ^ 3)| ≤ 1 / 8 := by
    rw [abs_of_pos (by positivity), div_le_div_iff₀ (by positivity) (by norm_num)]; linarith
  obtain ⟨c1, v1, e1⟩ := (one_value (powi := powi) (pf := pf) (cos := cos) (asin := asin)).div i2 (by positivity) (by linarith)
  have d1 := rounded_close (w := 1 / (8 * (n : ℝ) ^ 2)) (e := 0) u0 u1 t1 e1 q2 (by simp)
  have m1 := abs_sub_abs_le_abs_sub c1 (1 / (8 * (n : ℝ) ^ 2))
  have m1' : |1 - c1| ≤ 1.2 := by
    have := abs_sub 1 c1
    rw [abs_one] at this
    linarith
  obtain ⟨c2, v2, e2⟩ := (one_value (powi := powi) (pf := pf) (cos := cos) (asin := asin)).sub v1 (by linarith)
  have d2 := rounded_close (w := 1 - 1 / (8 * (n : ℝ) ^ 2)) (e := 0.126) u0 u1 t1 e2 m1' (by
    rw [show 1 - c1 - (1 - 1 / (8 * (n : ℝ) ^ 2)) = -(c1 - 1 / (8 * (n : ℝ) ^ 2)) by ring, abs_neg]
    linarith)
  obtain ⟨c3, v3, e3⟩ := (one_value (powi := powi) (pf := pf) (cos := cos) (asin := asin)).div i3 (by positivity) (by linarith)
  have d3 := rounded_close (w := 1 / (8 * (n : ℝ) ^ 3)) (e := 0) u0 u1 t1 e3 q3 (by simp)
  have m3 := abs_sub_abs_le_abs_sub c3 (1 / (8 * (n : ℝ) ^ 3))
  have hsh := shrink_bounds n hn
  have hs : |shrink n| ≤ 1 := by rw [abs_of_pos hsh.1]; exact hsh.2.1
  have d4 : |c2 + c3 - shrink n| ≤ 1.46 * uu := by
    have a := abs_add_le (c2 - (1 - 1 / (8 * (n : ℝ) ^ 2))) (c3 - 1 / (8 * (n : ℝ) ^ 3))
    rw [show c2 - (1 - 1 / (8 * (n : ℝ) ^ 2)) + (c3 - 1 / (8 * (n : ℝ) ^ 3)) = c2 + c3 - shrink n by unfold shrink; ring] at a
    linarith
  have m4 : |c2 + c3| ≤ 1.1 := by
    have := abs_sub_abs_le_abs_sub (c2 + c3) (shrink n)
    linarith
  obtain ⟨c4, v4, e4⟩ := v2.add v3 (by linarith)
  refine ⟨c4, v4, ?_⟩
  have := rounded_close u0 u1 t1 e4 m4 d4
  linarith

/-- The first guess in double precision. -/
theorem guess_rounded {n i : Nat} (hn2 : n ≤ 2 ^ 14) (hi : i < n) (hc : AccurateCos cos) :
    ∃ g, HasValue ((doubleGauss powi pf cos asin).ops.mul ((doubleGauss powi pf cos asin).ops.add
        ((doubleGauss powi pf cos asin).ops.sub
        ((doubleGauss powi pf cos asin).ops.lit 1 0) ((doubleGauss powi pf cos asin).ops.div
          ((doubleGauss powi pf cos asin).ops.lit 1 0) ((doubleGauss powi pf cos asin).ops.ofInt (8 * n * n : Nat))))
        ((doubleGauss powi pf cos asin).ops.div ((doubleGauss powi pf cos asin).ops.lit 1 0)
          ((doubleGauss powi pf cos asin).ops.ofInt (8 * n * n * n : Nat))))
        ((doubleGauss powi pf cos asin).cos ((doubleGauss powi pf cos asin).ops.div ((doubleGauss powi pf cos asin).ops.mul
        ((doubleGauss powi pf cos asin).ops.ofInt (4 * i + 3 : Nat)) (doubleGauss powi pf cos asin).pi)
        ((doubleGauss powi pf cos asin).ops.ofInt (4 * n + 2 : Nat))))) g ∧ |g - guess n i| ≤ 24 * uu := by
  have u0 := uu_pos
  have u1 := uu_le
  have t1 := tt_le
  obtain ⟨α, vα, eα⟩ := angle_rounded (powi := powi) (pf := pf) (cos := cos) (asin := asin) hn2 hi
  obtain ⟨c, vc, ec⟩ := coeff_rounded (powi := powi) (pf := pf) (cos := cos) (asin := asin) (n := n) (by omega) hn2
  have hg0 := guessAngle_pos n i
  have hgpos : 1e-14 ≤ guessAngle n i := by
    unfold guessAngle NN
    rw [le_div_iff₀ (by positivity)]
    have h1 : (n : ℝ) ≤ 16384 := by
      have : n ≤ 16384 := hn2
      exact_mod_cast this
    have h2 := Real.pi_gt_d2
    have h3 : (0 : ℝ) ≤ i := Nat.cast_nonneg i
    nlinarith
  have hgle : guessAngle n i ≤ 3.15 := by
    have hin : (i : ℝ) + 1 ≤ n := by exact_mod_cast hi
    unfold guessAngle NN
    rw [div_le_iff₀ (by positivity)]
    have h2 := Real.pi_lt_d2
    have h3 : (0 : ℝ) ≤ i := Nat.cast_nonneg i
    have : ((i : ℝ) + 3 / 4) * Real.pi ≤ (n + 1 / 2) * 3.15 := mul_le_mul (by linarith) h2.le Real.pi_pos.le (by positivity)
    linarith
  have eα' := abs_le.mp eα
  obtain ⟨y, vy, ey⟩ := hc _ α vα (by linarith) (by linarith)
  have h50 : (1 : ℝ) / 2 ^ 50 = 8 * uu := by unfold uu; norm_num
  rw [h50] at ey
  have hlip : |Real.cos α - Real.cos (guessAngle n i)| ≤ 8 * uu := by
    have := Real.abs_cos_sub_cos_le α (guessAngle n i)
    linarith
  have hy : |y - Real.cos (guessAngle n i)| ≤ 16 * uu := by
    have := abs_sub_le y (Real.cos α) (Real.cos (guessAngle n i))
    linarith
  have hc1 := Real.abs_cos_le_one (guessAngle n i)
  have hy1 : |y| ≤ 1.01 := by
    have := abs_sub_abs_le_abs_sub y (Real.cos (guessAngle n i))
    linarith
  have hsh := shrink_bounds n (show 1 ≤ n by omega)
  have hs : |shrink n| ≤ 1 := by rw [abs_of_pos hsh.1]; exact hsh.2.1
  have hd : |c * y - guess n i| ≤ 19.1 * uu := by
    unfold guess
    have e : c * y - shrink n * Real.cos (guessAngle n i) = (c - shrink n) * y + shrink n * (y - Real.cos (guessAngle n i)) := by ring
    rw [e]
    refine (abs_add_le _ _).trans ?_
    rw [abs_mul, abs_mul]
    have a := mul_le_mul ec hy1 (abs_nonneg _) (by linarith)
    have b := mul_le_mul hs hy (abs_nonneg _) zero_le_one
    linarith
  have hcy : |c * y| ≤ 1.1 := by
    have hg1 : |guess n i| ≤ 1 := by
      unfold guess
      rw [abs_mul]
      have := mul_le_mul hs hc1 (abs_nonneg _) zero_le_one
      linarith
    have := abs_sub_abs_le_abs_sub (c * y) (guess n i)
    linarith
  have big : (10 : ℝ) ≤ 2 ^ 900 := by norm_num
  obtain ⟨g, vg, eg⟩ := vc.mul vy (by linarith)
  refine ⟨g, vg, ?_⟩
  have := rounded_close u0 u1 t1 eg hcy hd
  linarith

end Grib.Spec
