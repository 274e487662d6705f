import Verif.Lemmas.IeeeOps
import Verif.Lemmas.Decoder

/-! # Rounding errors of `(R + X·2^E)·10^-D` -/

namespace Grib.Model

open Grib.Spec

/-- Errors under multiplication. -/
theorem mul_close {a a' b b' A c d e : Rat} (ha : |a - a'| ≤ c * A + e) (hA : |a'| ≤ A) (hb : |b - b'| ≤ d * b')
    (hb' : 0 ≤ b') : |a * b - a' * b'| ≤ (c * (1 + d) + d) * (A * b') + e * (1 + d) * b' := by
  have h1 : |b| ≤ (1 + d) * b' := by
    have := abs_sub_abs_le_abs_sub b b'
    rw [abs_of_nonneg hb'] at this
    linarith
  have e1 : a * b - a' * b' = (a - a') * b + a' * (b - b') := by ring
  have h2 : |(a - a') * b| ≤ (c * A + e) * ((1 + d) * b') := by
    rw [abs_mul]
    exact mul_le_mul ha h1 (abs_nonneg _) (le_trans (abs_nonneg _) ha)
  have h3 : |a' * (b - b')| ≤ A * (d * b') := by
    rw [abs_mul]
    exact mul_le_mul hA hb (abs_nonneg _) (le_trans (abs_nonneg _) hA)
  rw [e1]
  refine le_trans (abs_add_le _ _) ?_
  nlinarith

/-- Errors under rounding. -/
theorem Fmt.round_close (f : Fmt) {x y A c e : Rat} (h : |x - y| ≤ c * A + e) (hA : |y| ≤ A) :
    |f.round x - y| ≤ (c + pow2 (-f.prec) * (1 + c)) * A + ((1 + pow2 (-f.prec)) * e + pow2 (f.emin - 1)) := by
  have h1 := f.round_err x
  have h2 : |x| ≤ A + (c * A + e) := by
    have := abs_sub_abs_le_abs_sub x y
    linarith
  have h3 := mul_le_mul_of_nonneg_left h2 (pow2_pos (-f.prec)).le
  have e1 : f.round x - y = (f.round x - x) + (x - y) := by ring
  rw [e1]
  refine le_trans (abs_add_le _ _) ?_
  nlinarith

theorem spec_zpow_pos {x : Rat} (hx : 0 < x) (n : Int) : 0 < zpow x n := by
  unfold zpow
  split
  · exact pow_pos hx _
  · exact div_pos one_pos (pow_pos hx _)

theorem single_ofInt_val {n : Int} (h : |n| ≤ 2 ^ 32) (s : Bool) :
    (Fmt.single.ofRat s n).val = some (Fmt.single.round n) :=
  Fmt.single.ofInt_val (by decide) s (k := 32) h (by decide) (by decide)

theorem ofInt_two (powi : Fl → Int → Fl) (pf : Nat → Fl) : (FloatOps.ieee .single powi pf).ofInt 2 = .fin 2 := by
  show Fmt.single.ofRat false ((2 : Int) : Rat) = .fin 2
  decide +kernel

theorem ofInt_ten (powi : Fl → Int → Fl) (pf : Nat → Fl) : (FloatOps.ieee .single powi pf).ofInt 10 = .fin 10 := by
  show Fmt.single.ofRat false ((10 : Int) : Rat) = .fin 10
  decide +kernel

/-- The operations of unpacking, with the powers named. -/
theorem unpack_ieee (powi : Fl → Int → Fl) (pf : Nat → Fl) (p : SimpleParam Fl) (x : Int) :
    p.unpack (FloatOps.ieee .single powi pf) ((FloatOps.ieee .single powi pf).ofInt x) =
      Fmt.single.mul (Fmt.single.add p.refVal (Fmt.single.mul (Fmt.single.ofRat false x) (powi (.fin 2) p.exp)))
        (powi (.fin 10) (-p.dig)) := by
  unfold SimpleParam.unpack
  rw [ofInt_two, ofInt_ten]
  rfl

/-- Larger stored integers do not give smaller values. -/
theorem unpack_mono {R P2 P10 : Fl} {r p2 p10 : Rat} (hr : R.val = some r) (h2 : P2.val = some p2) (h2' : 0 ≤ p2)
    (h10 : P10.val = some p10) (h10' : 0 < p10) {x y : Int} (hx : |x| ≤ 2 ^ 32) (hy : |y| ≤ 2 ^ 32) (h : x ≤ y) :
    NotAbove
      (Fmt.single.mul (Fmt.single.add R (Fmt.single.mul (Fmt.single.ofRat false x) P2)) P10)
      (Fmt.single.mul (Fmt.single.add R (Fmt.single.mul (Fmt.single.ofRat false y) P2)) P10) := by
  apply Fmt.mul_mono _ (by decide) h10 h10'
  apply Fmt.add_mono _ (by decide) hr
  obtain ⟨s, e1⟩ := Fmt.single.mul_val (single_ofInt_val hx false) h2
  obtain ⟨t, e2⟩ := Fmt.single.mul_val (single_ofInt_val hy false) h2
  rw [e1, e2]
  apply Fmt.ofRat_mono _ (by decide)
  apply mul_le_mul_of_nonneg_right _ h2'
  exact Fmt.single.round_mono (by decide) (by exact_mod_cast h)

/-- The error bound. -/
theorem unpack_close {R P2 P10 : Fl} {r q t : Rat} (hr : R.val = some r) (hq : 0 < q) (ht : 0 < t)
    (h2 : RelClose P2 q (1 / 2 ^ 22)) (h10 : RelClose P10 t (1 / 2 ^ 22)) {x : Int} (hx : |x| ≤ 2 ^ 32)
    (hs : |r| + |(x : Rat)| * q ≤ 2 ^ 126) (hst : (|r| + |(x : Rat)| * q) * t ≤ 2 ^ 126) (ht' : t ≤ 2 ^ 126) :
    ∃ y, (Fmt.single.mul (Fmt.single.add R (Fmt.single.mul (Fmt.single.ofRat false x) P2)) P10).val = some y ∧
      |y - (r + x * q) * t| ≤ 1 / 2 ^ 20 * ((|r| + |(x : Rat)| * q) * t) + 1 / 2 ^ 148 * (t + 1) := by
  obtain ⟨p2, hp2, c2⟩ := h2
  obtain ⟨p10, hp10, c10⟩ := h10
  rw [abs_of_pos hq] at c2
  rw [abs_of_pos ht] at c10
  have hu : pow2 (-(Fmt.single.prec : Int)) = 1 / 2 ^ 24 := by decide +kernel
  have he : pow2 (Fmt.single.emin - 1) = 1 / 2 ^ 150 := by decide +kernel
  have htop : pow2 Fmt.single.top = 2 ^ 128 := by decide +kernel
  have hr0 : 0 ≤ |r| := abs_nonneg r
  have hB0 : 0 ≤ |(x : Rat)| * q := mul_nonneg (abs_nonneg _) hq.le
  have hBabs : |(x : Rat) * q| = |(x : Rat)| * q := by rw [abs_mul, abs_of_pos hq]
  have hSabs : |r + (x : Rat) * q| ≤ |r| + |(x : Rat)| * q := by
    refine le_trans (abs_add_le _ _) ?_
    rw [hBabs]
  -- conversion of the integer
  have h1 : |Fmt.single.round x - x| ≤ (1 / 2 ^ 24) * |(x : Rat)| + 0 := by
    have := Fmt.single.round_int (by decide) x
    rw [hu] at this
    linarith
  -- times the power of two
  have m1 := mul_close h1 (le_refl _) c2 hq.le
  generalize hB : |(x : Rat)| * q = B at *
  have m1' : |Fmt.single.round x * p2 - x * q| ≤ (6 / 2 ^ 24) * B + 0 := by
    refine le_trans m1 ?_
    have : (1 / 2 ^ 24 * (1 + 1 / 2 ^ 22) + 1 / 2 ^ 22 : Rat) ≤ 6 / 2 ^ 24 := by norm_num
    have := mul_le_mul_of_nonneg_right this hB0
    linarith
  have r1 := Fmt.single.round_close m1' (le_of_eq hBabs)
  rw [hu, he] at r1
  have r1' : |Fmt.single.round (Fmt.single.round x * p2) - x * q| ≤ (8 / 2 ^ 24) * B + 1 / 2 ^ 150 := by
    refine le_trans r1 ?_
    have : (6 / 2 ^ 24 + 1 / 2 ^ 24 * (1 + 6 / 2 ^ 24) : Rat) ≤ 8 / 2 ^ 24 := by norm_num
    have := mul_le_mul_of_nonneg_right this hB0
    linarith
  -- plus the reference value
  have a1 : |r + Fmt.single.round (Fmt.single.round x * p2) - (r + x * q)| ≤ (8 / 2 ^ 24) * (|r| + B) + 1 / 2 ^ 150 := by
    have e1 : r + Fmt.single.round (Fmt.single.round x * p2) - (r + x * q) =
        Fmt.single.round (Fmt.single.round x * p2) - x * q := by ring
    rw [e1]
    linarith
  have r2 := Fmt.single.round_close a1 hSabs
  rw [hu, he] at r2
  have hS0 : 0 ≤ |r| + B := by linarith
  generalize hS : |r| + B = S at *
  have r2' : |Fmt.single.round (r + Fmt.single.round (Fmt.single.round x * p2)) - (r + x * q)| ≤
      (10 / 2 ^ 24) * S + 3 / 2 ^ 150 := by
    refine le_trans r2 ?_
    have : (8 / 2 ^ 24 + 1 / 2 ^ 24 * (1 + 8 / 2 ^ 24) : Rat) ≤ 10 / 2 ^ 24 := by norm_num
    have := mul_le_mul_of_nonneg_right this hS0
    norm_num at this ⊢
    linarith
  -- times the power of ten
  have m3 := mul_close r2' hSabs c10 ht.le
  have hT0 : 0 ≤ S * t := mul_nonneg hS0 ht.le
  generalize hT : S * t = T at *
  have m3' : |Fmt.single.round (r + Fmt.single.round (Fmt.single.round x * p2)) * p10 - (r + x * q) * t| ≤
      (15 / 2 ^ 24 - 1 / 2 ^ 40) * T + 3 / 2 ^ 150 * (1 + 1 / 2 ^ 22) * t := by
    refine le_trans m3 ?_
    have : (10 / 2 ^ 24 * (1 + 1 / 2 ^ 22) + 1 / 2 ^ 22 : Rat) ≤ 15 / 2 ^ 24 - 1 / 2 ^ 40 := by norm_num
    have := mul_le_mul_of_nonneg_right this hT0
    linarith
  have hTabs : |(r + (x : Rat) * q) * t| ≤ T := by
    rw [abs_mul, abs_of_pos ht, ← hT]
    exact mul_le_mul_of_nonneg_right hSabs ht.le
  have r3 := Fmt.single.round_close m3' hTabs
  rw [hu, he] at r3
  have final : |Fmt.single.round (Fmt.single.round (r + Fmt.single.round (Fmt.single.round x * p2)) * p10) - (r + x * q) * t| ≤
      1 / 2 ^ 20 * T + 1 / 2 ^ 148 * (t + 1) := by
    refine le_trans r3 ?_
    have : (15 / 2 ^ 24 - 1 / 2 ^ 40 + 1 / 2 ^ 24 * (1 + (15 / 2 ^ 24 - 1 / 2 ^ 40)) : Rat) ≤ 1 / 2 ^ 20 := by norm_num
    have := mul_le_mul_of_nonneg_right this hT0
    norm_num at this ⊢
    linarith
  -- nothing overflows
  obtain ⟨s1, e1⟩ := Fmt.single.mul_val (single_ofInt_val hx false) hp2
  have v1 : (Fmt.single.ofRat s1 (Fmt.single.round x * p2)).val = some (Fmt.single.round (Fmt.single.round x * p2)) := by
    apply Fmt.ofRat_fin
    rw [htop]
    have := abs_sub_abs_le_abs_sub (Fmt.single.round (Fmt.single.round x * p2)) (x * q)
    linarith
  obtain ⟨s2, e2⟩ := Fmt.single.add_val hr v1
  have v2 : (Fmt.single.ofRat s2 (r + Fmt.single.round (Fmt.single.round x * p2))).val =
      some (Fmt.single.round (r + Fmt.single.round (Fmt.single.round x * p2))) := by
    apply Fmt.ofRat_fin
    rw [htop]
    have := abs_sub_abs_le_abs_sub (Fmt.single.round (r + Fmt.single.round (Fmt.single.round x * p2))) (r + x * q)
    linarith
  obtain ⟨s3, e3⟩ := Fmt.single.mul_val v2 hp10
  refine ⟨_, ?_, final⟩
  rw [e1, e2, e3]
  apply Fmt.ofRat_fin
  rw [htop]
  have := abs_sub_abs_le_abs_sub
    (Fmt.single.round (Fmt.single.round (r + Fmt.single.round (Fmt.single.round x * p2)) * p10)) ((r + x * q) * t)
  linarith

end Grib.Model
