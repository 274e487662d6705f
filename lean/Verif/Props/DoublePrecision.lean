import Verif.Props.SingleEdges
import Verif.Props.Projected
import Verif.Props.Headers

/-! # C71: what is computed in double precision

Values of fixed surfaces, the projection parameters, the coordinates given to the inverse projection and the radii of the
earth, as IEEE-754 double precision computes them. -/

set_option exponentiation.threshold 3000

namespace Grib.Props

open Grib.Model Grib.Spec

/-- The program's `f64` arithmetic, with these implementations of `powi` and `powf(10., n)`. -/
abbrev double (powi : Fl → Int → Fl) (pf : Nat → Fl) : FloatOps Fl := FloatOps.ieee .double powi pf

theorem double_u : pow2 (-(Fmt.double.prec : Int)) = 1 / 2 ^ 53 := by decide +kernel
theorem double_top : pow2 Fmt.double.top = 2 ^ 1024 := by decide +kernel
theorem double_normal : pow2 (Fmt.double.emin + Fmt.double.prec - 1) ≤ 1 / 2 ^ 1000 := by decide +kernel

/-- One rounding of something that is zero or not tiny. -/
theorem double_round {x y d : Rat} (h : |x - y| ≤ d * |y|) (hx : x = 0 ∨ 1 / 2 ^ 1000 ≤ |x|) :
    |Fmt.double.round x - y| ≤ (d + 1 / 2 ^ 53 * (1 + d)) * |y| := by
  have h1 : |Fmt.double.round x - x| ≤ 1 / 2 ^ 53 * |x| := by
    rcases hx with rfl | hx
    · simp [Fmt.double.round_zero]
    · have := Fmt.double.round_rel (le_trans double_normal hx)
      rwa [double_u] at this
  have h2 : |x| ≤ (1 + d) * |y| := by
    have := abs_sub_abs_le_abs_sub x y
    linarith
  have h3 := mul_le_mul_of_nonneg_left h2 (show (0 : Rat) ≤ 1 / 2 ^ 53 by positivity)
  have h4 : |Fmt.double.round x - y| ≤ |Fmt.double.round x - x| + |x - y| := by
    have := abs_add_le (Fmt.double.round x - x) (x - y)
    rwa [sub_add_sub_cancel] at this
  linarith

theorem double_fin {x : Rat} (s : Bool) (h : |Fmt.double.round x| ≤ 2 ^ 1000) :
    (Fmt.double.ofRat s x).val = some (Fmt.double.round x) := by
  apply Fmt.double.ofRat_fin
  rw [double_top]
  exact lt_of_le_of_lt h (pow_lt_pow_right₀ (by norm_num) (by norm_num))

/-- 32-bit integers are exact. -/
theorem double_int (n : Int) (hn : |n| ≤ 2 ^ 32) : Fmt.double.ofRat false ((n : Int) : Rat) = .fin n := by
  have h1 := Fmt.double.round_exact (by decide) (m := n) (k := 0) (le_trans hn (by decide)) (by decide)
  rw [pow2_zero, mul_one] at h1
  have hT : (2 : Rat) ^ 32 < pow2 Fmt.double.top := by rw [double_top]; exact pow_lt_pow_right₀ (by norm_num) (by norm_num)
  have hb : |(n : Rat)| ≤ 2 ^ 32 := by exact_mod_cast hn
  rw [abs_le] at hb
  unfold Fmt.ofRat
  simp only [h1]
  rw [if_neg (by linarith), if_neg (by linarith)]
  by_cases h0 : (n : Rat) = 0
  · rw [if_pos h0, h0]; rfl
  · rw [if_neg h0]

/-! ## Fixed surfaces -/

theorem zpow_ten_bounds : ∀ f : Int, -127 ≤ f → f ≤ 127 → 1 / 2 ^ 900 ≤ zpow 10 (-f) ∧ zpow 10 (-f) ≤ 2 ^ 900 := by
  intro f h1 h2
  have key : ∀ k : Fin 255, 1 / 2 ^ 900 ≤ zpow 10 (-((k.val : Int) - 127)) ∧ zpow 10 (-((k.val : Int) - 127)) ≤ 2 ^ 900 := by
    decide +kernel
  have := key ⟨(f + 127).toNat, by omega⟩
  have e' : (((f + 127).toNat : Nat) : Int) - 127 = f := by omega
  simpa only [e'] using this

/-- C71. The value of a fixed surface that is not missing is a finite number within `2^-50` (relative) of
`scaled value · 10^-(scale factor)`, for all scale factors and scaled values that can be read, when the power is computed with
a relative error of at most `5·2^-53`.  It has the sign of the scaled value, and is zero only if that is. -/
theorem C71_surface_value (powi : Fl → Int → Fl) (pf : Nat → Fl) (s : FixedSurface) (hm : s.scaledValue ≠ -2147483647)
    (hf1 : -127 ≤ s.scaleFactor) (hf2 : s.scaleFactor ≤ 127) (hv : |s.scaledValue| < 2 ^ 31)
    (h10 : RelClose (powi (.fin 10) (-s.scaleFactor)) (zpow 10 (-s.scaleFactor)) (5 / 2 ^ 53)) :
    ∃ y, (s.value (double powi pf)).val = some y ∧
      |y - s.scaledValue * zpow 10 (-s.scaleFactor)| ≤ 1 / 2 ^ 50 * |s.scaledValue * zpow 10 (-s.scaleFactor)| ∧
      (s.value (double powi pf)).isNeg = decide (s.scaledValue < 0) ∧ (y = 0 ↔ s.scaledValue = 0) := by
  obtain ⟨b1, b2⟩ := zpow_ten_bounds _ hf1 hf2
  have hpos : 0 < zpow 10 (-s.scaleFactor) := spec_zpow_pos (by norm_num) _
  have hval : s.value (double powi pf) = Fmt.double.mul (.fin s.scaledValue) (powi (.fin 10) (-s.scaleFactor)) := by
    unfold FixedSurface.value
    rw [if_neg (by simp [FixedSurface.valueIsNan]; exact hm)]
    show Fmt.double.mul (Fmt.double.ofRat false (s.scaledValue : Rat))
      (powi (Fmt.double.ofRat false ((10 : Int) : Rat)) (-s.scaleFactor)) = _
    rw [double_int _ (by omega), double_int 10 (by decide)]
    rfl
  obtain ⟨q, hq, hc⟩ := h10
  rw [abs_of_pos hpos] at hc
  obtain ⟨z, e⟩ := Fmt.double.mul_val (show (Fl.fin (s.scaledValue : Rat)).val = some (s.scaledValue : Rat) from rfl) hq
  rw [hval]
  generalize zpow 10 (-s.scaleFactor) = p at *
  generalize s.scaledValue = n at *
  have hq1 : (1 - 5 / 2 ^ 53) * p ≤ q ∧ q ≤ (1 + 5 / 2 ^ 53) * p := by
    rw [abs_le] at hc
    constructor <;> linarith [hc.1, hc.2]
  have hq0 : 0 < q := lt_of_lt_of_le (mul_pos (by norm_num) hpos) hq1.1
  have h1 : |(n : Rat) * q - n * p| ≤ 5 / 2 ^ 53 * |n * p| := by
    rw [← mul_sub, abs_mul, abs_mul, abs_of_pos hpos]
    have := mul_le_mul_of_nonneg_left hc (abs_nonneg (n : Rat))
    linarith
  have hx : (n : Rat) * q = 0 ∨ 1 / 2 ^ 1000 ≤ |(n : Rat) * q| := by
    by_cases h0 : n = 0
    · left; rw [h0]; simp
    · right
      have : (1 : Rat) ≤ |(n : Rat)| := by exact_mod_cast Int.one_le_abs h0
      rw [abs_mul, abs_of_pos hq0]
      have h2 : (1 : Rat) / 2 ^ 1000 ≤ (1 - 5 / 2 ^ 53) * (1 / 2 ^ 900) := by norm_num
      have h3 := mul_le_mul_of_nonneg_left b1 (show (0 : Rat) ≤ 1 - 5 / 2 ^ 53 by norm_num)
      have h4 := mul_le_mul_of_nonneg_right this hq0.le
      linarith [hq1.1]
  have h2 := double_round h1 hx
  have h3 : |Fmt.double.round ((n : Rat) * q) - n * p| ≤ 1 / 2 ^ 50 * |(n : Rat) * p| :=
    le_trans h2 (mul_le_mul_of_nonneg_right (by norm_num) (abs_nonneg _))
  have hN : |(n : Rat)| ≤ 2 ^ 31 := by exact_mod_cast hv.le
  have hnp : |(n : Rat) * p| ≤ 2 ^ 931 := by
    rw [abs_mul, abs_of_pos hpos]
    calc |(n : Rat)| * p ≤ 2 ^ 31 * 2 ^ 900 := mul_le_mul hN b2 hpos.le (by positivity)
      _ = 2 ^ 931 := by rw [← pow_add]
  have hfin : |Fmt.double.round ((n : Rat) * q)| ≤ 2 ^ 1000 := by
    have h4 := abs_sub_abs_le_abs_sub (Fmt.double.round ((n : Rat) * q)) (n * p)
    have h5 : (2 : Rat) ^ 931 * 2 ≤ 2 ^ 1000 := by
      rw [← pow_succ]; exact pow_le_pow_right₀ (by norm_num) (by norm_num)
    have h6 := mul_le_mul_of_nonneg_right (show (1 / 2 ^ 50 : Rat) ≤ 1 by norm_num) (abs_nonneg ((n : Rat) * p))
    linarith
  have hn := mul_pos_isNeg Fmt.double (.fin (n : Rat)) hq hq0 (by simp)
  refine ⟨_, by rw [e]; exact double_fin z hfin, h3, ?_, ?_⟩
  · rw [hn.1]
    simp [Fl.isNeg]
  · constructor
    · intro h0
      rw [h0, zero_sub, abs_neg] at h3
      by_contra hne
      have : (n : Rat) ≠ 0 := by exact_mod_cast hne
      have hpp : 0 < |(n : Rat) * p| := abs_pos.mpr (mul_ne_zero this hpos.ne')
      have : (1 : Rat) / 2 ^ 50 * |(n : Rat) * p| < 1 * |(n : Rat) * p| :=
        mul_lt_mul_of_pos_right (by norm_num) hpp
      linarith
    · rintro rfl
      simp [Fmt.double.round_zero]

/-- C71. With compiler-rt's `powi` the hypothesis on the power holds for every scale factor.  (The whole range is evaluated.) -/
theorem C71_powers (f : Int) (h1 : -127 ≤ f) (h2 : f ≤ 127) :
    RelClose (compilerRtPowi .double (.fin 10) (-f)) (zpow 10 (-f)) (5 / 2 ^ 53) := by
  have key : ∀ k : Fin 255, (match (compilerRtPowi .double (.fin 10) (-((k.val : Int) - 127))).val with
      | some p => decide (p - zpow 10 (-((k.val : Int) - 127)) ≤ 5 / 2 ^ 53 * zpow 10 (-((k.val : Int) - 127)) ∧
          zpow 10 (-((k.val : Int) - 127)) - p ≤ 5 / 2 ^ 53 * zpow 10 (-((k.val : Int) - 127)))
      | none => false) = true := by
    decide +kernel
  have := key ⟨(f + 127).toNat, by omega⟩
  have e' : (((f + 127).toNat : Nat) : Int) - 127 = f := by omega
  simp only [e'] at this
  cases hp : (compilerRtPowi .double (.fin 10) (-f)).val with
  | none => rw [hp] at this; simp at this
  | some p =>
    rw [hp] at this
    obtain ⟨a, b⟩ := of_decide_eq_true this
    refine ⟨p, hp, ?_⟩
    rw [abs_of_pos (spec_zpow_pos (by norm_num) _), abs_le]
    constructor <;> linarith

/-- C71. A missing value is NaN. -/
theorem C71_surface_missing (powi : Fl → Int → Fl) (pf : Nat → Fl) (s : FixedSurface) (hm : s.scaledValue = -2147483647) :
    s.value (double powi pf) = .nan := by
  unfold FixedSurface.value
  rw [if_pos (by simp [FixedSurface.valueIsNan, hm])]
  rfl

/-- C71. With the same scale factor, a greater scaled value gives a greater value: levels that differ stay different. -/
theorem C71_surface_distinct (powi : Fl → Int → Fl) (pf : Nat → Fl) (s t : FixedSurface) (hs : s.scaledValue ≠ -2147483647)
    (ht : t.scaledValue ≠ -2147483647) (hf : s.scaleFactor = t.scaleFactor) (hs' : |s.scaledValue| < 2 ^ 31)
    (ht' : |t.scaledValue| < 2 ^ 31) {p : Rat} (h10 : (powi (.fin 10) (-s.scaleFactor)).val = some p)
    (hp1 : 1 / 2 ^ 900 ≤ p) (hp2 : p ≤ 2 ^ 900) (h : s.scaledValue < t.scaledValue) :
    Fl.lt (s.value (double powi pf)) (t.value (double powi pf)) = true := by
  have hpos : 0 < p := lt_of_lt_of_le (by positivity) hp1
  have value : ∀ u : FixedSurface, u.scaledValue ≠ -2147483647 → |u.scaledValue| < 2 ^ 31 → u.scaleFactor = s.scaleFactor →
      ∃ y, (u.value (double powi pf)).val = some y ∧ |y - u.scaledValue * p| ≤ 1 / 2 ^ 22 * p := by
    intro u hu hu' huf
    have hval : u.value (double powi pf) = Fmt.double.mul (.fin u.scaledValue) (powi (.fin 10) (-s.scaleFactor)) := by
      unfold FixedSurface.value
      rw [if_neg (by simp [FixedSurface.valueIsNan]; exact hu)]
      show Fmt.double.mul (Fmt.double.ofRat false (u.scaledValue : Rat))
        (powi (Fmt.double.ofRat false ((10 : Int) : Rat)) (-u.scaleFactor)) = _
      rw [double_int _ (by omega), double_int 10 (by decide), huf]
      rfl
    obtain ⟨z, e⟩ := Fmt.double.mul_val (show (Fl.fin (u.scaledValue : Rat)).val = some (u.scaledValue : Rat) from rfl) h10
    generalize u.scaledValue = n at *
    have hN : |(n : Rat)| ≤ 2 ^ 31 := by exact_mod_cast hu'.le
    have hx : (n : Rat) * p = 0 ∨ 1 / 2 ^ 1000 ≤ |(n : Rat) * p| := by
      by_cases h0 : n = 0
      · left; rw [h0]; simp
      · right
        have : (1 : Rat) ≤ |(n : Rat)| := by exact_mod_cast Int.one_le_abs h0
        rw [abs_mul, abs_of_pos hpos]
        have h2 : (1 : Rat) / 2 ^ 1000 ≤ 1 / 2 ^ 900 := by norm_num
        have h4 := mul_le_mul_of_nonneg_right this hpos.le
        linarith
    have h2 := double_round (x := n * p) (y := n * p) (d := 0) (by simp) hx
    have hnp : |(n : Rat) * p| ≤ 2 ^ 31 * p := by
      rw [abs_mul, abs_of_pos hpos]
      exact mul_le_mul_of_nonneg_right hN hpos.le
    have h3 : |Fmt.double.round (n * p) - n * p| ≤ 1 / 2 ^ 22 * p := by
      rw [zero_add, add_zero, mul_one] at h2
      have := mul_le_mul_of_nonneg_left hnp (show (0 : Rat) ≤ 1 / 2 ^ 53 by positivity)
      norm_num at this h2 ⊢
      linarith
    refine ⟨_, ?_, h3⟩
    rw [hval, e]
    apply double_fin
    have h4 := abs_sub_abs_le_abs_sub (Fmt.double.round ((n : Rat) * p)) (n * p)
    have h5 : (2 : Rat) ^ 32 * 2 ^ 900 ≤ 2 ^ 1000 := by
      rw [← pow_add]; exact pow_le_pow_right₀ (by norm_num) (by norm_num)
    have h6 := mul_le_mul_of_nonneg_left hp2 (show (0 : Rat) ≤ 2 ^ 32 by norm_num)
    have h7 : (2 : Rat) ^ 31 * p + 1 / 2 ^ 22 * p ≤ 2 ^ 32 * p := by
      norm_num
      linarith
    linarith
  obtain ⟨y, hy, cy⟩ := value s hs hs' rfl
  obtain ⟨z, hz, cz⟩ := value t ht ht' hf.symm
  rw [Fl.lt_val hy hz, decide_eq_true_eq]
  have h1 : ((s.scaledValue : Rat) + 1) * p ≤ t.scaledValue * p := by
    apply mul_le_mul_of_nonneg_right _ hpos.le
    exact_mod_cast h
  rw [abs_le] at cy cz
  have := cy.2
  have := cz.1
  norm_num at *
  linarith

/-- 850 hPa and 0.1 m. -/
example : (⟨100, 0, 85000⟩ : FixedSurface).value (double (compilerRtPowi .double) fun _ => .nan) = .fin 85000 ∧
    (⟨106, 1, 1⟩ : FixedSurface).value (double (compilerRtPowi .double) fun _ => .nan) = .fin (3602879701896397 / 2 ^ 55) := by
  decide +kernel

/-- C71, limits. The same number written with different scale factors may give different values: 0.3 as 3 tenths and as 30
hundredths. -/
theorem C71_scaling_fails : ∃ s t : FixedSurface, s.value FloatOps.exact = t.value FloatOps.exact ∧
    s.value FloatOps.exact = some (3 / 10) ∧
    Fl.lt (t.value (double (compilerRtPowi .double) fun _ => .nan)) (s.value (double (compilerRtPowi .double) fun _ => .nan)) = true :=
  ⟨⟨103, 1, 3⟩, ⟨103, 2, 30⟩, by decide +kernel, by decide +kernel, by decide +kernel⟩

/-! ## Projected grids -/

theorem double_eta : pow2 (Fmt.double.emin - 1) = 1 / 2 ^ 1075 := by decide +kernel

theorem double_milli (powi pf) : RelClose ((double powi pf).lit 1 (-3)) (1 / 1000) (1 / 2 ^ 53) := by
  refine ⟨Fmt.double.round (1 / 1000), ?_, by decide +kernel⟩
  show (Fmt.double.ofRat false (((1 : Int) : Rat) * ratPowi 10 (-3))).val = _
  decide +kernel

theorem double_micro (powi pf) : RelClose ((double powi pf).lit 1 (-6)) (1 / 1000000) (1 / 2 ^ 53) := by
  refine ⟨Fmt.double.round (1 / 1000000), ?_, by decide +kernel⟩
  show (Fmt.double.ofRat false (((1 : Int) : Rat) * ratPowi 10 (-6))).val = _
  decide +kernel

/-- An integer times a small constant. -/
theorem double_scaled {n : Int} (hn : |n| ≤ 2 ^ 32) {C : Fl} {c : Rat} (hC : RelClose C c (1 / 2 ^ 53)) (hc1 : 1 / 2 ^ 100 ≤ c)
    (hc2 : c ≤ 2 ^ 100) :
    ∃ y, (Fmt.double.mul (.fin n) C).val = some y ∧ |y - n * c| ≤ 3 / 2 ^ 53 * |n * c| := by
  obtain ⟨q, hq, hc⟩ := hC
  have hpos : 0 < c := lt_of_lt_of_le (by positivity) hc1
  rw [abs_of_pos hpos] at hc
  obtain ⟨z, e⟩ := Fmt.double.mul_val (show (Fl.fin (n : Rat)).val = some (n : Rat) from rfl) hq
  have hq1 : (1 - 1 / 2 ^ 53) * c ≤ q := by
    rw [abs_le] at hc
    linarith [hc.1]
  have hq0 : 0 < q := lt_of_lt_of_le (mul_pos (by norm_num) hpos) hq1
  have h1 : |(n : Rat) * q - n * c| ≤ 1 / 2 ^ 53 * |n * c| := by
    rw [← mul_sub, abs_mul, abs_mul, abs_of_pos hpos]
    have := mul_le_mul_of_nonneg_left hc (abs_nonneg (n : Rat))
    linarith
  have hx : (n : Rat) * q = 0 ∨ 1 / 2 ^ 1000 ≤ |(n : Rat) * q| := by
    by_cases h0 : n = 0
    · left; rw [h0]; simp
    · right
      have : (1 : Rat) ≤ |(n : Rat)| := by exact_mod_cast Int.one_le_abs h0
      rw [abs_mul, abs_of_pos hq0]
      have h2 : (1 : Rat) / 2 ^ 1000 ≤ (1 - 1 / 2 ^ 53) * (1 / 2 ^ 100) := by norm_num
      have h3 := mul_le_mul_of_nonneg_left hc1 (show (0 : Rat) ≤ 1 - 1 / 2 ^ 53 by norm_num)
      have h4 := mul_le_mul_of_nonneg_right this hq0.le
      linarith
  have h2 := double_round h1 hx
  have h3 : |Fmt.double.round ((n : Rat) * q) - n * c| ≤ 3 / 2 ^ 53 * |(n : Rat) * c| :=
    le_trans h2 (mul_le_mul_of_nonneg_right (by norm_num) (abs_nonneg _))
  refine ⟨_, ?_, h3⟩
  rw [e]
  apply double_fin
  have hN : |(n : Rat)| ≤ 2 ^ 32 := by exact_mod_cast hn
  have hnp : |(n : Rat) * c| ≤ 2 ^ 132 := by
    rw [abs_mul, abs_of_pos hpos]
    calc |(n : Rat)| * c ≤ 2 ^ 32 * 2 ^ 100 := mul_le_mul hN hc2 hpos.le (by positivity)
      _ = 2 ^ 132 := by rw [← pow_add]
  have h4 := abs_sub_abs_le_abs_sub (Fmt.double.round ((n : Rat) * q)) (n * c)
  norm_num at *
  linarith

/-- C71. Angles of the section (microdegrees) become degrees within `3·2^-53` (relative). -/
theorem C71_degrees (powi pf) (a : Int) (ha : |a| ≤ 2 ^ 32) :
    RelClose (micro (double powi pf) a) (a / 1000000) (3 / 2 ^ 53) := by
  obtain ⟨y, hy, hc⟩ := double_scaled ha (double_micro powi pf) (by norm_num) (by norm_num)
  refine ⟨y, ?_, ?_⟩
  · rw [← hy]
    show (Fmt.double.mul (Fmt.double.ofRat false (a : Rat)) _).val = _
    rw [double_int _ ha]
  · rw [show (a : Rat) / 1000000 = a * (1 / 1000000) by ring]
    exact hc

/-- The steps along an axis. -/
theorem step_close {F : Type} (p : ProjOps Fl F) {powi pf} (hops : p.ops = double powi pf) (hneg : p.neg = Fl.neg) (positive : Bool)
    (d i : Nat) (hd : d ≤ 2 ^ 32) (hi : i ≤ 2 ^ 32) :
    ∃ t, (Fmt.double.mul (signedDelta p positive (p.ops.mul (p.ops.ofInt d) (p.ops.lit 1 (-3)))) (.fin i)).val = some t ∧
      |t - (if positive then (d : Rat) * i / 1000 else -((d : Rat) * i / 1000))| ≤ 5 / 2 ^ 53 * ((d : Rat) * i / 1000) := by
  have hda : |(d : Int)| ≤ 2 ^ 32 := by rw [abs_of_nonneg (by omega)]; omega
  obtain ⟨m, hm, hc⟩ := double_scaled hda (double_milli powi pf) (by norm_num) (by norm_num)
  have e1 : p.ops.mul (p.ops.ofInt d) (p.ops.lit 1 (-3)) = Fmt.double.mul (.fin ((d : Int) : Rat)) ((double powi pf).lit 1 (-3)) := by
    rw [hops]
    show Fmt.double.mul (Fmt.double.ofRat false ((d : Int) : Rat)) _ = _
    rw [double_int _ hda]
  have hd0 : (0 : Rat) ≤ (d : Rat) := by positivity
  have hi0 : (0 : Rat) ≤ (i : Rat) := by positivity
  have hdc : |((d : Int) : Rat) * (1 / 1000)| = (d : Rat) / 1000 := by
    rw [abs_of_nonneg (by positivity)]; push_cast; ring
  rw [hdc] at hc
  have hcast : ((d : Int) : Rat) * (1 / 1000) = (d : Rat) / 1000 := by push_cast; ring
  rw [hcast] at hc
  have hm0 : 0 ≤ m ∧ (m = 0 → d = 0) ∧ (d ≠ 0 → 1 / 2000 ≤ m) := by
    rw [abs_le] at hc
    have h1 : (1 - 3 / 2 ^ 53) * ((d : Rat) / 1000) ≤ m := by linarith [hc.1]
    have h2 : d ≠ 0 → (1 : Rat) / 2000 ≤ m := by
      intro h
      have : (1 : Rat) ≤ d := by exact_mod_cast Nat.one_le_iff_ne_zero.mpr h
      norm_num at h1 ⊢
      linarith
    refine ⟨le_trans (by positivity) h1, ?_, h2⟩
    intro h
    by_contra hne
    have := h2 hne
    linarith
  -- the signed step
  have hz : p.ops.lit 0 0 = .fin 0 := by
    rw [hops]
    show Fmt.double.ofRat false (((0 : Int) : Rat) * ratPowi 10 0) = .fin 0
    decide +kernel
  have hs : (signedDelta p positive (p.ops.mul (p.ops.ofInt d) (p.ops.lit 1 (-3)))).val =
      some (if positive then m else -m) := by
    rw [e1]
    unfold signedDelta
    rw [hz]
    have hlt : p.ops.lt (.fin 0) (Fmt.double.mul (.fin ((d : Int) : Rat)) ((double powi pf).lit 1 (-3))) = decide (0 < m) := by
      rw [hops]
      exact Fl.lt_val (show (Fl.fin 0).val = some 0 from rfl) hm
    rw [hlt]
    cases positive
    · by_cases h0 : 0 < m
      · simp only [h0, Bool.not_false, decide_true, Bool.and_true, if_true, Bool.false_eq_true, if_false]
        rw [hneg]
        exact Fl.neg_val hm
      · have : m = 0 := le_antisymm (not_lt.mp h0) hm0.1
        simp only [h0, decide_false, Bool.and_false, Bool.false_eq_true, if_false]
        rw [hm, this]
        simp
    · simpa only [Bool.not_true, Bool.false_and, Bool.false_eq_true, if_false, if_true] using hm
  obtain ⟨z, e⟩ := Fmt.double.mul_val hs (show (Fl.fin (i : Rat)).val = some (i : Rat) from rfl)
  have hT : (0 : Rat) ≤ (d : Rat) * i / 1000 := by positivity
  have key : ∀ σ : Rat, |σ| = 1 → |σ * m * i - σ * ((d : Rat) * i / 1000)| ≤ 3 / 2 ^ 53 * |σ * ((d : Rat) * i / 1000)| := by
    intro σ hσ
    rw [abs_mul σ, hσ, one_mul, abs_of_nonneg hT, show σ * m * i - σ * ((d : Rat) * i / 1000) = σ * ((m - d / 1000) * i) by ring, abs_mul,
      hσ, one_mul, abs_mul, abs_of_nonneg hi0]
    have := mul_le_mul_of_nonneg_right hc hi0
    linarith
  have tiny : ∀ σ : Rat, |σ| = 1 → σ * m * i = 0 ∨ 1 / 2 ^ 1000 ≤ |σ * m * i| := by
    intro σ hσ
    by_cases h0 : i = 0
    · left; rw [h0]; simp
    · by_cases h1 : m = 0
      · left; rw [h1]; simp
      · right
        have h2 : (1 : Rat) ≤ i := by exact_mod_cast Nat.one_le_iff_ne_zero.mpr h0
        have h3 := hm0.2.2 (fun hd => h1 (by
          rw [hd] at hc
          norm_num at hc
          exact hc))
        rw [abs_mul, abs_mul, hσ, one_mul, abs_of_nonneg hm0.1, abs_of_nonneg hi0]
        have := mul_le_mul h3 h2 (by norm_num) hm0.1
        refine le_trans ?_ this
        norm_num
  have done : ∀ σ : Rat, |σ| = 1 → |Fmt.double.round (σ * m * i) - σ * ((d : Rat) * i / 1000)| ≤ 5 / 2 ^ 53 * ((d : Rat) * i / 1000) := by
    intro σ hσ
    have h := double_round (key σ hσ) (tiny σ hσ)
    rw [abs_mul σ, hσ, one_mul, abs_of_nonneg hT] at h
    exact le_trans h (mul_le_mul_of_nonneg_right (by norm_num) hT)
  have fin : ∀ σ : Rat, |σ| = 1 → |Fmt.double.round (σ * m * i)| ≤ 2 ^ 1000 := by
    intro σ hσ
    have h := done σ hσ
    have h4 := abs_sub_abs_le_abs_sub (Fmt.double.round (σ * m * i)) (σ * ((d : Rat) * i / 1000))
    rw [abs_mul σ, hσ, one_mul, abs_of_nonneg hT] at h4
    have h5 : (d : Rat) * i ≤ 2 ^ 32 * 2 ^ 32 :=
      mul_le_mul (by exact_mod_cast hd) (by exact_mod_cast hi) hi0 (by positivity)
    norm_num at *
    linarith
  cases positive
  · refine ⟨Fmt.double.round (-1 * m * i), ?_, ?_⟩
    · rw [e, show (if false = true then m else -m) * (i : Rat) = -1 * m * i by simp]
      exact double_fin z (fin (-1) (by simp))
    · have := done (-1) (by simp)
      simpa using this
  · refine ⟨Fmt.double.round (1 * m * i), ?_, ?_⟩
    · rw [e, show (if true = true then m else -m) * (i : Rat) = 1 * m * i by simp]
      exact double_fin z (fin 1 (by simp))
    · have := done 1 (by simp)
      simpa using this

/-- A coordinate of a grid point before it is projected back: the first point's and a whole number of steps, `d` in
millimetres, in the scanning direction. -/
def PlaneCoordinate (positive : Bool) (x0 : Fl) (d i : Nat) (x : Fl) : Prop :=
  ∀ a, x0.val = some a → |a| ≤ 2 ^ 900 → ∃ b, x.val = some b ∧
    |b - (a + if positive then (d : Rat) * i / 1000 else -((d : Rat) * i / 1000))| ≤
      1 / 2 ^ 50 * (|a| + (d : Rat) * i / 1000) + 1 / 2 ^ 1075

theorem plane_coordinate {F : Type} (p : ProjOps Fl F) {powi pf} (hops : p.ops = double powi pf) (hneg : p.neg = Fl.neg)
    (positive : Bool) (x0 : Fl) (d i : Nat) (hd : d ≤ 2 ^ 32) (hi : i ≤ 2 ^ 32) :
    PlaneCoordinate positive x0 d i (p.ops.add x0 (p.ops.mul (signedDelta p positive (p.ops.mul (p.ops.ofInt d) (p.ops.lit 1 (-3))))
      (p.ops.ofInt i))) := by
  intro a ha hA
  obtain ⟨t, ht, hc⟩ := step_close p hops hneg positive d i hd hi
  have hia : |(i : Int)| ≤ 2 ^ 32 := by rw [abs_of_nonneg (by omega)]; omega
  have e2 : p.ops.mul (signedDelta p positive (p.ops.mul (p.ops.ofInt d) (p.ops.lit 1 (-3)))) (p.ops.ofInt i) =
      Fmt.double.mul (signedDelta p positive (p.ops.mul (p.ops.ofInt d) (p.ops.lit 1 (-3)))) (.fin i) := by
    generalize signedDelta p positive (p.ops.mul (p.ops.ofInt d) (p.ops.lit 1 (-3))) = D
    rw [hops]
    show Fmt.double.mul D (Fmt.double.ofRat false ((i : Int) : Rat)) = _
    rw [double_int _ hia]
    norm_cast
  rw [e2]
  obtain ⟨z, e⟩ := Fmt.double.add_val ha ht
  have hT : (0 : Rat) ≤ (d : Rat) * i / 1000 := by positivity
  have h5 : (d : Rat) * i ≤ 2 ^ 32 * 2 ^ 32 :=
    mul_le_mul (by exact_mod_cast hd) (by exact_mod_cast hi) (by positivity) (by positivity)
  have h7 : (d : Rat) * i / 1000 ≤ 2 ^ 64 := by norm_num at h5 ⊢; linarith
  have hs : |(if positive then (d : Rat) * i / 1000 else -((d : Rat) * i / 1000))| = (d : Rat) * i / 1000 := by
    cases positive <;> simp [abs_of_nonneg hT]
  generalize (if positive = true then (d : Rat) * i / 1000 else -((d : Rat) * i / 1000)) = S at *
  generalize (d : Rat) * i / 1000 = T at *
  have h1 : |a + t - (a + S)| ≤ 5 / 2 ^ 53 * (|a| + T) + 0 := by
    rw [add_sub_add_left_eq_sub, add_zero]
    have := abs_nonneg a
    exact le_trans hc (mul_le_mul_of_nonneg_left (by linarith) (by norm_num))
  have h2 : |a + S| ≤ |a| + T := by rw [← hs]; exact abs_add_le _ _
  have h3 := Fmt.double.round_close h1 h2
  rw [double_u, double_eta, mul_zero, zero_add] at h3
  have hAT : 0 ≤ |a| + T := by have := abs_nonneg a; linarith
  have h4 : |Fmt.double.round (a + t) - (a + S)| ≤ 1 / 2 ^ 50 * (|a| + T) + 1 / 2 ^ 1075 := by
    refine le_trans h3 (add_le_add ?_ (le_refl _))
    exact mul_le_mul_of_nonneg_right (by norm_num) hAT
  refine ⟨_, ?_, h4⟩
  have : p.ops.add x0 (Fmt.double.mul (signedDelta p positive (p.ops.mul (p.ops.ofInt d) (p.ops.lit 1 (-3)))) (.fin i)) =
      Fmt.double.ofRat z (a + t) := by
    rw [← e]
    generalize Fmt.double.mul (signedDelta p positive (p.ops.mul (p.ops.ofInt d) (p.ops.lit 1 (-3)))) (.fin i) = D
    rw [hops]
    rfl
  rw [this]
  apply double_fin
  have h6 := abs_sub_abs_le_abs_sub (Fmt.double.round (a + t)) (a + S)
  norm_num at *
  linarith

/-- What the points of a projected grid are in double precision: there are `ni·nj` of them, and the `k`-th one is the inverse
projection of a point of the plane that is `i` steps of `dx` and `j` steps of `dy` millimetres from the first point, where
`(i, j)` is the `k`-th point in scanning order. -/
def ComputedPoints {F : Type} (p : ProjOps Fl F) (inverse : ProjDef Fl → Fl × Fl → Option (Fl × Fl)) (d : ProjDef Fl) (lat lon : Fl)
    (dx dy ni nj mode : Nat) (pts : List (F × F)) : Prop :=
  ∃ x0 y0, p.forward d (p.toRadians lon, p.toRadians lat) = some (x0, y0) ∧ pts.length = ni * nj ∧
    ∀ k < ni * nj, ∃ x y lon lat, PlaneCoordinate (!negativeI mode) x0 dx (visit ni nj mode k).1 x ∧
      PlaneCoordinate (positiveJ mode) y0 dy (visit ni nj mode k).2 y ∧
      inverse d (x, y) = some (lon, lat) ∧ pts[k]? = some (p.toF32 (p.toDegrees lat), p.toF32 (p.toDegrees lon))

theorem computed_points {F : Type} (p : ProjOps Fl F) {powi pf} (hops : p.ops = double powi pf) (hneg : p.neg = Fl.neg)
    {inverse : ProjDef Fl → Fl × Fl → Option (Fl × Fl)} {d : ProjDef Fl} {first : Fl × Fl} {dx dy ni nj mode : Nat}
    (hdx : dx ≤ 2 ^ 32) (hdy : dy ≤ 2 ^ 32) (hni : ni ≤ 2 ^ 32) (hnj : nj ≤ 2 ^ 32) {pts : List (F × F)}
    (h : ProjectedPoints p inverse d first
      (signedDelta p (!negativeI mode) (p.ops.mul (p.ops.ofInt dx) (p.ops.lit 1 (-3))),
        signedDelta p (positiveJ mode) (p.ops.mul (p.ops.ofInt dy) (p.ops.lit 1 (-3)))) ni nj mode pts) :
    ComputedPoints p inverse d first.1 first.2 dx dy ni nj mode pts := by
  obtain ⟨x0, y0, hf, hl, hp⟩ := h
  refine ⟨x0, y0, hf, hl, ?_⟩
  intro k hk
  obtain ⟨lon, lat, h1, h2⟩ := hp k hk
  have hv := visit_lt (ni := ni) (nj := nj) (mode := mode) hk
  exact ⟨_, _, lon, lat, plane_coordinate p hops hneg _ x0 dx _ hdx (by omega), plane_coordinate p hops hneg _ y0 dy _ hdy (by omega),
    h1, h2⟩

/-- C71, Lambert conformal grids in double precision. -/
theorem C71_lambert {F : Type} (p : ProjOps Fl F) (powi pf) (hops : p.ops = double powi pf) (hneg : p.neg = Fl.neg)
    (inverse : ProjDef Fl → Fl × Fl → Option (Fl × Fl)) (hinv : Pointwise p inverse) (g : LambertGrid) (hi : 0 < g.ni) (hj : 0 < g.nj)
    (hi' : g.ni ≤ 2 ^ 32) (hj' : g.nj ≤ 2 ^ 32) (hdx : g.dx ≤ 2 ^ 32) (hdy : g.dy ≤ 2 ^ 32) (pts : List (F × F))
    (h : g.latlons p = .ok pts) :
    ∃ a b, g.earth.radii p.ops = some (a, b) ∧
      ComputedPoints p inverse
        (.lcc a b (micro p.ops g.lad) (micro p.ops g.lov) (micro p.ops g.latin1) (micro p.ops g.latin2))
        (micro p.ops g.firstLat) (micro p.ops g.firstLon) g.dx g.dy g.ni g.nj g.mode pts := by
  obtain ⟨a, b, hr, hp⟩ := C51_lambert p inverse hinv g hi hj pts h
  exact ⟨a, b, hr, computed_points p hops hneg hdx hdy hi' hj' hp⟩

/-- C71, polar stereographic grids in double precision. -/
theorem C71_polar {F : Type} (p : ProjOps Fl F) (powi pf) (hops : p.ops = double powi pf) (hneg : p.neg = Fl.neg)
    (inverse : ProjDef Fl → Fl × Fl → Option (Fl × Fl)) (hinv : Pointwise p inverse) (g : PolarGrid) (hi : 0 < g.ni) (hj : 0 < g.nj)
    (hi' : g.ni ≤ 2 ^ 32) (hj' : g.nj ≤ 2 ^ 32) (hdx : g.dx ≤ 2 ^ 32) (hdy : g.dy ≤ 2 ^ 32) (pts : List (F × F))
    (h : g.latlons p = .ok pts) :
    ∃ a b, g.earth.radii p.ops = some (a, b) ∧
      ComputedPoints p inverse
        (.stere a b (micro p.ops g.lad) (if flag g.centre 1 then .fin (-90) else .fin 90) (micro p.ops g.lov))
        (micro p.ops g.firstLat) (micro p.ops g.firstLon) g.dx g.dy g.ni g.nj g.mode pts := by
  obtain ⟨a, b, hr, hp⟩ := C51_polar p inverse hinv g hi hj pts h
  have h90 : p.ops.lit 90 0 = .fin 90 ∧ p.ops.lit (-90) 0 = .fin (-90) := by
    rw [hops]
    constructor
    · show Fmt.double.ofRat (decide ((90 : Int) < 0)) (((90 : Int) : Rat) * ratPowi 10 0) = .fin 90
      decide +kernel
    · show Fmt.double.ofRat (decide ((-90 : Int) < 0)) (((-90 : Int) : Rat) * ratPowi 10 0) = .fin (-90)
      decide +kernel
  rw [h90.1, h90.2] at hp
  exact ⟨a, b, hr, computed_points p hops hneg hdx hdy hi' hj' hp⟩

/-- A toy projection: the identity. -/
def toyDouble : ProjOps Fl Fl := ⟨double (compilerRtPowi .double) fun n => compilerRtPowi .double (.fin 10) n, fun _ => true,
  fun _ x => some x, fun _ xs => some xs, id, id, id, Fl.neg⟩

theorem toyDouble_pointwise : Pointwise toyDouble fun _ x => some x := by
  intro d xs
  show some xs = _
  induction xs with
  | nil => rfl
  | cons x xs ih => rw [List.map_cons, allSome, ← ih]; rfl

/-- A Lambert grid of 2 by 2 points 2539.703 m apart. -/
def sampleLambertDouble : LambertGrid := ⟨⟨6, 0, 0, 0, 0, 0, 0⟩, 2, 2, 20000000, 1000000, 25000000, 265000000, 2539703, 2539703, 0x40, 25000000, 25000000⟩

example : ∃ pts, sampleLambertDouble.latlons toyDouble = .ok pts ∧ pts.length = 4 ∧
    ∃ a b, sampleLambertDouble.earth.radii toyDouble.ops = some (a, b) ∧
      ComputedPoints toyDouble (fun _ x => some x)
        (.lcc a b (micro toyDouble.ops 25000000) (micro toyDouble.ops 265000000) (micro toyDouble.ops 25000000) (micro toyDouble.ops 25000000))
        (micro toyDouble.ops 20000000) (micro toyDouble.ops 1000000) 2539703 2539703 2 2 0x40 pts := by
  have h : ∃ pts, sampleLambertDouble.latlons toyDouble = .ok pts ∧ pts.length = 4 := by
    refine Outcome.exists_of_ok? (f := fun pts : List (Fl × Fl) => pts.length) ?_
    decide +kernel
  obtain ⟨pts, h, hl⟩ := h
  exact ⟨pts, h, hl, C71_lambert toyDouble _ _ rfl rfl _ toyDouble_pointwise sampleLambertDouble (by decide) (by decide) (by decide)
    (by decide) (by decide) (by decide) pts h⟩

/-! ## The radii of the earth -/

/-- The radii the program computes, in exact arithmetic: what the shape prescribes, the scaled values multiplied by
`10^(scale factor)` (the WMO manual divides: C43). -/
def computedRadii (e : EarthShape) : Option (Rat × Rat) :=
  match e.shape with
  | 0 => some (6367470, 6367470)
  | 1 => some (e.radiusValue * 10 ^ e.radiusScale, e.radiusValue * 10 ^ e.radiusScale)
  | 2 => some (6378160, 6356775)
  | 3 => some (e.majorValue * 10 ^ e.majorScale * 1000, e.minorValue * 10 ^ e.minorScale * 1000)
  | 4 => some (6378137, 6356752314 / 1000)
  | 5 => some (6378137, 63567523142 / 10000)
  | 6 => some (6371229, 6371229)
  | 7 => some (e.majorValue * 10 ^ e.majorScale, e.minorValue * 10 ^ e.minorScale)
  | 8 => some (6371200, 6371200)
  | _ => none

theorem ten_pow_bounds : ∀ n : Nat, n < 256 → (1 : Rat) ≤ 10 ^ n ∧ (10 : Rat) ^ n ≤ 2 ^ 850 := by
  intro n hn
  refine ⟨one_le_pow₀ (by norm_num), ?_⟩
  calc (10 : Rat) ^ n ≤ 10 ^ 255 := pow_le_pow_right₀ (by norm_num) (by omega)
    _ ≤ 2 ^ 850 := by norm_num

/-- A scaled value of the section. -/
theorem scaled_double (powi pf) (v n : Nat) (hv : v < 2 ^ 32) (hn : n < 256) (hp : RelClose (pf n) (10 ^ n) (2 / 2 ^ 53)) :
    ∃ y, ((double powi pf).mul ((double powi pf).ofInt v) ((double powi pf).powf10 n)).val = some y ∧
      |y - v * 10 ^ n| ≤ 4 / 2 ^ 53 * (v * 10 ^ n) ∧ (y = 0 ∨ 1 / 2 ≤ y) ∧ y ≤ 2 ^ 900 := by
  obtain ⟨b1, b2⟩ := ten_pow_bounds n hn
  obtain ⟨q, hq, hc⟩ := hp
  have hpos : (0 : Rat) < 10 ^ n := by positivity
  rw [abs_of_pos hpos] at hc
  obtain ⟨z, e⟩ := Fmt.double.mul_val (show (Fl.fin (v : Rat)).val = some (v : Rat) from rfl) hq
  have e' : (double powi pf).mul ((double powi pf).ofInt v) ((double powi pf).powf10 n) = Fmt.double.ofRat z (v * q) := by
    rw [← e]
    show Fmt.double.mul (Fmt.double.ofRat false ((v : Int) : Rat)) _ = _
    rw [double_int _ (by rw [abs_of_nonneg (by omega)]; omega)]
    norm_cast
  generalize (10 : Rat) ^ n = p at *
  have hv0 : (0 : Rat) ≤ v := by positivity
  have hq1 : (1 - 2 / 2 ^ 53) * p ≤ q := by
    rw [abs_le] at hc
    linarith [hc.1]
  have hq0 : 0 < q := lt_of_lt_of_le (mul_pos (by norm_num) hpos) hq1
  have hvp : (0 : Rat) ≤ v * p := mul_nonneg hv0 hpos.le
  have h1 : |(v : Rat) * q - v * p| ≤ 2 / 2 ^ 53 * |v * p| := by
    rw [← mul_sub, abs_mul, abs_mul, abs_of_pos hpos]
    have := mul_le_mul_of_nonneg_left hc (abs_nonneg (v : Rat))
    linarith
  have hbig : v ≠ 0 → (1 : Rat) ≤ v * p := by
    intro h0
    have : (1 : Rat) ≤ v := by exact_mod_cast Nat.one_le_iff_ne_zero.mpr h0
    have := mul_le_mul this b1 (by norm_num) hv0
    linarith
  have hx : (v : Rat) * q = 0 ∨ 1 / 2 ^ 1000 ≤ |(v : Rat) * q| := by
    by_cases h0 : v = 0
    · left; rw [h0]; simp
    · right
      rw [abs_of_nonneg (mul_nonneg hv0 hq0.le)]
      have h3 := hbig h0
      have h4 := mul_le_mul_of_nonneg_left hq1 hv0
      have h5 : (v : Rat) * ((1 - 2 / 2 ^ 53) * p) = (1 - 2 / 2 ^ 53) * (v * p) := by ring
      rw [h5] at h4
      have h6 := mul_le_mul_of_nonneg_left h3 (show (0 : Rat) ≤ 1 - 2 / 2 ^ 53 by norm_num)
      refine le_trans ?_ (le_trans h6 h4)
      norm_num
  have h2 := double_round h1 hx
  rw [abs_of_nonneg hvp] at h2
  have h3 : |Fmt.double.round ((v : Rat) * q) - v * p| ≤ 4 / 2 ^ 53 * (v * p) :=
    le_trans h2 (mul_le_mul_of_nonneg_right (by norm_num) hvp)
  have hle : (v : Rat) * p ≤ 2 ^ 32 * 2 ^ 850 :=
    mul_le_mul (by exact_mod_cast hv.le) b2 hpos.le (by positivity)
  have h3' := abs_le.mp h3
  have h900 : Fmt.double.round ((v : Rat) * q) ≤ 2 ^ 900 := by
    have := h3'.2
    generalize (v : Rat) * p = A at *
    norm_num at *
    linarith
  refine ⟨_, ?_, h3, ?_, h900⟩
  · rw [e']
    apply double_fin
    have h0 := Fmt.double.round_nonneg (mul_nonneg hv0 hq0.le)
    rw [abs_of_nonneg h0]
    refine le_trans h900 (pow_le_pow_right₀ (by norm_num) (by norm_num))
  · by_cases h0 : v = 0
    · left
      rw [h0]
      simp [Fmt.double.round_zero]
    · right
      have := hbig h0
      have := h3'.1
      generalize (v : Rat) * p = A at *
      norm_num at *
      linarith

/-- C71. The radii are computed within `2^-50` (relative), for every shape and all scale factors, when `powf(10., n)` has a
relative error of at most `2·2^-53`; they are refused for the shapes from 9 on. -/
theorem C71_radii (powi pf) (e : EarthShape) (h1 : e.radiusValue < 2 ^ 32) (h2 : e.majorValue < 2 ^ 32) (h3 : e.minorValue < 2 ^ 32)
    (s1 : e.radiusScale < 256) (s2 : e.majorScale < 256) (s3 : e.minorScale < 256)
    (hp : ∀ n < 256, RelClose (pf n) (10 ^ n) (2 / 2 ^ 53)) :
    (∀ a b, computedRadii e = some (a, b) → ∃ x y, e.radii (double powi pf) = some (x, y) ∧ RelClose x a (1 / 2 ^ 50) ∧
      RelClose y b (1 / 2 ^ 50)) ∧
    (computedRadii e = none → e.radii (double powi pf) = none) := by
  have lit : ∀ n : Int, |n| ≤ 2 ^ 32 → (double powi pf).lit n 0 = .fin n ∨ (n < 0 ∧ True) := by
    intro n hn
    by_cases h0 : n < 0
    · exact .inr ⟨h0, trivial⟩
    · left
      show Fmt.double.ofRat (decide (n < 0)) ((n : Rat) * ratPowi 10 0) = .fin n
      rw [show decide (n < 0) = false by simp [h0], show (n : Rat) * ratPowi 10 0 = n by simp [ratPowi]]
      exact double_int n hn
  have litf : ∀ n : Int, 0 ≤ n → n ≤ 2 ^ 32 → (double powi pf).lit n 0 = .fin n := by
    intro n h0 hn
    rcases lit n (by rw [abs_of_nonneg h0]; exact hn) with h | h
    · exact h
    · omega
  have exact : ∀ q : Rat, RelClose (.fin q) q (1 / 2 ^ 50) := by
    intro q
    refine ⟨q, rfl, ?_⟩
    simp only [sub_self, abs_zero]
    positivity
  have weaken : ∀ (x : Fl) (v n : Nat), v < 2 ^ 32 → n < 256 →
      x = (double powi pf).mul ((double powi pf).ofInt v) ((double powi pf).powf10 n) → RelClose x (v * 10 ^ n) (1 / 2 ^ 50) := by
    rintro x v n hv hn rfl
    obtain ⟨y, hy, hc, -⟩ := scaled_double powi pf v n hv hn (hp n hn)
    refine ⟨y, hy, ?_⟩
    have h0 : (0 : Rat) ≤ v * 10 ^ n := by positivity
    rw [abs_of_nonneg h0]
    exact le_trans hc (mul_le_mul_of_nonneg_right (by norm_num) h0)
  have kilo : ∀ (v n : Nat), v < 2 ^ 32 → n < 256 →
      RelClose ((double powi pf).mul ((double powi pf).mul ((double powi pf).ofInt v) ((double powi pf).powf10 n))
        ((double powi pf).lit 1000 0)) (v * 10 ^ n * 1000) (1 / 2 ^ 50) := by
    intro v n hv hn
    obtain ⟨y, hy, hc, hsmall, hbig⟩ := scaled_double powi pf v n hv hn (hp n hn)
    rw [litf 1000 (by norm_num) (by norm_num)]
    have h0 : (0 : Rat) ≤ v * 10 ^ n := by positivity
    obtain ⟨z, e⟩ := Fmt.double.mul_val hy (show (Fl.fin ((1000 : Int) : Rat)).val = some 1000 by norm_num [Fl.val])
    have h1 : |y * 1000 - v * 10 ^ n * 1000| ≤ 4 / 2 ^ 53 * |(v : Rat) * 10 ^ n * 1000| := by
      rw [← sub_mul, abs_mul, abs_of_nonneg (mul_nonneg h0 (by norm_num)), abs_of_pos (show (0 : Rat) < 1000 by norm_num)]
      linarith
    have hy0 : 0 ≤ y := by rcases hsmall with h | h <;> linarith
    have h2 := double_round h1 (by
      rcases hsmall with h | h
      · left; rw [h]; simp
      · right
        rw [abs_of_nonneg (by linarith)]
        refine le_trans (show (1 : Rat) / 2 ^ 1000 ≤ 1 / 2 by norm_num) (by linarith))
    have h3 : |Fmt.double.round (y * 1000) - v * 10 ^ n * 1000| ≤ 1 / 2 ^ 50 * |(v : Rat) * 10 ^ n * 1000| :=
      le_trans h2 (mul_le_mul_of_nonneg_right (by norm_num) (abs_nonneg _))
    refine ⟨_, ?_, h3⟩
    show (Fmt.double.mul _ _).val = _
    rw [e]
    apply double_fin
    have h4 := Fmt.double.round_err (y * 1000)
    rw [double_u, double_eta] at h4
    have h5 := abs_sub_abs_le_abs_sub (Fmt.double.round (y * 1000)) (y * 1000)
    rw [abs_of_nonneg (show 0 ≤ y * 1000 by linarith)] at h4 h5
    norm_num at *
    linarith
  have lit4 : ((double powi pf).lit 6356752314 (-3)).val = some (Fmt.double.round (6356752314 / 1000)) := by
    show (Fmt.double.ofRat false (((6356752314 : Int) : Rat) * ratPowi 10 (-3))).val = _
    decide +kernel
  have lit5 : ((double powi pf).lit 63567523142 (-4)).val = some (Fmt.double.round (63567523142 / 10000)) := by
    show (Fmt.double.ofRat false (((63567523142 : Int) : Rat) * ratPowi 10 (-4))).val = _
    decide +kernel
  obtain ⟨shape, rs, rv, as, av, bs, bv⟩ := e
  dsimp only at h1 h2 h3 s1 s2 s3
  unfold computedRadii EarthShape.radii EarthShape.radiiDefined
  dsimp only
  constructor
  · intro a b hab
    split at hab
    all_goals first | (cases hab; done) | skip
    all_goals obtain ⟨rfl, rfl⟩ := Prod.mk.inj (Option.some.inj hab)
    · refine ⟨_, _, rfl, ?_⟩
      rw [litf _ (by norm_num) (by norm_num)]
      exact ⟨exact _, exact _⟩
    · exact ⟨_, _, rfl, weaken _ rv rs h1 s1 rfl, weaken _ rv rs h1 s1 rfl⟩
    · refine ⟨_, _, rfl, ?_⟩
      rw [litf _ (by norm_num) (by norm_num), litf _ (by norm_num) (by norm_num)]
      exact ⟨exact _, exact _⟩
    · exact ⟨_, _, rfl, kilo av as h2 s2, kilo bv bs h3 s3⟩
    · refine ⟨_, _, rfl, ?_⟩
      rw [litf _ (by norm_num) (by norm_num)]
      exact ⟨exact _, ⟨Fmt.double.round (6356752314 / 1000), lit4, by decide +kernel⟩⟩
    · refine ⟨_, _, rfl, ?_⟩
      rw [litf _ (by norm_num) (by norm_num)]
      exact ⟨exact _, ⟨Fmt.double.round (63567523142 / 10000), lit5, by decide +kernel⟩⟩
    · refine ⟨_, _, rfl, ?_⟩
      rw [litf _ (by norm_num) (by norm_num)]
      exact ⟨exact _, exact _⟩
    · exact ⟨_, _, rfl, weaken _ av as h2 s2 rfl, weaken _ bv bs h3 s3 rfl⟩
    · refine ⟨_, _, rfl, ?_⟩
      rw [litf _ (by norm_num) (by norm_num)]
      exact ⟨exact _, exact _⟩
  · intro h
    split at h
    all_goals first | (cases h; done) | skip
    split
    all_goals first | rfl | simp_all

/-- The hypothesis on the powers holds for correctly rounded ones. -/
example : ∀ n < 256, RelClose (Fmt.double.ofRat false (10 ^ n)) (10 ^ n) (2 / 2 ^ 53) := by
  intro n hn
  have key : ∀ k : Fin 256, (Fmt.double.ofRat false (10 ^ k.val)).val = some (Fmt.double.round (10 ^ k.val)) ∧
      |Fmt.double.round (10 ^ k.val) - 10 ^ k.val| ≤ 2 / 2 ^ 53 * |(10 : Rat) ^ k.val| := by decide +kernel
  obtain ⟨h1, h2⟩ := key ⟨n, hn⟩
  exact ⟨_, h1, h2⟩

/-- Shape 3 with axes in kilometres. -/
example : computedRadii ⟨3, 0, 0, 0, 6378, 0, 6357⟩ = some (6378000, 6357000) ∧
    (⟨3, 0, 0, 0, 6378, 0, 6357⟩ : EarthShape).radii toyDouble.ops = some (.fin 6378000, .fin 6357000) := by decide +kernel

end Grib.Props
