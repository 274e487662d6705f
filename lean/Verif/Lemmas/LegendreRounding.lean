import Verif.Lemmas.LegendreLocal
import Verif.Lemmas.IeeeOps
import Verif.Model.Grid
import Verif.Spec.DoubleLibrary

/-! # The computation of Legendre polynomials in double precision -/

set_option exponentiation.threshold 3000

namespace Grib.Spec

open Grib.Model

/-- The relative error of a rounding. -/
noncomputable def uu : ℝ := 1 / 2 ^ 53

/-- A bound of the absolute error of the rounding of tiny numbers. -/
noncomputable def tt : ℝ := 1 / 2 ^ 200

theorem uu_pos : 0 < uu := by unfold uu; positivity
theorem tt_pos : 0 < tt := by unfold tt; positivity
theorem uu_le : uu ≤ 1e-15 := by unfold uu; norm_num
theorem tt_le : tt ≤ 1e-40 * uu := by unfold tt uu; norm_num

/-- The result of a rounded operation whose exact result is `v`. -/
def Rounded (a : Fl) (v : ℝ) : Prop := ∃ r, HasValue a r ∧ |r - v| ≤ uu * |v| + tt

theorem rounded_ofRat (s : Bool) {q : Rat} (h : |(q : ℝ)| ≤ 2 ^ 900) : Rounded (Fmt.double.ofRat s q) q := by
  have hq : |q| ≤ 2 ^ 900 := by exact_mod_cast h
  have e := Fmt.double.round_err q
  have h1 : pow2 (-(Fmt.double.prec : Int)) = 1 / 2 ^ 53 := by decide +kernel
  have h2 : pow2 (Fmt.double.emin - 1) ≤ 1 / 2 ^ 200 := by decide +kernel
  have h3 : pow2 Fmt.double.top = 2 ^ 1024 := by decide +kernel
  have e' : |Fmt.double.round q - q| ≤ 1 / 2 ^ 53 * |q| + 1 / 2 ^ 200 := by
    rw [h1] at e
    linarith
  refine ⟨(Fmt.double.round q : ℝ), ⟨_, Fmt.double.ofRat_fin s ?_, rfl⟩, ?_⟩
  · rw [h3]
    have a := abs_sub_abs_le_abs_sub (Fmt.double.round q) q
    have b : (0 : Rat) ≤ |q| := abs_nonneg q
    have c : (2 : Rat) ^ 900 * 4 < 2 ^ 1024 := by norm_num
    have d : (1 : Rat) ≤ 2 ^ 900 := by norm_num
    linarith
  · unfold uu tt
    have := (Rat.cast_le (K := ℝ)).mpr e'
    push_cast at this
    exact this

theorem HasValue.add {a b : Fl} {x y : ℝ} (ha : HasValue a x) (hb : HasValue b y) (h : |x + y| ≤ 2 ^ 900) : Rounded (Fmt.double.add a b) (x + y) := by
  obtain ⟨p, hp, rfl⟩ := ha
  obtain ⟨q, hq, rfl⟩ := hb
  obtain ⟨s, e⟩ := Fmt.double.add_val hp hq
  rw [e, ← Rat.cast_add]
  exact rounded_ofRat s (by rw [Rat.cast_add]; exact h)

theorem HasValue.neg {a : Fl} {x : ℝ} (ha : HasValue a x) : HasValue a.neg (-x) := by
  obtain ⟨p, hp, rfl⟩ := ha
  exact ⟨-p, Fl.neg_val hp, by push_cast; rfl⟩

theorem HasValue.sub {a b : Fl} {x y : ℝ} (ha : HasValue a x) (hb : HasValue b y) (h : |x - y| ≤ 2 ^ 900) :
    Rounded (Fmt.double.add a b.neg) (x - y) := by
  rw [sub_eq_add_neg] at *
  exact ha.add hb.neg h

theorem HasValue.mul {a b : Fl} {x y : ℝ} (ha : HasValue a x) (hb : HasValue b y) (h : |x * y| ≤ 2 ^ 900) : Rounded (Fmt.double.mul a b) (x * y) := by
  obtain ⟨p, hp, rfl⟩ := ha
  obtain ⟨q, hq, rfl⟩ := hb
  obtain ⟨s, e⟩ := Fmt.double.mul_val hp hq
  rw [e, ← Rat.cast_mul]
  exact rounded_ofRat s (by rw [Rat.cast_mul]; exact h)

theorem HasValue.div {a b : Fl} {x y : ℝ} (ha : HasValue a x) (hb : HasValue b y) (hy : y ≠ 0) (h : |x / y| ≤ 2 ^ 900) :
    Rounded (Fmt.double.div a b) (x / y) := by
  obtain ⟨p, hp, rfl⟩ := ha
  obtain ⟨q, hq, rfl⟩ := hb
  obtain ⟨s, e⟩ := Fmt.double.div_val hp hq (by rintro rfl; simp at hy)
  rw [e, ← Rat.cast_div]
  exact rounded_ofRat s (by rw [Rat.cast_div]; exact h)

/-- Integers up to `2^53` are exact. -/
theorem rv_int {k : Nat} (h : k ≤ 2 ^ 53) : HasValue (Fmt.double.ofRat false ((k : Int) : Rat)) k := by
  have h1 := Fmt.double.round_exact (by decide) (m := (k : Int)) (k := 0)
    (by rw [Nat.abs_cast]; exact_mod_cast h) (by decide)
  rw [pow2_zero, mul_one] at h1
  have h3 : pow2 Fmt.double.top = 2 ^ 1024 := by decide +kernel
  refine ⟨((k : Int) : Rat), ?_, by push_cast; rfl⟩
  rw [Fmt.double.ofRat_fin, h1]
  rw [h1, h3, abs_of_nonneg (by positivity)]
  have : ((k : Int) : Rat) ≤ 2 ^ 53 := by exact_mod_cast h
  refine lt_of_le_of_lt this (by norm_num)

/-! ## A step of the recurrence -/

theorem step_bound {u t k x a b r1 r2 r3 r4 r5 : ℝ} (u0 : 0 < u) (u1 : u ≤ 1e-15) (t0 : 0 < t) (t1 : t ≤ 1e-40 * u)
    (hk : 2 ≤ k) (hx : |x| ≤ 1) (ha : |a| ≤ 5 / 4) (hb : |b| ≤ 5 / 4)
    (h1 : |r1 - (2 * k - 1) * x| ≤ u * |(2 * k - 1) * x| + t)
    (h2 : |r2 - r1 * b| ≤ u * |r1 * b| + t) (h3 : |r3 - (k - 1) * a| ≤ u * |(k - 1) * a| + t)
    (h4 : |r4 - (r2 - r3)| ≤ u * |r2 - r3| + t) (h5 : |r5 - r4 / k| ≤ u * |r4 / k| + t) :
    |r1| ≤ 2.01 * k ∧ |r2| ≤ 2.6 * k ∧ |r3| ≤ 1.3 * k ∧ |r4| ≤ 4 * k ∧
      |r5 - ((2 * k - 1) * x * b - (k - 1) * a) / k| ≤ 15 * u := by
  have hk0 : 0 < k := by linarith
  have uk : 0 < u * k := by positivity
  have uk1 : u * k ≤ 1e-15 * k := mul_le_mul_of_nonneg_right u1 hk0.le
  have uk2 : 2 * u ≤ u * k := by nlinarith
  have b1 : |(2 * k - 1) * x| ≤ 2 * k - 1 := by
    rw [abs_mul, abs_of_pos (show 0 < 2 * k - 1 by linarith)]
    calc (2 * k - 1) * |x| ≤ (2 * k - 1) * 1 := mul_le_mul_of_nonneg_left hx (by linarith)
      _ = 2 * k - 1 := mul_one _
  have e1 : |r1 - (2 * k - 1) * x| ≤ 2 * (u * k) := by
    have := mul_le_mul_of_nonneg_left b1 u0.le
    linarith
  have m1 : |r1| ≤ 2.01 * k := by
    have := abs_sub_abs_le_abs_sub r1 ((2 * k - 1) * x)
    linarith
  have b2 : |r1 * b| ≤ 2.52 * k := by
    rw [abs_mul]
    calc |r1| * |b| ≤ (2.01 * k) * (5 / 4) := mul_le_mul m1 hb (abs_nonneg _) (by linarith)
      _ ≤ 2.52 * k := by linarith
  have e2 : |r2 - (2 * k - 1) * x * b| ≤ 5.02 * (u * k) + t := by
    have h6 : |r1 * b - (2 * k - 1) * x * b| ≤ 2 * (u * k) * (5 / 4) := by
      rw [← sub_mul, abs_mul]
      exact mul_le_mul e1 hb (abs_nonneg _) (by linarith)
    have h7 := abs_sub_le r2 (r1 * b) ((2 * k - 1) * x * b)
    have h8 := mul_le_mul_of_nonneg_left b2 u0.le
    linarith
  have m2 : |r2| ≤ 2.6 * k := by
    have h6 := abs_sub_abs_le_abs_sub r2 (r1 * b)
    have h8 := mul_le_mul_of_nonneg_left b2 u0.le
    linarith
  have b3 : |(k - 1) * a| ≤ 1.25 * k := by
    rw [abs_mul, abs_of_pos (show 0 < k - 1 by linarith)]
    calc (k - 1) * |a| ≤ (k - 1) * (5 / 4) := mul_le_mul_of_nonneg_left ha (by linarith)
      _ ≤ 1.25 * k := by linarith
  have e3 : |r3 - (k - 1) * a| ≤ 1.25 * (u * k) + t := by
    have := mul_le_mul_of_nonneg_left b3 u0.le
    linarith
  have m3 : |r3| ≤ 1.3 * k := by
    have := abs_sub_abs_le_abs_sub r3 ((k - 1) * a)
    linarith
  have b4 : |r2 - r3| ≤ 3.9 * k := by
    have := abs_sub r2 r3
    linarith
  have e4' : |r4 - (r2 - r3)| ≤ 3.9 * (u * k) + t := by
    have := mul_le_mul_of_nonneg_left b4 u0.le
    linarith
  have m4 : |r4| ≤ 4 * k := by
    have := abs_sub_abs_le_abs_sub r4 (r2 - r3)
    linarith
  have e4 : |r4 - ((2 * k - 1) * x * b - (k - 1) * a)| ≤ 10.2 * (u * k) := by
    have h6 := abs_sub_le r4 (r2 - r3) ((2 * k - 1) * x * b - (k - 1) * a)
    have h7 : |(r2 - r3) - ((2 * k - 1) * x * b - (k - 1) * a)| ≤ |r2 - (2 * k - 1) * x * b| + |r3 - (k - 1) * a| := by
      have := abs_sub (r2 - (2 * k - 1) * x * b) (r3 - (k - 1) * a)
      rwa [show r2 - (2 * k - 1) * x * b - (r3 - (k - 1) * a) = r2 - r3 - ((2 * k - 1) * x * b - (k - 1) * a) by ring] at this
    linarith
  have b5 : |r4 / k| ≤ 4 := by
    rw [abs_div, abs_of_pos hk0, div_le_iff₀ hk0]; exact m4
  have e5 : |r4 / k - ((2 * k - 1) * x * b - (k - 1) * a) / k| ≤ 10.2 * u := by
    rw [← sub_div, abs_div, abs_of_pos hk0, div_le_iff₀ hk0]
    linarith
  refine ⟨m1, m2, m3, m4, ?_⟩
  have h6 := abs_sub_le r5 (r4 / k) (((2 * k - 1) * x * b - (k - 1) * a) / k)
  have h7 := mul_le_mul_of_nonneg_left b5 u0.le
  linarith

/-- One step in double precision, from values of at most 5/4. -/
theorem rounded_step (powi : Fl → Int → Fl) (pf : Nat → Fl) {k : Nat} {x a b : ℝ} {X A B : Fl} (hX : HasValue X x) (hA : HasValue A a)
    (hB : HasValue B b) (hk : 2 ≤ k) (hk2 : k ≤ 2 ^ 14) (hx : |x| ≤ 1) (ha : |a| ≤ 5 / 4) (hb : |b| ≤ 5 / 4) :
    let ops := FloatOps.ieee .double powi pf
    ∃ r, HasValue (ops.div (ops.sub (ops.mul (ops.mul (ops.ofInt (2 * k - 1 : Nat)) X) B) (ops.mul (ops.ofInt (k - 1 : Nat)) A))
      (ops.ofInt k)) r ∧ |r - ((2 * k - 1) * x * b - (k - 1) * a) / k| ≤ 15 * uu := by
  intro ops
  have hkr : (2 : ℝ) ≤ k := by exact_mod_cast hk
  have hkr2 : (k : ℝ) ≤ 16384 := by
    have : k ≤ 16384 := hk2
    exact_mod_cast this
  have big : (1e6 : ℝ) ≤ 2 ^ 900 := by norm_num
  have i1 : HasValue (ops.ofInt (2 * k - 1 : Nat)) (2 * k - 1) := by
    have e : ((2 * k - 1 : Nat) : ℝ) = 2 * k - 1 := by rw [Nat.cast_sub (by omega)]; push_cast; rfl
    rw [← e]
    exact rv_int (by omega)
  have i2 : HasValue (ops.ofInt (k - 1 : Nat)) (k - 1) := by
    have e : ((k - 1 : Nat) : ℝ) = k - 1 := by rw [Nat.cast_sub (by omega)]; push_cast; rfl
    rw [← e]
    exact rv_int (by omega)
  have i3 : HasValue (ops.ofInt k) k := rv_int (by omega)
  have small : ∀ {y w c d : ℝ}, |y| ≤ c → |w| ≤ d → 0 ≤ c → c * d ≤ 1e6 → |y * w| ≤ 2 ^ 900 := by
    intro y w c d h1 h2 h3 h4
    rw [abs_mul]
    exact ((mul_le_mul h1 h2 (abs_nonneg _) h3).trans h4).trans big
  have a1 : |(2 * (k : ℝ) - 1)| ≤ 2 * k := by rw [abs_of_pos] <;> linarith
  have a2 : |((k : ℝ) - 1)| ≤ k := by rw [abs_of_pos] <;> linarith
  obtain ⟨r1, v1, e1⟩ := i1.mul hX (small a1 hx (by linarith) (by linarith))
  obtain ⟨r3, v3, e3⟩ := i2.mul hA (small a2 ha (by linarith) (by linarith))
  -- bounds, with exact further operations
  have u0 := uu_pos
  have u1 := uu_le
  have t0 := tt_pos
  have t1 := tt_le
  have ex : ∀ v : ℝ, |v - v| ≤ uu * |v| + tt := fun v => by
    rw [sub_self, abs_zero]
    have := mul_nonneg u0.le (abs_nonneg v)
    linarith
  obtain ⟨m1, -, m3, -⟩ := step_bound u0 u1 t0 t1 hkr hx ha hb e1 (ex _) e3 (ex _) (ex _)
  obtain ⟨r2, v2, e2⟩ := v1.mul hB (small m1 hb (by linarith) (by linarith))
  obtain ⟨-, m2, -⟩ := step_bound u0 u1 t0 t1 hkr hx ha hb e1 e2 e3 (ex _) (ex _)
  obtain ⟨r4, v4, e4⟩ := v2.sub v3 (by
    have := abs_sub r2 r3
    linarith)
  obtain ⟨-, -, -, m4, -⟩ := step_bound u0 u1 t0 t1 hkr hx ha hb e1 e2 e3 e4 (ex _)
  obtain ⟨r5, v5, e5⟩ := v4.div i3 (by linarith) (by
    rw [abs_div, abs_of_pos (show (0 : ℝ) < k by linarith), div_le_iff₀ (by linarith)]
    have : (2 : ℝ) ^ 900 * 1 ≤ 2 ^ 900 * k := mul_le_mul_of_nonneg_left (by linarith) (by positivity)
    linarith)
  exact ⟨r5, v5, (step_bound u0 u1 t0 t1 hkr hx ha hb e1 e2 e3 e4 e5).2.2.2.2⟩

/-- The recurrence in double precision: the error grows at most linearly, in the size of pairs. -/
theorem loop_rounded (powi : Fl → Int → Fl) (pf : Nat → Fl) {n : Nat} {x : ℝ} {X : Fl} (hX : HasValue X x) (hx : x ^ 2 < 1)
    (hn : n ≤ 2 ^ 14) (hσ : 60 * n * uu ≤ √(1 - x ^ 2)) (steps : Nat) : ∀ (j : Nat) (A B : Fl) (a b : ℝ), j + steps + 1 ≤ n →
      HasValue A a → HasValue B b → size2 x (b - P (j + 1) x) (a - P j x) ≤ (15 * uu * j) ^ 2 →
      ∃ a' b', HasValue (legendreLoop (FloatOps.ieee .double powi pf) X steps (j + 2) (A, B)).1 a' ∧
        HasValue (legendreLoop (FloatOps.ieee .double powi pf) X steps (j + 2) (A, B)).2 b' ∧
        size2 x (b' - P (j + steps + 1) x) (a' - P (j + steps) x) ≤ (15 * uu * (j + steps : Nat)) ^ 2 := by
  have u0 := uu_pos
  have hs0 : 0 < √(1 - x ^ 2) := Real.sqrt_pos.mpr (by linarith)
  have hx1 : |x| ≤ 1 := abs_le_one_iff_mul_self_le_one.mpr (by nlinarith)
  induction steps with
  | zero => intro j A B a b _ hA hB h; exact ⟨a, b, hA, hB, h⟩
  | succ steps ih =>
    intro j A B a b hj hA hB h
    have hjn : (j : ℝ) ≤ n := by exact_mod_cast (by omega : j ≤ n)
    have hR : 0 ≤ 15 * uu * (j : ℝ) := by positivity
    obtain ⟨-, hb1, ha1⟩ := size2_bounds hx.le hR h
    have quarter : ∀ {c : ℝ} (m : Nat), √(1 - x ^ 2) * |c - P m x| ≤ 15 * uu * j → |c| ≤ 5 / 4 := by
      intro c m hc
      have h1 : 15 * uu * j ≤ √(1 - x ^ 2) * (1 / 4) := by
        have := mul_le_mul_of_nonneg_left hjn u0.le
        linarith
      have h2 := le_of_mul_le_mul_left (hc.trans h1) hs0
      have h3 := abs_P_le hx m
      have h4 := abs_sub_abs_le_abs_sub c (P m x)
      linarith
    obtain ⟨r, hr, he⟩ := rounded_step powi pf (k := j + 2) hX hA hB (by omega) (by omega) hx1 (quarter _ ha1) (quarter _ hb1)
    unfold legendreLoop
    dsimp only
    have key : size2 x (r - P (j + 1 + 1) x) (b - P (j + 1) x) ≤ (15 * uu * ((j + 1 : Nat) : ℝ)) ^ 2 := by
      have hb := P_bonnet j x
      have hk0 : ((j : ℝ) + 2) ≠ 0 := by positivity
      have hj0 : (0 : ℝ) ≤ j := Nat.cast_nonneg j
      -- the error of an exact step
      obtain ⟨c, hc⟩ : ∃ c, c = ((2 * ((j : ℝ) + 2) - 1) * x * (b - P (j + 1) x) - ((j : ℝ) + 2 - 1) * (a - P j x)) / (j + 2) := ⟨_, rfl⟩
      have hck : ((j : ℝ) + 2) * c = (2 * ((j : ℝ) + 2) - 1) * x * (b - P (j + 1) x) - ((j : ℝ) + 2 - 1) * (a - P j x) := by
        rw [hc]; field_simp
      have h1 := (size2_step hx.le (by linarith) hck).1.trans h
      obtain ⟨η, hη⟩ : ∃ η, η = r - P (j + 1 + 1) x - c := ⟨_, rfl⟩
      have h2 := size2_add (η := η) hx.le hR h1
      have h3 : |η| ≤ 15 * uu := by
        have e : η = r - ((2 * (((j + 2 : Nat) : ℝ)) - 1) * x * b - (((j + 2 : Nat) : ℝ) - 1) * a) / ((j + 2 : Nat) : ℝ) := by
          rw [hη, hc]
          push_cast
          rw [show j + 1 + 1 = j + 2 from rfl]
          have : P (j + 2) x = ((2 * (j : ℝ) + 3) * (x * P (j + 1) x) - (j + 1) * P j x) / (j + 2) := by
            rw [eq_div_iff hk0]; linear_combination hb
          rw [this]
          field_simp
          ring
        rw [e]; exact he
      rw [show c + η = r - P (j + 1 + 1) x by rw [hη]; ring] at h2
      refine h2.trans ?_
      apply pow_le_pow_left₀ (by positivity)
      push_cast
      linarith
    obtain ⟨a', b', h1, h2, h3⟩ := ih (j + 1) B _ b r (by omega) hB hr key
    refine ⟨a', b', h1, h2, ?_⟩
    rw [show j + (steps + 1) = j + 1 + steps by omega]
    exact h3

/-- The two polynomials that the program computes. -/
theorem polynomial_rounded (powi : Fl → Int → Fl) (pf : Nat → Fl) {m : Nat} {x : ℝ} {X : Fl} (hX : HasValue X x) (hx : x ^ 2 < 1)
    (hn : m + 1 ≤ 2 ^ 14) (hσ : 60 * (m + 1 : Nat) * uu ≤ √(1 - x ^ 2)) :
    ∃ a b, HasValue (legendrePolynomial (FloatOps.ieee .double powi pf) (m + 1) X).1 a ∧
      HasValue (legendrePolynomial (FloatOps.ieee .double powi pf) (m + 1) X).2 b ∧
      size2 x (b - P (m + 1) x) (a - P m x) ≤ (15 * uu * m) ^ 2 := by
  unfold legendrePolynomial
  have h1 : HasValue ((FloatOps.ieee .double powi pf).ofInt 1) 1 := by
    have := rv_int (k := 1) (by norm_num)
    push_cast at this
    exact this
  obtain ⟨a, b, h2, h3, h4⟩ := loop_rounded powi pf hX hx hn hσ m 0 _ X 1 x (by omega) h1 hX (by
    rw [P_zero, P_one]; unfold size2; norm_num)
  refine ⟨a, b, h2, h3, ?_⟩
  simpa using h4

/-! ## The correction of Newton's method -/

/-- Where the correction is small, the numerator of the derivative is not. -/
theorem numerator_bound {m : Nat} {x h : ℝ} (hx : x ^ 2 < 1) (heq : P (m + 1) x = h * P' (m + 1) x)
    (hh : ((m : ℝ) + 1) * |h| ≤ 0.35 * √(1 - x ^ 2)) :
    0.94 * √(1 - x ^ 2) ≤ ((m : ℝ) + 1) * |P m x - x * P (m + 1) x| := by
  have hv : 0 < 1 - x ^ 2 := by linarith
  have hs2 : √(1 - x ^ 2) ^ 2 = 1 - x ^ 2 := Real.sq_sqrt hv.le
  have hs0 : 0 < √(1 - x ^ 2) := Real.sqrt_pos.mpr hv
  have hd := P_derivative m x
  have hs := (size2_P hx.le m).2
  rw [size2_right] at hs
  have hP : (1 - x ^ 2) * P (m + 1) x = h * (((m : ℝ) + 1) * (P m x - x * P (m + 1) x)) := by
    rw [← hd, heq]; ring
  have hn : (1 : ℝ) ≤ (m : ℝ) + 1 := by have : (0 : ℝ) ≤ m := Nat.cast_nonneg m; linarith
  generalize hW : P m x - x * P (m + 1) x = W at *
  generalize P (m + 1) x = p at *
  generalize (m : ℝ) + 1 = n at *
  rw [← hs2] at hs hP
  generalize √(1 - x ^ 2) = σ at *
  have h1 : (n * |h|) ^ 2 ≤ (0.35 * σ) ^ 2 := pow_le_pow_left₀ (by positivity) hh 2
  rw [mul_pow, mul_pow, sq_abs] at h1
  have h2 : (σ ^ 2 * p) ^ 2 ≤ 0.1225 * σ ^ 2 * W ^ 2 := by
    rw [hP]
    have := mul_le_mul_of_nonneg_right h1 (sq_nonneg W)
    nlinarith
  have h3 : σ ^ 2 * σ ^ 2 ≤ σ ^ 2 * (1.1225 * (n ^ 2 * W ^ 2)) := by
    have a := mul_le_mul_of_nonneg_left hs (sq_nonneg σ)
    have b := mul_le_mul_of_nonneg_left h2 (sq_nonneg n)
    nlinarith
  have h4 := le_of_mul_le_mul_left h3 (by positivity)
  apply le_of_sq_le_sq _ (by positivity)
  rw [mul_pow, mul_pow, sq_abs]
  nlinarith [sq_nonneg σ]

theorem numerator_rounded {u t n x σ A B W mm w v : ℝ} (u0 : 0 < u) (u1 : u ≤ 1e-15) (t0 : 0 < t) (t1 : t ≤ 1e-40 * u)
    (hn : 1 ≤ n) (σ0 : 0 < σ) (hx : |x| ≤ 1) (hA : |A| ≤ 5 / 4) (hB : |B| ≤ 5 / 4) (hW : 0.94 * σ ≤ n * |W|)
    (he : |(A - x * B) - W| ≤ 15 * u * n) (hu : n ^ 2 * u ≤ 3e-4 * σ)
    (h1 : |mm - x * B| ≤ u * |x * B| + t) (h2 : |w - (A - mm)| ≤ u * |A - mm| + t) (h3 : |v - n * w| ≤ u * |n * w| + t) :
    |x * B| ≤ 5 / 4 ∧ |A - mm| ≤ 3 ∧ |w| ≤ 4 ∧ |v - n * W| ≤ 0.0066 * (n * |W|) := by
  have b1 : |x * B| ≤ 5 / 4 := by
    rw [abs_mul]
    calc |x| * |B| ≤ 1 * (5 / 4) := mul_le_mul hx hB (abs_nonneg _) zero_le_one
      _ = 5 / 4 := one_mul _
  have e1 : |mm - x * B| ≤ 1.26 * u := by
    have := mul_le_mul_of_nonneg_left b1 u0.le
    linarith
  have b2 : |A - mm| ≤ 2.6 := by
    have a := abs_sub A mm
    have b := abs_sub_abs_le_abs_sub mm (x * B)
    linarith
  have e2' : |w - (A - mm)| ≤ 2.61 * u := by
    have := mul_le_mul_of_nonneg_left b2 u0.le
    linarith
  have e2 : |w - W| ≤ 15 * u * n + 4 * u := by
    have a := abs_sub_le w (A - mm) W
    have b := abs_sub_le (A - mm) (A - x * B) W
    have c : |A - mm - (A - x * B)| = |mm - x * B| := by rw [← abs_neg]; congr 1; ring
    linarith
  have un : u * n ≤ n ^ 2 * u := by
    have := mul_le_mul_of_nonneg_right (show n ≤ n ^ 2 by nlinarith) u0.le
    linarith
  have e3 : |w - W| * n ≤ 0.0064 * (n * |W|) := by
    have a := mul_le_mul_of_nonneg_right e2 (show 0 ≤ n by linarith)
    nlinarith
  have e4 : n * |w - W| ≤ 0.0064 * (n * |W|) := by linarith
  have e5 : |n * w - n * W| ≤ 0.0064 * (n * |W|) := by
    rw [← mul_sub, abs_mul, abs_of_pos (show 0 < n by linarith)]; exact e4
  have b4 : |n * w| ≤ 1.01 * (n * |W|) := by
    have a := abs_sub_abs_le_abs_sub (n * w) (n * W)
    have b : |n * W| = n * |W| := by rw [abs_mul, abs_of_pos (show 0 < n by linarith)]
    have c : 0 ≤ n * |W| := by positivity
    linarith
  have tn : t ≤ 1e-5 * (n * |W|) := by
    have : u ≤ 3e-4 * σ := by nlinarith
    linarith
  refine ⟨b1, by linarith, ?_, ?_⟩
  · have a := abs_sub_abs_le_abs_sub w (A - mm)
    linarith
  · have a := abs_sub_le v (n * w) (n * W)
    have b := mul_le_mul_of_nonneg_left b4 u0.le
    have c : u * (1.01 * (n * |W|)) ≤ 1e-15 * (1.01 * (n * |W|)) := mul_le_mul_of_nonneg_right u1 (by positivity)
    have d : 0 ≤ n * |W| := by positivity
    linarith

theorem denominator_rounded {u t x σ q y : ℝ} (u0 : 0 < u) (u1 : u ≤ 1e-15) (t1 : t ≤ 1e-40 * u)
    (σ2 : σ ^ 2 = 1 - x ^ 2) (hx : |x| ≤ 1) (hu : u ≤ 1e-4 * σ ^ 2)
    (h1 : |q - x * x| ≤ u * |x * x| + t) (h2 : |y - (1 - q)| ≤ u * |1 - q| + t) :
    |x * x| ≤ 1 ∧ |1 - q| ≤ 2 ∧ |y - σ ^ 2| ≤ 3.1e-4 * σ ^ 2 := by
  have b1 : |x * x| ≤ 1 := by
    rw [abs_mul]
    calc |x| * |x| ≤ 1 * 1 := mul_le_mul hx hx (abs_nonneg _) zero_le_one
      _ = 1 := one_mul _
  have e1 : |q - x * x| ≤ 1.01 * u := by
    have := mul_le_mul_of_nonneg_left b1 u0.le
    linarith
  have hxx : 0 ≤ x * x := mul_self_nonneg x
  have e1' := abs_le.mp e1
  have b1' := abs_le.mp b1
  have b2 : |1 - q| ≤ 1.1 := by
    rw [abs_le]
    constructor <;> linarith
  refine ⟨b1, by linarith, ?_⟩
  have a := abs_sub_le y (1 - q) (σ ^ 2)
  have b : |1 - q - σ ^ 2| = |q - x * x| := by rw [← abs_neg, σ2]; congr 1; ring
  have c := mul_le_mul_of_nonneg_left b2 u0.le
  linarith

theorem correction_rounded {u t n σ W P0 h B R v y f d : ℝ} (u0 : 0 < u) (u1 : u ≤ 1e-15) (t0 : 0 < t) (t1 : t ≤ 1e-40 * u)
    (hn : 1 ≤ n) (σ0 : 0 < σ) (σ1 : σ ≤ 1) (hW : 0.94 * σ ≤ n * |W|) (hP : σ ^ 2 * P0 = h * (n * W)) (hR : 15 * u ≤ R)
    (he : σ * |B - P0| ≤ R) (hv : |v - n * W| ≤ 0.0066 * (n * |W|)) (hy : |y - σ ^ 2| ≤ 3.1e-4 * σ ^ 2)
    (hf : |f - v / y| ≤ u * |v / y| + t) (hd : |d - B / f| ≤ u * |B / f| + t) :
    0.9 * σ ^ 2 ≤ y ∧ |v / y| * σ ^ 2 ≤ 1.01 * (n * |W|) ∧ 0.9 ≤ |f| ∧ |d - h| ≤ 0.02 * |h| + 1.1 * R := by
  have hS : 0 < σ ^ 2 := by positivity
  have hS1 : σ ^ 2 ≤ σ := by nlinarith
  have hy' := abs_le.mp hy
  have hy0 : 0.9996 * σ ^ 2 ≤ y := by linarith
  have hyp : 0 < y := by linarith
  have hw0 : 0 < n * |W| := by nlinarith
  have hnW : |n * W| = n * |W| := by rw [abs_mul, abs_of_pos (show 0 < n by linarith)]
  have hvy : |v / y - n * W / σ ^ 2| * σ ^ 2 ≤ 0.00692 * (n * |W|) := by
    have e : v / y - n * W / σ ^ 2 = ((v - n * W) * σ ^ 2 - n * W * (y - σ ^ 2)) / (y * σ ^ 2) := by
      field_simp
      ring
    have e2 : |(v - n * W) * σ ^ 2 - n * W * (y - σ ^ 2)| ≤ 0.00691 * (n * |W|) * σ ^ 2 := by
      refine (abs_sub _ _).trans ?_
      rw [abs_mul, abs_mul, hnW, abs_of_pos hS]
      have a := mul_le_mul_of_nonneg_right hv hS.le
      have b := mul_le_mul_of_nonneg_left hy hw0.le
      linarith
    have e3 : |v / y - n * W / σ ^ 2| * (y * σ ^ 2) ≤ 0.00691 * (n * |W|) * σ ^ 2 := by
      rw [e, abs_div, abs_of_pos (show 0 < y * σ ^ 2 by positivity), div_mul_cancel₀ _ (by positivity)]
      exact e2
    have e4 : |v / y - n * W / σ ^ 2| * (0.9996 * σ ^ 2 * σ ^ 2) ≤ 0.00691 * (n * |W|) * σ ^ 2 := by
      refine le_trans ?_ e3
      apply mul_le_mul_of_nonneg_left _ (abs_nonneg _)
      exact mul_le_mul_of_nonneg_right hy0 hS.le
    have e5 : σ ^ 2 * (0.9996 * (|v / y - n * W / σ ^ 2| * σ ^ 2)) ≤ σ ^ 2 * (0.00691 * (n * |W|)) := by linarith
    have e6 := le_of_mul_le_mul_left e5 hS
    linarith
  -- the derivative
  obtain ⟨F, hF⟩ : ∃ F, F = n * W / σ ^ 2 := ⟨_, rfl⟩
  have hFS : |F| * σ ^ 2 = n * |W| := by
    rw [hF, abs_div, hnW, abs_of_pos hS, div_mul_cancel₀ _ hS.ne']
  have hF1 : 0.94 ≤ |F| := by
    have : σ ^ 2 * 0.94 ≤ σ ^ 2 * |F| := by linarith
    exact le_of_mul_le_mul_left this hS
  have hF0 : 0 < |F| := by linarith
  have hFne : F ≠ 0 := abs_pos.mp hF0
  have hvy2 : |v / y - F| ≤ 0.00692 * |F| := by
    rw [← hF] at hvy
    have : σ ^ 2 * |v / y - F| ≤ σ ^ 2 * (0.00692 * |F|) := by linarith
    exact le_of_mul_le_mul_left this hS
  have hvy3 : |v / y| ≤ 1.007 * |F| := by
    have := abs_sub_abs_le_abs_sub (v / y) F
    linarith
  have hfF : |f - F| ≤ 0.007 * |F| := by
    have a := abs_sub_le f (v / y) F
    have b := mul_le_mul_of_nonneg_left hvy3 u0.le
    have c : u * (1.007 * |F|) ≤ 1e-15 * (1.007 * |F|) := mul_le_mul_of_nonneg_right u1 (by positivity)
    linarith
  have hf1 : 0.993 * |F| ≤ |f| := by
    have := abs_sub_abs_le_abs_sub F f
    rw [abs_sub_comm] at this
    linarith
  have hf0 : 0 < |f| := by linarith
  have hfne : f ≠ 0 := abs_pos.mp hf0
  -- the quotient
  have hPF : P0 = h * F := by
    have : σ ^ 2 * P0 = σ ^ 2 * (h * F) := by
      rw [hP, hF]; field_simp
    exact mul_left_cancel₀ hS.ne' this
  have hBP : |B - P0| ≤ 1.0639 * R * |F| := by
    have a : σ * |B - P0| ≤ σ * (1.0639 * R * |F|) := by
      refine he.trans ?_
      have b : 0.94 * σ ≤ |F| * σ ^ 2 := by linarith
      have c : σ * 0.94 ≤ σ * (|F| * σ) := by linarith
      have d := le_of_mul_le_mul_left c σ0
      have e := mul_le_mul_of_nonneg_left d (show 0 ≤ 1.0639 * R by linarith)
      linarith
    exact le_of_mul_le_mul_left a σ0
  have hq : |B / f - h| ≤ 0.0071 * |h| + 1.072 * R := by
    have e : (B / f - h) * f = (B - P0) - h * (f - F) := by
      rw [hPF]; field_simp; ring
    have e1 : |B / f - h| * |f| ≤ 1.0639 * R * |F| + |h| * (0.007 * |F|) := by
      rw [← abs_mul, e]
      refine (abs_sub _ _).trans ?_
      rw [abs_mul]
      have := mul_le_mul_of_nonneg_left hfF (abs_nonneg h)
      linarith
    have e2 : |B / f - h| * (0.993 * |F|) ≤ 1.0639 * R * |F| + |h| * (0.007 * |F|) :=
      (mul_le_mul_of_nonneg_left hf1 (abs_nonneg _)).trans e1
    have e3 : |F| * (0.993 * |B / f - h|) ≤ |F| * (1.0639 * R + 0.007 * |h|) := by linarith
    have e4 := le_of_mul_le_mul_left e3 hF0
    have := abs_nonneg h
    linarith
  refine ⟨by linarith, ?_, by linarith, ?_⟩
  · have := mul_le_mul_of_nonneg_right hvy3 hS.le
    have : 0 < |F| * σ ^ 2 := by positivity
    linarith
  · have a := abs_sub_le d (B / f) h
    have b : |B / f| ≤ 1.01 * |h| + 1.08 * R := by
      have := abs_sub_abs_le_abs_sub (B / f) h
      have := abs_nonneg h
      linarith
    have c := mul_le_mul_of_nonneg_left b u0.le
    have c2 : u * (1.01 * |h| + 1.08 * R) ≤ 1e-15 * (1.01 * |h| + 1.08 * R) :=
      mul_le_mul_of_nonneg_right u1 (by have := abs_nonneg h; linarith)
    have := abs_nonneg h
    linarith

/-- The numbers of a point near a zero. -/
theorem AtZero.numbers {n : Nat} {z s x : ℝ} (H : AtZero n z s) (hn : 2 ≤ n) (hn2 : n ≤ 2 ^ 14) (hx : NN n * |x - z| ≤ 0.2 * s) :
    x ^ 2 < 1 ∧ |x| ≤ 1 ∧ s ≤ 1.1673 * √(1 - x ^ 2) ∧ 60 * n * uu ≤ √(1 - x ^ 2) ∧ (n : ℝ) ^ 2 * uu ≤ 3e-4 * √(1 - x ^ 2) ∧
      uu ≤ 1e-4 * √(1 - x ^ 2) ^ 2 ∧ (n : ℝ) * NN n * uu ≤ 1.6e-8 * s * NN n := by
  have s0 := H.s0
  have hN := NN_pos n
  obtain ⟨hq, hx1, -⟩ := H.width (hx.trans (by linarith))
  have hv : 0 < 1 - x ^ 2 := by linarith
  have hσ2 : √(1 - x ^ 2) ^ 2 = 1 - x ^ 2 := Real.sq_sqrt hv.le
  have hσ0 : 0 < √(1 - x ^ 2) := Real.sqrt_pos.mpr hv
  have hsσ : s ≤ 1.1673 * √(1 - x ^ 2) := by
    apply le_of_sq_le_sq _ (by positivity)
    rw [mul_pow, hσ2]
    have : 0 < s ^ 2 := by positivity
    linarith
  generalize √(1 - x ^ 2) = σ at *
  have hw : 1.713 ≤ NN n * σ := by
    have := mul_le_mul_of_nonneg_left hsσ hN.le
    have := H.wide
    linarith
  have hnr : (2 : ℝ) ≤ n := by exact_mod_cast hn
  have hnr2 : (n : ℝ) ≤ 16384 := by
    have : n ≤ 16384 := hn2
    exact_mod_cast this
  have hNe : NN n = n + 1 / 2 := rfl
  have hNu : NN n ≤ 16384.5 := by rw [hNe]; linarith
  have u0 := uu_pos
  have hu : uu = 1 / 9007199254740992 := by unfold uu; norm_num
  have hx1' : |x| ≤ 1 := abs_le_one_iff_mul_self_le_one.mpr (by nlinarith)
  have hn2r : (n : ℝ) ^ 2 ≤ 268435456 := by nlinarith
  refine ⟨hx1, hx1', hsσ, ?_, ?_, ?_, ?_⟩
  · have h1 : 60 * n * uu ≤ 60 * 16384 * uu := by nlinarith
    have h2 : 1.713 ≤ 16384.5 * σ := by nlinarith
    rw [hu] at *
    linarith
  · have h1 : (n : ℝ) ^ 2 * uu ≤ 268435456 * uu := mul_le_mul_of_nonneg_right hn2r u0.le
    have h2 : 1.713 ≤ 16384.5 * σ := by nlinarith
    rw [hu] at *
    linarith
  · have h2 : 1.713 ≤ 16384.5 * σ := by nlinarith
    have h3 : 1e-4 ≤ σ := by linarith
    have h4 : 1e-4 * 1e-4 ≤ σ ^ 2 := by nlinarith
    rw [hu]
    linarith
  · have h1 : (n : ℝ) * uu ≤ 16384 * uu := mul_le_mul_of_nonneg_right hnr2 u0.le
    have h2 : 2 ≤ 16384.5 * s := by nlinarith [H.wide]
    have h3 : (n : ℝ) * uu ≤ 1.6e-8 * s := by
      rw [hu] at *
      linarith
    have := mul_le_mul_of_nonneg_right h3 hN.le
    linarith

set_option maxHeartbeats 1000000 in
/-- The correction computed in double precision near a zero. -/
theorem step_rounded (powi : Fl → Int → Fl) (pf : Nat → Fl) {n : Nat} {z s x : ℝ} {X : Fl} (H : AtZero n z s) (hn : 2 ≤ n)
    (hn2 : n ≤ 2 ^ 14) (hX : HasValue X x) (hx : NN n * |x - z| ≤ 0.2 * s) :
    ∃ d, HasValue (legendreStep (FloatOps.ieee .double powi pf) n X) d ∧
      |d - P n x / P' n x| ≤ 0.02 * |P n x / P' n x| + 1.1 * (15 * uu * n) := by
  obtain ⟨hx1, hx1', hsσ, c1, c2, c3, -⟩ := H.numbers hn hn2 hx
  obtain ⟨hne, -, hh, -⟩ := H.newton (by omega) hx
  have hN := NN_pos n
  have u0 := uu_pos
  have u1 := uu_le
  have t0 := tt_pos
  have t1 := tt_le
  have hv : 0 < 1 - x ^ 2 := by linarith
  have hσ2 : √(1 - x ^ 2) ^ 2 = 1 - x ^ 2 := Real.sq_sqrt hv.le
  have hσ0 : 0 < √(1 - x ^ 2) := Real.sqrt_pos.mpr hv
  have hσ1 : √(1 - x ^ 2) ≤ 1 := Real.sqrt_le_one.mpr (by nlinarith [sq_nonneg x])
  obtain ⟨m, rfl⟩ : ∃ m, n = m + 1 := ⟨n - 1, by omega⟩
  obtain ⟨h, heh⟩ : ∃ h, h = P (m + 1) x / P' (m + 1) x := ⟨_, rfl⟩
  rw [← heh] at hh ⊢
  have heq : P (m + 1) x = h * P' (m + 1) x := by rw [heh, div_mul_cancel₀ _ hne]
  have hcast : ((m + 1 : Nat) : ℝ) = (m : ℝ) + 1 := by push_cast; rfl
  have hm0 : (0 : ℝ) ≤ m := Nat.cast_nonneg m
  have hsmall : ((m : ℝ) + 1) * |h| ≤ 0.35 * √(1 - x ^ 2) := by
    have a : ((m : ℝ) + 1) * |h| ≤ NN (m + 1) * |h| := by
      apply mul_le_mul_of_nonneg_right _ (abs_nonneg h)
      unfold NN; push_cast; linarith
    have b := mul_le_mul_of_nonneg_left hh hN.le
    linarith
  have hW := numerator_bound hx1 heq hsmall
  have hder := P_derivative m x
  obtain ⟨a, b, ha, hb, hs⟩ := polynomial_rounded powi pf hX hx1 hn2 c1
  obtain ⟨k1, k2, k3⟩ := size2_bounds hx1.le (by positivity) hs
  have hR : 15 * uu * (m : ℝ) ≤ 15 * uu * ((m : ℝ) + 1) :=
    mul_le_mul_of_nonneg_left (by linarith only) (by linarith only [u0])
  rw [hcast] at c1 c2 ⊢
  have quarter : ∀ {c : ℝ} (j : Nat), √(1 - x ^ 2) * |c - P j x| ≤ 15 * uu * m → |c| ≤ 5 / 4 := by
    intro c j hc
    have h1 : 15 * uu * m ≤ √(1 - x ^ 2) * (1 / 4) := by linarith
    have h2 := le_of_mul_le_mul_left (hc.trans h1) hσ0
    have h3 := abs_P_le hx1 j
    have h4 := abs_sub_abs_le_abs_sub c (P j x)
    linarith
  have qa := quarter _ k3
  have qb := quarter _ k2
  have hP : √(1 - x ^ 2) ^ 2 * P (m + 1) x = h * (((m : ℝ) + 1) * (P m x - x * P (m + 1) x)) := by
    rw [hσ2, ← hder, heq]; ring
  have he : |(a - x * b) - (P m x - x * P (m + 1) x)| ≤ 15 * uu * ((m : ℝ) + 1) := by
    rw [show (a - x * b) - (P m x - x * P (m + 1) x) = a - P m x - x * (b - P (m + 1) x) by ring]
    exact k1.trans hR
  have he2 := k2.trans hR
  have hn1 : 1 ≤ (m : ℝ) + 1 := by linarith
  have hnu : (m : ℝ) + 1 ≤ 16384 := by
    have : m + 1 ≤ 16384 := hn2
    exact_mod_cast this
  generalize √(1 - x ^ 2) = σ at *
  generalize P m x - x * P (m + 1) x = W at *
  have ex : ∀ v : ℝ, |v - v| ≤ uu * |v| + tt := fun v => by
    rw [sub_self, abs_zero]
    have := mul_nonneg u0.le (abs_nonneg v)
    linarith
  have big : (1e20 : ℝ) ≤ 2 ^ 900 := by norm_num
  -- the operations
  unfold legendreStep
  dsimp only
  generalize legendrePolynomial (FloatOps.ieee .double powi pf) (m + 1) X = p at *
  obtain ⟨A, B⟩ := p
  dsimp only at *
  unfold legendreDerivative
  have i1 : HasValue ((FloatOps.ieee .double powi pf).ofInt 1) 1 := by
    have := rv_int (k := 1) (by norm_num)
    push_cast at this
    exact this
  have i2 : HasValue ((FloatOps.ieee .double powi pf).ofInt (m + 1 : Nat)) ((m : ℝ) + 1) := by
    rw [← hcast]; exact rv_int (by omega)
  obtain ⟨w1, -⟩ := numerator_rounded u0 u1 t0 t1 hn1 hσ0 hx1' qa qb hW he c2 (ex _) (ex _) (ex _)
  obtain ⟨mm, vm, em⟩ := hX.mul hb (by linarith)
  obtain ⟨-, w2, -⟩ := numerator_rounded u0 u1 t0 t1 hn1 hσ0 hx1' qa qb hW he c2 em (ex _) (ex _)
  obtain ⟨w, vw, ew⟩ := ha.sub vm (by linarith)
  obtain ⟨-, -, w3, -⟩ := numerator_rounded u0 u1 t0 t1 hn1 hσ0 hx1' qa qb hW he c2 em ew (ex _)
  obtain ⟨v, vv, ev⟩ := i2.mul vw (by
    rw [abs_mul, abs_of_pos (show 0 < (m : ℝ) + 1 by linarith)]
    have := mul_le_mul hnu w3 (abs_nonneg _) (by norm_num)
    linarith)
  obtain ⟨-, -, -, w4⟩ := numerator_rounded u0 u1 t0 t1 hn1 hσ0 hx1' qa qb hW he c2 em ew ev
  obtain ⟨y1, -⟩ := denominator_rounded u0 u1 t1 hσ2 hx1' c3 (ex _) (ex _)
  obtain ⟨q, vq, eq⟩ := hX.mul hX (by linarith)
  obtain ⟨-, y2, -⟩ := denominator_rounded u0 u1 t1 hσ2 hx1' c3 eq (ex _)
  obtain ⟨y, vy, ey⟩ := i1.sub vq (by linarith)
  obtain ⟨-, -, y3⟩ := denominator_rounded u0 u1 t1 hσ2 hx1' c3 eq ey
  have hRR : 15 * uu ≤ 15 * uu * ((m : ℝ) + 1) := le_mul_of_one_le_right (by linarith only [u0]) hn1
  obtain ⟨z1, z2, -⟩ := correction_rounded u0 u1 t0 t1 hn1 hσ0 hσ1 hW hP hRR he2 w4 y3 (ex _) (ex _)
  have hS0 : 0 < σ ^ 2 := by positivity
  have hvb : |v / y| ≤ 2 ^ 900 := by
    have h1 : |v| ≤ 1e6 := by
      have e1 : |((m : ℝ) + 1) * w| ≤ 65536 := by
        rw [abs_mul, abs_of_pos (show 0 < (m : ℝ) + 1 by linarith)]
        have := mul_le_mul hnu w3 (abs_nonneg _) (by norm_num)
        linarith
      have e2 := abs_sub_abs_le_abs_sub v (((m : ℝ) + 1) * w)
      have e3 := mul_le_mul_of_nonneg_left e1 u0.le
      linarith
    have hyp : 0 < y := by linarith
    have hy1 : 1e-13 ≤ y := by
      have : uu = 1 / 9007199254740992 := by unfold uu; norm_num
      linarith
    rw [abs_div, abs_of_pos hyp, div_le_iff₀ hyp]
    have := mul_le_mul_of_nonneg_left hy1 (show (0 : ℝ) ≤ 2 ^ 900 by positivity)
    linarith
  obtain ⟨f, vf, ef⟩ := vv.div vy (by intro h0; rw [h0] at z1; linarith) hvb
  obtain ⟨-, -, z3, -⟩ := correction_rounded u0 u1 t0 t1 hn1 hσ0 hσ1 hW hP hRR he2 w4 y3 ef (ex _)
  obtain ⟨d, vd, ed⟩ := hb.div vf (by intro h0; rw [h0] at z3; norm_num at z3) (by
    rw [abs_div, div_le_iff₀ (by linarith)]
    have := mul_le_mul_of_nonneg_left z3 (show (0 : ℝ) ≤ 2 ^ 900 by positivity)
    linarith)
  exact ⟨d, vd, (correction_rounded u0 u1 t0 t1 hn1 hσ0 hσ1 hW hP hRR he2 w4 y3 ef ed).2.2.2⟩

end Grib.Spec
