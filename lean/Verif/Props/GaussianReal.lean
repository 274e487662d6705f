import Verif.Props.Gaussian
import Verif.Spec.GaussianLatitudes
import Verif.Lemmas.LegendreGuess

/-! # C65: the Gaussian latitudes are the Gaussian latitudes

The computation in exact real arithmetic, that is, the algorithm without its rounding errors. -/

namespace Grib.Props

open Grib.Model Grib.Spec

variable {ε F : Type}

/-- Exact arithmetic with real numbers; `none` is "not a (finite) number". -/
noncomputable def realOps : FloatOps (Option ℝ) where
  nan := none
  ofBits b := (f32Value b).map fun q => (q : ℝ)
  ofInt i := some i
  add x y := x.bind fun a => y.bind fun b => some (a + b)
  sub x y := x.bind fun a => y.bind fun b => some (a - b)
  mul x y := x.bind fun a => y.bind fun b => some (a * b)
  div x y := x.bind fun a => y.bind fun b => open Classical in if b = 0 then none else some (a / b)
  powi x n := x.map (· ^ n)
  lt x y := x.any fun a => y.any fun b => open Classical in decide (a < b)
  lit m e := some (m * 10 ^ e)
  powf10 n := some (10 ^ n)

/-- The functions of the standard library without rounding errors; the tolerance is that of the code, `f64::EPSILON = 2^-52`. -/
noncomputable def realGauss (toF32 : Option ℝ → F) : GaussOps (Option ℝ) F where
  ops := realOps
  pi := some Real.pi
  cos x := x.map Real.cos
  asin x := x.map Real.arcsin
  toDegrees x := x.map (· * (180 / Real.pi))
  small x := x.any fun d => open Classical in decide (|d| < 2 ^ (-52 : ℤ))
  toF32 := toF32

/-! ## The Newton step -/

theorem legendreLoop_real (x : ℝ) (steps n : Nat) :
    legendreLoop realOps (some x) steps (n + 2) (some (P n x), some (P (n + 1) x)) =
      (some (P (n + steps) x), some (P (n + steps + 1) x)) := by
  induction steps generalizing n with
  | zero => rfl
  | succ s ih =>
    unfold legendreLoop
    dsimp only
    have hk : ((n : ℝ) + 2) ≠ 0 := by positivity
    have e : realOps.div (realOps.sub (realOps.mul (realOps.mul (realOps.ofInt (2 * (n + 2) - 1 : Nat)) (some x))
        (some (P (n + 1) x))) (realOps.mul (realOps.ofInt (n + 2 - 1 : Nat)) (some (P n x))))
        (realOps.ofInt (n + 2 : Nat)) = some (P (n + 2) x) := by
      have hb := P_bonnet n x
      have h1 : (2 * (n + 2) - 1 : Nat) = 2 * n + 3 := by omega
      have h2 : (n + 2 - 1 : Nat) = n + 1 := by omega
      rw [h1, h2]
      simp only [realOps, Option.bind_some, Int.cast_natCast]
      push_cast
      rw [if_neg hk]
      congr 1
      rw [div_eq_iff hk]
      linear_combination -hb
    rw [e, ih (n + 1)]
    rw [show n + 1 + s = n + (s + 1) by omega]

theorem legendreStep_real {n : Nat} {x : ℝ} (hn : 1 ≤ n) (hx : x ^ 2 ≠ 1) (hd : P' n x ≠ 0) :
    legendreStep realOps n (some x) = some (P n x / P' n x) := by
  obtain ⟨m, rfl⟩ : ∃ m, n = m + 1 := ⟨n - 1, by omega⟩
  have hp : legendrePolynomial realOps (m + 1) (some x) = (some (P m x), some (P (m + 1) x)) := by
    unfold legendrePolynomial
    have := legendreLoop_real x m 0
    rw [P_zero, P_one] at this
    rw [Nat.add_sub_cancel]
    rw [show realOps.ofInt 1 = some (1 : ℝ) by simp [realOps]]
    simpa using this
  have h1 : (1 - x * x : ℝ) ≠ 0 := by
    intro h
    apply hx
    linear_combination -h
  have hder := P_derivative m x
  have hdv : legendreDerivative realOps (m + 1) (some x) (some (P m x)) (some (P (m + 1) x)) = some (P' (m + 1) x) := by
    unfold legendreDerivative
    simp only [realOps, Option.bind_some, Int.cast_natCast, Int.cast_one]
    rw [if_neg h1]
    congr 1
    rw [div_eq_iff h1]
    push_cast
    linear_combination -hder
  unfold legendreStep
  rw [hp]
  dsimp only
  rw [hdv]
  simp only [realOps, Option.bind_some]
  rw [if_neg hd]

theorem small_real (toF32 : Option ℝ → F) (d : ℝ) : (realGauss toF32).small (some d) = true ↔ |d| < 2 ^ (-52 : ℤ) := by
  simp [realGauss]

/-! ## The search for a root -/

/-- What a search finds: `root` after `evals` evaluations. -/
structure Found (n : Nat) (z root : ℝ) : Prop where
  close : |root - z| ≤ ((n : ℝ) + 1) ^ 2 * 2 ^ (-102 : ℤ)
  inside : -1 < root ∧ root < 1
  angle : |Real.arcsin root - Real.arcsin z| ≤ ((n : ℝ) + 1) ^ 3 * 2 ^ (-102 : ℤ)

theorem search_real {n i : Nat} (hn : 2 ≤ n) (hi : i < n) (toF32 : Option ℝ → F) :
    ∃ root m, findRoot (realGauss toF32).ops.sub (realGauss toF32).small (some (guess n i)) (legendreStep (realGauss toF32).ops n) =
      (some (some root), m) ∧ m ≤ 6 ∧ Found n (zero n i) root := by
  obtain ⟨h, hN, hz⟩ := guess_near n hn hi
  have h0 := zero_is_zero n hi
  have hnear := iter_near n hN hz h0
  obtain ⟨hfive, hclose⟩ := iter_converges n hN hz h0
  have hstep : ∀ k, legendreStep (realGauss toF32).ops n (some (iter n (guess n i) k)) =
      some (P n (iter n (guess n i) k) / P' n (iter n (guess n i) k)) := fun k =>
    legendreStep_real (by omega) (by have := (hnear k).1.hx; exact this.ne) (hnear k).1.hd
  have hnewton : ∀ k, newton (realGauss toF32).ops.sub (legendreStep (realGauss toF32).ops n) (some (guess n i)) k =
      some (iter n (guess n i) k) := by
    intro k
    induction k with
    | zero => rfl
    | succ k ih =>
      unfold newton
      rw [ih, hstep]
      rfl
  have hsmall : ∀ k, (realGauss toF32).small (legendreStep (realGauss toF32).ops n
      (newton (realGauss toF32).ops.sub (legendreStep (realGauss toF32).ops n) (some (guess n i)) k)) = true ↔
      |P n (iter n (guess n i) k) / P' n (iter n (guess n i) k)| < 2 ^ (-52 : ℤ) := by
    intro k
    rw [hnewton, hstep, small_real]
  classical
  have hex : ∃ k, |P n (iter n (guess n i) k) / P' n (iter n (guess n i) k)| < 2 ^ (-52 : ℤ) := ⟨5, hfive⟩
  have hspec := Nat.find_spec hex
  have hle : Nat.find hex ≤ 5 := Nat.find_min' hex hfive
  have hmin : ∀ m < Nat.find hex, ¬ |P n (iter n (guess n i) m) / P' n (iter n (guess n i) m)| < 2 ^ (-52 : ℤ) :=
    fun m hm => Nat.find_min hex hm
  generalize Nat.find hex = k at *
  refine ⟨iter n (guess n i) (k + 1), k + 1, ?_, by omega, ?_⟩
  · have := (findRootLoop_spec (realGauss toF32).ops.sub (realGauss toF32).small (legendreStep (realGauss toF32).ops n) maxIter
      (some (guess n i))).2.1 k (by unfold maxIter; omega) ((hsmall k).mpr hspec)
      (fun m hm => by
        have := hmin m hm
        rw [← hsmall] at this
        exact Bool.eq_false_iff.mpr this)
    unfold findRoot
    rw [this, hnewton]
  · have hc := hclose k hspec
    obtain ⟨hn1, hz1, -⟩ := hnear (k + 1)
    refine ⟨by rw [abs_sub_comm]; exact hc, ?_, ?_⟩
    · have := hn1.hx
      exact abs_lt.mp (by nlinarith [sq_abs (iter n (guess n i) (k + 1)), abs_nonneg (iter n (guess n i) (k + 1))])
    · refine (arcsin_near n hn1 hz1).trans ?_
      have hNp := NN_pos n
      have hNle : NN n ≤ n + 1 := by unfold NN; linarith
      have hp : (0:ℝ) < 2 ^ (-102 : ℤ) := by positivity
      generalize (2:ℝ) ^ (-102 : ℤ) = t at *
      have hq : (0:ℝ) ≤ n := Nat.cast_nonneg n
      calc 0.67 * NN n * |zero n i - iter n (guess n i) (k + 1)|
          ≤ 1 * ((n : ℝ) + 1) * (((n : ℝ) + 1) ^ 2 * t) := by
            apply mul_le_mul _ hc (abs_nonneg _) (by positivity)
            linarith
        _ = ((n : ℝ) + 1) ^ 3 * t := by ring

/-- The guess as the code computes it. -/
theorem guess_real {n i : Nat} (hn : 1 ≤ n) (toF32 : Option ℝ → F) :
    (realGauss toF32).ops.mul ((realGauss toF32).ops.add ((realGauss toF32).ops.sub ((realGauss toF32).ops.lit 1 0)
        ((realGauss toF32).ops.div ((realGauss toF32).ops.lit 1 0) ((realGauss toF32).ops.ofInt (8 * n * n : Nat))))
      ((realGauss toF32).ops.div ((realGauss toF32).ops.lit 1 0) ((realGauss toF32).ops.ofInt (8 * n * n * n : Nat))))
      ((realGauss toF32).cos ((realGauss toF32).ops.div ((realGauss toF32).ops.mul ((realGauss toF32).ops.ofInt (4 * i + 3 : Nat))
        (realGauss toF32).pi) ((realGauss toF32).ops.ofInt (4 * n + 2 : Nat)))) = some (guess n i) := by
  have h1 : (n : ℝ) ≠ 0 := by
    have : 0 < n := by omega
    positivity
  simp only [realGauss, realOps, Option.bind_some, Int.cast_natCast, Int.cast_one]
  push_cast
  rw [if_neg (by positivity), if_neg (by positivity), if_neg (by positivity)]
  simp only [Option.bind_some, Option.map_some]
  congr 1
  unfold guess shrink guessAngle NN
  congr 1
  · norm_num; ring
  · congr 1
    rw [div_eq_div_iff (by positivity) (by positivity)]
    ring

theorem search_one (toF32 : Option ℝ → F) :
    findRoot (realGauss toF32).ops.sub (realGauss toF32).small (some (guess 1 0)) (legendreStep (realGauss toF32).ops 1) =
      (some (some 0), 1) ∧ Found 1 (zero 1 0) 0 := by
  have hg : guess 1 0 = 0 := by
    unfold guess guessAngle NN
    have : (((0 : ℕ) : ℝ) + 3 / 4) * Real.pi / (((1 : ℕ) : ℝ) + 1 / 2) = Real.pi / 2 := by push_cast; ring
    rw [this, Real.cos_pi_div_two, mul_zero]
  have hz : zero 1 0 = 0 := by
    have := zero_is_zero 1 (show 0 < 1 by omega)
    rwa [P_one] at this
  have hP' : P' 1 0 = 1 := by simp [P', legendreR_one]
  have hs : legendreStep (realGauss toF32).ops 1 (some 0) = some 0 := by
    have := legendreStep_real (n := 1) (x := 0) le_rfl (by norm_num) (by rw [hP']; norm_num)
    rw [P_one, hP', zero_div] at this
    exact this
  constructor
  · unfold findRoot findRootLoop
    rw [hg, hs]
    have : (realGauss toF32).small (some 0) = true := by rw [small_real]; norm_num
    simp only [this, if_true]
    simp [realGauss, realOps]
  · rw [hz]
    exact ⟨by simp, by norm_num, by simp⟩

theorem search_any {n i : Nat} (hi : i < n) (toF32 : Option ℝ → F) :
    ∃ root m, findRoot (realGauss toF32).ops.sub (realGauss toF32).small (some (guess n i)) (legendreStep (realGauss toF32).ops n) =
      (some (some root), m) ∧ m ≤ 6 ∧ Found n (zero n i) root := by
  rcases Nat.lt_or_ge n 2 with h | h
  · have : n = 1 := by omega
    subst this
    have : i = 0 := by omega
    subst this
    exact ⟨0, 1, (search_one toF32).1, by omega, (search_one toF32).2⟩
  · exact search_real h hi toF32

/-! ## The zeros -/

theorem aeval_legendre (n : Nat) (x : ℝ) : Polynomial.aeval x (legendre n) = P n x := by
  unfold Spec.P legendreR
  rw [Polynomial.eval_map_algebraMap]

theorem zeros_zero (n : Nat) : LegendreZeros n (zero n) :=
  ⟨fun _ _ h1 h2 => zero_lt n h1 h2, fun x => by rw [aeval_legendre]; exact P_eq_zero_iff n x⟩

theorem zeros_unique {n : Nat} {z w : Nat → ℝ} (hz : LegendreZeros n z) (hw : LegendreZeros n w) : ∀ i < n, z i = w i := by
  have half : ∀ {z w : Nat → ℝ}, LegendreZeros n z → LegendreZeros n w → ∀ i < n, (∀ j < i, z j = w j) → z i ≤ w i := by
    intro z w hz hw i hi hj
    obtain ⟨k, hk, he⟩ := (hw.zeros (z i)).mp ((hz.zeros (z i)).mpr ⟨i, hi, rfl⟩)
    rcases Nat.lt_trichotomy k i with h | h | h
    · have h1 := hz.decreasing k i h hi
      rw [hj k h, he] at h1
      exact absurd h1 (lt_irrefl _)
    · rw [← he, h]
    · rw [← he]
      exact (hw.decreasing i k h hk).le
  intro i
  induction i using Nat.strongRecOn with
  | _ i ih =>
    intro hi
    exact le_antisymm (half hz hw i hi fun j hj => ih j hj (by omega))
      (half hw hz i hi fun j hj => (ih j hj (by omega)).symm)

/-- C65. The Legendre polynomial of degree `n` has `n` real zeros, all between -1 and 1. -/
theorem C65_zeros (n : Nat) : ∃ z, LegendreZeros n z ∧ ∀ i < n, -1 < z i ∧ z i < 1 :=
  ⟨zero n, zeros_zero n, fun _ hi => zero_mem n hi⟩

/-- C65. In real arithmetic every root search converges, with at most 6 of the 11 evaluations allowed, and search number `i`
finds the `i`-th largest zero of the polynomial (not another one), with an error of at most `(n+1)²·2^-102`. -/
theorem C65_search (n i : Nat) (hi : i < n) (z : Nat → ℝ) (hz : LegendreZeros n z) (toF32 : Option ℝ → F) :
    ∃ root m, findRoot (realGauss toF32).ops.sub (realGauss toF32).small
        (some ((1 - 1 / (8 * (n : ℝ) ^ 2) + 1 / (8 * (n : ℝ) ^ 3)) * Real.cos ((4 * i + 3) * Real.pi / (4 * n + 2))))
        (legendreStep (realGauss toF32).ops n) = (some (some root), m) ∧ m ≤ 6 ∧
      |root - z i| ≤ ((n : ℝ) + 1) ^ 2 * 2 ^ (-102 : ℤ) := by
  obtain ⟨root, m, h1, h2, h3⟩ := search_any hi toF32
  have hg : guess n i = (1 - 1 / (8 * (n : ℝ) ^ 2) + 1 / (8 * (n : ℝ) ^ 3)) * Real.cos ((4 * i + 3) * Real.pi / (4 * n + 2)) := by
    unfold guess shrink guessAngle NN
    congr 2
    rw [div_eq_div_iff (by positivity) (by positivity)]
    ring
  rw [hg] at h1
  refine ⟨root, m, h1, h2, ?_⟩
  rw [zeros_unique hz (zeros_zero n) i hi]
  exact h3.close

theorem allSome_map_some {α : Type} (xs : List α) : allSome (xs.map some) = some xs := by
  induction xs with
  | nil => rfl
  | cons x xs ih => rw [List.map_cons]; unfold allSome; rw [ih]; rfl

theorem legendreRoots_real {n : Nat} (hn : n < 1321123) (toF32 : Option ℝ → F) : ∃ roots : Nat → ℝ,
    legendreRoots (ε := ε) (realGauss toF32) n = .ok ((List.range n).map fun i => some (some (roots i))) ∧
      ∀ i < n, Found n (zero n i) (roots i) := by
  classical
  choose! roots m h1 h2 h3 using fun i (hi : i < n) => search_any hi toF32
  refine ⟨roots, ?_, h3⟩
  unfold legendreRoots
  have hb : n * n * n ≤ 1321122 * 1321122 * 1321122 := Nat.mul_le_mul (Nat.mul_le_mul (by omega) (by omega)) (by omega)
  have e : 8 * n * n * n = 8 * (n * n * n) := by rw [Nat.mul_assoc 8, Nat.mul_assoc 8]
  rw [if_neg (by rw [e]; unfold USIZE; omega)]
  dsimp only
  congr 1
  apply List.map_congr_left
  intro i hi
  rw [List.mem_range] at hi
  rw [guess_real (by omega), h1 i hi]

/-- C65. In real arithmetic the latitudes of a Gaussian grid are computed for every number of rows up to 1321122: there are
`n` of them, strictly decreasing from north to south, and the `i`-th one is the Gaussian latitude (whose sine is the `i`-th
largest zero of the Legendre polynomial of degree `n`), with an error of at most `(n+1)³·2^-96` degrees. -/
theorem C65_latitudes (n : Nat) (hn : n < 1321123) (z : Nat → ℝ) (hz : LegendreZeros n z) (toF32 : Option ℝ → F) :
    ∃ lats : List ℝ, gaussianLatitudes (realGauss toF32) n = .ok (lats.map some) ∧ lats.length = n ∧
      lats.Pairwise (· > ·) ∧
      ∀ i (hi : i < lats.length), |lats[i] - latitudeOf (z i)| ≤ ((n : ℝ) + 1) ^ 3 * 2 ^ (-96 : ℤ) := by
  obtain ⟨roots, hr, hf⟩ := legendreRoots_real (ε := GribError) hn toF32
  have hpi := Real.pi_pos
  have hp2 : 3.1415 < Real.pi := Real.pi_gt_d4
  refine ⟨(List.range n).map fun i => latitudeOf (roots i), ?_, by simp, ?_, ?_⟩
  · unfold gaussianLatitudes
    rw [hr, Outcome.bind_ok]
    rw [List.map_map]
    have : ((fun x : Option (Option ℝ) => x.map fun i => (realGauss toF32).toDegrees ((realGauss toF32).asin i)) ∘
        fun i => some (some (roots i))) = fun i => some (some (latitudeOf (roots i))) := by
      funext i; rfl
    rw [this]
    have e : ((List.range n).map fun i => some (some (latitudeOf (roots i)))) =
        (((List.range n).map fun i => latitudeOf (roots i)).map some).map some := by
      rw [List.map_map, List.map_map]; rfl
    rw [e, allSome_map_some]
  · rw [List.pairwise_map]
    rw [List.pairwise_iff_getElem]
    intro a b ha hb hab
    rw [List.getElem_range, List.getElem_range]
    rw [List.length_range] at ha hb
    have ca := hf a ha
    have cb := hf b hb
    -- the gap
    have hgap : zero n (a + 1) ≥ zero n b := by
      rcases Nat.lt_or_ge (a + 1) b with h | h
      · exact (zero_lt n h hb).le
      · have : a + 1 = b := by omega
        rw [this]
    have hg := zero_gap n (show a + 1 < n by omega)
    have hroot : roots b < roots a := by
      have h1 := (abs_le.mp ca.close).1
      have h2 := (abs_le.mp cb.close).2
      have hNp := NN_pos n
      have hn1 : NN n ≤ 1321123 := by
        have : (n : ℝ) ≤ 1321122 := by exact_mod_cast Nat.le_of_lt_succ hn
        unfold NN; linarith
      have hn2 : (n : ℝ) + 1 ≤ 1321123 := by
        have : (n : ℝ) ≤ 1321122 := by exact_mod_cast Nat.le_of_lt_succ hn
        linarith
      have hE : ((n : ℝ) + 1) ^ 2 * 2 ^ (-102 : ℤ) ≤ 1e-18 := by
        have h3 : ((n : ℝ) + 1) ^ 2 ≤ 1321123 ^ 2 := pow_le_pow_left₀ (by positivity) hn2 2
        have h4 := mul_le_mul_of_nonneg_right h3 (show (0:ℝ) ≤ 2 ^ (-102 : ℤ) by positivity)
        refine h4.trans ?_
        norm_num
      have hgap2 : 1e-13 ≤ zero n a - zero n (a + 1) := by
        by_contra hlt
        rw [not_le] at hlt
        have h3 : NN n ^ 2 ≤ 1321123 ^ 2 := pow_le_pow_left₀ hNp.le hn1 2
        have hpos : 0 < zero n a - zero n (a + 1) := by
          by_contra h0
          rw [not_lt] at h0
          have := mul_nonpos_of_nonneg_of_nonpos (pow_pos hNp 2).le h0
          linarith
        have h4 : NN n ^ 2 * (zero n a - zero n (a + 1)) ≤ 1321123 ^ 2 * 1e-13 :=
          mul_le_mul h3 hlt.le hpos.le (by positivity)
        have h5 : (1321123:ℝ) ^ 2 * 1e-13 < 2 := by norm_num
        linarith
      generalize ((n : ℝ) + 1) ^ 2 * 2 ^ (-102 : ℤ) = E at *
      linarith
    have hasin : Real.arcsin (roots b) < Real.arcsin (roots a) :=
      Real.arcsin_lt_arcsin cb.inside.1.le hroot ca.inside.2.le
    unfold latitudeOf
    exact mul_lt_mul_of_pos_right hasin (by positivity)
  · intro i hi
    rw [List.length_map, List.length_range] at hi
    rw [List.getElem_map, List.getElem_range, zeros_unique hz (zeros_zero n) i hi]
    have ha := (hf i hi).angle
    unfold latitudeOf
    rw [← sub_mul, abs_mul, abs_of_pos (show 0 < 180 / Real.pi by positivity)]
    have hq : 180 / Real.pi ≤ 64 := by rw [div_le_iff₀ hpi]; linarith
    have e : (2:ℝ) ^ (-96 : ℤ) = 2 ^ (-102 : ℤ) * 64 := by norm_num
    rw [e, ← mul_assoc]
    exact mul_le_mul ha hq (by positivity) (by positivity)

/-- The two zeros of `P_2 = (3x² - 1)/2`. -/
example : LegendreZeros 2 (fun i => if i = 0 then 1 / Real.sqrt 3 else -(1 / Real.sqrt 3)) := by
  have h3 : 0 < Real.sqrt 3 := Real.sqrt_pos.mpr (by norm_num)
  have hs : Real.sqrt 3 ^ 2 = 3 := Real.sq_sqrt (by norm_num)
  have hp := one_div_pos.mpr h3
  have hsq : (1 / Real.sqrt 3) ^ 2 = 1 / 3 := by rw [div_pow, hs]; norm_num
  refine ⟨fun i j h1 h2 => ?_, fun x => ?_⟩
  · have : i = 0 := by omega
    have : j = 1 := by omega
    subst i j
    rw [if_pos rfl, if_neg (by omega)]
    linarith
  · rw [aeval_legendre]
    have hb := P_bonnet 0 x
    rw [P_one, P_zero] at hb
    have e : P 2 x = (3 * x ^ 2 - 1) / 2 := by
      have : P (0 + 2) x = P 2 x := rfl
      rw [this] at hb
      push_cast at hb
      linear_combination hb / 2
    rw [e]
    generalize 1 / Real.sqrt 3 = q at *
    constructor
    · intro h
      have : (x - q) * (x + q) = 0 := by linear_combination 2 / 3 * h - hsq
      rcases mul_eq_zero.mp this with h | h
      · exact ⟨0, by omega, by rw [if_pos rfl]; linarith⟩
      · exact ⟨1, by omega, by rw [if_neg (by omega)]; linarith⟩
    · rintro ⟨i, hi, rfl⟩
      split
      · linear_combination 3 / 2 * hsq
      · linear_combination 3 / 2 * hsq

/-- For a global grid with 640 rows, the errors are below `10^-20` degrees. -/
example : ∃ lats : List ℝ, gaussianLatitudes (realGauss id) 640 = .ok (lats.map some) ∧ lats.length = 640 ∧
    ∀ i (hi : i < lats.length), |lats[i] - latitudeOf (zero 640 i)| ≤ 1e-20 := by
  obtain ⟨lats, h1, h2, -, h4⟩ := C65_latitudes 640 (by omega) (zero 640) (zeros_zero 640) id
  refine ⟨lats, h1, h2, fun i hi => (h4 i hi).trans ?_⟩
  norm_num

/-- C65. In real arithmetic a Gaussian grid definition with supported flags whose end latitudes agree with the scanning
direction is accepted, and row `r` (counted from north if rows are scanned in the `-j` direction, else from south) is at the
corresponding Gaussian latitude. -/
theorem C65_grid (d : GaussianGrid) (ops : FloatOps F) (toF32 : Option ℝ → F) (hi : 0 < d.ni) (hn : d.nj < 1321123)
    (hlat : fitsI32 (d.lastLat - d.firstLat)) (hlon : fitsI32 (d.lastLon - d.firstLon))
    (hagree : agreesJ d.firstLat d.lastLat d.mode) (hmode : d.mode % 16 = 0) (z : Nat → ℝ) (hz : LegendreZeros d.nj z) :
    ∃ (it : RegularIter F) (lats : List ℝ), d.latlons (realGauss toF32) ops = .ok it ∧ it.lat = lats.map (fun l => toF32 (some l)) ∧ lats.length = d.nj ∧
      ∀ r (hr : r < lats.length),
        |lats[r] - latitudeOf (z (if positiveJ d.mode then d.nj - 1 - r else r))| ≤ ((d.nj : ℝ) + 1) ^ 3 * 2 ^ (-96 : ℤ) := by
  obtain ⟨lats, h1, h2, -, h4⟩ := C65_latitudes d.nj hn z hz toF32
  rcases (C34_gaussian_partial (realGauss toF32) ops d hi (by omega) hlat hlon).2.2 hagree hmode with ⟨it, hit⟩ | ⟨-, hbad⟩
  · have hl : it.lat = ((if positiveJ d.mode then lats.reverse else lats).map fun l => toF32 (some l)) := by
      have h := hit
      unfold GaussianGrid.latlons at h
      obtain ⟨c, -, h⟩ := Outcome.bind_eq_ok h
      split at h
      · cases h
      obtain ⟨ij, hij, h⟩ := Outcome.bind_eq_ok h
      obtain ⟨lat, hlat', h⟩ := Outcome.bind_eq_ok h
      rw [h1] at hlat'
      cases hlat'
      dsimp only at h
      rw [if_neg (by omega)] at h
      obtain ⟨lon, hlon', h⟩ := Outcome.bind_eq_ok h
      cases h
      dsimp only
      rw [mode_positiveJ]
      split
      · rw [← List.map_reverse, List.map_map]; rfl
      · rw [List.map_map]; rfl
    refine ⟨it, if positiveJ d.mode then lats.reverse else lats, hit, hl, ?_, ?_⟩
    · split
      · rw [List.length_reverse, h2]
      · exact h2
    · by_cases hp : positiveJ d.mode
      · simp only [if_pos hp]
        intro r hr
        rw [List.getElem_reverse]
        have := h4 (lats.length - 1 - r) (by rw [List.length_reverse] at hr; omega)
        rw [show d.nj - 1 - r = lats.length - 1 - r by rw [h2]]
        exact this
      · simp only [if_neg hp]
        intro r hr
        exact h4 r hr
  · rw [h1] at hbad
    cases hbad

/-- A definition that meets the hypotheses. -/
example : agreesJ 80 (-80) 0 ∧ fitsI32 (-80 - 80) ∧ (0 : Nat) % 16 = 0 := by
  unfold agreesJ fitsI32 positiveJ; decide

end Grib.Props
