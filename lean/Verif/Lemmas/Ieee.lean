import Verif.Model.Ieee
import Mathlib.Tactic.Linarith
import Mathlib.Tactic.Ring
import Mathlib.Tactic.Positivity
import Mathlib.Tactic.FieldSimp
import Mathlib.Tactic.NormNum
import Mathlib.Algebra.Order.Field.Power
import Mathlib.Data.Rat.Floor

/-! # Rounding: nearest, monotone, exact on representable numbers -/

namespace Grib.Model

theorem pow2_eq (e : Int) : pow2 e = (2 : Rat) ^ e := by
  cases e with
  | ofNat n => simp [pow2]
  | negSucc n => simp [pow2, zpow_negSucc]

theorem pow2_pos (e : Int) : 0 < pow2 e := by rw [pow2_eq]; positivity

theorem pow2_ne (e : Int) : pow2 e ≠ 0 := (pow2_pos e).ne'

theorem pow2_add (a b : Int) : pow2 (a + b) = pow2 a * pow2 b := by
  rw [pow2_eq, pow2_eq, pow2_eq, zpow_add₀ (by norm_num)]

theorem pow2_le {a b : Int} (h : a ≤ b) : pow2 a ≤ pow2 b := by
  rw [pow2_eq, pow2_eq]; exact zpow_le_zpow_right₀ (by norm_num) h

theorem pow2_lt {a b : Int} (h : a < b) : pow2 a < pow2 b := by
  rw [pow2_eq, pow2_eq]; exact zpow_lt_zpow_right₀ (by norm_num) h

theorem pow2_lt_iff {a b : Int} : pow2 a < pow2 b ↔ a < b := by
  constructor
  · intro h; by_contra hc; exact absurd h (not_lt.mpr (pow2_le (not_lt.mp hc)))
  · exact pow2_lt

theorem pow2_nat (n : Nat) : pow2 n = 2 ^ n := by simp [pow2_eq]

theorem pow2_zero : pow2 0 = 1 := by simp [pow2_eq]

/-- `2^k` for `k ≥ 0` is an integer. -/
theorem pow2_int {k : Int} (h : 0 ≤ k) : pow2 k = ((2 ^ k.toNat : Int) : Rat) := by
  obtain ⟨n, rfl⟩ := Int.eq_ofNat_of_zero_le h
  simp [pow2_eq]

theorem abs_eq_div (x : Rat) : |x| = (x.num.natAbs : Rat) / x.den := by
  have := Rat.num_div_den x
  conv_lhs => rw [← this]
  rw [abs_div, Nat.abs_cast]
  congr 1
  rw [← Int.cast_abs, Int.abs_eq_natAbs]
  rfl

theorem ilog2_spec {x : Rat} (hx : x ≠ 0) : pow2 (ilog2 x) ≤ |x| ∧ |x| < pow2 (ilog2 x + 1) := by
  have hn : x.num.natAbs ≠ 0 := by simpa using hx
  have hd : x.den ≠ 0 := x.den_nz
  have n1 : (2 : Rat) ^ x.num.natAbs.log2 ≤ x.num.natAbs := by exact_mod_cast Nat.log2_self_le hn
  have n2 : (x.num.natAbs : Rat) < 2 ^ (x.num.natAbs.log2 + 1) := by exact_mod_cast Nat.lt_log2_self
  have d1 : (2 : Rat) ^ x.den.log2 ≤ x.den := by exact_mod_cast Nat.log2_self_le hd
  have d2 : (x.den : Rat) < 2 ^ (x.den.log2 + 1) := by exact_mod_cast Nat.lt_log2_self
  have hdp : (0 : Rat) < x.den := by exact_mod_cast Nat.pos_of_ne_zero hd
  rw [abs_eq_div]
  generalize hln : x.num.natAbs.log2 = ln at *
  generalize hld : x.den.log2 = ld at *
  have e1 : pow2 ((ln : Int) - ld) * 2 ^ ld = 2 ^ ln := by
    rw [← pow2_nat, ← pow2_nat, ← pow2_add]; congr 1; omega
  have hP := pow2_pos ((ln : Int) - ld)
  have cond : (x.num.natAbs * (if 0 ≤ (ln : Int) - ld then 1 else 2 ^ (-((ln : Int) - ld)).toNat) <
      x.den * (if 0 ≤ (ln : Int) - ld then 2 ^ ((ln : Int) - ld).toNat else 1)) ↔
      (x.num.natAbs : Rat) / x.den < pow2 ((ln : Int) - ld) := by
    rw [div_lt_iff₀ hdp]
    by_cases h : 0 ≤ (ln : Int) - ld
    · rw [if_pos h, if_pos h, pow2_int h, Nat.mul_one, mul_comm x.den]
      generalize ((ln : Int) - ld).toNat = w
      generalize x.num.natAbs = a
      generalize x.den = b
      rw [← Nat.cast_lt (α := Rat)]
      push_cast
      rfl
    · rw [if_neg h, if_neg h, Nat.mul_one]
      have hk : pow2 ((ln : Int) - ld) * 2 ^ (-((ln : Int) - ld)).toNat = 1 := by
        rw [← pow2_nat, ← pow2_add, ← pow2_zero]; congr 1; omega
      have hq : (0 : Rat) < 2 ^ (-((ln : Int) - ld)).toNat := by positivity
      constructor
      · intro h'
        have h' : (x.num.natAbs : Rat) * 2 ^ (-((ln : Int) - ld)).toNat < x.den := by exact_mod_cast h'
        have := mul_lt_mul_of_pos_left h' hP
        nlinarith
      · intro h'
        have := mul_lt_mul_of_pos_right h' hq
        have h'' : (x.num.natAbs : Rat) * 2 ^ (-((ln : Int) - ld)).toNat < x.den := by nlinarith
        exact_mod_cast h''
  have hlt : (x.num.natAbs : Rat) / x.den < pow2 ((ln : Int) - ld + 1) := by
    rw [div_lt_iff₀ hdp, pow2_add]
    have : pow2 1 = 2 := by norm_num [pow2_eq]
    rw [this]
    have := mul_le_mul_of_nonneg_left d1 hP.le
    rw [pow_succ] at n2
    nlinarith
  have hge : pow2 ((ln : Int) - ld - 1) ≤ (x.num.natAbs : Rat) / x.den := by
    rw [le_div_iff₀ hdp]
    have h1 : pow2 ((ln : Int) - ld) = pow2 ((ln : Int) - ld - 1) * 2 := by
      have : pow2 1 = 2 := by norm_num [pow2_eq]
      rw [← this, ← pow2_add]; congr 1; omega
    have hP' := pow2_pos ((ln : Int) - ld - 1)
    have := mul_lt_mul_of_pos_left d2 hP'
    rw [pow_succ] at this
    rw [h1] at e1
    nlinarith
  unfold ilog2
  simp only [hln, hld]
  by_cases h : (x.num.natAbs : Rat) / x.den < pow2 ((ln : Int) - ld)
  · rw [if_pos (cond.2 h)]
    exact ⟨hge, by rw [Int.sub_add_cancel]; exact h⟩
  · rw [if_neg (fun h' => h (cond.1 h'))]
    exact ⟨not_lt.mp h, hlt⟩

theorem ilog2_neg (x : Rat) : ilog2 (-x) = ilog2 x := by
  unfold ilog2
  simp

/-- Comparing an exponent with `ilog2`. -/
theorem lt_ilog2_iff {x : Rat} (hx : x ≠ 0) (e : Int) : e ≤ ilog2 x ↔ pow2 e ≤ |x| := by
  obtain ⟨h1, h2⟩ := ilog2_spec hx
  constructor
  · intro h; exact le_trans (pow2_le h) h1
  · intro h
    have := pow2_lt_iff.1 (lt_of_le_of_lt h h2)
    omega

/-! ## Nearest integer -/

theorem floor_le' (q : Rat) : (q.floor : Rat) ≤ q := Rat.floor_le q

theorem lt_floor_succ (q : Rat) : q < (q.floor : Rat) + 1 := by
  have := Rat.lt_floor_add_one q
  exact_mod_cast this

theorem nearestEven_bounds (q : Rat) : q.floor ≤ nearestEven q ∧ nearestEven q ≤ q.floor + 1 := by
  unfold nearestEven
  dsimp only
  split_ifs <;> omega

theorem nearestEven_err (q : Rat) : |(nearestEven q : Rat) - q| ≤ 1 / 2 := by
  have h1 := floor_le' q
  have h2 := lt_floor_succ q
  rw [abs_le]
  unfold nearestEven
  dsimp only
  split_ifs <;> push_cast <;> constructor <;> linarith

theorem nearestEven_mono {p q : Rat} (h : p ≤ q) : nearestEven p ≤ nearestEven q := by
  have hf : p.floor ≤ q.floor := Rat.le_floor_iff.2 (le_trans (floor_le' p) h)
  rcases lt_or_eq_of_le hf with hlt | heq
  · have := (nearestEven_bounds p).2
    have := (nearestEven_bounds q).1
    omega
  · have h1 : p - p.floor ≤ q - q.floor := by rw [heq]; linarith
    unfold nearestEven
    dsimp only
    rw [heq] at *
    split_ifs <;> first | omega | (exfalso; linarith)

theorem nearestEven_int (n : Int) : nearestEven (n : Rat) = n := by
  have : ((n : Rat)).floor = n := Rat.floor_intCast n
  unfold nearestEven
  simp [this]

theorem nearestEven_neg (q : Rat) : nearestEven (-q) = -nearestEven q := by
  by_cases hi : q = (q.floor : Rat)
  · rw [hi, ← Int.cast_neg, nearestEven_int, nearestEven_int]
  · have h1 : (q.floor : Rat) < q := lt_of_le_of_ne (floor_le' q) (Ne.symm hi)
    have h2 := lt_floor_succ q
    have hf : (-q).floor = -q.floor - 1 := by
      apply le_antisymm
      · by_contra hc
        have : -q.floor ≤ (-q).floor := by omega
        have := Rat.le_floor_iff.1 this
        push_cast at this
        linarith
      · apply Rat.le_floor_iff.2
        push_cast
        linarith
    unfold nearestEven
    rw [hf]
    push_cast
    split_ifs <;> first | omega | (exfalso; linarith)

/-! ## Rounding -/

theorem Fmt.round_zero (f : Fmt) : f.round 0 = 0 := by simp [Fmt.round]

theorem Fmt.ulp_neg (f : Fmt) (x : Rat) : f.ulp (-x) = f.ulp x := by simp [Fmt.ulp, ilog2_neg]

theorem Fmt.round_neg (f : Fmt) (x : Rat) : f.round (-x) = -f.round x := by
  unfold Fmt.round
  rw [f.ulp_neg]
  by_cases h : x = 0
  · simp [h]
  · rw [if_neg h, if_neg (by simpa using h), neg_div, nearestEven_neg]; push_cast; ring

theorem Fmt.round_err_ulp (f : Fmt) {x : Rat} (hx : x ≠ 0) : |f.round x - x| ≤ pow2 (f.ulp x) / 2 := by
  unfold Fmt.round
  rw [if_neg hx]
  have hp := pow2_pos (f.ulp x)
  have h := nearestEven_err (x / pow2 (f.ulp x))
  have e : (nearestEven (x / pow2 (f.ulp x)) : Rat) * pow2 (f.ulp x) - x =
      ((nearestEven (x / pow2 (f.ulp x)) : Rat) - x / pow2 (f.ulp x)) * pow2 (f.ulp x) := by
    field_simp
  rw [e, abs_mul, abs_of_pos hp]
  nlinarith

/-- The error of rounding: half a unit of the last place, relative to the number or to the smallest number. -/
theorem Fmt.round_err (f : Fmt) (x : Rat) : |f.round x - x| ≤ pow2 (-f.prec) * |x| + pow2 (f.emin - 1) := by
  by_cases hx : x = 0
  · subst hx; simp [f.round_zero, (pow2_pos _).le]
  · refine le_trans (f.round_err_ulp hx) ?_
    have h1 := (ilog2_spec hx).1
    have half : ∀ e : Int, pow2 e / 2 = pow2 (e - 1) := by
      intro e
      have : pow2 1 = 2 := by norm_num [pow2_eq]
      rw [div_eq_iff (by norm_num), ← this, ← pow2_add]; congr 1; omega
    rw [half]
    rcases le_total (ilog2 x - (f.prec - 1)) f.emin with h | h
    · have : f.ulp x = f.emin := by unfold Fmt.ulp; exact max_eq_right h
      rw [this]
      have := mul_nonneg (pow2_pos (-f.prec)).le (abs_nonneg x)
      linarith
    · have : f.ulp x = ilog2 x - (f.prec - 1) := by unfold Fmt.ulp; exact max_eq_left h
      rw [this]
      have e : pow2 (ilog2 x - (f.prec - 1) - 1) = pow2 (-f.prec) * pow2 (ilog2 x) := by
        rw [← pow2_add]; congr 1; ring
      rw [e]
      have := mul_le_mul_of_nonneg_left h1 (pow2_pos (-f.prec)).le
      have := (pow2_pos (f.emin - 1)).le
      linarith

/-- A number with few enough bits is not changed. -/
theorem Fmt.round_exact (f : Fmt) (hp : 1 ≤ f.prec) {m k : Int} (hm : |m| ≤ 2 ^ f.prec) (hk : f.emin ≤ k) :
    f.round (m * pow2 k) = m * pow2 k := by
  by_cases hx : (m : Rat) * pow2 k = 0
  · rw [hx, f.round_zero]
  · have hm0 : m ≠ 0 := by rintro rfl; simp at hx
    have key : ∃ z : Int, (m : Rat) * pow2 k = z * pow2 (f.ulp (m * pow2 k)) := by
      have h1 := (ilog2_spec hx).1
      have ha : |(m : Rat) * pow2 k| = (|m| : Int) * pow2 k := by
        rw [abs_mul, abs_of_pos (pow2_pos k), Int.cast_abs]
      have hle : pow2 (ilog2 (m * pow2 k)) ≤ pow2 (f.prec + k) := by
        refine le_trans h1 ?_
        rw [ha, pow2_add, pow2_nat]
        have : ((|m| : Int) : Rat) ≤ 2 ^ f.prec := by exact_mod_cast hm
        exact mul_le_mul_of_nonneg_right this (pow2_pos k).le
      have hi : ilog2 (m * pow2 k) ≤ f.prec + k := by
        by_contra hc
        exact absurd (pow2_lt (not_le.mp hc)) (not_lt.mpr hle)
      by_cases hu : f.ulp (m * pow2 k) ≤ k
      · refine ⟨m * 2 ^ (k - f.ulp (m * pow2 k)).toNat, ?_⟩
        have : pow2 k = pow2 (k - f.ulp (m * pow2 k)) * pow2 (f.ulp (m * pow2 k)) := by
          rw [← pow2_add]; congr 1; omega
        push_cast
        conv_lhs => rw [this, pow2_int (by omega : 0 ≤ k - f.ulp (m * pow2 k))]
        push_cast
        ring
      · -- the number is a power of two
        have hu' : f.ulp (m * pow2 k) = k + 1 ∧ ilog2 (m * pow2 k) = f.prec + k := by
          unfold Fmt.ulp at *
          omega
        rw [hu'.2, ha, pow2_add, pow2_nat] at h1
        have h2 : (2 : Rat) ^ f.prec ≤ (|m| : Int) := le_of_mul_le_mul_right h1 (pow2_pos k)
        have h3 : |m| = 2 ^ f.prec := le_antisymm hm (by exact_mod_cast h2)
        refine ⟨m / 2, ?_⟩
        have hdiv : m = m / 2 * 2 := by
          have : (2 : Int) ∣ m := by
            rw [← abs_dvd_abs, h3]
            exact dvd_pow_self 2 (by omega)
          omega
        rw [hu'.1, pow2_add]
        have : pow2 1 = 2 := by norm_num [pow2_eq]
        rw [this]
        conv_lhs => rw [hdiv]
        push_cast
        ring
    obtain ⟨z, hz⟩ := key
    unfold Fmt.round
    rw [if_neg hx]
    have : (m : Rat) * pow2 k / pow2 (f.ulp (m * pow2 k)) = z := by
      rw [div_eq_iff (pow2_ne _)]; exact hz
    rw [this, nearestEven_int]
    exact hz.symm

theorem Fmt.round_nonneg (f : Fmt) {x : Rat} (h : 0 ≤ x) : 0 ≤ f.round x := by
  unfold Fmt.round
  split_ifs
  · exact le_refl _
  · apply mul_nonneg _ (pow2_pos _).le
    have : nearestEven 0 ≤ nearestEven (x / pow2 (f.ulp x)) := nearestEven_mono (div_nonneg h (pow2_pos _).le)
    have h0 := nearestEven_int 0
    rw [Int.cast_zero] at h0
    rw [h0] at this
    exact_mod_cast this

theorem Fmt.round_mono_pos (f : Fmt) (hp : 1 ≤ f.prec) {x y : Rat} (hx : 0 < x) (h : x ≤ y) : f.round x ≤ f.round y := by
  have hy : 0 < y := lt_of_lt_of_le hx h
  have hi : ilog2 x ≤ ilog2 y := by
    rw [lt_ilog2_iff hy.ne']
    refine le_trans (ilog2_spec hx.ne').1 ?_
    rw [abs_of_pos hx, abs_of_pos hy]; exact h
  have hu : f.ulp x ≤ f.ulp y := by unfold Fmt.ulp; omega
  rcases lt_or_eq_of_le hu with hlt | heq
  · -- a power of two lies between them
    have hb1 : x ≤ pow2 (f.prec + f.ulp x) := by
      have := (ilog2_spec hx.ne').2
      rw [abs_of_pos hx] at this
      refine le_trans this.le (pow2_le ?_)
      unfold Fmt.ulp; omega
    have hb2 : pow2 (f.prec - 1 + f.ulp y) ≤ y := by
      have := (ilog2_spec hy.ne').1
      rw [abs_of_pos hy] at this
      refine le_trans (pow2_le ?_) this
      unfold Fmt.ulp at *; omega
    have r1 : f.round x ≤ pow2 (f.prec + f.ulp x) := by
      unfold Fmt.round
      rw [if_neg hx.ne', pow2_add, pow2_nat]
      apply mul_le_mul_of_nonneg_right _ (pow2_pos _).le
      have : nearestEven (x / pow2 (f.ulp x)) ≤ nearestEven (((2 ^ f.prec : Int)) : Rat) := by
        apply nearestEven_mono
        rw [div_le_iff₀ (pow2_pos _)]
        rw [pow2_add, pow2_nat] at hb1
        push_cast
        exact hb1
      rw [nearestEven_int] at this
      exact_mod_cast this
    have r2 : pow2 (f.prec - 1 + f.ulp y) ≤ f.round y := by
      unfold Fmt.round
      have e : ((f.prec : Int) - 1) = ((f.prec - 1 : Nat) : Int) := by omega
      rw [if_neg hy.ne', pow2_add, e, pow2_nat]
      apply mul_le_mul_of_nonneg_right _ (pow2_pos _).le
      have : nearestEven (((2 ^ (f.prec - 1) : Int)) : Rat) ≤ nearestEven (y / pow2 (f.ulp y)) := by
        apply nearestEven_mono
        rw [le_div_iff₀ (pow2_pos _)]
        rw [pow2_add, e, pow2_nat] at hb2
        push_cast
        exact hb2
      rw [nearestEven_int] at this
      exact_mod_cast this
    exact le_trans r1 (le_trans (pow2_le (by omega)) r2)
  · unfold Fmt.round
    rw [if_neg hx.ne', if_neg hy.ne', heq]
    apply mul_le_mul_of_nonneg_right _ (pow2_pos _).le
    exact_mod_cast nearestEven_mono (div_le_div_of_nonneg_right h (pow2_pos _).le)

theorem Fmt.round_mono (f : Fmt) (hp : 1 ≤ f.prec) {x y : Rat} (h : x ≤ y) : f.round x ≤ f.round y := by
  rcases lt_trichotomy x 0 with hx | rfl | hx
  · rcases lt_trichotomy y 0 with hy | rfl | hy
    · have := f.round_mono_pos hp (x := -y) (y := -x) (by linarith) (by linarith)
      rw [f.round_neg, f.round_neg] at this
      linarith
    · rw [f.round_zero]
      have := f.round_nonneg (x := -x) (by linarith)
      rw [f.round_neg] at this
      linarith
    · have h1 := f.round_nonneg (x := -x) (by linarith)
      have h2 := f.round_nonneg hy.le
      rw [f.round_neg] at h1
      linarith
  · rw [f.round_zero]; exact f.round_nonneg h
  · exact f.round_mono_pos hp hx h

/-- No integer is closer than the nearest one. -/
theorem nearestEven_nearest (q : Rat) (z : Int) : |(nearestEven q : Rat) - q| ≤ |(z : Rat) - q| := by
  have h1 := floor_le' q
  have h2 := lt_floor_succ q
  rcases le_or_gt z q.floor with hz | hz
  · have hz' : (z : Rat) ≤ q.floor := by exact_mod_cast hz
    rw [abs_of_nonpos (by linarith : (z : Rat) - q ≤ 0), abs_le]
    unfold nearestEven
    dsimp only
    split_ifs <;> push_cast <;> constructor <;> linarith
  · have hz' : (q.floor : Rat) + 1 ≤ z := by exact_mod_cast hz
    rw [abs_of_nonneg (by linarith : (0 : Rat) ≤ z - q), abs_le]
    unfold nearestEven
    dsimp only
    split_ifs <;> push_cast <;> constructor <;> linarith

/-- No multiple of the last place is closer than the rounded number. -/
theorem Fmt.round_nearest_grid (f : Fmt) {x : Rat} (hx : x ≠ 0) (z : Int) :
    |f.round x - x| ≤ |(z : Rat) * pow2 (f.ulp x) - x| := by
  have h1 := nearestEven_nearest (x / pow2 (f.ulp x)) z
  have hP := pow2_pos (f.ulp x)
  have e1 : f.round x - x = ((nearestEven (x / pow2 (f.ulp x)) : Rat) - x / pow2 (f.ulp x)) * pow2 (f.ulp x) := by
    unfold Fmt.round; rw [if_neg hx]; field_simp
  have e2 : (z : Rat) * pow2 (f.ulp x) - x = ((z : Rat) - x / pow2 (f.ulp x)) * pow2 (f.ulp x) := by field_simp
  rw [e1, e2, abs_mul, abs_mul]
  exact mul_le_mul_of_nonneg_right h1 (abs_nonneg _)

/-- A rounded number is a nearest representable number: nothing of the form `m·2^k` lies strictly closer. -/
theorem Fmt.round_nearest (f : Fmt) (hp : 1 ≤ f.prec) (x : Rat) {m k : Int} (hm : |m| ≤ 2 ^ f.prec) (hk : f.emin ≤ k) :
    |f.round x - x| ≤ |m * pow2 k - x| := by
  generalize hg : (m : Rat) * pow2 k = g
  by_cases hx : x = 0
  · subst hx; rw [f.round_zero]; simp
  by_cases hku : f.ulp x ≤ k
  · have : pow2 k = pow2 (k - f.ulp x) * pow2 (f.ulp x) := by rw [← pow2_add]; congr 1; omega
    have hz : g = ((m * 2 ^ (k - f.ulp x).toNat : Int) : Rat) * pow2 (f.ulp x) := by
      rw [← hg, this, pow2_int (by omega : 0 ≤ k - f.ulp x)]
      push_cast; ring
    rw [hz]
    exact f.round_nearest_grid hx _
  · -- `g` has a finer grid, so it is closer to zero than the binade of `x`
    have hul : f.ulp x = ilog2 x - (f.prec - 1) := by unfold Fmt.ulp at *; omega
    have hgle : |g| ≤ pow2 (ilog2 x) := by
      rw [← hg, abs_mul, abs_of_pos (pow2_pos k)]
      have h1 : |(m : Rat)| ≤ 2 ^ f.prec := by exact_mod_cast hm
      calc |(m : Rat)| * pow2 k ≤ 2 ^ f.prec * pow2 k := mul_le_mul_of_nonneg_right h1 (pow2_pos k).le
        _ = pow2 (f.prec + k) := by rw [pow2_add, pow2_nat]
        _ ≤ pow2 (ilog2 x) := pow2_le (by omega)
    -- `±2^(ilog2 x)` is on the grid of `x` and between `g` and `x`
    obtain ⟨hx1, hx2⟩ := ilog2_spec hx
    have hz : pow2 (ilog2 x) = ((2 ^ (f.prec - 1) : Int) : Rat) * pow2 (f.ulp x) := by
      push_cast
      rw [← pow2_nat, ← pow2_add]; congr 1; omega
    rcases lt_or_gt_of_ne hx with hneg | hpos
    · refine le_trans (f.round_nearest_grid hx (-2 ^ (f.prec - 1))) ?_
      have e : ((-2 ^ (f.prec - 1) : Int) : Rat) * pow2 (f.ulp x) = -pow2 (ilog2 x) := by rw [hz]; push_cast; ring
      rw [e]
      rw [abs_of_neg hneg] at hx1
      rw [abs_of_nonneg (by linarith)]
      refine le_trans ?_ (le_abs_self _)
      have := neg_abs_le g
      linarith
    · refine le_trans (f.round_nearest_grid hx (2 ^ (f.prec - 1))) ?_
      rw [← hz]
      rw [abs_of_pos hpos] at hx1
      rw [abs_of_nonpos (by linarith)]
      refine le_trans ?_ (neg_le_abs _)
      have := le_abs_self g
      linarith

/-- Rounded numbers are representable. -/
theorem Fmt.round_repr (f : Fmt) (hp : 1 ≤ f.prec) (x : Rat) :
    ∃ m k : Int, f.round x = m * pow2 k ∧ |m| ≤ 2 ^ f.prec ∧ f.emin ≤ k := by
  by_cases hx : x = 0
  · exact ⟨0, f.emin, by simp [hx, f.round_zero], by simp, le_refl _⟩
  · refine ⟨nearestEven (x / pow2 (f.ulp x)), f.ulp x, by unfold Fmt.round; rw [if_neg hx], ?_, by unfold Fmt.ulp; omega⟩
    have hb : |x / pow2 (f.ulp x)| ≤ 2 ^ f.prec := by
      rw [abs_div, abs_of_pos (pow2_pos _), div_le_iff₀ (pow2_pos _), ← pow2_nat, ← pow2_add]
      refine le_trans (ilog2_spec hx).2.le (pow2_le ?_)
      unfold Fmt.ulp; omega
    rw [abs_le] at hb ⊢
    have h1 := nearestEven_mono (p := ((-2 ^ f.prec : Int) : Rat)) (by push_cast; exact hb.1)
    have h2 := nearestEven_mono (q := ((2 ^ f.prec : Int) : Rat)) (by push_cast; exact hb.2)
    rw [nearestEven_int] at h1 h2
    exact ⟨h1, h2⟩

end Grib.Model
