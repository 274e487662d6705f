import Verif.Lemmas.Unpack
import Verif.Model.Grid

/-! # Rounding errors of equally spaced coordinates -/

namespace Grib.Model

open Grib.Spec

theorem single_u : pow2 (-(Fmt.single.prec : Int)) = 1 / 2 ^ 24 := by decide +kernel
theorem single_eta : pow2 (Fmt.single.emin - 1) = 1 / 2 ^ 150 := by decide +kernel
theorem single_top : pow2 Fmt.single.top = 2 ^ 128 := by decide +kernel

theorem ofInt_million : Fmt.single.ofRat false ((1000000 : Int) : Rat) = .fin 1000000 := by decide +kernel

/-- One rounding, in single precision, with constants as numbers. -/
theorem single_close {x y A c e c' e' : Rat} (h : |x - y| ≤ c * A + e) (hA : |y| ≤ A)
    (hc : c + 1 / 2 ^ 24 * (1 + c) ≤ c') (he : (1 + 1 / 2 ^ 24) * e + 1 / 2 ^ 150 ≤ e') :
    |Fmt.single.round x - y| ≤ c' * A + e' := by
  have h1 := Fmt.single.round_close h hA
  rw [single_u, single_eta] at h1
  have h2 := mul_le_mul_of_nonneg_right hc (le_trans (abs_nonneg _) hA)
  linarith

/-- The step between two coordinates. -/
theorem spacing_step {s e a b M : Rat} {n : Nat} (hn : 1 ≤ n) (hn' : n ≤ 2 ^ 32) (hM1 : 1 ≤ M)
    (ha : |a| ≤ M) (hb : |b| ≤ M) (hs : |s - a| ≤ 3 / 2 ^ 24 * M) (he : |e - b| ≤ 3 / 2 ^ 24 * M) :
    |Fmt.single.round (Fmt.single.round (e - s) / Fmt.single.round n) - (b - a) / n| ≤
      (65 / 10) / 2 ^ 24 * (2 * M / n) + 4 / 2 ^ 150 ∧ |(b - a) / (n : Rat)| ≤ 2 * M / n ∧
    |Fmt.single.round (e - s) - (b - a)| ≤ (41 / 10) / 2 ^ 24 * (2 * M) + 1 / 2 ^ 150 ∧
    (n : Rat) * (1 - 1 / 2 ^ 24) ≤ Fmt.single.round n := by
  have hnp : (1 : Rat) ≤ n := by exact_mod_cast hn
  have hD : |b - a| ≤ 2 * M := by
    have := abs_sub b a
    linarith
  have h1 : |(e - s) - (b - a)| ≤ 3 / 2 ^ 24 * (2 * M) + 0 := by
    have e1 : (e - s) - (b - a) = (e - b) - (s - a) := by ring
    rw [e1]
    have := abs_sub (e - b) (s - a)
    linarith
  have d1 := single_close (c' := (41 / 10) / 2 ^ 24) (e' := 1 / 2 ^ 150) h1 hD (by norm_num) (by norm_num)
  have n1 : |Fmt.single.round n - n| ≤ 1 / 2 ^ 24 * n := by
    have := Fmt.single.round_int (by decide) (n : Int)
    rw [single_u, show (((n : Int) : Rat)) = (n : Rat) by push_cast; rfl, Nat.abs_cast] at this
    exact this
  have n2 : (n : Rat) * (1 - 1 / 2 ^ 24) ≤ Fmt.single.round n := by
    rw [abs_le] at n1
    linarith [n1.1]
  have n3 : 0 < Fmt.single.round n := by
    refine lt_of_lt_of_le ?_ n2
    have : (0 : Rat) < 1 - 1 / 2 ^ 24 := by norm_num
    positivity
  refine ⟨?_, ?_, d1, n2⟩
  · have hq : |Fmt.single.round (e - s) / Fmt.single.round n - (b - a) / n| ≤
        (53 / 10) / 2 ^ 24 * (2 * M / n) + 2 / 2 ^ 150 := by
      have e1 : Fmt.single.round (e - s) / Fmt.single.round n - (b - a) / n =
          ((Fmt.single.round (e - s) - (b - a)) + (b - a) * (n - Fmt.single.round n) / n) / Fmt.single.round n := by
        field_simp
        ring
      rw [e1, abs_div, abs_of_pos n3, div_le_iff₀ n3]
      have h2 : |(b - a) * (n - Fmt.single.round n) / n| ≤ 2 * M * (1 / 2 ^ 24) := by
        rw [abs_div, abs_mul, Nat.abs_cast, div_le_iff₀ (by linarith)]
        have h3 : |(n : Rat) - Fmt.single.round n| ≤ 1 / 2 ^ 24 * n := by rw [abs_sub_comm]; exact n1
        have := mul_le_mul hD h3 (abs_nonneg _) (by linarith)
        linarith
      have h4 := abs_add_le (Fmt.single.round (e - s) - (b - a)) ((b - a) * (n - Fmt.single.round n) / n)
      have h5 : (53 / 10 / 2 ^ 24 * (2 * M / n) + 2 / 2 ^ 150) * (n * (1 - 1 / 2 ^ 24)) ≤
          (53 / 10 / 2 ^ 24 * (2 * M / n) + 2 / 2 ^ 150) * Fmt.single.round n := by
        apply mul_le_mul_of_nonneg_left n2
        positivity
      have h6 : (53 / 10 / 2 ^ 24 * (2 * M / n) + 2 / 2 ^ 150) * (n * (1 - 1 / 2 ^ 24)) =
          53 / 10 / 2 ^ 24 * (1 - 1 / 2 ^ 24) * (2 * M) + 2 / 2 ^ 150 * (1 - 1 / 2 ^ 24) * n := by
        field_simp
      rw [h6] at h5
      have h7 : (41 / 10 / 2 ^ 24 + 1 / 2 ^ 24 : Rat) ≤ 53 / 10 / 2 ^ 24 * (1 - 1 / 2 ^ 24) := by norm_num
      have h8 := mul_le_mul_of_nonneg_right h7 (show (0 : Rat) ≤ 2 * M by linarith)
      have h9 : (1 / 2 ^ 150 : Rat) ≤ 2 / 2 ^ 150 * (1 - 1 / 2 ^ 24) * n := by
        have : (1 / 2 ^ 150 : Rat) ≤ 2 / 2 ^ 150 * (1 - 1 / 2 ^ 24) := by norm_num
        refine le_trans this ?_
        have h0 : (0 : Rat) ≤ 2 / 2 ^ 150 * (1 - 1 / 2 ^ 24) := by norm_num
        have := mul_le_mul_of_nonneg_left hnp h0
        linarith
      linarith
    refine single_close hq ?_ (by norm_num) (by norm_num)
    rw [abs_div, Nat.abs_cast]
    exact div_le_div_of_nonneg_right hD (by linarith)
  · rw [abs_div, Nat.abs_cast]
    exact div_le_div_of_nonneg_right hD (by linarith)

/-- A coordinate. -/
theorem spacing_close {S E : Fl} {s e a b M : Rat} {n x : Nat} (hS : S.val = some s) (hE : E.val = some e)
    (hn : 1 ≤ n) (hn' : n ≤ 2 ^ 32) (hx : x ≤ n) (hM1 : 1 ≤ M) (hM2 : M ≤ 2 ^ 40) (ha : |a| ≤ M) (hb : |b| ≤ M)
    (hs : |s - a| ≤ 3 / 2 ^ 24 * M) (he : |e - b| ≤ 3 / 2 ^ 24 * M) :
    ∃ y, (Fmt.single.div (Fmt.single.add S (Fmt.single.mul (Fmt.single.ofRat false ((x : Int) : Rat))
        (Fmt.single.div (Fmt.single.add E S.neg) (Fmt.single.ofRat false ((n : Int) : Rat))))) (.fin 1000000)).val = some y ∧
      |y - (a + x * ((b - a) / n)) / 1000000| ≤ 25 / 2 ^ 24 * (M / 1000000) := by
  have hnp : (1 : Rat) ≤ n := by exact_mod_cast hn
  have hn32 : (n : Rat) ≤ 2 ^ 32 := by exact_mod_cast hn'
  have hxn : (x : Rat) ≤ n := by exact_mod_cast hx
  have hx0 : (0 : Rat) ≤ x := Nat.cast_nonneg x
  obtain ⟨st, hAq, hd, hn1⟩ := spacing_step hn hn' hM1 ha hb hs he
  have hn1' : Fmt.single.round n ≠ 0 := by
    have : (0 : Rat) < n * (1 - 1 / 2 ^ 24) := mul_pos (by linarith) (by norm_num)
    exact (lt_of_lt_of_le this hn1).ne'
  have castn : (((n : Int) : Rat)) = (n : Rat) := by push_cast; rfl
  have castx : (((x : Int) : Rat)) = (x : Rat) := by push_cast; rfl
  rw [castn, castx]
  have hD : |b - a| ≤ 2 * M := by
    have := abs_sub b a
    linarith
  -- the step
  have vn : (Fmt.single.ofRat false (n : Rat)).val = some (Fmt.single.round n) := by
    have := single_ofInt_val (n := (n : Int)) (by rw [Nat.abs_cast]; exact_mod_cast hn') false
    rwa [castn] at this
  have vx : (Fmt.single.ofRat false (x : Rat)).val = some (Fmt.single.round x) := by
    have := single_ofInt_val (n := (x : Int)) (by rw [Nat.abs_cast]; exact_mod_cast (le_trans hx hn')) false
    rwa [castx] at this
  obtain ⟨s1, e1⟩ := Fmt.single.add_val hE (Fl.neg_val hS)
  have v1 : (Fmt.single.ofRat s1 (e + -s)).val = some (Fmt.single.round (e - s)) := by
    rw [← sub_eq_add_neg]
    apply Fmt.ofRat_fin
    rw [single_top]
    have := abs_sub_abs_le_abs_sub (Fmt.single.round (e - s)) (b - a)
    norm_num at hd hM2 ⊢
    linarith
  obtain ⟨s2, e2⟩ := Fmt.single.div_val v1 vn hn1'
  have hAq' : 2 * M / n ≤ 2 * M := by
    rw [div_le_iff₀ (by linarith)]
    have := mul_le_mul_of_nonneg_left hnp (show (0 : Rat) ≤ 2 * M by linarith)
    linarith
  have v2 : (Fmt.single.ofRat s2 (Fmt.single.round (e - s) / Fmt.single.round n)).val =
      some (Fmt.single.round (Fmt.single.round (e - s) / Fmt.single.round n)) := by
    apply Fmt.ofRat_fin
    rw [single_top]
    have := abs_sub_abs_le_abs_sub (Fmt.single.round (Fmt.single.round (e - s) / Fmt.single.round n)) ((b - a) / n)
    have h3 := mul_le_mul_of_nonneg_left hAq' (show (0 : Rat) ≤ 65 / 10 / 2 ^ 24 by norm_num)
    norm_num at st hM2 h3 ⊢
    linarith
  generalize Fmt.single.round (Fmt.single.round (e - s) / Fmt.single.round n) = delta at *
  -- times the index
  have x1 : |Fmt.single.round x - x| ≤ 1 / 2 ^ 24 * x := by
    have := Fmt.single.round_int (by decide) (x : Int)
    rw [single_u, castx, abs_of_nonneg hx0] at this
    exact this
  have m1 := mul_close st hAq x1 hx0
  have hAx : 2 * M / n * x ≤ 2 * M := by
    rw [div_mul_eq_mul_div, div_le_iff₀ (by linarith)]
    exact mul_le_mul_of_nonneg_left hxn (by linarith)
  have hAx0 : 0 ≤ 2 * M / n * x := by positivity
  have m2 : |Fmt.single.round x * delta - x * ((b - a) / n)| ≤ (76 / 10) / 2 ^ 24 * (2 * M) + 1 / 2 ^ 110 := by
    rw [mul_comm (Fmt.single.round (x : Rat)), mul_comm (x : Rat)]
    refine le_trans m1 ?_
    have h1 : (65 / 10 / 2 ^ 24 * (1 + 1 / 2 ^ 24) + 1 / 2 ^ 24 : Rat) * (2 * M / n * x) ≤ 76 / 10 / 2 ^ 24 * (2 * M) := by
      have h0 : (65 / 10 / 2 ^ 24 * (1 + 1 / 2 ^ 24) + 1 / 2 ^ 24 : Rat) ≤ 76 / 10 / 2 ^ 24 := by norm_num
      exact mul_le_mul h0 hAx hAx0 (by norm_num)
    have h2 : (4 / 2 ^ 150 * (1 + 1 / 2 ^ 24) * x : Rat) ≤ 1 / 2 ^ 110 := by
      have : (4 / 2 ^ 150 * (1 + 1 / 2 ^ 24) * x : Rat) ≤ 4 / 2 ^ 150 * (1 + 1 / 2 ^ 24) * 2 ^ 32 :=
        mul_le_mul_of_nonneg_left (le_trans hxn hn32) (by norm_num)
      refine le_trans this (by norm_num)
    linarith
  have hAm : |(x : Rat) * ((b - a) / n)| ≤ 2 * M := by
    rw [abs_mul, abs_of_nonneg hx0]
    have := mul_le_mul_of_nonneg_left hAq hx0
    linarith
  obtain ⟨s3, e3⟩ := Fmt.single.mul_val vx v2
  have m3 := single_close (c' := (87 / 10) / 2 ^ 24) (e' := 1 / 2 ^ 109) m2 hAm (by norm_num) (by norm_num)
  have v3 : (Fmt.single.ofRat s3 (Fmt.single.round x * delta)).val = some (Fmt.single.round (Fmt.single.round x * delta)) := by
    apply Fmt.ofRat_fin
    rw [single_top]
    have := abs_sub_abs_le_abs_sub (Fmt.single.round (Fmt.single.round x * delta)) (x * ((b - a) / n))
    norm_num at m3 hM2 ⊢
    linarith
  -- plus the start
  obtain ⟨s4, e4⟩ := Fmt.single.add_val hS v3
  have a1 : |s + Fmt.single.round (Fmt.single.round x * delta) - (a + x * ((b - a) / n))| ≤
      (21 : Rat) / 2 ^ 24 * M + 1 / 2 ^ 109 := by
    have e5 : s + Fmt.single.round (Fmt.single.round x * delta) - (a + x * ((b - a) / n)) =
        (s - a) + (Fmt.single.round (Fmt.single.round x * delta) - x * ((b - a) / n)) := by ring
    rw [e5]
    have := abs_add_le (s - a) (Fmt.single.round (Fmt.single.round x * delta) - x * ((b - a) / n))
    norm_num at this m3 hs ⊢
    linarith
  have hexact : |a + x * ((b - a) / n)| ≤ M := by
    have e6 : a + x * ((b - a) / n) = a * ((n - x) / n) + b * (x / n) := by field_simp; ring
    rw [e6]
    have w1 : 0 ≤ ((n : Rat) - x) / n := div_nonneg (by linarith) (by linarith)
    have w2 : 0 ≤ (x : Rat) / n := div_nonneg hx0 (by linarith)
    have w3 : ((n : Rat) - x) / n + x / n = 1 := by field_simp; ring
    have := abs_add_le (a * (((n : Rat) - x) / n)) (b * (x / n))
    rw [abs_mul, abs_mul, abs_of_nonneg w1, abs_of_nonneg w2] at this
    have h1 := mul_le_mul_of_nonneg_right ha w1
    have h2 := mul_le_mul_of_nonneg_right hb w2
    have h3 : M * (((n : Rat) - x) / n) + M * (x / n) = M := by rw [← mul_add, w3, mul_one]
    linarith
  have a2 := single_close (c' := (22 + 1 / 10) / 2 ^ 24) (e' := 1 / 2 ^ 108) a1 hexact (by norm_num) (by norm_num)
  have v4 : (Fmt.single.ofRat s4 (s + Fmt.single.round (Fmt.single.round x * delta))).val =
      some (Fmt.single.round (s + Fmt.single.round (Fmt.single.round x * delta))) := by
    apply Fmt.ofRat_fin
    rw [single_top]
    have := abs_sub_abs_le_abs_sub (Fmt.single.round (s + Fmt.single.round (Fmt.single.round x * delta))) (a + x * ((b - a) / n))
    norm_num at a2 hM2 ⊢
    linarith
  -- in degrees
  obtain ⟨s5, e5⟩ := Fmt.single.div_val v4 (show (Fl.fin 1000000).val = some 1000000 from rfl) (by norm_num)
  generalize hP : a + x * ((b - a) / n) = P at *
  generalize Fmt.single.round (s + Fmt.single.round (Fmt.single.round x * delta)) = z at *
  have f1 : |z / 1000000 - P / 1000000| ≤ (22 + 1 / 10) / 2 ^ 24 * (M / 1000000) + 1 / 2 ^ 108 := by
    rw [← sub_div, abs_div, abs_of_pos (show (0 : Rat) < 1000000 by norm_num), div_le_iff₀ (by norm_num)]
    norm_num at a2 ⊢
    linarith
  have hPm : |P / 1000000| ≤ M / 1000000 := by
    rw [abs_div, abs_of_pos (show (0 : Rat) < 1000000 by norm_num)]
    exact div_le_div_of_nonneg_right hexact (by norm_num)
  have f2 := single_close (c' := (24 : Rat) / 2 ^ 24) (e' := 1 / 2 ^ 107) f1 hPm (by norm_num) (by norm_num)
  refine ⟨_, ?_, le_trans f2 ?_⟩
  · rw [e1, e2, e3, e4, e5]
    apply Fmt.ofRat_fin
    rw [single_top]
    have := abs_sub_abs_le_abs_sub (Fmt.single.round (z / 1000000)) (P / 1000000)
    norm_num at f2 hM2 hPm ⊢
    linarith
  · have : (1 / 1000000 : Rat) ≤ M / 1000000 := div_le_div_of_nonneg_right hM1 (by norm_num)
    norm_num at this ⊢
    linarith

/-- The order of coordinates: with an end not below (above) the start they never decrease (increase). -/
theorem spacing_mono {S E : Fl} {s e : Rat} {n x x' : Nat} (hS : S.val = some s) (hE : E.val = some e)
    (hn : 1 ≤ n) (hn' : n ≤ 2 ^ 32) (hx : x ≤ x') (hx' : x' ≤ n) (hs : |s| ≤ 2 ^ 40) (he : |e| ≤ 2 ^ 40) :
    let item := fun x : Nat => Fmt.single.div (Fmt.single.add S (Fmt.single.mul (Fmt.single.ofRat false ((x : Int) : Rat))
        (Fmt.single.div (Fmt.single.add E S.neg) (Fmt.single.ofRat false ((n : Int) : Rat))))) (.fin 1000000)
    (s ≤ e → NotAbove (item x) (item x')) ∧ (e ≤ s → NotAbove (item x') (item x)) := by
  intro item
  have hM : ∃ M : Rat, 1 ≤ M ∧ M ≤ 2 ^ 40 ∧ |s| ≤ M ∧ |e| ≤ M := ⟨2 ^ 40, by norm_num, le_refl _, hs, he⟩
  obtain ⟨M, hM1, hM2, hsM, heM⟩ := hM
  obtain ⟨st, hAq, hd, hn1⟩ := spacing_step (s := s) (e := e) (a := s) (b := e) hn hn' hM1 hsM heM
    (by simp; linarith) (by simp; linarith)
  have hnp : (1 : Rat) ≤ n := by exact_mod_cast hn
  have hn1' : 0 < Fmt.single.round n := by
    have : (0 : Rat) < n * (1 - 1 / 2 ^ 24) := mul_pos (by linarith) (by norm_num)
    exact lt_of_lt_of_le this hn1
  have castn : (((n : Int) : Rat)) = (n : Rat) := by push_cast; rfl
  have hD : |e - s| ≤ 2 * M := by
    have := abs_sub e s
    linarith
  have vn : (Fmt.single.ofRat false (n : Rat)).val = some (Fmt.single.round n) := by
    have := single_ofInt_val (n := (n : Int)) (by rw [Nat.abs_cast]; exact_mod_cast hn') false
    rwa [castn] at this
  have vx : ∀ z : Nat, z ≤ n → (Fmt.single.ofRat false ((z : Int) : Rat)).val = some (Fmt.single.round z) := by
    intro z hz
    have := single_ofInt_val (n := (z : Int)) (by rw [Nat.abs_cast]; exact_mod_cast (le_trans hz hn')) false
    rw [this]
    push_cast
    rfl
  obtain ⟨s1, e1⟩ := Fmt.single.add_val hE (Fl.neg_val hS)
  have v1 : (Fmt.single.ofRat s1 (e + -s)).val = some (Fmt.single.round (e - s)) := by
    rw [← sub_eq_add_neg]
    apply Fmt.ofRat_fin
    rw [single_top]
    have := abs_sub_abs_le_abs_sub (Fmt.single.round (e - s)) (e - s)
    norm_num at hd hM2 ⊢
    linarith
  obtain ⟨s2, e2⟩ := Fmt.single.div_val v1 vn hn1'.ne'
  have hAq' : 2 * M / n ≤ 2 * M := by
    rw [div_le_iff₀ (by linarith)]
    have := mul_le_mul_of_nonneg_left hnp (show (0 : Rat) ≤ 2 * M by linarith)
    linarith
  have v2 : (Fmt.single.ofRat s2 (Fmt.single.round (e - s) / Fmt.single.round n)).val =
      some (Fmt.single.round (Fmt.single.round (e - s) / Fmt.single.round n)) := by
    apply Fmt.ofRat_fin
    rw [single_top]
    have := abs_sub_abs_le_abs_sub (Fmt.single.round (Fmt.single.round (e - s) / Fmt.single.round n)) ((e - s) / n)
    have h3 := mul_le_mul_of_nonneg_left hAq' (show (0 : Rat) ≤ 65 / 10 / 2 ^ 24 by norm_num)
    norm_num at st hM2 h3 ⊢
    linarith
  have hxx : Fmt.single.round (x : Rat) ≤ Fmt.single.round (x' : Rat) :=
    Fmt.single.round_mono (by decide) (by exact_mod_cast hx)
  obtain ⟨s3, e3⟩ := Fmt.single.mul_val (vx x (le_trans hx hx')) v2
  obtain ⟨s4, e4⟩ := Fmt.single.mul_val (vx x' hx') v2
  have hmill : (Fl.fin 1000000).val = some 1000000 := rfl
  have ei : item x = Fmt.single.div (Fmt.single.add S
      (Fmt.single.ofRat s3 (Fmt.single.round x * Fmt.single.round (Fmt.single.round (e - s) / Fmt.single.round n)))) (.fin 1000000) := by
    show Fmt.single.div (Fmt.single.add S (Fmt.single.mul _ (Fmt.single.div _ (Fmt.single.ofRat false ((n : Int) : Rat))))) _ = _
    rw [castn, e1, e2, e3]
  have ei' : item x' = Fmt.single.div (Fmt.single.add S
      (Fmt.single.ofRat s4 (Fmt.single.round x' * Fmt.single.round (Fmt.single.round (e - s) / Fmt.single.round n)))) (.fin 1000000) := by
    show Fmt.single.div (Fmt.single.add S (Fmt.single.mul _ (Fmt.single.div _ (Fmt.single.ofRat false ((n : Int) : Rat))))) _ = _
    rw [castn, e1, e2, e4]
  rw [ei, ei']
  constructor
  · intro hse
    apply Fmt.div_mono _ (by decide) hmill (by norm_num)
    apply Fmt.add_mono _ (by decide) hS
    apply Fmt.ofRat_mono _ (by decide)
    apply mul_le_mul_of_nonneg_right hxx
    apply Fmt.round_nonneg
    exact div_nonneg (Fmt.round_nonneg _ (by linarith)) hn1'.le
  · intro hse
    apply Fmt.div_mono _ (by decide) hmill (by norm_num)
    apply Fmt.add_mono _ (by decide) hS
    apply Fmt.ofRat_mono _ (by decide)
    have hneg : Fmt.single.round (Fmt.single.round (e - s) / Fmt.single.round n) ≤ 0 := by
      have h1 : 0 ≤ Fmt.single.round (s - e) := Fmt.round_nonneg _ (by linarith)
      rw [← neg_sub, Fmt.round_neg] at h1
      have h2 : 0 ≤ Fmt.single.round (-(Fmt.single.round (e - s) / Fmt.single.round n)) := by
        apply Fmt.round_nonneg
        rw [← neg_div]
        exact div_nonneg h1 hn1'.le
      rw [Fmt.round_neg] at h2
      linarith
    nlinarith

end Grib.Model
