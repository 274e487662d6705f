import Verif.Props.SinglePrecision
import Verif.Props.LatLonSingle
import Verif.Props.DecodeOutcome
import Verif.Props.RunLengthOutcome

/-! # C60, C61: the edges of single precision

What the 32 bits of the reference value stand for, reference values that are not finite, signs, the levels of run-length
packing, grids of one row or column. -/

namespace Grib.Props

open Grib.Model Grib.Spec

/-! ## The reference value -/

theorem two_pow_sub (e : Nat) :
    (if 150 ≤ e then (2 : Rat) ^ (e - 150) else 1 / 2 ^ (150 - e)) = zpow 2 ((e : Int) - 150) := by
  unfold zpow
  by_cases h : 150 ≤ e
  · rw [if_pos h, if_pos (by omega), show ((e : Int) - 150).toNat = e - 150 by omega]
  · rw [if_neg h, if_neg (by omega), show (-((e : Int) - 150)).toNat = 150 - e by omega]

theorem f32Value_fields {b e m : Nat} {s : Bool} (h1 : b / 2 ^ 31 % 2 = if s then 1 else 0) (h2 : b / 2 ^ 23 % 2 ^ 8 = e)
    (h3 : b % 2 ^ 23 = m) : Fl.ofBits32 b = binary32 s e m := by
  unfold Fl.ofBits32 f32Value binary32
  rw [h1, h2, h3]
  have hs : ((if s then 1 else 0) = 1) ↔ s = true := by cases s <;> decide
  by_cases h255 : e = 255
  · simp only [if_pos h255, hs]
    cases s <;> rfl
  · simp only [if_neg h255, hs]
    by_cases h0 : e = 0
    · simp only [if_pos h0]
      have hz : (1 : Rat) / 2 ^ 149 = zpow 2 (-149) := by decide +kernel
      have hz0 : zpow 2 (-149) ≠ 0 := (spec_zpow_pos (by norm_num) _).ne'
      rw [hz]
      by_cases hm0 : m = 0
      · rw [if_pos (⟨h0, hm0⟩ : e = 0 ∧ m = 0), hm0]
        cases s <;> simp
      · have : (m : Rat) ≠ 0 := by exact_mod_cast hm0
        rw [if_neg (fun h : e = 0 ∧ m = 0 => hm0 h.2), if_neg, mul_assoc]
        rintro ⟨h, -⟩
        have hσ : (if s = true then (-1 : Rat) else 1) ≠ 0 := by cases s <;> norm_num
        exact mul_ne_zero (mul_ne_zero hσ this) hz0 h
    · simp only [if_neg h0]
      rw [two_pow_sub, if_neg (fun h : e = 0 ∧ m = 0 => h0 h.1)]
      have hz : zpow 2 ((e : Int) - 150) ≠ 0 := (spec_zpow_pos (by norm_num) _).ne'
      have hc : ((2 ^ 23 + m : Nat) : Rat) = 2 ^ 23 + (m : Rat) := by push_cast; ring
      have hpos : (2 ^ 23 + (m : Rat)) ≠ 0 := by positivity
      have hσ : (if s = true then (-1 : Rat) else 1) ≠ 0 := by cases s <;> norm_num
      rw [hc, if_neg, mul_assoc]
      rintro ⟨h, -⟩
      exact mul_ne_zero (mul_ne_zero hσ hpos) hz h

theorem ofBits32_binary32 (s : Bool) (e m : Nat) (he : e < 256) (hm : m < 2 ^ 23) :
    Fl.ofBits32 ((if s then 2 ^ 31 else 0) + e * 2 ^ 23 + m) = binary32 s e m := by
  apply f32Value_fields
  · cases s
    · rw [if_neg (by decide), if_neg (by decide)]; omega
    · rw [if_pos rfl, if_pos rfl]; omega
  · cases s
    · rw [if_neg (by decide)]; omega
    · rw [if_pos rfl]; omega
  · cases s
    · rw [if_neg (by decide)]; omega
    · rw [if_pos rfl]; omega

/-- Multiplying a number of the format by 1 changes nothing, the sign of zero included. -/
theorem mul_one_binary32 (s : Bool) (e m : Nat) (he : e < 256) (hm : m < 2 ^ 23) :
    Fmt.single.mul (binary32 s e m) (.fin 1) = binary32 s e m := by
  have exact : ∀ (n k : Int), |n| < 2 ^ 24 → -149 ≤ k → k ≤ 104 →
      n ≠ 0 → Fmt.single.mul (.fin (n * pow2 k)) (.fin 1) = .fin (n * pow2 k) := by
    intro n k hn hk hk' h0
    show Fmt.single.ofRat _ (n * pow2 k * 1) = _
    rw [mul_one]
    have hr := Fmt.single.round_exact (by decide) (m := n) (k := k) hn.le hk
    have hP := pow2_pos k
    have hlt : |Fmt.single.round (n * pow2 k)| < pow2 Fmt.single.top := by
      rw [hr, abs_mul, abs_of_pos hP]
      have h3 : |(n : Rat)| < pow2 24 := by
        have : |(n : Rat)| < 2 ^ 24 := by exact_mod_cast hn
        exact this
      calc |(n : Rat)| * pow2 k < pow2 24 * pow2 k := mul_lt_mul_of_pos_right h3 hP
        _ = pow2 (24 + k) := (pow2_add _ _).symm
        _ ≤ pow2 128 := pow2_le (by omega)
    have hv := Fmt.single.ofRat_fin (decide ((n : Rat) * pow2 k < 0) ^^ decide ((1 : Rat) < 0)) hlt
    rw [hr] at hv
    have hne : (n : Rat) * pow2 k ≠ 0 := mul_ne_zero (by exact_mod_cast h0) hP.ne'
    rcases Fl.val_some hv with h | ⟨-, h⟩
    · exact h
    · exact absurd h hne
  unfold binary32
  by_cases h255 : e = 255
  · simp only [if_pos h255]
    cases s <;> by_cases hm0 : m = 0 <;> simp [hm0, Fmt.mul, Fl.isNeg, Fl.val]
  · simp only [if_neg h255]
    by_cases h00 : e = 0 ∧ m = 0
    · simp only [if_pos h00]
      cases s <;> decide +kernel
    · simp only [if_neg h00]
      by_cases h0 : e = 0
      · have hm0 : m ≠ 0 := fun h => h00 ⟨h0, h⟩
        simp only [if_pos h0, zpow_two_eq]
        cases s
        · have := exact m (-149) (by rw [abs_of_nonneg] <;> omega) (by omega) (by omega) (by omega)
          simpa using this
        · have := exact (-m) (-149) (by rw [abs_neg, abs_of_nonneg] <;> omega) (by omega) (by omega) (by omega)
          simpa using this
      · simp only [if_neg h0, zpow_two_eq]
        cases s
        · have := exact (2 ^ 23 + m) (e - 150) (by rw [abs_of_nonneg] <;> omega) (by omega) (by omega) (by omega)
          have hc : (((2 ^ 23 + m : Int)) : Rat) = 2 ^ 23 + (m : Rat) := by push_cast; ring
          rw [hc] at this
          simpa only [Bool.false_eq_true, if_false, one_mul] using this
        · have := exact (-(2 ^ 23 + m)) (e - 150) (by rw [abs_neg, abs_of_nonneg] <;> omega) (by omega) (by omega) (by omega)
          have hc : ((-(2 ^ 23 + m : Int)) : Int) = (-1 : Rat) * (2 ^ 23 + (m : Rat)) := by push_cast; ring
          rw [hc, mul_assoc] at this
          simpa only [if_true] using this

/-- C60. The reference value is the IEEE-754 binary32 datum of octets 12-15: it is the value of all points of a field of zero
bits per value with `D = 0`, infinities, NaN and the sign of zero included. -/
theorem C60_reference (powi : Fl → Int → Fl) (png jp2) (t : Decoder) (ht : t.templateNum = 0) (hlen : 16 ≤ t.sect5.length)
    (htype : sectNumber t.sect5 21 21 = 0) (hn : bitsPerValue t.sect5 = 0) (hD : sectSigned t.sect5 18 19 = 0)
    (h10 : powi (.fin 10) 0 = .fin 1) (s : Bool) (e m : Nat) (he : e < 256) (hm : m < 2 ^ 23)
    (hb : sectNumber t.sect5 12 15 = (if s then 2 ^ 31 else 0) + e * 2 ^ 23 + m) :
    t.decodeValues (singleCodecs powi png jp2) = .ok (List.replicate t.numPointsEncoded (.ok (binary32 s e m))) := by
  have : t.decodeValues (singleCodecs powi png jp2) = simpleDecode (singleCodecs powi png jp2).ops t := by
    unfold Decoder.decodeValues; rw [ht]; rfl
  rw [this, C20_constant _ t hlen htype hn, ofInt_ten, hD, hb]
  show Outcome.ok (List.replicate _ (Outcome.ok (Fmt.single.mul (Fl.ofBits32 _) (powi (.fin 10) (-0))))) = _
  rw [neg_zero, h10, ofBits32_binary32 s e m he hm, mul_one_binary32 s e m he hm]

/-- Every 32-bit pattern is some sign, exponent and fraction. -/
theorem C60_reference_total (b : Nat) (hb : b < 2 ^ 32) :
    ∃ (s : Bool) (e m : Nat), e < 256 ∧ m < 2 ^ 23 ∧ b = (if s then 2 ^ 31 else 0) + e * 2 ^ 23 + m := by
  by_cases h : b < 2 ^ 31
  · exact ⟨false, b / 2 ^ 23, b % 2 ^ 23, by omega, by omega, by simp; omega⟩
  · exact ⟨true, (b - 2 ^ 31) / 2 ^ 23, b % 2 ^ 23, by omega, by omega, by simp; omega⟩

/-- Negative zero, the smallest positive number, minus infinity, a NaN, 1. -/
example : ∀ x ∈ [(0x80, 0, 0, 0, Fl.negZero), (0, 0, 0, 1, .fin (1 / 2 ^ 149)), (0xff, 0x80, 0, 0, .inf true),
      (0xff, 0xc0, 0, 0, .nan), (0x3f, 0x80, 0, 0, .fin 1)],
    (⟨2, 2, 0, [0, 0, 0, 2, 0, 0, x.1, x.2.1, x.2.2.1, x.2.2.2.1, 0, 0, 0, 0, 0, 0], [0xff], []⟩ : Decoder).decodeValues
      (singleCodecs (compilerRtPowi .single) (fun _ => none) (fun _ => .err .notSupported)) =
    .ok [.ok x.2.2.2.2, .ok x.2.2.2.2] := by decide +kernel

/-! ## Values that are not finite, signs -/

theorem ofRat_isNeg (f : Fmt) (x : Rat) : (f.ofRat (decide (x < 0)) x).isNeg = decide (x < 0) := by
  have hT := pow2_pos f.top
  unfold Fmt.ofRat
  dsimp only
  by_cases hx : x < 0
  · have : f.round x ≤ 0 := by
      have := f.round_nonneg (x := -x) (by linarith)
      rw [f.round_neg] at this
      linarith
    rw [if_neg (by linarith)]
    split
    · simp [Fl.isNeg, hx]
    · split
      · simp [Fl.isNeg, hx]
      · rename_i h
        simp [Fl.isNeg, hx, lt_of_le_of_ne this h]
  · have : 0 ≤ f.round x := f.round_nonneg (by linarith)
    split
    · simp [Fl.isNeg, hx]
    · rw [if_neg (by linarith)]
      split
      · simp [Fl.isNeg, hx]
      · simp [Fl.isNeg, hx, this]

/-- Multiplying by a positive number keeps the sign. -/
theorem mul_pos_isNeg (f : Fmt) (a : Fl) {b : Fl} {p : Rat} (hb : b.val = some p) (hp : 0 < p) (ha : a ≠ .nan) :
    (f.mul a b).isNeg = a.isNeg ∧ f.mul a b ≠ .nan ∧ (∀ s, a = .inf s → f.mul a b = .inf s) := by
  obtain rfl : b = .fin p := by
    rcases Fl.val_some hb with h | ⟨-, h⟩
    · exact h
    · exact absurd h hp.ne'
  have hp' : decide (p < 0) = false := by simp [hp.le]
  cases a with
  | nan => exact absurd rfl ha
  | inf s => simp [Fmt.mul, Fl.isNeg, Fl.val, hp.ne', hp']
  | negZero =>
    have h0 : f.mul .negZero (.fin p) = .negZero := by
      have hT := pow2_pos f.top
      show f.ofRat (xor true (decide (p < 0))) 0 = .negZero
      unfold Fmt.ofRat
      simp only [f.round_zero, hp']
      rw [if_neg (by linarith), if_neg (by linarith)]
      simp
    rw [h0]
    simp [Fl.isNeg]
  | fin v =>
    have hv : decide (v < 0) = decide (v * p < 0) := by
      rw [decide_eq_decide]
      constructor
      · intro h; exact mul_neg_of_neg_of_pos h hp
      · intro h
        by_contra hc
        have := mul_nonneg (not_lt.mp hc) hp.le
        linarith
    have e : f.mul (.fin v) (.fin p) = f.ofRat (decide (v * p < 0)) (v * p) := by
      show f.ofRat (xor (decide (v < 0)) (decide (p < 0))) (v * p) = _
      rw [hp', hv]
      simp
    rw [e]
    refine ⟨?_, f.ofRat_ne_nan _ _, by simp⟩
    rw [ofRat_isNeg, ← hv]
    rfl

/-- C60. The value of a constant field has the sign of the reference value, even when it underflows to zero; an infinite
reference value gives that infinity and a NaN gives NaN, as long as `10^-D` is finite and not computed as 0. -/
theorem C60_constant_sign (powi : Fl → Int → Fl) (png jp2) (t : Decoder) (ht : t.templateNum = 0) (hlen : 16 ≤ t.sect5.length)
    (htype : sectNumber t.sect5 21 21 = 0) (hn : bitsPerValue t.sect5 = 0) {p : Rat}
    (h10 : (powi (.fin 10) (-sectSigned t.sect5 18 19)).val = some p) (hp : 0 < p) (s : Bool) (e m : Nat) (he : e < 256)
    (hm : m < 2 ^ 23) (hb : sectNumber t.sect5 12 15 = (if s then 2 ^ 31 else 0) + e * 2 ^ 23 + m) :
    ∃ v, t.decodeValues (singleCodecs powi png jp2) = .ok (List.replicate t.numPointsEncoded (.ok v)) ∧
      (v = .nan ↔ e = 255 ∧ m ≠ 0) ∧ (e = 255 → m = 0 → v = .inf s) ∧ ((e = 255 → m = 0) → v.isNeg = s) := by
  have : t.decodeValues (singleCodecs powi png jp2) = simpleDecode (singleCodecs powi png jp2).ops t := by
    unfold Decoder.decodeValues; rw [ht]; rfl
  refine ⟨Fmt.single.mul (binary32 s e m) (powi (.fin 10) (-sectSigned t.sect5 18 19)), ?_, ?_⟩
  · rw [this, C20_constant _ t hlen htype hn, ofInt_ten, hb]
    show Outcome.ok (List.replicate _ (Outcome.ok (Fmt.single.mul (Fl.ofBits32 _) _))) = _
    rw [ofBits32_binary32 s e m he hm]
    rfl
  · by_cases hnan : e = 255 ∧ m ≠ 0
    · have : binary32 s e m = .nan := by unfold binary32; rw [if_pos hnan.1, if_neg hnan.2]
      rw [this]
      refine ⟨⟨fun _ => hnan, fun _ => rfl⟩, fun _ h => absurd h hnan.2, fun h => absurd (h hnan.1) hnan.2⟩
    · have hnn : binary32 s e m ≠ .nan := by
        unfold binary32
        split_ifs <;> simp_all
      have hsig : (binary32 s e m).isNeg = s := by
        unfold binary32
        have hz1 : 0 < zpow 2 (-149) := spec_zpow_pos (by norm_num) _
        have hz2 : 0 < zpow 2 ((e : Int) - 150) := spec_zpow_pos (by norm_num) _
        have hm0 : (0 : Rat) ≤ m := by positivity
        split_ifs with h1 h2 h3 h4 h5 h6 h7 <;> simp_all [Fl.isNeg]
        all_goals first
          | exact mul_pos (by exact_mod_cast Nat.pos_of_ne_zero (by assumption)) (by assumption)
          | positivity
      obtain ⟨a, b, c⟩ := mul_pos_isNeg Fmt.single (binary32 s e m) h10 hp hnn
      refine ⟨⟨fun h => absurd h b, fun h => absurd h hnan⟩, ?_, fun _ => by rw [a, hsig]⟩
      intro h1 h2
      apply c
      unfold binary32
      rw [if_pos h1, if_pos h2]

/-- `R = -2^-149` and `D = 2`: minus zero. -/
example : (⟨1, 1, 0, [0, 0, 0, 1, 0, 0, 0x80, 0, 0, 1, 0, 0, 0, 2, 0, 0], [0xff], []⟩ : Decoder).decodeValues
      (singleCodecs (compilerRtPowi .single) (fun _ => none) (fun _ => .err .notSupported)) = .ok [.ok .negZero] := by
  decide +kernel

/-- C60. With a reference value that is NaN, every point is NaN. -/
theorem C60_nan (powi : Fl → Int → Fl) (png jp2) (hj : MachineInts jp2) (t : Decoder) (ht : Packed t) (s : Bool) (m : Nat)
    (hm : m < 2 ^ 23) (hm0 : m ≠ 0) (hb : sectNumber t.sect5 12 15 = (if s then 2 ^ 31 else 0) + 255 * 2 ^ 23 + m)
    (vs : Items Fl) (h : t.decodeValues (singleCodecs powi png jp2) = .ok vs) (v : Fl) (hv : .ok v ∈ vs) : v = .nan := by
  have hR : Fl.ofBits32 (sectNumber t.sect5 12 15) = .nan := by
    rw [hb, ofBits32_binary32 s 255 m (by decide) hm]
    unfold binary32
    rw [if_pos rfl, if_neg hm0]
  have hmul : ∀ y, Fmt.single.mul .nan y = .nan := fun y => rfl
  have hadd : ∀ y, Fmt.single.add .nan y = .nan := fun y => rfl
  rcases uniform_packed (png := png) hj ht with ⟨e, h'⟩ | h' | ⟨hl, hn, h'⟩ | ⟨hl, xs, hs, h'⟩
  · rw [h'] at h; cases h
  · rw [h'] at h; cases h
  · rw [h'] at h
    cases h
    have := List.eq_of_mem_replicate hv
    simp only [Outcome.ok.injEq] at this
    rw [this]
    show Fmt.single.mul (Fl.ofBits32 (sectNumber t.sect5 12 15)) _ = .nan
    rw [hR, hmul]
  · rw [h'] at h
    cases h
    obtain ⟨x, hx, he⟩ := List.mem_map.mp hv
    cases x with
    | err z => exact z.elim
    | panic => simp at he
    | ok o =>
      simp only [Outcome.map_ok, Outcome.ok.injEq] at he
      rw [← he]
      cases o with
      | none => exact single_missing _ _ _
      | some x => rw [single_item, hR, hadd, hmul]

/-! ## Run-length packing -/

theorem zpow_ten_le_one (n : Nat) : zpow 10 (-(n : Int)) ≤ 1 := by
  unfold zpow
  cases n with
  | zero => norm_num
  | succ n =>
    rw [if_neg (by omega), show (-(-((n + 1 : Nat) : Int))).toNat = n + 1 by omega]
    have : (1 : Rat) ≤ 10 ^ (n + 1) := one_le_pow₀ (by norm_num)
    rw [div_le_one (by positivity)]
    exact this

/-- A number times a power that is not quite exact. -/
theorem scaled_close (f : Fmt) {N P : Fl} {n p d : Rat} (hN : N.val = some n) (hP : RelClose P p d) :
    ∃ (s : Bool) (x : Rat), f.mul N P = f.ofRat s x ∧
      |f.round x - n * p| ≤ (d + pow2 (-f.prec) * (1 + d)) * |n * p| + pow2 (f.emin - 1) := by
  obtain ⟨q, hq, hc⟩ := hP
  obtain ⟨s, e⟩ := f.mul_val hN hq
  refine ⟨s, _, e, ?_⟩
  have h1 : |n * q - n * p| ≤ d * |n * p| + 0 := by
    rw [← mul_sub, abs_mul, abs_mul, add_zero]
    have := mul_le_mul_of_nonneg_left hc (abs_nonneg n)
    linarith
  have := f.round_close h1 (le_refl _)
  rw [mul_zero, zero_add] at this
  exact this

theorem level_close (powi : Fl → Int → Fl) (pf : Nat → Fl) (s : List UInt8) (l : Nat) (hl : l ≠ 0)
    (h10 : RelClose (powi (.fin 10) (-((runLengthTemplate s).scale : Int))) (zpow 10 (-((runLengthTemplate s).scale : Int))) (1 / 2 ^ 22)) :
    ∃ y y', levelValue FloatOps.exact s l = some y ∧ (levelValue (FloatOps.ieee .single powi pf) s l).val = some y' ∧
      |y' - y| ≤ 1 / 2 ^ 21 * |y| + 1 / 2 ^ 150 := by
  have hn : sectNumber s (16 + 2 * l) (17 + 2 * l) < 2 ^ 16 := by
    have := number_lt s (16 + 2 * l - 6) (17 + 2 * l + 1 - (16 + 2 * l))
    unfold sectNumber
    rwa [show 17 + 2 * l + 1 - (16 + 2 * l) = 2 by omega] at this ⊢
  have hp : 0 < zpow 10 (-((runLengthTemplate s).scale : Int)) := spec_zpow_pos (by norm_num) _
  have hp1 := zpow_ten_le_one (runLengthTemplate s).scale
  unfold levelValue
  rw [if_neg hl, if_neg hl, ofInt_ten]
  generalize sectNumber s (16 + 2 * l) (17 + 2 * l) = n at *
  have hN : (Fmt.single.ofRat false (((n : Nat) : Int) : Rat)).val = some (((n : Nat) : Int) : Rat) := by
    have := single_ofInt_val (n := (n : Int)) (by rw [abs_of_nonneg (by omega)]; omega) false
    have h1 := Fmt.single.round_exact (by decide) (m := (n : Int)) (k := 0)
      (by rw [abs_of_nonneg (by omega)]; show (n : Int) ≤ 2 ^ 24; omega) (by decide)
    rw [pow2_zero, mul_one] at h1
    rwa [h1] at this
  obtain ⟨sg, x, e, hc⟩ := scaled_close Fmt.single hN h10
  refine ⟨(((n : Nat) : Int) : Rat) * ratPowi 10 (-((runLengthTemplate s).scale : Int)), Fmt.single.round x, rfl, ?_, ?_⟩
  · show (Fmt.single.mul _ _).val = _
    have hy : |(((n : Nat) : Int) : Rat) * zpow 10 (-((runLengthTemplate s).scale : Int))| ≤ 2 ^ 16 := by
      have h0 : (0 : Rat) ≤ ((n : Int) : Rat) := by positivity
      rw [abs_of_nonneg (mul_nonneg h0 hp.le)]
      have h2 : ((n : Int) : Rat) ≤ 2 ^ 16 := by exact_mod_cast hn.le
      calc ((n : Int) : Rat) * zpow 10 (-((runLengthTemplate s).scale : Int)) ≤ ((n : Int) : Rat) * 1 :=
            mul_le_mul_of_nonneg_left hp1 h0
        _ ≤ 2 ^ 16 := by linarith
    refine Eq.trans (congrArg Fl.val e) (Fmt.single.ofRat_fin sg ?_)
    rw [single_top]
    rw [single_u, single_eta] at hc
    have h3 := abs_sub_abs_le_abs_sub (Fmt.single.round x) ((((n : Nat) : Int) : Rat) * zpow 10 (-((runLengthTemplate s).scale : Int)))
    generalize |(((n : Nat) : Int) : Rat) * zpow 10 (-((runLengthTemplate s).scale : Int))| = Y at *
    have h4 := le_trans h3 hc
    norm_num at h4 hy ⊢
    linarith
  · rw [ratPowi_eq]
    rw [single_u, single_eta] at hc
    refine le_trans hc ?_
    have := abs_nonneg ((((n : Nat) : Int) : Rat) * zpow 10 (-((runLengthTemplate s).scale : Int)))
    generalize |(((n : Nat) : Int) : Rat) * zpow 10 (-((runLengthTemplate s).scale : Int))| = Y at *
    norm_num
    linarith

/-- C60. Run-length packing in single precision: the same outcome as in exact arithmetic, the same points missing, and every
value within `2^-21` of the exact one (and `2^-150`), when `10^-D` is computed within `2^-22`. -/
theorem C60_levels (powi : Fl → Int → Fl) (png jp2) (t : Decoder) (ht : t.templateNum = 200)
    (h10 : RelClose (powi (.fin 10) (-((runLengthTemplate t.sect5).scale : Int)))
      (zpow 10 (-((runLengthTemplate t.sect5).scale : Int))) (1 / 2 ^ 22)) :
    (∀ e, t.decodeValues (singleCodecs powi png jp2) = .err e ↔ t.decodeValues (exactWith png jp2) = .err e) ∧
    (t.decodeValues (singleCodecs powi png jp2) = .panic ↔ t.decodeValues (exactWith png jp2) = .panic) ∧
    ∀ ys vs, t.decodeValues (exactWith png jp2) = .ok ys → t.decodeValues (singleCodecs powi png jp2) = .ok vs →
      vs.length = ys.length ∧ ∀ k : Nat,
        (ys[k]? = some (.ok none) → vs[k]? = some (.ok .nan)) ∧
        ∀ y, ys[k]? = some (.ok (some y)) → ∃ v y', vs[k]? = some (.ok v) ∧ v.val = some y' ∧
          |y' - y| ≤ 1 / 2 ^ 21 * |y| + 1 / 2 ^ 150 := by
  have e1 : t.decodeValues (singleCodecs powi png jp2) = runLengthDecode (singleCodecs powi png jp2).ops t := by
    unfold Decoder.decodeValues; rw [ht]; rfl
  have e2 : t.decodeValues (exactWith png jp2) = runLengthDecode FloatOps.exact t := by
    unfold Decoder.decodeValues; rw [ht]; rfl
  rw [e1, e2]
  have hc := (C67_outcome FloatOps.exact t _).mp rfl
  generalize ho : runLengthDecode FloatOps.exact t = o at hc
  cases hc with
  | unusable h => rw [(C67_outcome _ t .panic).mpr (.unusable h)]; simp
  | first h hf => rw [(C67_outcome _ t (.err _)).mpr (.first h hf)]; simp
  | range h rs hw hr => rw [(C67_outcome _ t .panic).mpr (.range h rs hw hr)]; simp
  | mismatch h rs hw hr hc => rw [(C67_outcome _ t (.err _)).mpr (.mismatch h rs hw hr hc)]; simp
  | level h rs hw hr hc pre l post he hpre hl =>
    rw [(C67_outcome _ t (.err _)).mpr (.level h rs hw hr hc pre l post he hpre hl)]; simp
  | values h rs hw hr hc hl =>
    rw [(C67_outcome _ t (.ok _)).mpr (.values h rs hw hr hc hl)]
    refine ⟨by simp, by simp, ?_⟩
    intro ys vs h1 h2
    simp only [Outcome.ok.injEq] at h1 h2
    subst h1 h2
    refine ⟨by simp, fun k => ?_⟩
    simp only [List.getElem?_map]
    cases (levelsOf t rs)[k]? with
    | none => simp
    | some l =>
      simp only [Option.map_some, Option.some.injEq, Outcome.ok.injEq]
      by_cases hl0 : l = 0
      · subst hl0
        refine ⟨fun _ => rfl, ?_⟩
        intro y hy
        cases hy
      · obtain ⟨y, y', a, b, c⟩ := level_close powi (fun n => powi (.fin 10) n) t.sect5 l hl0 h10
        rw [a]
        refine ⟨fun h => (by cases h), ?_⟩
        intro z hz
        cases hz
        exact ⟨_, y', rfl, b, c⟩

/-- Levels (missing), 0.5, 1.0, 25.5: a run of three of the first, then the others. -/
example : (⟨6, 6, 200, [0, 0, 0, 6, 0, 200, 8, 0, 3, 0, 3, 1, 0, 5, 0, 10, 0, 255], [0xff], [1, 6, 2, 0, 3]⟩ : Decoder).decodeValues
      (singleCodecs (compilerRtPowi .single) (fun _ => none) (fun _ => .err .notSupported)) =
    .ok [.ok (.ofBits32 0x3f000000), .ok (.ofBits32 0x3f000000), .ok (.ofBits32 0x3f000000), .ok (.fin 1), .ok .nan,
      .ok (.fin (51 / 2))] ∧
    RelClose (compilerRtPowi .single (.fin 10) (-1)) (zpow 10 (-1)) (1 / 2 ^ 22) :=
  ⟨by decide +kernel, (C60_powers.2.1 1 (by decide) (by decide)).1⟩

/-! ## Grids of one row or column -/

theorem div_zero_times_zero {a : Fl} {x : Rat} (ha : a.val = some x) :
    Fmt.single.mul (Fmt.single.ofRat false ((0 : Int) : Rat)) (Fmt.single.div a (Fmt.single.ofRat false ((0 : Int) : Rat))) = .nan := by
  have h0 : Fmt.single.ofRat false ((0 : Int) : Rat) = .fin 0 := by decide +kernel
  rw [h0]
  rcases Fl.val_some ha with rfl | ⟨rfl, rfl⟩
  · by_cases hx : x = 0
    · subst hx; decide +kernel
    · have : Fmt.single.div (.fin x) (.fin 0) = .inf (xor (decide (x < 0)) (decide ((0 : Rat) < 0))) := by
        simp [Fmt.div, Fl.isNeg, hx]
      rw [this]
      simp [Fmt.mul, Fl.val]
  · decide +kernel

theorem evenly_zero (powi pf) {S E : Fl} {s e : Rat} (hS : S.val = some s) (hE : E.val = some e) (hs : |s| ≤ 2 ^ 40) (he : |e| ≤ 2 ^ 40) :
    evenlySpacedDegrees (single powi pf) S E 0 = [.nan] := by
  obtain ⟨z, hz⟩ := Fmt.single.add_val hE (Fl.neg_val hS)
  have hfin : |Fmt.single.round (e + -s)| < pow2 Fmt.single.top := by
    have h1 := Fmt.single.round_err (e + -s)
    rw [single_u, single_eta] at h1
    have h2 := abs_add_le e (-s)
    rw [abs_neg] at h2
    have h3 := abs_sub_abs_le_abs_sub (Fmt.single.round (e + -s)) (e + -s)
    rw [single_top]
    generalize |e + -s| = A at *
    norm_num at *
    linarith
  have hv := Fmt.single.ofRat_fin z hfin
  rw [← hz] at hv
  have h := div_zero_times_zero hv
  unfold evenlySpacedDegrees
  show [Fmt.single.div (Fmt.single.add S (Fmt.single.mul (Fmt.single.ofRat false ((0 : Int) : Rat))
    (Fmt.single.div (Fmt.single.add E S.neg) (Fmt.single.ofRat false ((0 : Int) : Rat))))) _] = [.nan]
  rw [h]
  have h2 : ∀ y, Fmt.single.add y .nan = .nan := by intro y; cases y <;> rfl
  rw [h2]
  rfl

/-- C61. A grid of one row has no latitude and a grid of one column no longitude: they are computed as NaN (a difference
divided by zero intervals), whatever the coordinates. -/
theorem C61_single_line (powi pf) (g : LatLonGrid) (it : RegularIter Fl) (h : g.latlons (single powi pf) = .ok it)
    (hb : |g.firstLat| < 2 ^ 31 ∧ |g.lastLat| < 2 ^ 31 ∧ |g.firstLon| < 2 ^ 31 ∧ |g.lastLon| < 2 ^ 31) :
    (g.nj = 1 → it.lat = [.nan]) ∧ (g.ni = 1 → it.lon = [.nan]) := by
  have bound : ∀ a : Int, |a| < 2 ^ 31 → ∃ s, (Fmt.single.ofRat false ((a : Int) : Rat)).val = some s ∧ |s| ≤ 2 ^ 39 := by
    intro a ha
    obtain ⟨s, h1, -, h3⟩ := single_of_microdegrees (a := a) (by omega)
    refine ⟨s, h1, ?_⟩
    have h4 : |(a : Rat)| ≤ 2 ^ 31 := by exact_mod_cast ha.le
    have h5 := abs_sub_abs_le_abs_sub s a
    norm_num at *
    linarith
  have turn : ∀ S : Fl, ∀ s : Rat, S.val = some s → |s| ≤ 2 ^ 39 →
      ∃ u, (Fmt.single.add S (Fmt.single.ofRat false ((360000000 : Int) : Rat))).val = some u ∧ |u| ≤ 2 ^ 40 := by
    intro S s hS hs
    rw [ofInt_turn]
    obtain ⟨z, hz⟩ := Fmt.single.add_val hS (show (Fl.fin 360000000).val = some 360000000 from rfl)
    have h1 := Fmt.single.round_err (s + 360000000)
    rw [single_u, single_eta] at h1
    have h2 := abs_add_le s 360000000
    have h3 := abs_sub_abs_le_abs_sub (Fmt.single.round (s + 360000000)) (s + 360000000)
    have h4 : |Fmt.single.round (s + 360000000)| ≤ 2 ^ 40 := by
      rw [abs_of_pos (show (0 : Rat) < 360000000 by norm_num)] at h2
      generalize |s + 360000000| = A at *
      norm_num at *
      linarith
    refine ⟨_, ?_, h4⟩
    rw [hz]
    apply Fmt.ofRat_fin
    rw [single_top]
    refine lt_of_le_of_lt h4 (by norm_num)
  obtain ⟨b1, b2, b3, b4⟩ := hb
  constructor
  · intro hj
    have hlat : it.lat = evenlySpacedDegrees (single powi pf) (Fmt.single.ofRat false (g.firstLat : Rat))
        (Fmt.single.ofRat false (g.lastLat : Rat)) (g.nj - 1) := by
      rw [(C33_points _ g it h).1]
      unfold evenlySpacedDegrees
      rw [show g.nj - 1 + 1 = g.nj by omega]
      rfl
    obtain ⟨s, hs, hs'⟩ := bound _ b1
    obtain ⟨e, he, he'⟩ := bound _ b2
    rw [hlat, hj]
    exact evenly_zero powi pf hs he (by linarith) (by linarith)
  · intro hi
    obtain ⟨s, hs, hs'⟩ := bound _ b3
    obtain ⟨e, he, he'⟩ := bound _ b4
    obtain ⟨hlon, -, -⟩ := latlons_lon h
    rw [hi] at hlon
    unfold evenlySpacedLongitudes at hlon
    obtain ⟨diff, -, hlon⟩ := Outcome.bind_eq_ok hlon
    have nan_map : ∀ l : List Fl, l = [.nan] →
        (l.map fun x => if (single powi pf).lt x ((single powi pf).ofInt 360) then x
          else (single powi pf).sub x ((single powi pf).ofInt 360)) = [.nan] := by
      rintro l rfl
      rfl
    obtain ⟨s2, hs2, hs2'⟩ := turn _ _ hs hs'
    obtain ⟨e2, he2, he2'⟩ := turn _ _ he he'
    dsimp only at hlon
    split at hlon
    · have hlon := (Outcome.ok.inj hlon).symm
      rw [hlon]
      simp only [Nat.sub_self]
      exact evenly_zero powi pf hs he (by linarith) (by linarith)
    · have hlon := (Outcome.ok.inj hlon).symm
      rw [hlon]
      apply nan_map
      simp only [Nat.sub_self]
      split
      · exact evenly_zero powi pf hs he2 (by linarith) he2'
      · exact evenly_zero powi pf hs2 he hs2' (by linarith)

/-- A single point at 35 N, 135 E. -/
example : ∃ it, (⟨1, 1, 35000000, 135000000, 35000000, 135000000, 0⟩ : LatLonGrid).latlons
    (single (compilerRtPowi .single) fun _ => .nan) = .ok it ∧ it.lat = [.nan] ∧ it.lon = [.nan] :=
  ⟨_, rfl, by decide +kernel, by decide +kernel⟩

end Grib.Props
