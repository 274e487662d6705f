import Verif.Lemmas.Unpack
import Verif.Lemmas.Stored
import Verif.Props.Bitmap

/-! # C60: the values as single-precision arithmetic computes them

`FloatOps.exact` gives the values of the standard's formula (C20, C27-C29).  Here the same data are decoded with IEEE-754
single precision, as the program does, and compared. -/

namespace Grib.Props

open Grib.Model Grib.Spec

/-- The program's arithmetic, with these implementations of `powi`, of PNG and of JPEG 2000. -/
abbrev singleCodecs (powi : Fl → Int → Fl) (png : List UInt8 → Option (List UInt8))
    (jp2 : List UInt8 → Outcome Jpeg2000Error (List Int)) : Codecs Fl :=
  ⟨FloatOps.ieee .single powi (fun n => powi (.fin 10) n), png, jp2⟩

/-- Exact arithmetic with the same image decoders. -/
abbrev exactWith (png : List UInt8 → Option (List UInt8)) (jp2 : List UInt8 → Outcome Jpeg2000Error (List Int)) :
    Codecs (Option Rat) := ⟨FloatOps.exact, png, jp2⟩

/-- Templates 5.0, 5.2, 5.3, 5.40, 5.41. -/
def Packed (t : Decoder) : Prop :=
  t.templateNum = 0 ∨ t.templateNum = 2 ∨ t.templateNum = 3 ∨ t.templateNum = 40 ∨ t.templateNum = 41

instance (t : Decoder) : Decidable (Packed t) := inferInstanceAs (Decidable (_ ∨ _ ∨ _ ∨ _ ∨ _))

/-- OpenJPEG delivers machine integers. -/
def MachineInts (jp2 : List UInt8 → Outcome Jpeg2000Error (List Int)) : Prop :=
  ∀ data xs, jp2 data = .ok xs → ∀ x ∈ xs, x.natAbs ≤ 2 ^ 32

theorem uniform_packed {png jp2} (hj : MachineInts jp2) {t : Decoder} (h : Packed t) : Uniform png jp2 t := by
  rcases h with h | h | h | h | h
  · exact uniform_simple png jp2 t h
  · exact uniform_complex2 png jp2 t h
  · exact uniform_complex3 png jp2 t h
  · exact uniform_jpeg png jp2 t h hj
  · exact uniform_png png jp2 t h

theorem ofBits32_val {b : Nat} {r : Rat} (h : f32Value b = some r) : (Fl.ofBits32 b).val = some r := by
  unfold Fl.ofBits32
  rw [h]
  simp only
  split
  · rename_i hc; simp [Fl.val, hc.1]
  · rfl

/-- Exact items are missing or numbers. -/
theorem exact_item {t : Decoder} {r : Rat} (hr : f32Value (sectNumber t.sect5 12 15) = some r) (o : Option Int) :
    unpackStored FloatOps.exact (paramOf FloatOps.exact t.sect5) o =
      o.map fun x => unpacked r (sectSigned t.sect5 16 17) (sectSigned t.sect5 18 19) x := by
  cases o with
  | none =>
    show SimpleParam.unpack FloatOps.exact _ none = none
    unfold SimpleParam.unpack paramOf
    simp only [FloatOps.exact, hr]
    rfl
  | some x => exact unpack_exact _ hr x

/-- A missing item is NaN in single precision as well. -/
theorem single_missing (powi : Fl → Int → Fl) (pf : Nat → Fl) (p : SimpleParam Fl) :
    unpackStored (FloatOps.ieee .single powi pf) p none = .nan := by
  show SimpleParam.unpack _ p .nan = .nan
  unfold SimpleParam.unpack
  simp only [FloatOps.ieee]
  have h1 : ∀ y, Fmt.single.mul .nan y = .nan := by intro y; rfl
  have h2 : ∀ y, Fmt.single.add y .nan = .nan := by intro y; cases y <;> rfl
  rw [h1, h2, h1]

theorem single_item (powi : Fl → Int → Fl) (pf : Nat → Fl) (s : List UInt8) (x : Int) :
    unpackStored (FloatOps.ieee .single powi pf) (paramOf (FloatOps.ieee .single powi pf) s) (some x) =
      Fmt.single.mul (Fmt.single.add (Fl.ofBits32 (sectNumber s 12 15))
        (Fmt.single.mul (Fmt.single.ofRat false x) (powi (.fin 2) (sectSigned s 16 17))))
        (powi (.fin 10) (-sectSigned s 18 19)) :=
  unpack_ieee powi pf _ x

/-- C60. The program fails on the same data, with the same error, as decoding by exact arithmetic does; and it yields as
many items, the same of them missing (NaN). -/
theorem C60_same_shape (powi : Fl → Int → Fl) (png jp2) (hj : MachineInts jp2) (t : Decoder) (ht : Packed t) {r : Rat}
    (hr : f32Value (sectNumber t.sect5 12 15) = some r) :
    (∀ e, t.decodeValues (singleCodecs powi png jp2) = .err e ↔ t.decodeValues (exactWith png jp2) = .err e) ∧
    (t.decodeValues (singleCodecs powi png jp2) = .panic ↔ t.decodeValues (exactWith png jp2) = .panic) ∧
    ∀ ys vs, t.decodeValues (exactWith png jp2) = .ok ys → t.decodeValues (singleCodecs powi png jp2) = .ok vs →
      vs.length = ys.length ∧
      ∀ k : Nat, (ys[k]? = some .panic ↔ vs[k]? = some .panic) ∧ (ys[k]? = some (.ok none) → vs[k]? = some (.ok .nan)) := by
  rcases uniform_packed (png := png) hj ht with ⟨e, h⟩ | h | ⟨hl, hn, h⟩ | ⟨hl, xs, hs, h⟩
  · rw [singleCodecs, exactWith, h, h]
    simp
  · rw [singleCodecs, exactWith, h, h]
    simp
  · rw [singleCodecs, exactWith, h, h]
    refine ⟨by simp, by simp, ?_⟩
    intro ys vs h1 h2
    simp only [Outcome.ok.injEq] at h1 h2
    subst h1 h2
    refine ⟨by simp, fun k => ?_⟩
    simp only [List.getElem?_replicate]
    split
    · refine ⟨by simp, ?_⟩
      intro hc
      exfalso
      simp only [Option.some.injEq, Outcome.ok.injEq, SimpleParam.zeroBitReferenceValue, paramOf, FloatOps.exact, hr] at hc
      cases hc
    · simp
  · rw [singleCodecs, exactWith, h, h]
    refine ⟨by simp, by simp, ?_⟩
    intro ys vs h1 h2
    simp only [Outcome.ok.injEq] at h1 h2
    subst h1 h2
    refine ⟨by simp, fun k => ?_⟩
    simp only [List.getElem?_map]
    cases hx : xs[k]? with
    | none => simp
    | some a =>
      cases a with
      | err z => exact z.elim
      | panic => simp
      | ok o =>
        simp only [Option.map_some, Outcome.map_ok]
        refine ⟨by simp, ?_⟩
        rw [exact_item hr]
        cases o with
        | none => intro _; rw [single_missing]
        | some x => simp

/-- A stored integer from its exact value. -/
theorem stored_of_value {r q t y : Rat} {x : Int} (hq : 0 < q) (ht : 0 < t) (h : (r + x * q) * t = y) :
    |(x : Rat)| * q * t ≤ |y| + |r| * t := by
  have e1 : (x : Rat) * q * t = y - r * t := by rw [← h]; ring
  have e2 : |(x : Rat)| * q * t = |(x : Rat) * q * t| := by rw [abs_mul, abs_mul, abs_of_pos hq, abs_of_pos ht]
  rw [e2, e1]
  have := abs_sub y (r * t)
  rw [abs_mul r t, abs_of_pos ht] at this
  exact this

theorem zpow_neg_mul (d : Int) : zpow 10 (-d) * zpow 10 d = 1 := by
  unfold zpow
  rcases lt_trichotomy d 0 with h | rfl | h
  · rw [if_pos (by omega), if_neg (by omega)]
    have : (10 : Rat) ^ (-d).toNat ≠ 0 := by positivity
    field_simp
  · norm_num
  · rw [if_neg (by omega), if_pos (by omega)]
    have : (10 : Rat) ^ d.toNat ≠ 0 := by positivity
    rw [neg_neg]
    field_simp

/-- C60. Every value differs from the exact one by at most `2^-20·(|value| + 2·|R|·10^-D)` (and a term at the lower end of
the range), and nothing overflows, when the intermediate results stay below `2^126` and the powers `2^E` and `10^-D` are
computed with a relative error of at most `2^-22`. -/
theorem C60_close (powi : Fl → Int → Fl) (png jp2) (hj : MachineInts jp2) (t : Decoder) (ht : Packed t) {r : Rat}
    (hr : f32Value (sectNumber t.sect5 12 15) = some r)
    (h2 : RelClose (powi (.fin 2) (sectSigned t.sect5 16 17)) (zpow 2 (sectSigned t.sect5 16 17)) (1 / 2 ^ 22))
    (h10 : RelClose (powi (.fin 10) (-sectSigned t.sect5 18 19)) (zpow 10 (-sectSigned t.sect5 18 19)) (1 / 2 ^ 22))
    (hd : zpow 10 (-sectSigned t.sect5 18 19) ≤ 2 ^ 126)
    (ys : Items (Option Rat)) (vs : Items Fl) (hys : t.decodeValues (exactWith png jp2) = .ok ys)
    (hvs : t.decodeValues (singleCodecs powi png jp2) = .ok vs) (k : Nat) (y : Rat) (hy : ys[k]? = some (.ok (some y)))
    (hb1 : |y| * zpow 10 (sectSigned t.sect5 18 19) + 2 * |r| ≤ 2 ^ 126)
    (hb2 : |y| + 2 * |r| * zpow 10 (-sectSigned t.sect5 18 19) ≤ 2 ^ 126) :
    ∃ v y', vs[k]? = some (.ok v) ∧ v.val = some y' ∧
      |y' - y| ≤ 1 / 2 ^ 20 * (|y| + 2 * |r| * zpow 10 (-sectSigned t.sect5 18 19)) +
        1 / 2 ^ 148 * (zpow 10 (-sectSigned t.sect5 18 19) + 1) := by
  have htp : 0 < zpow 10 (-sectSigned t.sect5 18 19) := spec_zpow_pos (by norm_num) _
  have hqp : 0 < zpow 2 (sectSigned t.sect5 16 17) := spec_zpow_pos (by norm_num) _
  rcases uniform_packed (png := png) hj ht with ⟨e, h⟩ | h | ⟨hl, hn, h⟩ | ⟨hl, xs, hs, h⟩
  · rw [h] at hys; cases hys
  · rw [h] at hys; cases hys
  · rw [h] at hys hvs
    simp only [Outcome.ok.injEq] at hys hvs
    subst hys hvs
    simp only [List.getElem?_replicate] at hy ⊢
    split at hy
    · rename_i hk
      rw [if_pos hk]
      simp only [Option.some.injEq, Outcome.ok.injEq, SimpleParam.zeroBitReferenceValue, paramOf] at hy ⊢
      rw [ofInt_ten]
      have hy' : r * zpow 10 (-sectSigned t.sect5 18 19) = y := by
        simp only [FloatOps.exact, hr] at hy
        have : some (r * ratPowi 10 (-sectSigned t.sect5 18 19)) = some y := hy
        rw [ratPowi_eq] at this
        simpa using this
      obtain ⟨p, hp, cp⟩ := h10
      generalize zpow 10 (-sectSigned t.sect5 18 19) = T at *
      rw [abs_of_pos htp] at cp
      obtain ⟨s, e⟩ := Fmt.single.mul_val (ofBits32_val hr) hp
      have hyabs : |y| = |r| * T := by rw [← hy', abs_mul, abs_of_pos htp]
      have c1 : |r * p - r * T| ≤ (1 / 2 ^ 22) * |y| + 0 := by
        rw [← mul_sub, abs_mul, hyabs]
        have := mul_le_mul_of_nonneg_left cp (abs_nonneg r)
        linarith
      rw [hy'] at c1
      have c2 := Fmt.single.round_close c1 (le_refl _)
      have hu : pow2 (-(Fmt.single.prec : Int)) = 1 / 2 ^ 24 := by decide +kernel
      have he : pow2 (Fmt.single.emin - 1) = 1 / 2 ^ 150 := by decide +kernel
      have htop : pow2 Fmt.single.top = 2 ^ 128 := by decide +kernel
      rw [hu, he] at c2
      have hy0 := abs_nonneg y
      have hrT : 0 ≤ |r| * T := mul_nonneg (abs_nonneg _) htp.le
      refine ⟨_, Fmt.single.round (r * p), rfl, ?_, ?_⟩
      · show (Fmt.single.mul (Fl.ofBits32 (sectNumber t.sect5 12 15)) (powi (.fin 10) (-sectSigned t.sect5 18 19))).val =
          some (Fmt.single.round (r * p))
        rw [e]
        apply Fmt.ofRat_fin
        rw [htop]
        have := abs_sub_abs_le_abs_sub (Fmt.single.round (r * p)) y
        norm_num at c2 hb2 ⊢
        linarith
      · refine le_trans c2 ?_
        norm_num
        linarith
    · cases hy
  · rw [h] at hys hvs
    simp only [Outcome.ok.injEq] at hys hvs
    subst hys hvs
    simp only [List.getElem?_map] at hy ⊢
    cases hx : xs[k]? with
    | none => rw [hx] at hy; simp at hy
    | some a =>
      rw [hx] at hy
      cases a with
      | err z => exact z.elim
      | panic => simp at hy
      | ok o =>
        simp only [Option.map_some, Outcome.map_ok] at hy ⊢
        rw [exact_item hr] at hy
        cases o with
        | none => simp at hy
        | some x =>
          rw [single_item]
          have hx32 : |x| ≤ 2 ^ 32 := by
            have := hs x (List.mem_of_getElem? hx)
            rw [Int.abs_eq_natAbs]
            exact_mod_cast this
          simp only [Option.map_some, Option.some.injEq, Outcome.ok.injEq, unpacked] at hy
          have hst := stored_of_value hqp htp hy
          have hinv := zpow_neg_mul (sectSigned t.sect5 18 19)
          have hdp : 0 < zpow 10 (sectSigned t.sect5 18 19) := spec_zpow_pos (by norm_num) _
          generalize zpow 10 (-sectSigned t.sect5 18 19) = T at *
          generalize zpow 10 (sectSigned t.sect5 18 19) = U at *
          generalize zpow 2 (sectSigned t.sect5 16 17) = Q at *
          have hbound : (|r| + |(x : Rat)| * Q) * T ≤ |y| + 2 * |r| * T := by linarith
          have hbound2 : |r| + |(x : Rat)| * Q ≤ 2 ^ 126 := by
            have h3 := mul_le_mul_of_nonneg_right hbound hdp.le
            have e3 : (|r| + |(x : Rat)| * Q) * T * U = |r| + |(x : Rat)| * Q := by rw [mul_assoc, hinv, mul_one]
            have e4 : (|y| + 2 * |r| * T) * U = |y| * U + 2 * |r| := by
              rw [add_mul, mul_assoc (2 * |r|), hinv, mul_one]
            rw [e3, e4] at h3
            linarith
          obtain ⟨y', hv, hc⟩ := unpack_close (ofBits32_val hr) hqp htp h2 h10 hx32 hbound2 (le_trans hbound hb2) hd
          refine ⟨_, y', rfl, hv, ?_⟩
          rw [hy] at hc
          refine le_trans hc ?_
          have := mul_le_mul_of_nonneg_left hbound (show (0 : Rat) ≤ 1 / 2 ^ 20 by norm_num)
          linarith

/-- C60. Order is kept: where the exact values are ordered, so are the computed ones (infinities included), whatever the
precision of the powers, as long as they are finite and `10^-D` is not computed as 0. -/
theorem C60_order (powi : Fl → Int → Fl) (png jp2) (hj : MachineInts jp2) (t : Decoder) (ht : Packed t) {r p2 p10 : Rat}
    (hr : f32Value (sectNumber t.sect5 12 15) = some r)
    (h2 : (powi (.fin 2) (sectSigned t.sect5 16 17)).val = some p2) (h2' : 0 ≤ p2)
    (h10 : (powi (.fin 10) (-sectSigned t.sect5 18 19)).val = some p10) (h10' : 0 < p10)
    (ys : Items (Option Rat)) (vs : Items Fl) (hys : t.decodeValues (exactWith png jp2) = .ok ys)
    (hvs : t.decodeValues (singleCodecs powi png jp2) = .ok vs) (k l : Nat) (y z : Rat)
    (hy : ys[k]? = some (.ok (some y))) (hz : ys[l]? = some (.ok (some z))) (hyz : y ≤ z) :
    ∃ v w, vs[k]? = some (.ok v) ∧ vs[l]? = some (.ok w) ∧ NotAbove v w := by
  have htp : 0 < zpow 10 (-sectSigned t.sect5 18 19) := spec_zpow_pos (by norm_num) _
  have hqp : 0 < zpow 2 (sectSigned t.sect5 16 17) := spec_zpow_pos (by norm_num) _
  rcases uniform_packed (png := png) hj ht with ⟨e, h⟩ | h | ⟨hl, hn, h⟩ | ⟨hl, xs, hs, h⟩
  · rw [h] at hys; cases hys
  · rw [h] at hys; cases hys
  · rw [h] at hys hvs
    simp only [Outcome.ok.injEq] at hys hvs
    subst hys hvs
    simp only [List.getElem?_replicate] at hy hz ⊢
    split at hy
    · split at hz
      · rename_i hk hl
        rw [if_pos hk, if_pos hl]
        refine ⟨_, _, rfl, rfl, ?_⟩
        apply NotAbove.refl
        simp only [SimpleParam.zeroBitReferenceValue, paramOf]
        rw [ofInt_ten]
        obtain ⟨s, e⟩ := Fmt.single.mul_val (ofBits32_val hr) h10
        show Fmt.single.mul (Fl.ofBits32 (sectNumber t.sect5 12 15)) (powi (.fin 10) (-sectSigned t.sect5 18 19)) ≠ .nan
        rw [e]
        exact Fmt.ofRat_ne_nan _ _ _
      · cases hz
    · cases hy
  · rw [h] at hys hvs
    simp only [Outcome.ok.injEq] at hys hvs
    subst hys hvs
    simp only [List.getElem?_map] at hy hz ⊢
    have item : ∀ (k : Nat) (y : Rat), Option.map (fun x => unpackStored FloatOps.exact (paramOf FloatOps.exact t.sect5) <$> x) xs[k]? =
        some (Outcome.ok (some y)) → ∃ x : Int, |x| ≤ 2 ^ 32 ∧ xs[k]? = some (.ok (some x)) ∧
          (r + x * zpow 2 (sectSigned t.sect5 16 17)) * zpow 10 (-sectSigned t.sect5 18 19) = y := by
      intro k y hy
      cases hx : xs[k]? with
      | none => rw [hx] at hy; simp at hy
      | some a =>
        rw [hx] at hy
        cases a with
        | err z => exact z.elim
        | panic => simp at hy
        | ok o =>
          simp only [Option.map_some, Outcome.map_ok] at hy
          rw [exact_item hr] at hy
          cases o with
          | none => simp at hy
          | some x =>
            simp only [Option.map_some, Option.some.injEq, Outcome.ok.injEq, unpacked] at hy
            refine ⟨x, ?_, rfl, hy⟩
            have := hs x (List.mem_of_getElem? hx)
            rw [Int.abs_eq_natAbs]
            exact_mod_cast this
    obtain ⟨a, ha, hak, hay⟩ := item k y hy
    obtain ⟨b, hb, hbl, hbz⟩ := item l z hz
    rw [hak, hbl]
    refine ⟨_, _, rfl, rfl, ?_⟩
    rw [single_item, single_item]
    refine unpack_mono (ofBits32_val hr) h2 h2' h10 h10' ha hb ?_
    rw [← hay, ← hbz] at hyz
    have h3 := le_of_mul_le_mul_right hyz htp
    have h4 : (a : Rat) * zpow 2 (sectSigned t.sect5 16 17) ≤ b * zpow 2 (sectSigned t.sect5 16 17) := by linarith
    have h5 := le_of_mul_le_mul_right h4 hqp
    exact_mod_cast h5

/-- The stored integer behind an exact value. -/
theorem exact_stored {t : Decoder} {r : Rat} (hr : f32Value (sectNumber t.sect5 12 15) = some r) {xs : Items (Option Int)}
    {k : Nat} {y : Rat}
    (hy : (xs.map fun x => unpackStored FloatOps.exact (paramOf FloatOps.exact t.sect5) <$> x)[k]? = some (Outcome.ok (some y))) :
    ∃ x : Int, xs[k]? = some (.ok (some x)) ∧
      (r + x * zpow 2 (sectSigned t.sect5 16 17)) * zpow 10 (-sectSigned t.sect5 18 19) = y := by
  rw [List.getElem?_map] at hy
  cases hx : xs[k]? with
  | none => rw [hx] at hy; simp at hy
  | some a =>
    rw [hx] at hy
    cases a with
    | err z => exact z.elim
    | panic => simp at hy
    | ok o =>
      simp only [Option.map_some, Outcome.map_ok] at hy
      rw [exact_item hr] at hy
      cases o with
      | none => simp at hy
      | some x =>
        simp only [Option.map_some, Option.some.injEq, Outcome.ok.injEq, unpacked] at hy
        exact ⟨x, rfl, hy⟩

theorem zpow_two_eq (e : Int) : zpow 2 e = pow2 e := by
  rw [← ratPowi_eq]
  cases e <;> rfl

/-- C60. No rounding at all when nothing needs it: with `D = 0` and `R` a multiple of `2^E`, values and `R` of at most
`2^23` units (of `2^E`) are computed exactly. -/
theorem C60_no_rounding (powi : Fl → Int → Fl) (png jp2) (hj : MachineInts jp2) (t : Decoder) (ht : Packed t) {r : Rat}
    (hr : f32Value (sectNumber t.sect5 12 15) = some r) (hD : sectSigned t.sect5 18 19 = 0)
    (hE1 : -149 ≤ sectSigned t.sect5 16 17) (hE2 : sectSigned t.sect5 16 17 ≤ 100)
    (h2 : powi (.fin 2) (sectSigned t.sect5 16 17) = .fin (zpow 2 (sectSigned t.sect5 16 17)))
    (h10 : powi (.fin 10) 0 = .fin 1) (m : Int) (hm : r = m * zpow 2 (sectSigned t.sect5 16 17)) (hm' : |m| ≤ 2 ^ 23)
    (ys : Items (Option Rat)) (vs : Items Fl) (hys : t.decodeValues (exactWith png jp2) = .ok ys)
    (hvs : t.decodeValues (singleCodecs powi png jp2) = .ok vs) (k : Nat) (y : Rat) (hy : ys[k]? = some (.ok (some y)))
    (hb : |y| ≤ 2 ^ 23 * zpow 2 (sectSigned t.sect5 16 17)) :
    ∃ v, vs[k]? = some (.ok v) ∧ v.val = some y := by
  rw [zpow_two_eq] at h2 hm hb
  have htop : pow2 Fmt.single.top = pow2 128 := rfl
  generalize hEe : sectSigned t.sect5 16 17 = E at *
  have hP := pow2_pos E
  have fin : ∀ n : Int, |n| ≤ 2 ^ 24 → ∀ s, (Fmt.single.ofRat s (n * pow2 E)).val = some (n * pow2 E) := by
    intro n hn s
    have h1 := Fmt.single.round_exact (by decide) (m := n) (k := E) hn hE1
    have h2 : |Fmt.single.round (n * pow2 E)| < pow2 Fmt.single.top := by
      rw [h1, abs_mul, abs_of_pos hP, htop]
      have h3 : |(n : Rat)| ≤ pow2 24 := by
        have : |(n : Rat)| ≤ 2 ^ 24 := by exact_mod_cast hn
        exact this
      calc |(n : Rat)| * pow2 E ≤ pow2 24 * pow2 E := mul_le_mul_of_nonneg_right h3 hP.le
        _ = pow2 (24 + E) := (pow2_add _ _).symm
        _ < pow2 128 := pow2_lt (by omega)
    have := Fmt.single.ofRat_fin s h2
    rw [h1] at this
    exact this
  have times1 : ∀ (a : Fl) (n : Int), |n| ≤ 2 ^ 24 → a.val = some (n * pow2 E) →
      (Fmt.single.mul a (.fin 1)).val = some (n * pow2 E) := by
    intro a n hn ha
    obtain ⟨s, e⟩ := Fmt.single.mul_val ha (show (Fl.fin 1).val = some 1 from rfl)
    rw [e, mul_one]
    exact fin n hn s
  have hr' := ofBits32_val hr
  rcases uniform_packed (png := png) hj ht with ⟨e, h⟩ | h | ⟨hl, hn, h⟩ | ⟨hl, xs, hs, h⟩
  · rw [h] at hys; cases hys
  · rw [h] at hys; cases hys
  · rw [h] at hys hvs
    simp only [Outcome.ok.injEq] at hys hvs
    subst hys hvs
    simp only [List.getElem?_replicate] at hy ⊢
    split at hy
    · rename_i hk
      rw [if_pos hk]
      simp only [Option.some.injEq, Outcome.ok.injEq, SimpleParam.zeroBitReferenceValue, paramOf] at hy ⊢
      refine ⟨_, rfl, ?_⟩
      rw [ofInt_ten, hD]
      have hy' : r = y := by
        simp only [FloatOps.exact, hr] at hy
        have : some (r * ratPowi 10 (-sectSigned t.sect5 18 19)) = some y := hy
        rw [hD] at this
        simpa [ratPowi] using this
      show (Fmt.single.mul (Fl.ofBits32 (sectNumber t.sect5 12 15)) (powi (.fin 10) (-0))).val = some y
      rw [neg_zero, h10, ← hy', hm]
      exact times1 _ m (le_trans hm' (by norm_num)) (by rw [← hm]; exact hr')
    · cases hy
  · rw [h] at hys hvs
    simp only [Outcome.ok.injEq] at hys hvs
    subst hys hvs
    obtain ⟨x, hxk, hxy⟩ := exact_stored hr hy
    rw [List.getElem?_map, hxk]
    refine ⟨_, rfl, ?_⟩
    rw [single_item, hEe, hD, neg_zero, h10, h2]
    rw [hEe, hD, zpow_two_eq, neg_zero] at hxy
    have h0 : zpow 10 0 = 1 := by norm_num [zpow]
    rw [h0, mul_one, hm, ← add_mul] at hxy
    have hsum : |m + x| ≤ 2 ^ 23 := by
      rw [← hxy, abs_mul, abs_of_pos hP] at hb
      have := le_of_mul_le_mul_right hb hP
      exact_mod_cast this
    have hx24 : |x| ≤ 2 ^ 24 := by
      have := abs_sub (m + x) m
      rw [add_sub_cancel_left] at this
      linarith
    have hconv : (Fmt.single.ofRat false x).val = some (x : Rat) := by
      have h1 := Fmt.single.round_exact (by decide) (m := x) (k := 0) hx24 (by decide)
      rw [pow2_zero, mul_one] at h1
      have := single_ofInt_val (n := x) (le_trans hx24 (by norm_num)) false
      rw [h1] at this
      exact this
    obtain ⟨s1, e1⟩ := Fmt.single.mul_val hconv (show (Fl.fin (pow2 E)).val = some (pow2 E) from rfl)
    obtain ⟨s2, e2⟩ := Fmt.single.add_val hr' (fin x hx24 s1)
    rw [e1, e2, ← hxy]
    refine times1 _ (m + x) (le_trans hsum (by norm_num)) ?_ |>.trans (by push_cast; rfl)
    rw [hm, ← add_mul]
    have := fin (m + x) (le_trans hsum (by norm_num)) s2
    push_cast at this ⊢
    exact this

/-! ## The powers as usually computed -/

/-- C60. With compiler-rt's `powi`, the powers of two that are normal numbers are exact and the powers of ten are within
`2^-22`, so the hypotheses above hold for `-126 ≤ E ≤ 127` and `-37 ≤ D ≤ 38`.  (The whole ranges are evaluated.) -/
theorem C60_powers :
    (∀ e : Int, -126 ≤ e → e ≤ 127 → compilerRtPowi .single (.fin 2) e = .fin (zpow 2 e)) ∧
    (∀ d : Int, -37 ≤ d → d ≤ 38 → RelClose (compilerRtPowi .single (.fin 10) (-d)) (zpow 10 (-d)) (1 / 2 ^ 22) ∧
      zpow 10 (-d) ≤ 2 ^ 126 ∧ ∃ p, (compilerRtPowi .single (.fin 10) (-d)).val = some p ∧ 0 < p) ∧
    compilerRtPowi .single (.fin 10) 0 = .fin 1 := by
  refine ⟨?_, ?_, by decide +kernel⟩
  · intro e h1 h2
    have key : ∀ k : Fin 254, compilerRtPowi .single (.fin 2) ((k.val : Int) - 126) = .fin (zpow 2 ((k.val : Int) - 126)) := by
      decide +kernel
    have := key ⟨(e + 126).toNat, by omega⟩
    have e' : (((e + 126).toNat : Nat) : Int) - 126 = e := by omega
    simpa only [e'] using this
  · intro d h1 h2
    have key : ∀ k : Fin 76, (match (compilerRtPowi .single (.fin 10) (-((k.val : Int) - 37))).val with
        | some p => decide ((p - zpow 10 (-((k.val : Int) - 37)) ≤ 1 / 2 ^ 22 * zpow 10 (-((k.val : Int) - 37)) ∧
            zpow 10 (-((k.val : Int) - 37)) - p ≤ 1 / 2 ^ 22 * zpow 10 (-((k.val : Int) - 37))) ∧
            zpow 10 (-((k.val : Int) - 37)) ≤ 2 ^ 126 ∧ 0 < p)
        | none => false) = true := by
      decide +kernel
    have := key ⟨(d + 37).toNat, by omega⟩
    have e' : (((d + 37).toNat : Nat) : Int) - 37 = d := by omega
    simp only [e'] at this
    cases hp : (compilerRtPowi .single (.fin 10) (-d)).val with
    | none => rw [hp] at this; simp at this
    | some p =>
      rw [hp] at this
      obtain ⟨⟨a, b⟩, c, d'⟩ := of_decide_eq_true this
      refine ⟨⟨p, hp, ?_⟩, c, p, rfl, d'⟩
      rw [abs_of_pos (spec_zpow_pos (by norm_num) _), abs_le]
      constructor <;> linarith

/-- The computed values of the sample: `0.575`, `0.15`, `0.925` as single-precision numbers. -/
example : sampleSimple.decodeValues (singleCodecs (compilerRtPowi .single) (fun _ => none) (fun _ => .err .notSupported)) =
    .ok [.ok (.ofBits32 0x3f133333), .ok (.ofBits32 0x3e19999a), .ok (.ofBits32 0x3f6ccccd)] := by decide +kernel

/-- `C60_close` applies to it. -/
example : ∃ v y', [Outcome.ok (.ofBits32 0x3f133333), .ok (.ofBits32 0x3e19999a), .ok (.ofBits32 0x3f6ccccd)][0]? =
      some (Outcome.ok v : Pull Fl) ∧ v.val = some y' ∧
      |y' - 23 / 40| ≤ 1 / 2 ^ 20 * (|(23 / 40 : Rat)| + 2 * |(3 / 2 : Rat)| * zpow 10 (-1)) + 1 / 2 ^ 148 * (zpow 10 (-1) + 1) :=
  C60_close (compilerRtPowi .single) (fun _ => none) (fun _ => .err .notSupported) (by intro d xs h; cases h) sampleSimple
    (.inl rfl) (r := 3 / 2) (by decide +kernel)
    ⟨1 / 4, by decide +kernel, by decide +kernel⟩ (C60_powers.2.1 1 (by decide) (by decide)).1
    (C60_powers.2.1 1 (by decide) (by decide)).2.1
    [.ok (some (23 / 40)), .ok (some (3 / 20)), .ok (some (37 / 40))] _ (by decide +kernel) (by decide +kernel) 0 (23 / 40) rfl
    (by decide +kernel) (by decide +kernel)

/-- Integers of 5 bits, `R = 4`, `E = 0`, `D = 0`: exact. -/
example : (⟨3, 3, 0, [0, 0, 0, 3, 0, 0, 0x40, 0x80, 0, 0, 0, 0, 0, 0, 5, 0], [0xff], packInts 5 [17, 0, 31]⟩ : Decoder).decodeValues
      (singleCodecs (compilerRtPowi .single) (fun _ => none) (fun _ => .err .notSupported)) =
    .ok [.ok (.fin 21), .ok (.fin 4), .ok (.fin 35)] := by decide +kernel

/-- C60, limits. From `E = 128` on, `2^E` is infinite in single precision and the point with the stored integer 0, whose value
is `R`, decodes as NaN: it cannot be told from a missing point. -/
theorem C60_large_exponent_fails : ∃ t : Decoder, Packed t ∧ t.templateNum = 0 ∧ sectSigned t.sect5 16 17 = 128 ∧
    t.decodeValues exactCodecs = .ok [.ok (some 1)] ∧
    t.decodeValues (singleCodecs (compilerRtPowi .single) (fun _ => none) (fun _ => .err .notSupported)) = .ok [.ok .nan] :=
  ⟨⟨1, 1, 0, [0, 0, 0, 1, 0, 0, 0x3f, 0x80, 0, 0, 0, 128, 0, 0, 8, 0], [0xff], [0]⟩, by decide, rfl, by decide +kernel,
    by decide +kernel, by decide +kernel⟩

/-- C60, limits. Below `E = -127` the usual `powi` computes `2^E` as 0 (through the reciprocal of an overflow) although the
number exists: all points get the value `R·10^-D`. -/
theorem C60_small_exponent_fails : ∃ t : Decoder, Packed t ∧ sectSigned t.sect5 16 17 = -130 ∧
    t.decodeValues exactCodecs = .ok [.ok (some (8 / 2 ^ 130))] ∧ (∃ b, Fl.ofBits32 b = .fin (8 / 2 ^ 130)) ∧
    t.decodeValues (singleCodecs (compilerRtPowi .single) (fun _ => none) (fun _ => .err .notSupported)) = .ok [.ok (.fin 0)] :=
  ⟨⟨1, 1, 0, [0, 0, 0, 1, 0, 0, 0, 0, 0, 0, 0x80, 130, 0, 0, 8, 0], [0xff], [8]⟩, by decide, by decide +kernel, by decide +kernel,
    ⟨0x00400000, by decide +kernel⟩, by decide +kernel⟩

end Grib.Props
