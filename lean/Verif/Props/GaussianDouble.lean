import Verif.Props.GaussianReal
import Verif.Lemmas.GaussianDegrees

/-! # C87: Gaussian latitudes in double precision

The computation with the rounding errors of `f64`, for any mathematical library whose cosine and arcsine are accurate to
`2^-50`. -/

set_option exponentiation.threshold 3000

namespace Grib.Props

open Grib.Model Grib.Spec

variable {powi : Fl → Int → Fl} {pf : Nat → Fl} {cos asin : Fl → Fl} {ε : Type}

theorem allSome_eq_some {α : Type} : ∀ {l : List (Option α)} {r : List α}, allSome l = some r → l = r.map some
  | [], r, h => by cases h; rfl
  | none :: _, _, h => by cases h
  | some a :: xs, r, h => by
    unfold allSome at h
    cases h1 : allSome xs with
    | none => rw [h1] at h; cases h
    | some ys =>
      rw [h1] at h
      cases h
      rw [List.map_cons, ← allSome_eq_some h1]

/-- A list of floating-point numbers that are all finite, with these values. -/
def HaveValues (as : List Fl) (xs : List ℝ) : Prop := List.Forall₂ HasValue as xs

theorem legendreRoots_double (n : Nat) (hn : n ≤ 2 ^ 14) : legendreRoots (ε := ε) (doubleGauss powi pf cos asin) n ≠ .panic := by
  unfold legendreRoots
  have hb : n * n * n ≤ 16384 * 16384 * 16384 := Nat.mul_le_mul (Nat.mul_le_mul hn hn) hn
  have e : 8 * n * n * n = 8 * (n * n * n) := by rw [Nat.mul_assoc 8, Nat.mul_assoc 8]
  rw [if_neg (by rw [e]; unfold USIZE; omega)]
  exact fun h => by cases h

/-- A latitude as computed. -/
theorem latitude_double {n i : Nat} (hn : n ≤ 2 ^ 14) (hi : i < n) (hc : AccurateCos cos) (ha : AccurateAsin asin) {r : Fl}
    (h : (findRoot (doubleGauss powi pf cos asin).ops.sub (doubleGauss powi pf cos asin).small
      ((doubleGauss powi pf cos asin).ops.mul ((doubleGauss powi pf cos asin).ops.add
        ((doubleGauss powi pf cos asin).ops.sub
        ((doubleGauss powi pf cos asin).ops.lit 1 0) ((doubleGauss powi pf cos asin).ops.div
          ((doubleGauss powi pf cos asin).ops.lit 1 0) ((doubleGauss powi pf cos asin).ops.ofInt (8 * n * n : Nat))))
        ((doubleGauss powi pf cos asin).ops.div ((doubleGauss powi pf cos asin).ops.lit 1 0)
          ((doubleGauss powi pf cos asin).ops.ofInt (8 * n * n * n : Nat))))
        ((doubleGauss powi pf cos asin).cos ((doubleGauss powi pf cos asin).ops.div ((doubleGauss powi pf cos asin).ops.mul
        ((doubleGauss powi pf cos asin).ops.ofInt (4 * i + 3 : Nat)) (doubleGauss powi pf cos asin).pi)
        ((doubleGauss powi pf cos asin).ops.ofInt (4 * n + 2 : Nat)))))
      (legendreStep (doubleGauss powi pf cos asin).ops n)).1 = some r) :
    ∃ l, HasValue ((doubleGauss powi pf cos asin).toDegrees ((doubleGauss powi pf cos asin).asin r)) l ∧
      |l - latitudeOf (zero n i)| ≤ (n : ℝ) ^ 2 / 2 ^ 41 := by
  obtain ⟨g, hg, eg⟩ := guess_rounded (powi := powi) (pf := pf) (asin := asin) hn hi hc
  obtain ⟨ρ, h1, -, h3, h4⟩ := root_found hn hi _ g hg eg r h
  have hn16 : (n : ℝ) ≤ 16384 := by
    have : n ≤ 16384 := hn
    exact_mod_cast this
  have hn1 : (1 : ℝ) ≤ n := by
    have : 1 ≤ n := by omega
    exact_mod_cast this
  have h2 : (n : ℝ) ^ 2 ≤ 16384 ^ 2 := pow_le_pow_left₀ (by linarith) hn16 2
  obtain ⟨l, hl, el⟩ := degrees_rounded (powi := powi) (pf := pf) (cos := cos) ha h1 h3 h4 (by linarith)
  refine ⟨l, hl, el.trans ?_⟩
  have h5 : (1 : ℝ) ≤ n ^ 2 := one_le_pow₀ hn1
  have u0 := uu_pos
  have e : (n : ℝ) ^ 2 / 2 ^ 41 = 4096 * n ^ 2 * uu := by unfold uu; ring
  rw [e]
  apply mul_le_mul_of_nonneg_right _ u0.le
  linarith

/-- Numbers near the Gaussian latitudes are in the same order. -/
theorem decreasing_of_close {n : Nat} {e : ℝ} {l : Nat → ℝ} (h : ∀ i < n, |l i - latitudeOf (zero n i)| ≤ e)
    (he : 2 * e * NN n < 167) : ∀ a b, a < b → b < n → l b < l a := by
  intro a b hab hb
  have hN := NN_pos n
  have h1 : latitudeOf (zero n b) ≤ latitudeOf (zero n (a + 1)) := by
    rcases Nat.lt_or_ge (a + 1) b with h2 | h2
    · rw [latitudeOf_zero hb, latitudeOf_zero (by omega)]
      have := zeroAngle_lt n h2 hb
      exact mul_le_mul_of_nonneg_right (by linarith) (by have := Real.pi_pos; positivity)
    · rw [show a + 1 = b by omega]
  have h2 := latitude_gap (n := n) (i := a) (by omega)
  have h3 := (abs_le.mp (h a (by omega))).1
  have h4 := (abs_le.mp (h b hb)).2
  by_contra hcon
  rw [not_lt] at hcon
  have h5 : latitudeOf (zero n a) - latitudeOf (zero n (a + 1)) ≤ 2 * e := by linarith
  have h6 := mul_le_mul_of_nonneg_left h5 hN.le
  linarith

/-- The latitudes as computed. -/
theorem latitudes_double {n : Nat} (hn : n ≤ 2 ^ 14) (hc : AccurateCos cos) (ha : AccurateAsin asin) :
    gaussianLatitudes (doubleGauss powi pf cos asin) n = .err .unknown ∨
    ∃ (lat : Nat → Fl) (l : Nat → ℝ), gaussianLatitudes (doubleGauss powi pf cos asin) n = .ok ((List.range n).map lat) ∧
      ∀ i < n, HasValue (lat i) (l i) ∧ |l i - latitudeOf (zero n i)| ≤ (n : ℝ) ^ 2 / 2 ^ 41 := by
  unfold gaussianLatitudes legendreRoots
  have hb : n * n * n ≤ 16384 * 16384 * 16384 := Nat.mul_le_mul (Nat.mul_le_mul hn hn) hn
  have e : 8 * n * n * n = 8 * (n * n * n) := by rw [Nat.mul_assoc 8, Nat.mul_assoc 8]
  rw [if_neg (by rw [e]; unfold USIZE; omega)]
  dsimp only
  rw [Outcome.bind_ok, List.map_map]
  split
  · exact .inl rfl
  · rename_i lats hl
    right
    have h1 := allSome_eq_some hl
    have hlen : lats.length = n := by
      have := congrArg List.length h1
      simpa using this.symm
    have h2 : ∀ i (hi : i < n), ∃ l, HasValue (lats[i]'(by omega)) l ∧ |l - latitudeOf (zero n i)| ≤ (n : ℝ) ^ 2 / 2 ^ 41 := by
      intro i hi
      have h3 : ((List.range n).map _)[i]? = (lats.map some)[i]? := congrArg (fun l => l[i]?) h1
      rw [List.getElem?_map, List.getElem?_map, List.getElem?_range hi, List.getElem?_eq_getElem (by omega)] at h3
      simp only [Option.map_some, Function.comp] at h3
      have h4 := Option.some.inj h3
      rw [Option.map_eq_some_iff] at h4
      obtain ⟨r, hr, e⟩ := h4
      rw [← e]
      exact latitude_double hn hi hc ha hr
    choose! l hv he using h2
    refine ⟨fun i => lats.getD i .nan, l, ?_, fun i hi => ⟨?_, he i hi⟩⟩
    · congr 1
      apply List.ext_getElem
      · simp [hlen]
      · intro i h3 h4
        rw [List.getElem_map, List.getElem_range, List.getD_eq_getElem?_getD, List.getElem?_eq_getElem h3, Option.getD_some]
    · dsimp only
      rw [List.getD_eq_getElem?_getD, List.getElem?_eq_getElem (by omega), Option.getD_some]
      exact hv i hi

theorem haveValues_map {n : Nat} {lat : Nat → Fl} {l : Nat → ℝ} (h : ∀ i < n, HasValue (lat i) (l i)) :
    HaveValues ((List.range n).map lat) ((List.range n).map l) := by
  unfold HaveValues
  rw [List.forall₂_map_left_iff, List.forall₂_map_right_iff, List.forall₂_same]
  intro i hi
  exact h i (List.mem_range.mp hi)

theorem pairwise_map_range {n : Nat} {l : Nat → ℝ} (h : ∀ a b, a < b → b < n → l b < l a) :
    ((List.range n).map l).Pairwise (· > ·) := by
  rw [List.pairwise_map, List.pairwise_iff_getElem]
  intro a b _ hb hab
  rw [List.getElem_range, List.getElem_range]
  rw [List.length_range] at hb
  exact h a b hab hb

theorem square_bound {n : Nat} (hn : n ≤ 2 ^ 14) : 2 * ((n : ℝ) ^ 2 / 2 ^ 41 + 1 / 2 ^ 17) * NN n < 167 := by
  have hn16 : (n : ℝ) ≤ 16384 := by
    have : n ≤ 16384 := hn
    exact_mod_cast this
  have hN := NN_pos n
  have h2 : (n : ℝ) ^ 2 ≤ 16384 ^ 2 := pow_le_pow_left₀ (Nat.cast_nonneg n) hn16 2
  have hN16 : NN n ≤ 16384.5 := by unfold NN; linarith
  have := mul_le_mul (show 2 * ((n : ℝ) ^ 2 / 2 ^ 41 + 1 / 2 ^ 17) ≤ 2 * ((16384 : ℝ) ^ 2 / 2 ^ 41 + 1 / 2 ^ 17) by linarith) hN16 hN.le (by positivity)
  refine lt_of_le_of_lt this ?_
  norm_num

/-- C87. In double precision, with a cosine and an arcsine accurate to `2^-50`, the computation of the latitudes of a Gaussian
grid with up to 16384 rows either is refused (a root search has not converged), or delivers `n` finite numbers, strictly
decreasing from north to south, and the `i`-th one is the Gaussian latitude (whose sine is the `i`-th largest zero of the
Legendre polynomial of degree `n`), with an error of at most `n²·2^-41` degrees. -/
theorem C87_latitudes (n : Nat) (hn : n ≤ 2 ^ 14) (z : Nat → ℝ) (hz : LegendreZeros n z) (hc : AccurateCos cos)
    (ha : AccurateAsin asin) :
    gaussianLatitudes (doubleGauss powi pf cos asin) n = .err .unknown ∨
    ∃ (lats : List Fl) (vals : List ℝ), gaussianLatitudes (doubleGauss powi pf cos asin) n = .ok lats ∧
      HaveValues lats vals ∧ vals.length = n ∧ vals.Pairwise (· > ·) ∧
      ∀ i (hi : i < vals.length), |vals[i] - latitudeOf (z i)| ≤ (n : ℝ) ^ 2 / 2 ^ 41 := by
  rcases latitudes_double (powi := powi) (pf := pf) hn hc ha with h | ⟨lat, l, h, hl⟩
  · exact .inl h
  · refine .inr ⟨_, (List.range n).map l, h, haveValues_map fun i hi => (hl i hi).1, by simp, ?_, ?_⟩
    · apply pairwise_map_range
      apply decreasing_of_close fun i hi => (hl i hi).2
      have := square_bound hn
      have hN := NN_pos n
      have h1 : 0 < 2 * (1 / 2 ^ 17) * NN n := by positivity
      linarith
    · intro i hi
      rw [List.length_map, List.length_range] at hi
      rw [List.getElem_map, List.getElem_range, zeros_unique hz (zeros_zero n) i hi]
      exact (hl i hi).2

/-- With one row the search always ends: the latitude is the equator, up to `2^-41` degrees. -/
theorem C87_one_row (hc : AccurateCos cos) (ha : AccurateAsin asin) :
    ∃ lat v, gaussianLatitudes (doubleGauss powi pf cos asin) 1 = .ok [lat] ∧ HasValue lat v ∧ |v| ≤ 1 / 2 ^ 41 := by
  have hz : latitudeOf (zero 1 0) = 0 := by rw [zero_one]; unfold latitudeOf; rw [Real.arcsin_zero, zero_mul]
  rcases latitudes_double (powi := powi) (pf := pf) (n := 1) (by norm_num) hc ha with h | ⟨lat, l, h, hl⟩
  · exfalso
    obtain ⟨g, hg, eg⟩ := guess_rounded (powi := powi) (pf := pf) (asin := asin) (n := 1) (i := 0) (by norm_num) (by omega) hc
    rw [guess_one, sub_zero] at eg
    obtain ⟨r, ρ, h1, -⟩ := search_found_one (powi := powi) (pf := pf) (cos := cos) (asin := asin) hg (by have := uu_pos; linarith)
    unfold gaussianLatitudes legendreRoots at h
    rw [if_neg (by decide)] at h
    dsimp only at h
    rw [Outcome.bind_ok, List.map_map] at h
    rw [show List.range 1 = [0] from rfl, List.map_cons, List.map_nil] at h
    simp only [Function.comp] at h
    rw [h1] at h
    cases h
  · refine ⟨lat 0, l 0, h, (hl 0 (by omega)).1, ?_⟩
    have := (hl 0 (by omega)).2
    rw [hz, sub_zero] at this
    simpa using this

/-! ## In single precision -/

theorem toSingle_value {a : Fl} {x : ℝ} (h : HasValue a x) (hx : |x| ≤ 100) :
    ∃ y, HasValue a.toSingle y ∧ |y - x| ≤ 1 / 2 ^ 17 := by
  obtain ⟨q, hq, rfl⟩ := h
  rcases Fl.val_some hq with rfl | ⟨rfl, rfl⟩
  · have hq : |q| ≤ 100 := by exact_mod_cast hx
    have e := Fmt.single.round_err q
    have h1 : pow2 (-(Fmt.single.prec : Int)) = 1 / 2 ^ 24 := by decide +kernel
    have h2 : pow2 (Fmt.single.emin - 1) ≤ 1 / 2 ^ 100 := by decide +kernel
    have h3 : pow2 Fmt.single.top = 2 ^ 128 := by decide +kernel
    have e' : |Fmt.single.round q - q| ≤ 1 / 2 ^ 17 := by
      rw [h1] at e
      have h4 : (1 : Rat) / 2 ^ 24 * 100 + 1 / 2 ^ 100 ≤ 1 / 2 ^ 17 := by norm_num
      linarith
    refine ⟨(Fmt.single.round q : ℝ), ⟨_, Fmt.single.ofRat_fin _ ?_, rfl⟩, ?_⟩
    · rw [h3]
      have a := abs_sub_abs_le_abs_sub (Fmt.single.round q) q
      have c : (101 : Rat) + 1 / 2 ^ 17 < 2 ^ 128 := by norm_num
      linarith
    · have := (Rat.cast_le (K := ℝ)).mpr e'
      push_cast at this
      exact this
  · exact ⟨0, ⟨0, rfl, by norm_num⟩, by norm_num⟩

theorem latitudeOf_le (z : ℝ) : |latitudeOf z| ≤ 90 := by
  have hpi := Real.pi_pos
  unfold latitudeOf
  rw [abs_mul, abs_of_pos (show 0 < 180 / Real.pi by positivity)]
  have h : |Real.arcsin z| ≤ Real.pi / 2 := abs_le.mpr ⟨Real.neg_pi_div_two_le_arcsin z, Real.arcsin_le_pi_div_two z⟩
  calc |Real.arcsin z| * (180 / Real.pi) ≤ Real.pi / 2 * (180 / Real.pi) := mul_le_mul_of_nonneg_right h (by positivity)
    _ = 90 := by field_simp; norm_num

/-- C87. In double precision a Gaussian grid definition with up to 16384 rows, supported flags and end latitudes that agree
with the scanning direction is either refused because a root search has not converged, or accepted, and then the latitudes
handed out are finite single-precision numbers: row `r` (counted from north if rows are scanned in the `-j` direction, else
from south) is at the corresponding Gaussian latitude, with an error of at most `nj²·2^-41 + 2^-17` degrees, and the rows are
in strictly decreasing or strictly increasing order. -/
theorem C87_grid (d : GaussianGrid) (ops : FloatOps Fl) (hi : 0 < d.ni) (hn : d.nj ≤ 2 ^ 14)
    (hlat : fitsI32 (d.lastLat - d.firstLat)) (hlon : fitsI32 (d.lastLon - d.firstLon))
    (hagree : agreesJ d.firstLat d.lastLat d.mode) (hmode : d.mode % 16 = 0) (z : Nat → ℝ) (hz : LegendreZeros d.nj z)
    (hc : AccurateCos cos) (ha : AccurateAsin asin) :
    d.latlons (doubleGauss powi pf cos asin) ops = .err .unknown ∨
    ∃ (it : RegularIter Fl) (vals : List ℝ), d.latlons (doubleGauss powi pf cos asin) ops = .ok it ∧
      HaveValues it.lat vals ∧ vals.length = d.nj ∧
      vals.Pairwise (fun a b => if positiveJ d.mode then a < b else b < a) ∧
      ∀ r (hr : r < vals.length),
        |vals[r] - latitudeOf (z (if positiveJ d.mode then d.nj - 1 - r else r))| ≤ (d.nj : ℝ) ^ 2 / 2 ^ 41 + 1 / 2 ^ 17 := by
  rcases (C34_gaussian_partial (doubleGauss powi pf cos asin) ops d hi (by omega) hlat hlon).2.2 hagree hmode with ⟨it, hit⟩ | ⟨hbad, -⟩
  · right
    have h := hit
    unfold GaussianGrid.latlons at h
    obtain ⟨c, -, h⟩ := Outcome.bind_eq_ok h
    split at h
    · cases h
    obtain ⟨ij, hij, h⟩ := Outcome.bind_eq_ok h
    obtain ⟨lats, hlats, h⟩ := Outcome.bind_eq_ok h
    dsimp only at h
    rw [if_neg (by omega)] at h
    obtain ⟨lon, hlon', h⟩ := Outcome.bind_eq_ok h
    cases h
    rcases latitudes_double (powi := powi) (pf := pf) hn hc ha with he | ⟨lat, l, he, hl⟩
    · rw [he] at hlats; cases hlats
    rw [he] at hlats
    cases hlats
    have hn16 : (d.nj : ℝ) ≤ 16384 := by
      have : d.nj ≤ 16384 := hn
      exact_mod_cast this
    have hsq : (d.nj : ℝ) ^ 2 ≤ 16384 ^ 2 := pow_le_pow_left₀ (Nat.cast_nonneg _) hn16 2
    have hs : ∀ i < d.nj, ∃ y, HasValue (lat i).toSingle y ∧
        |y - latitudeOf (zero d.nj i)| ≤ (d.nj : ℝ) ^ 2 / 2 ^ 41 + 1 / 2 ^ 17 := by
      intro i hi
      obtain ⟨h1, h2⟩ := hl i hi
      have h3 := latitudeOf_le (zero d.nj i)
      have h4 := abs_sub_abs_le_abs_sub (l i) (latitudeOf (zero d.nj i))
      obtain ⟨y, hy, ey⟩ := toSingle_value h1 (by linarith)
      refine ⟨y, hy, ?_⟩
      have := abs_sub_le y (l i) (latitudeOf (zero d.nj i))
      linarith
    choose! y hy ey using hs
    have hdec := decreasing_of_close ey (square_bound hn)
    by_cases hp : positiveJ d.mode
    · simp only [if_pos hp]
      refine ⟨_, ((List.range d.nj).map y).reverse, hit, ?_, by simp, ?_, ?_⟩
      · rw [mode_positiveJ, if_pos hp, List.map_reverse, List.map_map]
        exact List.rel_reverse (haveValues_map hy)
      · rw [List.pairwise_reverse]
        exact pairwise_map_range hdec
      · intro r hr
        rw [List.length_reverse, List.length_map, List.length_range] at hr
        rw [List.getElem_reverse, List.getElem_map, List.getElem_range, zeros_unique hz (zeros_zero _) _ (by omega)]
        rw [List.length_map, List.length_range]
        exact ey _ (by omega)
    · simp only [if_neg hp]
      refine ⟨_, (List.range d.nj).map y, hit, ?_, by simp, ?_, ?_⟩
      · rw [mode_positiveJ, if_neg hp, List.map_map]
        exact haveValues_map hy
      · exact pairwise_map_range hdec
      · intro r hr
        rw [List.length_map, List.length_range] at hr
        rw [List.getElem_map, List.getElem_range, zeros_unique hz (zeros_zero _) _ hr]
        exact ey _ hr
  · exact .inl hbad

/-! ## Libraries that are accurate -/

theorem exists_near_rounded (f : ℝ → ℝ) (hf : ∀ x, |f x| ≤ 2) (a : Fl) : ∃ b : Fl, ∀ x, HasValue a x →
    ∃ y, HasValue b y ∧ |y - f x| ≤ 1 / 2 ^ 50 := by
  by_cases h : ∃ x, HasValue a x
  · obtain ⟨x, q, hq, rfl⟩ := h
    obtain ⟨p, hp1, hp2⟩ := exists_rat_btwn (show f q < f q + 1 / 2 ^ 60 by have : (0 : ℝ) < 1 / 2 ^ 60 := by positivity
                                                                            linarith)
    have h1 : |(p : ℝ) - f q| ≤ 1 / 2 ^ 60 := by rw [abs_of_pos (by linarith)]; linarith
    have h2 : |(p : ℝ)| ≤ 3 := by
      have a := abs_sub_abs_le_abs_sub (p : ℝ) (f q)
      have b := hf q
      have c : (1 : ℝ) / 2 ^ 60 ≤ 1 := by norm_num
      linarith
    obtain ⟨r, hr, er⟩ := rounded_ofRat false (q := p) (h2.trans (by norm_num))
    refine ⟨_, fun x hx => ⟨r, hr, ?_⟩⟩
    obtain ⟨q', hq', rfl⟩ := hx
    rw [hq] at hq'
    cases hq'
    have u0 := uu_pos
    have t1 := tt_le
    have e1 : (1 : ℝ) / 2 ^ 50 = 8 * uu := by unfold uu; norm_num
    have e2 : (1 : ℝ) / 2 ^ 60 = uu / 128 := by unfold uu; norm_num
    rw [e2] at h1
    rw [e1]
    have a := abs_sub_le r (p : ℝ) (f q)
    have b := mul_le_mul_of_nonneg_left h2 u0.le
    linarith
  · exact ⟨.nan, fun x hx => absurd ⟨x, hx⟩ h⟩

theorem exists_accurateCos : ∃ cos, AccurateCos cos := by
  choose c hc using exists_near_rounded Real.cos fun x => (Real.abs_cos_le_one x).trans one_le_two
  exact ⟨c, fun a x h _ _ => hc a x h⟩

theorem exists_accurateAsin : ∃ asin, AccurateAsin asin := by
  choose c hc using exists_near_rounded Real.arcsin fun x => by
    have := Real.pi_lt_d2
    rw [abs_le]
    have h3 := Real.neg_pi_div_two_le_arcsin x
    have h4 := Real.arcsin_le_pi_div_two x
    constructor <;> linarith
  exact ⟨c, fun a x h _ _ => hc a x h⟩

/-- Accurate libraries exist, and with one row the latitude is delivered. -/
example : ∃ cos asin, AccurateCos cos ∧ AccurateAsin asin ∧ ∀ powi pf,
    ∃ lat v, gaussianLatitudes (doubleGauss powi pf cos asin) 1 = .ok [lat] ∧ HasValue lat v ∧ |v| ≤ 1 / 2 ^ 41 := by
  obtain ⟨cos, hc⟩ := exists_accurateCos
  obtain ⟨asin, ha⟩ := exists_accurateAsin
  exact ⟨cos, asin, hc, ha, fun _ _ => C87_one_row hc ha⟩

/-- A library whose cosines of the two angles needed for two rows are these, and which is accurate elsewhere. -/
def twoRowCos (c : Fl → Fl) (a : Fl) : Fl :=
  if a = .fin (530567831402133 / 562949953421312) then .fin (2647149443198255 / 4503599627370496)
  else if a = .fin (1237991606604977 / 562949953421312) then .fin (-5294298886396509 / 9007199254740992)
  else c a

theorem cos_three_tenths : |(2647149443198255 : ℝ) / 4503599627370496 - Real.cos (3 * Real.pi / 10)| ≤ 1e-16 := by
  have h1 := Real.cos_pi_div_five
  have h2 : Real.cos (3 * Real.pi / 10) = Real.sin (Real.pi / 5) := by
    rw [← Real.sin_pi_div_two_sub]
    congr 1
    ring
  have h3 : 0 < Real.sin (Real.pi / 5) := Real.sin_pos_of_pos_of_lt_pi (by have := Real.pi_pos; positivity) (by linarith [Real.pi_pos])
  have h4 := Real.sin_sq_add_cos_sq (Real.pi / 5)
  rw [h1] at h4
  rw [h2]
  generalize Real.sin (Real.pi / 5) = s at *
  have h5 : Real.sqrt 5 ^ 2 = 5 := Real.sq_sqrt (by norm_num)
  have h5a : 2.2360679774997896964 ≤ Real.sqrt 5 := Real.le_sqrt_of_sq_le (by norm_num)
  have h5b : Real.sqrt 5 ≤ 2.2360679774997896965 := Real.sqrt_le_iff.mpr ⟨by norm_num, by norm_num⟩
  have h6 : s ^ 2 = (5 - Real.sqrt 5) / 8 := by nlinarith
  have h7 : 0.58778525229247312 ≤ s := by
    by_contra h
    rw [not_le] at h
    have := mul_lt_mul'' h h h3.le h3.le
    nlinarith
  have h8 : s ≤ 0.58778525229247313 := by
    by_contra h
    rw [not_le] at h
    have := mul_lt_mul'' h h (by norm_num) (by norm_num)
    nlinarith
  rw [abs_le]
  constructor <;> linarith

theorem twoRowCos_accurate {c : Fl → Fl} (h : AccurateCos c) : AccurateCos (twoRowCos c) := by
  intro a x hx h0 h4
  have p1 := Real.pi_gt_d20
  have p2 := Real.pi_lt_d20
  have e50 : (8e-16 : ℝ) ≤ 1 / 2 ^ 50 := by norm_num
  have key : ∀ {w b t e : ℝ}, |w - Real.cos t| ≤ e → |b - t| ≤ 2.9e-16 → e ≤ 3e-16 → |w - Real.cos b| ≤ 1 / 2 ^ 50 := by
    intro w b t e h1 h2 h3
    have a := abs_sub_le w (Real.cos t) (Real.cos b)
    have b' := Real.abs_cos_sub_cos_le t b
    rw [abs_sub_comm t b] at b'
    linarith
  unfold twoRowCos
  split
  · rename_i ha
    subst ha
    obtain ⟨q, hq, rfl⟩ := hx
    cases hq
    refine ⟨_, ⟨_, rfl, rfl⟩, ?_⟩
    push_cast
    refine key cos_three_tenths ?_ (by norm_num)
    rw [abs_le]
    constructor <;> linarith
  · split
    · rename_i ha
      subst ha
      obtain ⟨q, hq, rfl⟩ := hx
      cases hq
      refine ⟨_, ⟨_, rfl, rfl⟩, ?_⟩
      push_cast
      have e : Real.cos (7 * Real.pi / 10) = -Real.cos (3 * Real.pi / 10) := by
        rw [← Real.cos_pi_sub]
        congr 1
        ring
      refine key (t := 7 * Real.pi / 10) (e := 3e-16) ?_ ?_ le_rfl
      · rw [e, show (-5294298886396509 : ℝ) / 9007199254740992 - -Real.cos (3 * Real.pi / 10) =
          -((5294298886396509 : ℝ) / 9007199254740992 - Real.cos (3 * Real.pi / 10)) by ring, abs_neg]
        have h1 := abs_le.mp cos_three_tenths
        rw [abs_le]
        constructor <;> linarith
      · rw [abs_le]
        constructor <;> linarith
    · exact h a x hx h0 h4

/-- With such a library the searches for the latitudes of two rows end. -/
theorem two_rows (c asin : Fl → Fl) : ∃ lats, gaussianLatitudes (doubleGauss (fun a _ => a) (fun _ => .nan) (twoRowCos c) asin) 2 = .ok lats := by
  have h1 : ∀ i, (doubleGauss (fun a _ => a) (fun _ => .nan) (twoRowCos c) asin).ops.div
      ((doubleGauss (fun a _ => a) (fun _ => .nan) (twoRowCos c) asin).ops.mul
        ((doubleGauss (fun a _ => a) (fun _ => .nan) (twoRowCos c) asin).ops.ofInt (4 * i + 3 : Nat)) piDouble)
      ((doubleGauss (fun a _ => a) (fun _ => .nan) (twoRowCos c) asin).ops.ofInt (4 * 2 + 2 : Nat)) =
      Fmt.double.div (Fmt.double.mul (Fmt.double.ofRat false ((4 * i + 3 : Nat) : Int)) piDouble)
        (Fmt.double.ofRat false ((4 * 2 + 2 : Nat) : Int)) := fun _ => rfl
  have a0 : Fmt.double.div (Fmt.double.mul (Fmt.double.ofRat false ((4 * 0 + 3 : Nat) : Int)) piDouble)
        (Fmt.double.ofRat false ((4 * 2 + 2 : Nat) : Int)) = .fin (530567831402133 / 562949953421312) := by decide +kernel
  have a1 : Fmt.double.div (Fmt.double.mul (Fmt.double.ofRat false ((4 * 1 + 3 : Nat) : Int)) piDouble)
        (Fmt.double.ofRat false ((4 * 2 + 2 : Nat) : Int)) = .fin (1237991606604977 / 562949953421312) := by decide +kernel
  have c0 : twoRowCos c (.fin (530567831402133 / 562949953421312)) = .fin (2647149443198255 / 4503599627370496) := if_pos rfl
  have c1 : twoRowCos c (.fin (1237991606604977 / 562949953421312)) = .fin (-5294298886396509 / 9007199254740992) := by
    unfold twoRowCos
    rw [if_neg (by decide +kernel), if_pos rfl]
  have r0 : ∃ r, (findRoot (FloatOps.ieee .double (fun a _ => a) (fun _ => .nan)).sub (fun x => Fl.lt x.abs (.fin (1 / 2 ^ 52)))
      ((FloatOps.ieee .double (fun a _ => a) (fun _ => .nan)).mul ((FloatOps.ieee .double (fun a _ => a) (fun _ => .nan)).add
        ((FloatOps.ieee .double (fun a _ => a) (fun _ => .nan)).sub ((FloatOps.ieee .double (fun a _ => a) (fun _ => .nan)).lit 1 0)
          ((FloatOps.ieee .double (fun a _ => a) (fun _ => .nan)).div ((FloatOps.ieee .double (fun a _ => a) (fun _ => .nan)).lit 1 0)
            ((FloatOps.ieee .double (fun a _ => a) (fun _ => .nan)).ofInt (8 * 2 * 2 : Nat))))
        ((FloatOps.ieee .double (fun a _ => a) (fun _ => .nan)).div ((FloatOps.ieee .double (fun a _ => a) (fun _ => .nan)).lit 1 0)
          ((FloatOps.ieee .double (fun a _ => a) (fun _ => .nan)).ofInt (8 * 2 * 2 * 2 : Nat))))
        (.fin (2647149443198255 / 4503599627370496)))
      (legendreStep (FloatOps.ieee .double (fun a _ => a) (fun _ => .nan)) 2)).1 = some r := by
    rw [← Option.isSome_iff_exists]
    decide +kernel
  have r1 : ∃ r, (findRoot (FloatOps.ieee .double (fun a _ => a) (fun _ => .nan)).sub (fun x => Fl.lt x.abs (.fin (1 / 2 ^ 52)))
      ((FloatOps.ieee .double (fun a _ => a) (fun _ => .nan)).mul ((FloatOps.ieee .double (fun a _ => a) (fun _ => .nan)).add
        ((FloatOps.ieee .double (fun a _ => a) (fun _ => .nan)).sub ((FloatOps.ieee .double (fun a _ => a) (fun _ => .nan)).lit 1 0)
          ((FloatOps.ieee .double (fun a _ => a) (fun _ => .nan)).div ((FloatOps.ieee .double (fun a _ => a) (fun _ => .nan)).lit 1 0)
            ((FloatOps.ieee .double (fun a _ => a) (fun _ => .nan)).ofInt (8 * 2 * 2 : Nat))))
        ((FloatOps.ieee .double (fun a _ => a) (fun _ => .nan)).div ((FloatOps.ieee .double (fun a _ => a) (fun _ => .nan)).lit 1 0)
          ((FloatOps.ieee .double (fun a _ => a) (fun _ => .nan)).ofInt (8 * 2 * 2 * 2 : Nat))))
        (.fin (-5294298886396509 / 9007199254740992)))
      (legendreStep (FloatOps.ieee .double (fun a _ => a) (fun _ => .nan)) 2)).1 = some r := by
    rw [← Option.isSome_iff_exists]
    decide +kernel
  obtain ⟨r0, hr0⟩ := r0
  obtain ⟨r1, hr1⟩ := r1
  unfold gaussianLatitudes legendreRoots
  rw [if_neg (by decide)]
  dsimp only
  rw [Outcome.bind_ok, List.map_map]
  rw [show List.range 2 = [0, 1] from rfl, List.map_cons, List.map_cons, List.map_nil]
  simp only [Function.comp]
  rw [show (doubleGauss (fun a _ => a) (fun _ => .nan) (twoRowCos c) asin).pi = piDouble from rfl, h1 0, h1 1, a0, a1,
    show (doubleGauss (fun a _ => a) (fun _ => .nan) (twoRowCos c) asin).cos = twoRowCos c from rfl, c0, c1,
    show (doubleGauss (fun a _ => a) (fun _ => .nan) (twoRowCos c) asin).ops = FloatOps.ieee .double (fun a _ => a) (fun _ => .nan) from rfl,
    show (doubleGauss (fun a _ => a) (fun _ => .nan) (twoRowCos c) asin).small = (fun x => Fl.lt x.abs (.fin (1 / 2 ^ 52))) from rfl,
    hr0, hr1]
  exact ⟨_, rfl⟩

/-- The hypotheses can be met with two rows and a result: the latitudes are `±35.264...` degrees. -/
example : ∃ cos asin, AccurateCos cos ∧ AccurateAsin asin ∧
    ∃ lats, gaussianLatitudes (doubleGauss (fun a _ => a) (fun _ => .nan) cos asin) 2 = .ok lats := by
  obtain ⟨cos, hc⟩ := exists_accurateCos
  obtain ⟨asin, ha⟩ := exists_accurateAsin
  exact ⟨twoRowCos cos, asin, twoRowCos_accurate hc, ha, two_rows cos asin⟩

end Grib.Props
