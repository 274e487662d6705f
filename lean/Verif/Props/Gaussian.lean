import Verif.Props.LatLon
import Verif.Lemmas.Legendre

/-! # C35: Gaussian latitudes -/

namespace Grib.Props

open Grib.Model Grib.Spec

variable {ε F G : Type}

/-- `k` Newton steps from `x`. -/
def newton (sub : G → G → G) (f : G → G) (x : G) : Nat → G
  | 0 => x
  | k + 1 => sub (newton sub f x k) (f (newton sub f x k))

theorem newton_shift (sub : G → G → G) (f : G → G) (x : G) (k : Nat) :
    newton sub f (sub x (f x)) k = newton sub f x (k + 1) := by
  induction k with
  | zero => rfl
  | succ k ih =>
    unfold newton
    rw [ih]

theorem findRootLoop_spec (sub : G → G → G) (small : G → Bool) (f : G → G) (count : Nat) (x : G) :
    ((findRootLoop sub small f count x).2 ≤ count + 1) ∧
    (∀ k ≤ count, small (f (newton sub f x k)) = true → (∀ m < k, small (f (newton sub f x m)) = false) →
      findRootLoop sub small f count x = (some (newton sub f x (k + 1)), k + 1)) ∧
    ((∀ m ≤ count, small (f (newton sub f x m)) = false) → findRootLoop sub small f count x = (none, count + 1)) := by
  induction count generalizing x with
  | zero =>
    refine ⟨?_, ?_, ?_⟩
    · unfold findRootLoop; dsimp only; split <;> simp
    · intro k hk hs _
      have : k = 0 := by omega
      subst this
      have hs : small (f x) = true := hs
      unfold findRootLoop
      simp [hs, newton]
    · intro h
      have hs : small (f x) = false := h 0 (by omega)
      unfold findRootLoop
      simp [hs]
  | succ c ih =>
    obtain ⟨i1, i2, i3⟩ := ih (sub x (f x))
    refine ⟨?_, ?_, ?_⟩
    · unfold findRootLoop; dsimp only
      split
      · simp
      · dsimp only; omega
    · intro k hk hs hm
      cases k with
      | zero =>
        have hs : small (f x) = true := hs
        unfold findRootLoop
        simp [hs, newton]
      | succ k =>
        have h0 : small (f x) = false := hm 0 (by omega)
        unfold findRootLoop
        dsimp only
        rw [h0, if_neg (by decide), i2 k (by omega) (by rw [newton_shift]; exact hs)
          (fun m hlt => by rw [newton_shift]; exact hm (m + 1) (by omega)), newton_shift]
    · intro h
      have h0 : small (f x) = false := h 0 (by omega)
      unfold findRootLoop
      dsimp only
      rw [h0, if_neg (by decide), i3 (fun m hm => by rw [newton_shift]; exact h (m + 1) (by omega))]

/-- C35. Whatever the function and the operations, a root search evaluates the function at most 11 times. -/
theorem C35_bounded (sub : G → G → G) (small : G → Bool) (guess : G) (f : G → G) : (findRoot sub small guess f).2 ≤ 11 :=
  (findRootLoop_spec sub small f maxIter guess).1

/-- C35. A root is returned exactly if one of the first 11 Newton corrections is small; it is then the iterate obtained with
the first such correction, so that what is returned has converged. -/
theorem C35_converged (sub : G → G → G) (small : G → Bool) (guess : G) (f : G → G) (x : G) :
    (findRoot sub small guess f).1 = some x ↔
      ∃ k ≤ 10, small (f (newton sub f guess k)) = true ∧ (∀ m < k, small (f (newton sub f guess m)) = false) ∧
        x = newton sub f guess (k + 1) := by
  obtain ⟨-, h2, h3⟩ := findRootLoop_spec sub small f maxIter guess
  constructor
  · intro h
    by_cases hall : ∀ m ≤ maxIter, small (f (newton sub f guess m)) = false
    · unfold findRoot at h
      rw [h3 hall] at h
      cases h
    · -- the first one that is small
      have hex : ∃ m, m ≤ maxIter ∧ small (f (newton sub f guess m)) = true := by
        apply Classical.byContradiction
        intro hne
        apply hall
        intro m hm
        cases hs : small (f (newton sub f guess m))
        · rfl
        · exact absurd ⟨m, hm, hs⟩ hne
      classical
      have hspec := Nat.find_spec hex
      have hmin : ∀ m < Nat.find hex, small (f (newton sub f guess m)) = false := by
        intro m hm
        have := Nat.find_min hex hm
        cases hs : small (f (newton sub f guess m))
        · rfl
        · exact absurd ⟨by omega, hs⟩ this
      refine ⟨Nat.find hex, hspec.1, hspec.2, hmin, ?_⟩
      unfold findRoot at h
      rw [h2 _ hspec.1 hspec.2 hmin] at h
      injection h with h
      exact h.symm
  · rintro ⟨k, hk, hs, hm, rfl⟩
    unfold findRoot
    rw [h2 k hk hs hm]

/-- Newton's method for the square root of 2 with a coarse tolerance: found, with 4 evaluations. -/
example : findRoot (· - ·) (fun d : Rat => decide (-1 / 1000 < d ∧ d < 1 / 1000)) 1 (fun x => (x * x - 2) / (2 * x)) =
    (some (665857 / 470832), 4) := by decide +kernel

/-- Without convergence: given up after 11 evaluations. -/
example : findRoot (· - ·) (fun d : Rat => decide (-1 < d ∧ d < 1)) 0 (fun _ => 1) = (none, 11) := by decide +kernel

/-! ## Legendre polynomials -/

theorem legendreLoop_exact (x : Rat) (steps n : Nat) :
    legendreLoop FloatOps.exact (some x) steps (n + 2) (some ((legendre n).eval x), some ((legendre (n + 1)).eval x)) =
      (some ((legendre (n + steps)).eval x), some ((legendre (n + steps + 1)).eval x)) := by
  induction steps generalizing n with
  | zero => rfl
  | succ s ih =>
    unfold legendreLoop
    dsimp only
    have hk : ((n : Rat) + 2) ≠ 0 := by positivity
    have e : FloatOps.exact.div (FloatOps.exact.sub (FloatOps.exact.mul (FloatOps.exact.mul (FloatOps.exact.ofInt (2 * (n + 2) - 1 : Nat)) (some x))
        (some ((legendre (n + 1)).eval x))) (FloatOps.exact.mul (FloatOps.exact.ofInt (n + 2 - 1 : Nat)) (some ((legendre n).eval x))))
        (FloatOps.exact.ofInt (n + 2 : Nat)) = some ((legendre (n + 2)).eval x) := by
      have hb := legendre_bonnet n x
      have h1 : (2 * (n + 2) - 1 : Nat) = 2 * n + 3 := by omega
      have h2 : (n + 2 - 1 : Nat) = n + 1 := by omega
      rw [h1, h2]
      simp only [FloatOps.exact, Option.bind_eq_bind, Option.bind_some, Int.cast_natCast]
      push_cast
      rw [if_neg hk]
      congr 1
      rw [div_eq_iff hk]
      linear_combination -hb
    rw [e, ih (n + 1)]
    rw [show n + 1 + s = n + (s + 1) by omega]

/-- C35. In exact arithmetic, the correction by which a root search of order `n` moves from `x` is that of Newton's method
for the Legendre polynomial of degree `n`: `P_n(x)/P_n'(x)` (unless `x² = 1` or the derivative vanishes). -/
theorem C35_newton (n : Nat) (x : Rat) (hn : 1 ≤ n) (hx : x ^ 2 ≠ 1)
    (hd : (Polynomial.derivative (legendre n)).eval x ≠ 0) :
    legendreStep FloatOps.exact n (some x) =
      some ((legendre n).eval x / (Polynomial.derivative (legendre n)).eval x) := by
  obtain ⟨m, rfl⟩ : ∃ m, n = m + 1 := ⟨n - 1, by omega⟩
  have hp : legendrePolynomial FloatOps.exact (m + 1) (some x) = (some ((legendre m).eval x), some ((legendre (m + 1)).eval x)) := by
    unfold legendrePolynomial
    have := legendreLoop_exact x m 0
    rw [legendre_zero, legendre_one] at this
    rw [Nat.add_sub_cancel]
    rw [show FloatOps.exact.ofInt 1 = some (1 : Rat) from rfl]
    simpa using this
  have h1 : (1 - x * x : Rat) ≠ 0 := by
    intro h
    apply hx
    linear_combination -h
  have hder := legendre_derivative m x
  have hdv : legendreDerivative FloatOps.exact (m + 1) (some x) (some ((legendre m).eval x)) (some ((legendre (m + 1)).eval x)) =
      some ((Polynomial.derivative (legendre (m + 1))).eval x) := by
    unfold legendreDerivative
    simp only [FloatOps.exact, Option.bind_eq_bind, Option.bind_some, Int.cast_natCast, Int.cast_one]
    rw [if_neg h1]
    congr 1
    rw [div_eq_iff h1]
    push_cast
    linear_combination -hder
  unfold legendreStep
  rw [hp]
  dsimp only
  rw [hdv]
  simp only [FloatOps.exact, Option.bind_eq_bind, Option.bind_some]
  rw [if_neg hd]

/-- `P_2 = (3x² - 1)/2` at `x = 1/2`: the correction is `-1/8 / (3/2)`. -/
example : legendreStep FloatOps.exact 2 (some (1 / 2)) = some (-1 / 12) := by decide +kernel

/-! ## Latitudes -/

theorem allSome_getElem {α : Type} {xs : List (Option α)} {ys : List α} (h : allSome xs = some ys) : xs = ys.map some := by
  induction xs generalizing ys with
  | nil => cases h; rfl
  | cons x xs ih =>
    cases x with
    | none => cases h
    | some a =>
      unfold allSome at h
      cases hx : allSome xs with
      | none => rw [hx] at h; cases h
      | some zs =>
        rw [hx] at h
        cases h
        simp [ih hx]

theorem map_option_some {α β : Type} {f : α → β} {xs : List (Option α)} {ys : List β}
    (h : (xs.map fun x => x.map f) = ys.map some) : ∃ rs : List α, xs = rs.map some := by
  induction xs generalizing ys with
  | nil => exact ⟨[], rfl⟩
  | cons r rs ih =>
    cases ys with
    | nil => simp at h
    | cons l ls =>
      rw [List.map_cons, List.map_cons] at h
      injection h with h1 h2
      obtain ⟨roots, hroots⟩ := ih h2
      cases r with
      | none => cases h1
      | some r => exact ⟨r :: roots, by rw [hroots]; rfl⟩

/-- C35. Latitudes for `n` rows are returned only if all `n` root searches converged; there are `n` of them, the `i`-th one
is the arcsine, in degrees, of the root found from the `i`-th guess. -/
theorem C35_latitudes (g : GaussOps G F) (n : Nat) (lats : List G) (hok : gaussianLatitudes g n = .ok lats) :
    lats.length = n ∧ ∃ roots : List G, legendreRoots (ε := GribError) g n = .ok (roots.map some) ∧
      lats = roots.map fun r => g.toDegrees (g.asin r) := by
  refine ⟨gaussianLatitudes_length hok, ?_⟩
  have h := hok
  clear hok
  unfold gaussianLatitudes at h
  obtain ⟨rs, hr, h⟩ := Outcome.bind_eq_ok h
  split at h
  · cases h
  · rename_i l hs
    cases h
    have he := allSome_getElem hs
    have := map_option_some he
    obtain ⟨roots, rfl⟩ := this
    refine ⟨roots, hr, ?_⟩
    rw [List.map_map] at he
    have he2 : (roots.map fun r => g.toDegrees (g.asin r)).map some = lats.map some := by
      rw [← he, List.map_map]; rfl
    exact (List.map_inj_right (fun _ _ h => Option.some.inj h) |>.mp he2).symm

/-- C35. The coordinates of an accepted Gaussian grid: the latitudes (from north to south as computed) are reversed exactly
if rows are scanned in the `+j` direction, and points follow the scanning order. -/
theorem C35_grid (g : GaussOps G F) (ops : FloatOps F) (d : GaussianGrid) (it : RegularIter F) (h : d.latlons g ops = .ok it)
    (hj : 0 < d.nj) :
    (∃ lats, gaussianLatitudes g d.nj = .ok lats ∧
      it.lat = (if positiveJ d.mode then lats.reverse else lats).map g.toF32) ∧
    it.drain (d.ni * d.nj + 1) = .done ((List.range (d.ni * d.nj)).map fun k =>
      (it.lat.getD (visit d.ni d.nj d.mode k).2 ops.nan, it.lon.getD (visit d.ni d.nj d.mode k).1 ops.nan)) := by
  have hk := GaussianGrid.latlons_ok h
  unfold GaussianGrid.latlons at h
  obtain ⟨c, -, h⟩ := Outcome.bind_eq_ok h
  split at h
  · cases h
  obtain ⟨ij, hij, h⟩ := Outcome.bind_eq_ok h
  obtain ⟨lat, hlat, h⟩ := Outcome.bind_eq_ok h
  dsimp only at h
  split at h
  · cases h
  rename_i hni
  obtain ⟨lon, hlon, h⟩ := Outcome.bind_eq_ok h
  cases h
  refine ⟨⟨lat, hlat, ?_⟩, ?_⟩
  · dsimp only
    rw [mode_positiveJ]
  · obtain ⟨h1, h2, h3⟩ := hk
    dsimp only at h1 h2 h3
    rw [gridIj_ok hij, GridIter.new_eq,
      RegularIter.drain_at (perLine_pos _ (by omega) (by omega)) h2 h3 ops.nan _ 0 (Nat.zero_add _), List.range_eq_range']

/-- A toy instance: exact arithmetic, `cos` and `asin` the identity, tolerance 1/100, `π = 3`. -/
def toyGauss : GaussOps (Option Rat) (Option Rat) where
  ops := FloatOps.exact
  pi := some 3
  cos x := x.map (1 - ·)
  asin x := x
  toDegrees x := x
  small x := match x with
    | some d => decide (-1 / 100 < d ∧ d < 1 / 100)
    | none => false
  toF32 x := x

example : (gaussianLatitudes toyGauss 1) = .ok [some 0] := by decide +kernel
example : ∃ it, (⟨1, 1, 0, 0, 0, 0, 0, 1, 0⟩ : GaussianGrid).latlons toyGauss FloatOps.exact = .ok it ∧ it.lat = [some 0] :=
  ⟨⟨[some 0], [none], GridIter.new 1 1 0⟩, by decide +kernel, rfl⟩

/-- C35 fails for large numbers of rows: the guess computation overflows and panics. -/
theorem C35_overflow_fails (g : GaussOps G F) (n : Nat) (h : 1321123 ≤ n) : gaussianLatitudes g n = .panic := by
  unfold gaussianLatitudes legendreRoots
  have h3 : 1321123 * 1321123 * 1321123 ≤ n * n * n := Nat.mul_le_mul (Nat.mul_le_mul h h) h
  have e : 8 * n * n * n = 8 * (n * n * n) := by rw [Nat.mul_assoc 8, Nat.mul_assoc 8]
  rw [if_pos (by rw [e]; unfold USIZE; omega)]
  rfl

/-- C35. Without overflow the computation of latitudes never panics.  Missing: larger numbers, see `C35_overflow_fails`. -/
theorem C35_total_partial (g : GaussOps G F) (n : Nat) (h : n ≤ 1321122) :
    (∃ lats, gaussianLatitudes g n = .ok lats) ∨ gaussianLatitudes g n = .err .unknown := by
  unfold gaussianLatitudes legendreRoots
  have h3 : n * n * n ≤ 1321122 * 1321122 * 1321122 := Nat.mul_le_mul (Nat.mul_le_mul h h) h
  have e : 8 * n * n * n = 8 * (n * n * n) := by rw [Nat.mul_assoc 8, Nat.mul_assoc 8]
  rw [if_neg (by rw [e]; unfold USIZE; omega), Outcome.bind_ok]
  split
  · exact .inr rfl
  · exact .inl ⟨_, rfl⟩

/-- C35 fails for parts of a Gaussian grid: the latitudes are those of the Gaussian grid with `nj` rows, whatever the
number of parallels `n` of the definition and the end latitudes say. -/
theorem C35_subset_fails (g : GaussOps G F) (ops : FloatOps F) (d : GaussianGrid) (n : Nat) (a b : Int)
    (it it' : RegularIter F) (h : d.latlons g ops = .ok it)
    (h' : { d with n := n, firstLat := a, lastLat := b }.latlons g ops = .ok it') : it'.lat = it.lat := by
  have aux : ∀ (d : GaussianGrid) (it : RegularIter F), d.latlons g ops = .ok it → ∃ lats, gaussianLatitudes g d.nj = .ok lats ∧
      it.lat = (if positiveJ d.mode then lats.reverse else lats).map g.toF32 := by
    intro d it h
    unfold GaussianGrid.latlons at h
    obtain ⟨c, -, h⟩ := Outcome.bind_eq_ok h
    split at h
    · cases h
    obtain ⟨ij, hij, h⟩ := Outcome.bind_eq_ok h
    obtain ⟨lat, hlat, h⟩ := Outcome.bind_eq_ok h
    dsimp only at h
    split at h
    · cases h
    obtain ⟨lon, hlon, h⟩ := Outcome.bind_eq_ok h
    cases h
    exact ⟨lat, hlat, by dsimp only; rw [mode_positiveJ]⟩
  obtain ⟨l1, e1, e2⟩ := aux d it h
  obtain ⟨l2, e3, e4⟩ := aux _ it' h'
  dsimp only at e3 e4
  rw [e1] at e3
  cases e3
  rw [e2, e4]

/-- C34 for Gaussian grids: refused if the end latitudes do not agree with the scanning direction, or if a flag is not
supported; accepted otherwise, if the root search converges. -/
theorem C34_gaussian_partial (g : GaussOps G F) (ops : FloatOps F) (d : GaussianGrid) (hi : 0 < d.ni) (hj : d.nj ≤ 1321122)
    (hlat : fitsI32 (d.lastLat - d.firstLat)) (hlon : fitsI32 (d.lastLon - d.firstLon)) :
    (¬ agreesJ d.firstLat d.lastLat d.mode → d.latlons g ops = .err .invalidValueError) ∧
    (agreesJ d.firstLat d.lastLat d.mode → d.mode % 16 ≠ 0 → d.latlons g ops = .err .notSupported) ∧
    (agreesJ d.firstLat d.lastLat d.mode → d.mode % 16 = 0 →
      (∃ it, d.latlons g ops = .ok it) ∨ (d.latlons g ops = .err .unknown ∧ gaussianLatitudes g d.nj = .err .unknown)) := by
  obtain ⟨c, hc, hiff⟩ := isConsistentForJ_eq (ε := GribError) d.mode hlat
  unfold GaussianGrid.latlons
  rw [hc, Outcome.bind_ok]
  refine ⟨fun h => ?_, fun h hm => ?_, fun h hm => ?_⟩
  · rw [if_pos (by rw [hiff]; exact h)]
  · rw [if_neg (by rw [hiff]; simpa using h)]
    unfold gridIj
    rw [mode_unsupported, if_pos (by simpa using hm)]; rfl
  · rw [if_neg (by rw [hiff]; simpa using h)]
    unfold gridIj
    rw [mode_unsupported, if_neg (by simpa using hm), Outcome.bind_ok]
    rcases C35_total_partial g d.nj hj with ⟨lats, hl⟩ | hl
    · left
      rw [hl]
      simp only [Outcome.bind_ok]
      rw [if_neg (by omega)]
      obtain ⟨l, hl⟩ := evenlySpacedLongitudes_total (ε := GribError) ops (d.ni - 1) d.mode hlon
      rw [hl]
      exact ⟨_, rfl⟩
    · right
      rw [hl]
      exact ⟨rfl, rfl⟩

end Grib.Props
