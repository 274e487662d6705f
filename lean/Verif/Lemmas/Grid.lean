import Verif.Model.Grid
import Verif.Spec.Grid
import Verif.Lemmas.Decoder

/-! # Grid lemmas -/

theorem Grib.Outcome.bind_eq_ok {ε α β : Type} {o : Grib.Outcome ε α} {f : α → Grib.Outcome ε β} {b : β}
    (h : (o >>= f) = .ok b) : ∃ a, o = .ok a ∧ f a = .ok b := by
  cases o with
  | ok a => exact ⟨a, rfl, h⟩
  | err e => cases h
  | panic => cases h

namespace Grib.Model

open Grib.Spec

variable {ε F G : Type}

theorem and_pow (m i : Nat) : m &&& 2 ^ i = (m / 2 ^ i % 2) * 2 ^ i := by
  have hb := Nat.testBit_eq_decide_div_mod_eq (x := m) (i := i)
  apply Nat.eq_of_testBit_eq
  intro j
  rw [Nat.testBit_and, Nat.testBit_two_pow]
  have : m / 2 ^ i % 2 = 0 ∨ m / 2 ^ i % 2 = 1 := by omega
  by_cases hj : i = j
  · subst hj
    rcases this with h | h <;> simp [h, hb]
  · rcases this with h | h <;> simp [h, hj, Nat.testBit_two_pow]

theorem mode_positiveI (m : Nat) : ScanningMode.scansPositivelyForI m = !negativeI m := by
  unfold ScanningMode.scansPositivelyForI negativeI flag
  rw [show (0b10000000 : Nat) = 2 ^ 7 from rfl, and_pow]
  have : m / 2 ^ 7 % 2 = 0 ∨ m / 2 ^ 7 % 2 = 1 := by omega
  rcases this with h | h <;> simp [h]

theorem mode_positiveJ (m : Nat) : ScanningMode.scansPositivelyForJ m = positiveJ m := by
  unfold ScanningMode.scansPositivelyForJ positiveJ flag
  rw [show (0b01000000 : Nat) = 2 ^ 6 from rfl, and_pow]
  have : m / 2 ^ 6 % 2 = 0 ∨ m / 2 ^ 6 % 2 = 1 := by omega
  rcases this with h | h <;> simp [h]

theorem mode_consecutive (m : Nat) : ScanningMode.isConsecutiveForI m = !jConsecutive m := by
  unfold ScanningMode.isConsecutiveForI jConsecutive flag
  rw [show (0b00100000 : Nat) = 2 ^ 5 from rfl, and_pow]
  have : m / 2 ^ 5 % 2 = 0 ∨ m / 2 ^ 5 % 2 = 1 := by omega
  rcases this with h | h <;> simp [h]

theorem mode_alternating (m : Nat) : ScanningMode.scansAlternatingRows m = alternating m := by
  unfold ScanningMode.scansAlternatingRows alternating flag
  rw [show (0b00010000 : Nat) = 2 ^ 4 from rfl, and_pow]
  have : m / 2 ^ 4 % 2 = 0 ∨ m / 2 ^ 4 % 2 = 1 := by omega
  rcases this with h | h <;> simp [h]

theorem mode_unsupported (m : Nat) : ScanningMode.hasUnsupportedFlags m = (m % 16 != 0) := by
  unfold ScanningMode.hasUnsupportedFlags
  rw [show (0b00001111 : Nat) = 2 ^ 4 - 1 from rfl, Nat.and_two_pow_sub_one_eq_mod]

/-- Number of lines and points per line. -/
def lines (ni nj mode : Nat) : Nat := if jConsecutive mode then ni else nj
def perLine (ni nj mode : Nat) : Nat := if jConsecutive mode then nj else ni

/-- State after `k` calls. -/
def GridIter.at (ni nj mode k : Nat) : GridIter :=
  ⟨lines ni nj mode, perLine ni nj mode, mode, k / perLine ni nj mode, k % perLine ni nj mode,
    !(alternating mode && k / perLine ni nj mode % 2 == 1)⟩

theorem GridIter.new_eq (ni nj mode : Nat) : GridIter.new ni nj mode = GridIter.at ni nj mode 0 := by
  unfold GridIter.new GridIter.at lines perLine
  rw [mode_consecutive]
  cases jConsecutive mode <;> simp

theorem lines_mul (ni nj mode : Nat) : lines ni nj mode * perLine ni nj mode = ni * nj := by
  unfold lines perLine
  split
  · rfl
  · exact Nat.mul_comm _ _

theorem GridIter.next_end {ni nj mode : Nat} (h : 0 < perLine ni nj mode) :
    (GridIter.at ni nj mode (ni * nj)).next = (.ok (none, GridIter.at ni nj mode (ni * nj)) : Outcome ε _) := by
  unfold GridIter.next
  rw [if_pos]
  simp only [GridIter.at]
  rw [← lines_mul ni nj mode, Nat.mul_div_cancel _ h]

theorem GridIter.next_at {ni nj mode k : Nat} (h : k < ni * nj) :
    (GridIter.at ni nj mode k).next = (.ok (some (visit ni nj mode k), GridIter.at ni nj mode (k + 1)) : Outcome ε _) := by
  have hm := lines_mul ni nj mode
  have hpos : 0 < perLine ni nj mode := by
    rcases Nat.eq_zero_or_pos (perLine ni nj mode) with h0 | h0
    · rw [h0] at hm; omega
    · exact h0
  have hlt : k / perLine ni nj mode < lines ni nj mode := by
    apply Nat.div_lt_of_lt_mul
    rw [Nat.mul_comm, hm]; exact h
  have hmod := Nat.mod_lt k hpos
  have hv : visit ni nj mode k =
      if jConsecutive mode then (k / perLine ni nj mode, along mode (perLine ni nj mode) (k / perLine ni nj mode) (k % perLine ni nj mode))
      else (along mode (perLine ni nj mode) (k / perLine ni nj mode) (k % perLine ni nj mode), k / perLine ni nj mode) := by
    unfold visit perLine
    split <;> rfl
  generalize hp : perLine ni nj mode = p at *
  generalize hl : lines ni nj mode = l at *
  have hdm := Nat.div_add_mod k p
  unfold GridIter.next GridIter.at
  simp only [hp, hl]
  rw [if_neg (by omega), if_neg (by omega)]
  have hsucc : (if k % p + 1 = p then (k / p + 1, 0) else (k / p, k % p + 1)) = ((k + 1) / p, (k + 1) % p) := by
    split
    · rename_i he
      have hk : k + 1 = (k / p + 1) * p := by rw [Nat.add_mul, Nat.one_mul, Nat.mul_comm (k / p) p]; omega
      rw [hk, Nat.mul_div_cancel _ hpos, Nat.mul_mod_left]
    · have hk : k + 1 = (k % p + 1) + p * (k / p) := by omega
      have h1 : (k + 1) / p = k / p := by
        rw [hk, Nat.add_mul_div_left _ _ hpos, Nat.div_eq_of_lt (by omega : k % p + 1 < p), Nat.zero_add]
      have h2 : (k + 1) % p = k % p + 1 := by
        rw [hk, Nat.add_mul_mod_self_left, Nat.mod_eq_of_lt (by omega : k % p + 1 < p)]
      rw [h1, h2]
  congr 1
  rw [Prod.mk.injEq]
  refine ⟨?_, ?_⟩
  · rw [hv, mode_consecutive]
    unfold along
    cases jConsecutive mode <;> cases alternating mode <;> rcases Nat.mod_two_eq_zero_or_one (k / p) with h2 | h2 <;>
      simp [h2, Nat.sub_sub, Nat.add_comm]
  · rw [mode_alternating]
    by_cases he : k % p + 1 = p
    · rw [if_pos he] at hsucc
      obtain ⟨h1, h2⟩ := Prod.mk.inj hsucc
      rw [if_pos he, ← h1, ← h2]
      congr 1
      cases alternating mode <;> rcases Nat.mod_two_eq_zero_or_one (k / p) with h2 | h2 <;> simp [h2] <;> omega
    · rw [if_neg he] at hsucc
      obtain ⟨h1, h2⟩ := Prod.mk.inj hsucc
      rw [if_neg he, ← h1, ← h2]

theorem GridIter.sizeHint_at {ni nj mode k : Nat} (h : k ≤ ni * nj) (hpos : 0 < perLine ni nj mode) :
    (GridIter.at ni nj mode k).sizeHint = (.ok (ni * nj - k) : Outcome ε _) := by
  have hm := lines_mul ni nj mode
  have hle : k / perLine ni nj mode ≤ lines ni nj mode := by
    rw [← hm] at h
    exact Nat.div_le_of_le_mul (by rw [Nat.mul_comm]; exact h)
  have hdm := Nat.div_add_mod k (perLine ni nj mode)
  have e : (lines ni nj mode - k / perLine ni nj mode) * perLine ni nj mode =
      ni * nj - perLine ni nj mode * (k / perLine ni nj mode) := by
    rw [Nat.sub_mul, hm, Nat.mul_comm (k / _)]
  unfold GridIter.sizeHint GridIter.at
  dsimp only
  rw [if_neg (by omega), e, if_neg (by omega)]
  congr 1
  omega

theorem GridIter.drain_at {ni nj mode : Nat} (hpos : 0 < perLine ni nj mode) (n k : Nat) (h : k + n = ni * nj) :
    (GridIter.at ni nj mode k).drain (n + 1) = .done ((List.range' k n).map (visit ni nj mode)) := by
  induction n generalizing k with
  | zero =>
    unfold GridIter.drain
    rw [show k = ni * nj by omega, GridIter.next_end hpos]
    rfl
  | succ n ih =>
    unfold GridIter.drain
    rw [GridIter.next_at (by omega)]
    dsimp only
    rw [ih (k + 1) (by omega)]
    simp [Drained.cons, List.range'_succ]

theorem GridIter.calls_at {ni nj mode : Nat} (n k : Nat) (h : k + n ≤ ni * nj) :
    (GridIter.at ni nj mode k).calls n =
      (.ok ((List.range' k n).map (visit ni nj mode), GridIter.at ni nj mode (k + n)) : Outcome ε _) := by
  induction n generalizing k with
  | zero => rfl
  | succ n ih =>
    unfold GridIter.calls
    rw [GridIter.next_at (by omega)]
    simp only [Outcome.bind_ok]
    rw [ih (k + 1) (by omega)]
    simp [List.range'_succ, Nat.add_comm, Nat.add_left_comm]

theorem perLine_pos {ni nj : Nat} (mode : Nat) (hi : 0 < ni) (hj : 0 < nj) : 0 < perLine ni nj mode := by
  unfold perLine; split <;> assumption

/-! ## The scanning order is a bijection -/

theorem along_lt {mode len line c : Nat} (h : c < len) : along mode len line c < len := by
  unfold along; split <;> omega

theorem along_along {mode len line c : Nat} (h : c < len) : along mode len line (along mode len line c) = c := by
  unfold along; split <;> omega

theorem along_inj {mode len line c d : Nat} (hc : c < len) (hd : d < len) (h : along mode len line c = along mode len line d) :
    c = d := by
  rw [← along_along (mode := mode) (line := line) hc, h, along_along hd]

theorem div_lt_mul {a b k : Nat} (h : k < a * b) : k / a < b ∧ k % a < a := by
  have ha : 0 < a := by
    rcases Nat.eq_zero_or_pos a with h0 | h0
    · rw [h0] at h; omega
    · exact h0
  exact ⟨Nat.div_lt_of_lt_mul h, Nat.mod_lt _ ha⟩

theorem visit_lt {ni nj mode k : Nat} (h : k < ni * nj) : (visit ni nj mode k).1 < ni ∧ (visit ni nj mode k).2 < nj := by
  unfold visit
  split
  · have := div_lt_mul (a := nj) (b := ni) (by rw [Nat.mul_comm]; exact h)
    exact ⟨this.1, along_lt this.2⟩
  · have := div_lt_mul (a := ni) (b := nj) h
    exact ⟨along_lt this.2, this.1⟩

theorem visit_inj {ni nj mode k l : Nat} (hk : k < ni * nj) (hl : l < ni * nj) (h : visit ni nj mode k = visit ni nj mode l) :
    k = l := by
  unfold visit at h
  split at h
  · have h1 := div_lt_mul (a := nj) (b := ni) (by rw [Nat.mul_comm]; exact hk)
    have h2 := div_lt_mul (a := nj) (b := ni) (by rw [Nat.mul_comm]; exact hl)
    obtain ⟨e1, e2⟩ := Prod.mk.inj h
    rw [e1] at e2
    have e3 := along_inj h1.2 h2.2 e2
    rw [← Nat.div_add_mod k nj, ← Nat.div_add_mod l nj, e1, e3]
  · have h1 := div_lt_mul (a := ni) (b := nj) hk
    have h2 := div_lt_mul (a := ni) (b := nj) hl
    obtain ⟨e2, e1⟩ := Prod.mk.inj h
    rw [e1] at e2
    have e3 := along_inj h1.2 h2.2 e2
    rw [← Nat.div_add_mod k ni, ← Nat.div_add_mod l ni, e1, e3]

theorem lex_lt {a b x y : Nat} (hx : x < a) (hy : y < b) :
    a * y + x < a * b ∧ (a * y + x) / a = y ∧ (a * y + x) % a = x := by
  refine ⟨?_, ?_, ?_⟩
  · calc a * y + x < a * y + a := by omega
      _ = a * (y + 1) := by rw [Nat.mul_add, Nat.mul_one]
      _ ≤ a * b := Nat.mul_le_mul_left _ hy
  · rw [Nat.mul_add_div (by omega), Nat.div_eq_of_lt hx, Nat.add_zero]
  · rw [Nat.mul_add_mod, Nat.mod_eq_of_lt hx]

theorem visit_surj {ni nj mode i j : Nat} (hi : i < ni) (hj : j < nj) : ∃ k < ni * nj, visit ni nj mode k = (i, j) := by
  by_cases h : jConsecutive mode
  · have := lex_lt (along_lt (mode := mode) (line := i) hj) hi
    refine ⟨nj * i + along mode nj i j, by rw [Nat.mul_comm ni]; exact this.1, ?_⟩
    unfold visit
    rw [if_pos h, this.2.1, this.2.2, along_along hj]
  · have := lex_lt (along_lt (mode := mode) (line := j) hi) hj
    refine ⟨ni * j + along mode ni j i, this.1, ?_⟩
    unfold visit
    rw [if_neg h, this.2.1, this.2.2, along_along hi]

/-! ## Coordinates -/

theorem RegularIter.drain_at {ni nj mode : Nat} {lat lon : List F} (hpos : 0 < perLine ni nj mode) (hlat : lat.length = nj)
    (hlon : lon.length = ni) (d : F) (n k : Nat) (h : k + n = ni * nj) :
    (RegularIter.mk lat lon (GridIter.at ni nj mode k)).drain (n + 1) = .done ((List.range' k n).map fun k =>
      (lat.getD (visit ni nj mode k).2 d, lon.getD (visit ni nj mode k).1 d)) := by
  induction n generalizing k with
  | zero =>
    unfold RegularIter.drain RegularIter.next
    rw [show k = ni * nj by omega, GridIter.next_end hpos]
    rfl
  | succ n ih =>
    unfold RegularIter.drain RegularIter.next
    rw [GridIter.next_at (by omega)]
    have hb := visit_lt (mode := mode) (show k < ni * nj by omega)
    simp only [Outcome.bind_ok]
    rw [List.getElem?_eq_getElem (by omega), List.getElem?_eq_getElem (by omega)]
    simp only [Outcome.ofOption_some, Outcome.bind_ok]
    rw [ih (k + 1) (by omega)]
    simp only [Drained.cons, List.range'_succ, List.map_cons]
    congr 3
    · rw [List.getD_eq_getElem?_getD, List.getElem?_eq_getElem (by omega), Option.getD_some]
    · rw [List.getD_eq_getElem?_getD, List.getElem?_eq_getElem (by omega), Option.getD_some]

/-! ## Reading grid definitions -/

theorem rdAs_drop {p : List UInt8} {a i n : Nat} (h : a + i + n ≤ p.length) :
    (rdAs (p.drop a) i n : Outcome ε Nat) = .ok (number p (a + i) n) := by
  have hs : slice? p a (p.length - a) = some (p.drop a) := by
    unfold slice?
    rw [if_pos (by omega), List.take_of_length_le (by rw [List.length_drop]; omega)]
  exact rdAs_slice hs (by omega)

theorem sliceTo_end {p : List UInt8} {a : Nat} (h : a ≤ p.length) : (sliceTo p a p.length : Outcome ε _) = .ok (p.drop a) := by
  unfold sliceTo
  rw [if_pos ⟨h, Nat.le_refl _⟩, List.take_of_length_le (by rw [List.length_drop]; omega)]

theorem sliceTo_panic {p : List UInt8} {a b : Nat} (h : b < a ∨ p.length < b) : (sliceTo p a b : Outcome ε _) = .panic := by
  unfold sliceTo
  rw [if_neg (by omega)]

theorem bind_of_panic {α β : Type} {o : Outcome ε α} {f : α → Outcome ε β} (h : o = .panic) : (o >>= f) = .panic := by
  rw [h]; rfl

theorem bind_panic_of_noErr {α β : Type} {o : Outcome ε α} {f : α → Outcome ε β} (h : ∀ e, o ≠ .err e)
    (hf : ∀ a, f a = .panic) : (o >>= f) = .panic := by
  cases o with
  | ok a => exact hf a
  | err e => exact absurd rfl (h e)
  | panic => rfl

theorem rdAs_noErr (p : List UInt8) (i n : Nat) (e : ε) : (rdAs p i n : Outcome ε Nat) ≠ .err e := by
  unfold rdAs
  cases readBE? p i n <;> simp [Outcome.ofOption]

theorem rdAs_bind_panic {β : Type} {p : List UInt8} {i n : Nat} {f : Nat → Outcome ε β} (hf : ∀ a, f a = .panic) :
    (rdAs p i n >>= f) = .panic := bind_panic_of_noErr (rdAs_noErr p i n) hf

theorem bind_noErr {α β : Type} {o : Outcome ε α} {f : α → Outcome ε β} (h : ∀ e, o ≠ .err e) (hf : ∀ a e, f a ≠ .err e)
    (e : ε) : (o >>= f) ≠ .err e := by
  cases o with
  | ok a => exact hf a e
  | err e => exact absurd rfl (h e)
  | panic => intro h; cases h

theorem EarthShape.fromBuf_noErr (p : List UInt8) (e : ε) : (EarthShape.fromBuf p : Outcome ε _) ≠ .err e := by
  unfold EarthShape.fromBuf
  revert e
  iterate 7 refine bind_noErr (rdAs_noErr _ _ _) fun _ => ?_
  intro e h
  cases h

theorem tryFrom_0 {d : GridDefinition} (hlen : 9 ≤ d.payload.length) (ht : number d.payload 7 2 = 0) :
    GridTemplate.tryFrom d = if d.payload.length > 67 then .err .notSupported else
      sliceTo d.payload 25 d.payload.length >>= fun rest => LatLonGrid.fromBuf rest >>= fun g => .ok (.template0 g) := by
  unfold GridTemplate.tryFrom GridDefinition.gridTmplNum
  rw [rdAs_number (by omega), Outcome.bind_ok, ht]
  rfl

theorem tryFrom_20 {d : GridDefinition} (hlen : 9 ≤ d.payload.length) (ht : number d.payload 7 2 = 20) :
    GridTemplate.tryFrom d = (PolarGrid.fromBuf (d.payload.drop 9) >>= fun g => .ok (.template20 g)) := by
  unfold GridTemplate.tryFrom GridDefinition.gridTmplNum
  rw [rdAs_number (by omega), Outcome.bind_ok, ht]
  simp only [sliceTo_end hlen, Outcome.bind_ok]

theorem tryFrom_30 {d : GridDefinition} (hlen : 9 ≤ d.payload.length) (ht : number d.payload 7 2 = 30) :
    GridTemplate.tryFrom d = (LambertGrid.fromBuf (d.payload.drop 9) >>= fun g => .ok (.template30 g)) := by
  unfold GridTemplate.tryFrom GridDefinition.gridTmplNum
  rw [rdAs_number (by omega), Outcome.bind_ok, ht]
  simp only [sliceTo_end hlen, Outcome.bind_ok]

theorem tryFrom_40 {d : GridDefinition} (hlen : 9 ≤ d.payload.length) (ht : number d.payload 7 2 = 40) :
    GridTemplate.tryFrom d = if d.payload.length > 67 then .err .notSupported else
      sliceTo d.payload 25 d.payload.length >>= fun rest => GaussianGrid.fromBuf rest >>= fun g => .ok (.template40 g) := by
  unfold GridTemplate.tryFrom GridDefinition.gridTmplNum
  rw [rdAs_number (by omega), Outcome.bind_ok, ht]
  rfl

theorem GridIter.sizeHint_new (ni nj mode : Nat) : (GridIter.new ni nj mode).sizeHint = (.ok (ni * nj) : Outcome ε _) := by
  rw [GridIter.new_eq]
  unfold GridIter.sizeHint GridIter.at
  dsimp only
  rw [Nat.zero_div, if_neg (by omega), Nat.zero_mod, if_neg (by omega), Nat.sub_zero, Nat.sub_zero, lines_mul]

theorem evenlySpacedDegrees_length (ops : FloatOps F) (a b : F) (n : Nat) : (evenlySpacedDegrees ops a b n).length = n + 1 := by
  simp [evenlySpacedDegrees]

theorem evenlySpacedLongitudes_length {ops : FloatOps F} {a b : Int} {n : Nat} {mode : ScanningMode} {l : List F}
    (h : (evenlySpacedLongitudes ops a b n mode : Outcome ε _) = .ok l) : l.length = n + 1 := by
  unfold evenlySpacedLongitudes at h
  obtain ⟨diff, -, h⟩ := Outcome.bind_eq_ok h
  dsimp only at h
  split at h
  · cases h; simp [evenlySpacedDegrees_length]
  · cases h; simp [evenlySpacedDegrees_length]

theorem gridIj_ok {ni nj : Nat} {mode : ScanningMode} {it : GridIter} (h : gridIj ni nj mode = .ok it) :
    it = GridIter.new ni nj mode := by
  unfold gridIj at h
  split at h
  · cases h
  · cases h; rfl

theorem allSome_length {α : Type} {xs : List (Option α)} {ys : List α} (h : allSome xs = some ys) : ys.length = xs.length := by
  induction xs generalizing ys with
  | nil => cases h; rfl
  | cons x xs ih =>
    cases x with
    | none => cases h
    | some a =>
      unfold allSome at h
      cases hx : allSome xs with
      | none => rw [hx] at h; cases h
      | some zs =>
        rw [hx] at h
        cases h
        simp [ih hx]

theorem gaussianLatitudes_length {g : GaussOps G F} {n : Nat} {l : List G} (h : gaussianLatitudes g n = .ok l) :
    l.length = n := by
  unfold gaussianLatitudes at h
  obtain ⟨roots, hr, h⟩ := Outcome.bind_eq_ok h
  split at h
  · cases h
  · rename_i hs
    cases h
    have := allSome_length hs
    unfold legendreRoots at hr
    split at hr
    · cases hr
    · cases hr
      simpa using this

theorem LatLonGrid.latlons_ok {ops : FloatOps F} {g : LatLonGrid} {it : RegularIter F} (h : g.latlons ops = .ok it) :
    it.ij = GridIter.new g.ni g.nj g.mode ∧ it.lat.length = g.nj ∧ it.lon.length = g.ni := by
  unfold LatLonGrid.latlons at h
  obtain ⟨c, -, h⟩ := Outcome.bind_eq_ok h
  split at h
  · cases h
  · obtain ⟨ij, hij, h⟩ := Outcome.bind_eq_ok h
    split at h
    · cases h
    · split at h
      · cases h
      · obtain ⟨lon, hlon, h⟩ := Outcome.bind_eq_ok h
        cases h
        have := evenlySpacedLongitudes_length hlon
        have h2 := evenlySpacedDegrees_length ops (ops.ofInt g.firstLat) (ops.ofInt g.lastLat) (g.nj - 1)
        refine ⟨gridIj_ok hij, ?_, ?_⟩ <;> dsimp only <;> omega

theorem GaussianGrid.latlons_ok {o : GaussOps G F} {ops : FloatOps F} {g : GaussianGrid} {it : RegularIter F}
    (h : g.latlons o ops = .ok it) :
    it.ij = GridIter.new g.ni g.nj g.mode ∧ it.lat.length = g.nj ∧ it.lon.length = g.ni := by
  unfold GaussianGrid.latlons at h
  obtain ⟨c, -, h⟩ := Outcome.bind_eq_ok h
  split at h
  · cases h
  · obtain ⟨ij, hij, h⟩ := Outcome.bind_eq_ok h
    obtain ⟨lat, hlat, h⟩ := Outcome.bind_eq_ok h
    dsimp only at h
    split at h
    · cases h
    · obtain ⟨lon, hlon, h⟩ := Outcome.bind_eq_ok h
      cases h
      have := evenlySpacedLongitudes_length hlon
      have h2 := gaussianLatitudes_length hlat
      refine ⟨gridIj_ok hij, ?_, ?_⟩
      · dsimp only
        rw [List.length_map]
        split
        · rw [List.length_reverse, h2]
        · exact h2
      · dsimp only; omega

theorem latlons_regular (o : GridOps G F) (t : GridTemplate) (it : RegularIter F) (h : t.latlons o = .ok (.latLon it)) :
    it.ij = GridIter.new t.gridShape.1 t.gridShape.2 t.mode ∧ it.lat.length = t.gridShape.2 ∧ it.lon.length = t.gridShape.1 := by
  unfold GridTemplate.latlons at h
  split at h
  · obtain ⟨x, hx, h⟩ := Outcome.bind_eq_ok h
    cases h
    exact LatLonGrid.latlons_ok hx
  · split at h
    · obtain ⟨x, hx, h⟩ := Outcome.bind_eq_ok h
      cases h
    · cases h
  · split at h
    · obtain ⟨x, hx, h⟩ := Outcome.bind_eq_ok h
      cases h
    · cases h
  · obtain ⟨x, hx, h⟩ := Outcome.bind_eq_ok h
    cases h
    exact GaussianGrid.latlons_ok hx

end Grib.Model
