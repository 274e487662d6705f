import Verif.Spec.Field
import Verif.Props.EndToEnd
import Verif.Props.Complex
import Verif.Props.RunLength
/-! # C81: every field can be written, and comes back -/

namespace Grib.Spec

open Grib.Model Grib.Props

theorem signMagnitude_signOctets (n : Nat) (hn : 1 ≤ n) (x : Int) (hx : x.natAbs < 2 ^ (8 * n - 1)) :
    signMagnitude (signOctets n x) = x := by
  have hl : (signOctets n x).length = n := beBytes_length _ _
  have e : 2 ^ (8 * n) = 2 * 2 ^ (8 * n - 1) := by
    rw [← Nat.pow_succ', Nat.succ_eq_add_one, Nat.sub_add_cancel (by omega)]
  have e' : 256 ^ n = 2 ^ (8 * n) := by rw [Nat.pow_mul]
  have h := asGribInt_spec (signOctets n x) (by omega)
  rw [← h, hl]
  have hb : be (signOctets n x) = if x < 0 then 2 ^ (8 * n - 1) + x.natAbs else x.natAbs := by
    unfold signOctets
    rw [be_beBytes]
    split <;> omega
  rw [hb]
  unfold asGribInt
  generalize 2 ^ (8 * n - 1) = P at *
  by_cases h0 : x < 0
  · rw [if_pos h0, if_pos (by omega), e, Nat.mul_comm, Nat.mul_mod_mul_left, Nat.mul_div_cancel_left _ (by omega),
      Nat.add_mod_left, Nat.mod_eq_of_lt hx]
    omega
  · rw [if_neg h0, if_neg (by omega)]
    omega

namespace Packing

variable {count template nbit : Nat} {s : Scaling} {tail : List UInt8}

theorem common_length : (common count template s nbit).length = 16 := rfl

theorem common_count (h : count < 2 ^ 32) : sectNumber (common count template s nbit ++ tail) 6 9 = count :=
  (show _ = be (beBytes 4 count) from rfl).trans (be_beBytes 4 count h)

theorem common_template (h : template < 2 ^ 16) : sectNumber (common count template s nbit ++ tail) 10 11 = template :=
  (show _ = be (beBytes 2 template) from rfl).trans (be_beBytes 2 template h)

theorem common_r (h : s.r < 2 ^ 32) : sectNumber (common count template s nbit ++ tail) 12 15 = s.r :=
  (show _ = be (beBytes 4 s.r) from rfl).trans (be_beBytes 4 s.r h)

theorem common_e (h : s.e.natAbs < 2 ^ 15) : sectSigned (common count template s nbit ++ tail) 16 17 = s.e :=
  (show _ = signMagnitude (signOctets 2 s.e) from rfl).trans (signMagnitude_signOctets 2 (by omega) _ h)

theorem common_d (h : s.d.natAbs < 2 ^ 15) : sectSigned (common count template s nbit ++ tail) 18 19 = s.d :=
  (show _ = signMagnitude (signOctets 2 s.d) from rfl).trans (signMagnitude_signOctets 2 (by omega) _ h)

theorem common_nbit (h : nbit < 256) : sectNumber (common count template s nbit ++ tail) 20 20 = nbit :=
  (show _ = 0 * 256 + (UInt8.ofNat nbit).toNat from rfl).trans (by simp; omega)

theorem common_type : sectNumber (common count template s nbit ++ tail) 21 21 = 0 := rfl

theorem sectNumber_after (A B : List UInt8) {n a b : Nat} (hA : A.length = n) (ha : n + 6 ≤ a) :
    sectNumber (A ++ B) a b = sectNumber B (a - n) (b - n) := by
  unfold sectNumber number
  by_cases hb : a ≤ b
  · rw [show b + 1 - a = b - n + 1 - (a - n) by omega]
    congr 1
    funext acc k
    unfold octet
    simp only [List.getD_eq_getElem?_getD]
    rw [List.getElem?_append_right (by omega)]
    congr 5
    omega
  · rw [show b + 1 - a = 0 by omega, show b - n + 1 - (a - n) = 0 by omega]
    rfl

theorem oneByOne_length : (oneByOne count).length = 26 := rfl

theorem oneByOne_template (h : count < 2 ^ 32) :
    complexTemplate (common count template s nbit ++ (oneByOne count ++ tail)) = ⟨1, 1, count, 0, 0, 1, 0, 1, 0⟩ := by
  unfold complexTemplate
  have key : ∀ a b, 22 ≤ a → sectNumber (common count template s nbit ++ (oneByOne count ++ tail)) a b =
      sectNumber (oneByOne count ++ tail) (a - 16) (b - 16) := fun a b h => sectNumber_after _ _ common_length (by omega)
  simp only [key _ _ (show 22 ≤ 22 by decide), key _ _ (show 22 ≤ 23 by decide), key _ _ (show 22 ≤ 32 by decide),
    key _ _ (show 22 ≤ 36 by decide), key _ _ (show 22 ≤ 37 by decide), key _ _ (show 22 ≤ 38 by decide),
    key _ _ (show 22 ≤ 42 by decide), key _ _ (show 22 ≤ 43 by decide), key _ _ (show 22 ≤ 47 by decide)]
  have e : sectNumber (oneByOne count ++ tail) (32 - 16) (35 - 16) = count :=
    (show _ = be (beBytes 4 count) from rfl).trans (be_beBytes 4 count h)
  have key2 : ∀ a b, 20 ≤ a → sectNumber (oneByOne count ++ tail) a b =
      sectNumber ([0, 0, 0, 0, 0, 1, 0, 0, 0, 0, 1, 0] ++ tail) (a - 14) (b - 14) := by
    intro a b h
    have : oneByOne count ++ tail = ([1, 1, 0xff, 0xff, 0xff, 0xff, 0xff, 0xff, 0xff, 0xff] ++ beBytes 4 count) ++
        ([0, 0, 0, 0, 0, 1, 0, 0, 0, 0, 1, 0] ++ tail) := by
      unfold oneByOne; simp only [List.append_assoc]
    rw [this, sectNumber_after (n := 14) _ _ rfl (by omega)]
  rw [e, key2 _ _ (show 20 ≤ 36 - 16 by decide), key2 _ _ (show 20 ≤ 37 - 16 by decide),
    key2 _ _ (show 20 ≤ 38 - 16 by decide), key2 _ _ (show 20 ≤ 42 - 16 by decide), key2 _ _ (show 20 ≤ 43 - 16 by decide),
    key2 _ _ (show 20 ≤ 47 - 16 by decide)]
  simp [sectNumber, number, octet, oneByOne, List.range_succ]

theorem oneByOne_diff (x y : UInt8) :
    sectNumber (common count template s nbit ++ (oneByOne count ++ [x, y])) 48 48 = x.toNat ∧
    sectNumber (common count template s nbit ++ (oneByOne count ++ [x, y])) 49 49 = y.toNat := by
  rw [sectNumber_after _ _ common_length (by omega), sectNumber_after _ _ oneByOne_length (by omega),
    sectNumber_after _ _ common_length (by omega), sectNumber_after _ _ oneByOne_length (by omega)]
  simp [sectNumber, number, octet]

end Packing
end Grib.Spec

namespace Grib.Props

open Grib.Model Grib.Spec

variable {F : Type}

/-- The formula with given floating-point operations, in the order of the code. -/
def scaledWith (ops : FloatOps F) (s : Scaling) (x : F) : F :=
  ops.mul (ops.add (ops.ofBits s.r) (ops.mul x (ops.powi (ops.ofInt 2) s.e))) (ops.powi (ops.ofInt 10) (-s.d))

/-- How missing points and values come about. -/
inductive Kind where
  | plain
  | masked
  | table
deriving DecidableEq

/-- What decoding gives at a point: for a number the formula (for the numbers of a table only the decimal scaling); for a
missing one NaN, put through the formula where the packing itself marks missing values. -/
def decodedAt (ops : FloatOps F) (s : Scaling) : Kind → Option Int → F
  | .table, some x => ops.mul (ops.ofInt x) (ops.powi (ops.ofInt 10) (-s.d))
  | _, some x => scaledWith ops s (ops.ofInt x)
  | .plain, none => scaledWith ops s ops.nan
  | _, none => ops.nan

def kind : Packing → Kind
  | .masked _ _ => .masked
  | .levels _ _ _ => .table
  | _ => .plain

/-- How many points a bitmap has more than the grid, as far as the decoder goes. -/
def surplus (n : Nat) : Nat := if n < 8 then 0 else 8 * ((n + 7) / 8) - n

theorem pointValue_eq (ops : FloatOps F) (s : Scaling) (sect5 : List UInt8) (h1 : sectNumber sect5 12 15 = s.r)
    (h2 : sectSigned sect5 16 17 = s.e) (h3 : sectSigned sect5 18 19 = s.d) (x : Option Int) :
    pointValue ops sect5 (match x with | some x => .normal x | none => .missing1) = decodedAt ops s .plain x := by
  unfold pointValue
  rw [h1, h2, h3]
  cases x <;> rfl

theorem simple_values (c : Codecs F) (t : Decoder) (s : Scaling) (hs : s.Ok) (count nbit : Nat) (h1 : 1 ≤ nbit) (h32 : nbit ≤ 32)
    (h5 : t.sect5 = Packing.common count 0 s nbit) (ht : t.templateNum = 0) :
    t.decodeValues c = .ok (((sectNumbers t.sect7 nbit).map fun x : Nat => scaledWith c.ops s (c.ops.ofInt x)).map .ok) := by
  rw [← List.append_nil (Packing.common count 0 s nbit)] at h5
  unfold Decoder.decodeValues
  rw [ht]
  simp only
  have e : bitsPerValue t.sect5 = nbit := by unfold bitsPerValue; rw [h5]; exact Packing.common_nbit (by omega)
  rw [C20_values c.ops t (by rw [h5]; simp [Packing.common_length]) (by rw [h5]; rfl) (by omega) (by omega), e, h5,
    Packing.common_r hs.r, Packing.common_e hs.e, Packing.common_d hs.d]
  unfold sectNumbers
  rw [List.map_map, List.map_map]
  rfl

theorem spread_masked (ops : FloatOps F) (f : Nat → F) (xs : List (Option Nat)) (k : Nat) (vs : List F)
    (h : ∃ more, vs = (xs.filterMap id).map f ++ more) :
    spread ops (xs.map Option.isSome ++ List.replicate k false) (vs.map .ok) =
      .done ((xs.map fun | some x => f x | none => ops.nan) ++ List.replicate k ops.nan) := by
  induction xs generalizing vs with
  | nil =>
    clear h
    induction k with
    | zero => rfl
    | succ k ih =>
      simp only [List.map_nil, List.nil_append] at ih
      simp only [List.map_nil, List.nil_append, List.replicate_succ, spread, ih, Drained.cons]
  | cons x xs ih =>
    obtain ⟨more, rfl⟩ := h
    cases x with
    | none =>
      simp only [List.map_cons, Option.isSome_none, List.cons_append, spread]
      rw [show List.filterMap id (none :: xs) = List.filterMap id xs from rfl, ih _ ⟨more, rfl⟩]
      rfl
    | some x =>
      simp only [List.map_cons, Option.isSome_some, List.cons_append, spread, List.filterMap_cons, id_eq]
      rw [ih _ ⟨more, rfl⟩]
      rfl

theorem sectNumbers_prefix {n : Nat} (hn : 1 ≤ n) (xs : List Nat) (hx : ∀ x ∈ xs, x < 2 ^ n) :
    ∃ more, sectNumbers (packInts n xs) n = xs ++ more := by
  have hl : (packInts n xs).length = (n * xs.length + 7) / 8 := by
    simp only [packInts, packOctets_length, flatMap_toBits_length]
  have hc : xs.length ≤ 8 * (packInts n xs).length / n := by
    rw [Nat.le_div_iff_mul_le (by omega), hl, Nat.mul_comm xs.length]; omega
  refine ⟨(sectNumbers (packInts n xs) n).drop xs.length, ?_⟩
  have : (sectNumbers (packInts n xs) n).take xs.length = xs := by
    apply List.ext_getElem
    · simp only [List.length_take, sectNumbers, List.length_map, List.length_range]; omega
    · intro k h1 h2
      simp only [List.getElem_take, sectNumbers, List.getElem_map, List.getElem_range]
      have := bitField_packInts_append n xs [] k h2
      rw [List.append_nil] at this
      rw [this, Nat.mod_eq_of_lt (hx _ (List.getElem_mem h2))]
  have h2 := List.take_append_drop xs.length (sectNumbers (packInts n xs) n)
  rw [this] at h2
  exact h2.symm

/-- What is decoded from the sections of a field. -/
theorem simple_decoded (c : Codecs F) (t : Decoder) (s : Scaling) (hs : s.Ok) (n : Nat) (xs : List Nat)
    (hp : (Packing.simple n xs).Ok) (h5 : t.sect5 = (Packing.simple n xs).sect5 s) (ht : t.templateNum = 0)
    (h7 : t.sect7 = (Packing.simple n xs).sect7) (hb : t.bitmap = createBitmap t.numPointsTotal)
    (hn : xs.length = t.numPointsTotal) :
    ∃ it, t.dispatch c = .ok it ∧
      it.toList c.ops = .done ((Packing.simple n xs).numbers.map (decodedAt c.ops s .plain)) := by
  obtain ⟨p1, p2, p3⟩ := hp
  have hv := simple_values c t s hs _ (8 * n) (by omega) (by omega) h5 ht
  rw [h7, Packing.sect7, sectNumbers_packed (by omega) xs p3 (by
    rw [Nat.mul_assoc 8 n, Nat.mul_add_div (by omega), Nat.mul_assoc 8 n, Nat.mul_add n]; omega)] at hv
  obtain ⟨it, i1, i2⟩ := C22_exact_values_partial c t _ hv hb (by simpa using hn)
  refine ⟨it, i1, ?_⟩
  rw [i2]
  simp only [Packing.numbers, List.map_map]
  rfl

theorem masked_decoded (c : Codecs F) (t : Decoder) (s : Scaling) (hs : s.Ok) (n : Nat) (xs : List (Option Nat))
    (hp : (Packing.masked n xs).Ok) (h5 : t.sect5 = (Packing.masked n xs).sect5 s) (ht : t.templateNum = 0)
    (h7 : t.sect7 = (Packing.masked n xs).sect7) (hb : t.bitmap = packOctets (xs.map Option.isSome))
    (hn : xs.length = t.numPointsTotal) :
    ∃ it, t.dispatch c = .ok it ∧
      it.toList c.ops = .done ((Packing.masked n xs).numbers.map (decodedAt c.ops s .masked) ++
        List.replicate (surplus xs.length) c.ops.nan) := by
  obtain ⟨p1, p2, p3⟩ := hp
  have hv := simple_values c t s hs _ n (by omega) (by omega) h5 ht
  have hx : ∀ x ∈ xs.filterMap id, x < 2 ^ n := by
    intro x hx
    simp only [List.mem_filterMap, id_eq, exists_eq_right] at hx
    exact p3 x hx
  obtain ⟨more, hm⟩ := sectNumbers_prefix p1 (xs.filterMap id) hx
  rw [h7, Packing.sect7, hm, List.map_append] at hv
  have hl : t.numPointsTotal ≤ 8 * t.bitmap.length := by
    rw [hb, packOctets_length, List.length_map]; omega
  refine ⟨_, dispatch_ok c t _ hv hl, ?_⟩
  rw [BitmapIter.toList_eq _ _ _ _ hl, hb, bits_packOctets, List.length_map, ← hn]
  have e : (if xs.length < 8 then
      (xs.map Option.isSome ++ List.replicate (8 * ((xs.length + 7) / 8) - xs.length) false).take xs.length
      else xs.map Option.isSome ++ List.replicate (8 * ((xs.length + 7) / 8) - xs.length) false) =
      xs.map Option.isSome ++ List.replicate (surplus xs.length) false := by
    unfold surplus
    split
    · rw [List.take_append_of_le_length (by simp), List.take_of_length_le (by simp)]; simp
    · rfl
  rw [e, spread_masked c.ops (fun x => scaledWith c.ops s (c.ops.ofInt x)) xs _ _ ⟨_, rfl⟩]
  congr 2
  simp only [Packing.numbers, List.map_map]
  apply List.map_congr_left
  intro x _
  cases x <;> rfl

/-- A group for each number. -/
def singles (refs : List Nat) : List PGroup := refs.map fun r => ⟨r, 0, 0, [0]⟩

theorem singles_encoded (refs : List Nat) (n : Nat) :
    encodeGroups ⟨1, 1, n, 0, 0, 1, 0, 1, 0⟩ 30 (singles refs) = packInts 30 refs := by
  have z : ∀ xs : List Nat, packInts 0 xs = [] := by
    intro xs
    have : xs.flatMap (toBits 0) = [] := by simp [toBits]
    unfold packInts
    rw [this]; rfl
  have r : (singles refs).map (·.ref) = refs := by simp [singles, Function.comp_def]
  have d : ((singles refs).flatMap fun g => g.nums.flatMap (toBits g.width)) = [] := by
    simp [singles, toBits]
  unfold encodeGroups
  simp only [z, r, d, List.append_nil]
  simp [packOctets]

theorem singles_packable (refs : List Nat) (zMin : Int) (h1 : refs ≠ []) (hl : refs.length ≤ 100000000)
    (hr : ∀ r ∈ refs, r < 2 ^ 30) (hz : -2 ^ 29 ≤ zMin ∧ zMin ≤ 0) :
    Packable ⟨1, 1, refs.length, 0, 0, 1, 0, 1, 0⟩ 30 zMin (singles refs) := by
  have hm : ∀ g ∈ singles refs, g.width = 0 ∧ g.lenCode = 0 ∧ g.nums = [0] ∧ g.ref < 2 ^ 30 := by
    intro g hg
    simp only [singles, List.mem_map] at hg
    obtain ⟨r, h, rfl⟩ := hg
    exact ⟨rfl, rfl, rfl, hr r h⟩
  have hp : 0 < refs.length := List.length_pos_iff.mpr h1
  constructor
  · simp [singles]
  · simp only [singles, List.length_map]; omega
  · decide
  · simp
  · simp
  · simp only; omega
  · simp
  · simp
  · intro g hg; have := (hm g hg).2.2.2; omega
  · intro g hg; simp [(hm g hg).1]
  · intro g hg; simp [(hm g hg).2.1]
  · intro g hg; simp [(hm g hg).1, (hm g hg).2.2.1]
  · intro g hg; simp [(hm g (List.dropLast_subset _ hg)).2.1, (hm g (List.dropLast_subset _ hg)).2.2.1]
  · intro g hg; simp [(hm g (List.mem_of_getLast? hg)).2.2.1]
  · intro g _ _; decide
  · intro g hg; have := (hm g hg).2.2.2; rw [(hm g hg).1]; omega

/-- A point as the decoder sees it. -/
def dv : Option Int → DecodedValue
  | some x => .normal x
  | none => .missing1

theorem singles_values (ys : List (Option Int)) (zMin : Int)
    (h : ∀ y, some y ∈ ys → 0 ≤ y - zMin ∧ y - zMin < 2 ^ 30 - 1) :
    (singles (ys.map fun x => (x.map fun y => (y - zMin).toNat).getD Packing.absent)).flatMap (PGroup.values 1 30 zMin) =
      ys.map dv := by
  induction ys with
  | nil => rfl
  | cons y ys ih =>
    have ih := ih (fun z hz => h z (by simp [hz]))
    have e : ∀ (r : Nat) (rs : List Nat), (singles (r :: rs)).flatMap (PGroup.values 1 30 zMin) =
        PGroup.values 1 30 zMin ⟨r, 0, 0, [0]⟩ ++ (singles rs).flatMap (PGroup.values 1 30 zMin) := by
      intro r rs; rfl
    rw [List.map_cons, e, ih, List.map_cons]
    cases y with
    | none => rfl
    | some y =>
      obtain ⟨a, b⟩ := h y (by simp)
      have : PGroup.values 1 30 zMin ⟨(y - zMin).toNat, 0, 0, [0]⟩ = [.normal y] := by
        unfold PGroup.values Layout.missing
        simp only [List.map_cons, List.map_nil, if_true]
        rw [if_neg (by omega), if_neg (by omega)]
        simp only [Option.getD_none]
        congr 2
        omega
      simp only [Option.map_some, Option.getD_some, this]
      rfl

theorem oneByOne_ok (count template : Nat) (s : Scaling) (tail : List UInt8) :
    ComplexOk (Packing.common count template s 30 ++ (Packing.oneByOne count ++ tail)) := by
  refine ⟨by simp [Packing.common_length, Packing.oneByOne_length]; omega, rfl, ?_, ?_⟩
  · rw [Packing.sectNumber_after _ _ Packing.common_length (by omega)]; rfl
  · rw [Packing.sectNumber_after _ _ Packing.common_length (by omega)]
    simp [sectNumber, number, octet, Packing.oneByOne]

theorem grouped_decoded (c : Codecs F) (t : Decoder) (s : Scaling) (hs : s.Ok) (xs : List (Option Nat))
    (hp : (Packing.grouped xs).Ok) (h5 : t.sect5 = (Packing.grouped xs).sect5 s) (ht : t.templateNum = 2)
    (h7 : t.sect7 = (Packing.grouped xs).sect7) (hb : t.bitmap = createBitmap t.numPointsTotal)
    (hn : xs.length = t.numPointsTotal) :
    ∃ it, t.dispatch c = .ok it ∧
      it.toList c.ops = .done ((Packing.grouped xs).numbers.map (decodedAt c.ops s .plain)) := by
  obtain ⟨p1, p2, p3⟩ := hp
  have h5' : t.sect5 = Packing.common xs.length 2 s 30 ++ (Packing.oneByOne xs.length ++ []) := by
    rw [h5, List.append_nil]; rfl
  have hT : complexTemplate t.sect5 = ⟨1, 1, xs.length, 0, 0, 1, 0, 1, 0⟩ := by
    rw [h5', Packing.oneByOne_template (by omega)]
  have hB : bitsPerValue t.sect5 = 30 := by rw [h5']; exact Packing.common_nbit (by omega)
  have hrefs : (xs.map fun x => x.getD Packing.absent) =
      (xs.map (Option.map Int.ofNat)).map fun x => (x.map fun y => (y - 0).toNat).getD Packing.absent := by
    rw [List.map_map]
    apply List.map_congr_left
    intro x _
    cases x <;> rfl
  have hlt : ∀ r ∈ xs.map (fun x => x.getD Packing.absent), r < 2 ^ 30 := by
    intro r hr
    simp only [List.mem_map] at hr
    obtain ⟨x, hx, rfl⟩ := hr
    cases x with
    | none => decide
    | some x => have := p3 x hx; simp only [Option.getD_some]; omega
  have hpack := singles_packable (xs.map fun x => x.getD Packing.absent) 0 (by simpa using p1) (by simpa using p2) hlt
    (by decide)
  rw [List.length_map] at hpack
  have hv : t.decodeValues c = .ok (((Packing.grouped xs).numbers.map (decodedAt c.ops s .plain)).map .ok) := by
    unfold Decoder.decodeValues
    rw [ht]
    simp only
    rw [C27_round_trip c.ops t (h5' ▸ oneByOne_ok _ _ _ _) (singles (xs.map fun x => x.getD Packing.absent))
      (by rw [hT, hB]; exact hpack) (by rw [hT, hB, singles_encoded, h7]; rfl), hT, hB, hrefs,
      singles_values _ 0 (by
        intro y hy
        simp only [List.mem_map] at hy
        obtain ⟨x, hx, hxy⟩ := hy
        cases x with
        | none => cases hxy
        | some x => cases hxy; have := p3 x hx; simp only [Int.ofNat_eq_natCast]; omega)]
    congr 1
    simp only [Packing.numbers, List.map_map]
    apply List.map_congr_left
    intro x _
    simp only [Function.comp]
    rw [← pointValue_eq c.ops s t.sect5 (by rw [h5']; exact Packing.common_r hs.r)
      (by rw [h5']; exact Packing.common_e hs.e) (by rw [h5']; exact Packing.common_d hs.d)]
    rfl
  exact C22_exact_values_partial c t _ hv hb (by simp [Packing.numbers, hn])

theorem diff1_dv (prev : Option Int) (xs : List (Option Int)) :
    diff1 0 prev (xs.map dv) = (Packing.differences1 prev xs).map dv := by
  induction xs generalizing prev with
  | nil => cases prev <;> rfl
  | cons x xs ih =>
    cases x <;> cases prev <;> simp only [List.map_cons, dv, diff1, Packing.differences1] <;> rw [← ih]

theorem diff2_dv (prev : List Int) (hp : prev.length ≤ 2) (xs : List (Option Int)) :
    diff2 0 0 prev (xs.map dv) = (Packing.differences2 prev xs).map dv := by
  induction xs generalizing prev with
  | nil => cases prev <;> rfl
  | cons x xs ih =>
    match prev, hp with
    | [], _ => cases x <;> simp only [List.map_cons, dv, diff2, Packing.differences2] <;> rw [← ih _ (by simp)]
    | [p], _ => cases x <;> simp only [List.map_cons, dv, diff2, Packing.differences2] <;> rw [← ih _ (by simp)]
    | [p, q], _ => cases x <;> simp only [List.map_cons, dv, diff2, Packing.differences2] <;> rw [← ih _ (by simp)]

theorem differences1_range (prev : Option Int) (xs : List (Option Int)) (hp : ∀ p, prev = some p → p.natAbs < 2 ^ 28)
    (hx : ∀ x, some x ∈ xs → x.natAbs < 2 ^ 28) :
    ∀ y, some y ∈ Packing.differences1 prev xs → y.natAbs < 2 ^ 29 - 1 := by
  induction xs generalizing prev with
  | nil => cases prev <;> simp [Packing.differences1]
  | cons x xs ih =>
    have ht : ∀ x, some x ∈ xs → x.natAbs < 2 ^ 28 := fun x h => hx x (by simp [h])
    intro y hy
    cases x with
    | none =>
      simp only [Packing.differences1, List.mem_cons, reduceCtorEq, false_or] at hy
      exact ih prev hp ht y hy
    | some x =>
      have hx0 := hx x (by simp)
      have ih := ih (some x) (by intro p h; cases h; exact hx0) ht y
      cases prev with
      | none =>
        simp only [Packing.differences1, List.mem_cons, Option.some.injEq] at hy
        rcases hy with rfl | hy
        · decide
        · exact ih hy
      | some p =>
        have := hp p rfl
        simp only [Packing.differences1, List.mem_cons, Option.some.injEq] at hy
        rcases hy with rfl | hy
        · omega
        · exact ih hy

theorem differences2_range (prev : List Int) (hl : prev.length ≤ 2) (xs : List (Option Int))
    (hp : ∀ p ∈ prev, p.natAbs < 2 ^ 27) (hx : ∀ x, some x ∈ xs → x.natAbs < 2 ^ 27) :
    ∀ y, some y ∈ Packing.differences2 prev xs → y.natAbs < 2 ^ 29 - 1 := by
  induction xs generalizing prev with
  | nil => cases prev <;> simp [Packing.differences2]
  | cons x xs ih =>
    have ht : ∀ x, some x ∈ xs → x.natAbs < 2 ^ 27 := fun x h => hx x (by simp [h])
    intro y hy
    cases x with
    | none =>
      simp only [Packing.differences2, List.mem_cons, reduceCtorEq, false_or] at hy
      exact ih prev hl hp ht y hy
    | some x =>
      have hx0 := hx x (by simp)
      match prev, hl with
      | [], _ =>
        simp only [Packing.differences2, List.mem_cons, Option.some.injEq] at hy
        rcases hy with rfl | hy
        · decide
        · exact ih [x] (by simp) (by simpa using hx0) ht y hy
      | [p], _ =>
        have := hp p (by simp)
        simp only [Packing.differences2, List.mem_cons, Option.some.injEq] at hy
        rcases hy with rfl | hy
        · decide
        · exact ih [x, p] (by simp) (by intro z hz; simp at hz; rcases hz with rfl | rfl <;> assumption) ht y hy
      | [p, q], _ =>
        have := hp p (by simp)
        have := hp q (by simp)
        simp only [Packing.differences2, List.mem_cons, Option.some.injEq] at hy
        rcases hy with rfl | hy
        · omega
        · exact ih [x, p] (by simp) (by intro z hz; simp at hz; rcases hz with rfl | rfl <;> assumption) ht y hy

theorem differences1_length (prev : Option Int) (xs : List (Option Int)) :
    (Packing.differences1 prev xs).length = xs.length := by
  induction xs generalizing prev with
  | nil => cases prev <;> rfl
  | cons x xs ih => cases x <;> cases prev <;> simp [Packing.differences1, ih]

theorem differences2_length (prev : List Int) (xs : List (Option Int)) :
    (Packing.differences2 prev xs).length = xs.length := by
  induction xs generalizing prev with
  | nil => cases prev <;> rfl
  | cons x xs ih =>
    cases x with
    | none => simp [Packing.differences2, ih]
    | some x => match prev with
      | [] => simp [Packing.differences2, ih]
      | [p] => simp [Packing.differences2, ih]
      | p :: q :: r => simp [Packing.differences2, ih]

theorem normals_dv (xs : List (Option Int)) : normals (xs.map dv) = xs.filterMap id := by
  induction xs with
  | nil => rfl
  | cons x xs ih =>
    unfold normals at *
    cases x with
    | none => simpa [dv] using ih
    | some x => simpa [dv] using ih

theorem present_range {xs : List (Option Int)} {b : Nat} (h : ∀ x, some x ∈ xs → x.natAbs < b) (hb : 0 < b) (k : Nat) :
    (Packing.firstPresent k xs).natAbs < b ∧ ∀ x, (xs.filterMap id)[k]? = some x → Packing.firstPresent k xs = x := by
  unfold Packing.firstPresent
  rw [List.getD_eq_getElem?_getD]
  constructor
  · cases hk : (xs.filterMap id)[k]? with
    | none => simpa using hb
    | some x =>
      have := List.mem_of_getElem? hk
      simp only [List.mem_filterMap, id_eq, exists_eq_right] at this
      exact h x this
  · intro x hx; rw [hx]; rfl

theorem differenced_decoded (c : Codecs F) (t : Decoder) (s : Scaling) (hs : s.Ok) (second : Bool) (xs : List (Option Int))
    (hp : (Packing.differenced second xs).Ok) (h5 : t.sect5 = (Packing.differenced second xs).sect5 s) (ht : t.templateNum = 3)
    (h7 : t.sect7 = (Packing.differenced second xs).sect7) (hb : t.bitmap = createBitmap t.numPointsTotal)
    (hn : xs.length = t.numPointsTotal) :
    ∃ it, t.dispatch c = .ok it ∧
      it.toList c.ops = .done ((Packing.differenced second xs).numbers.map (decodedAt c.ops s .plain)) := by
  have hlen : xs ≠ [] ∧ xs.length ≤ 100000000 := by cases second <;> exact ⟨hp.1, hp.2.1⟩
  have h5' : t.sect5 = Packing.common xs.length 3 s 30 ++
      (Packing.oneByOne xs.length ++ [if second then 2 else 1, 4]) := h5
  have hT : complexTemplate t.sect5 = ⟨1, 1, xs.length, 0, 0, 1, 0, 1, 0⟩ := by
    rw [h5', Packing.oneByOne_template (by omega)]
  have hB : bitsPerValue t.sect5 = 30 := by rw [h5']; exact Packing.common_nbit (by omega)
  have hD := Packing.oneByOne_diff (count := xs.length) (template := 3) (s := s) (nbit := 30) (if second then 2 else 1) 4
  rw [← h5'] at hD
  have hO : diffOrder t.sect5 = if second then 2 else 1 := by
    unfold diffOrder; rw [hD.1]; cases second <;> rfl
  have hQ : diffOctets t.sect5 = 4 := by unfold diffOctets; rw [hD.2]; rfl
  have hOk : DiffOk t.sect5 := by
    refine ⟨h5' ▸ oneByOne_ok _ _ _ _, by rw [h5']; simp [Packing.common_length, Packing.oneByOne_length], ?_, by omega⟩
    rw [hO]; cases second <;> simp
  have hbase : signMagnitude (signOctets 4 Packing.base) = Packing.base :=
    signMagnitude_signOctets 4 (by omega) _ (by decide)
  have hfinish : complexDecode3 c.ops t = .ok ((xs.map dv).map fun v => .ok (pointValue c.ops t.sect5 v)) →
      ∃ it, t.dispatch c = .ok it ∧
        it.toList c.ops = .done ((Packing.differenced second xs).numbers.map (decodedAt c.ops s .plain)) := by
    intro h
    have hv : t.decodeValues c = .ok (((Packing.differenced second xs).numbers.map (decodedAt c.ops s .plain)).map .ok) := by
      unfold Decoder.decodeValues
      rw [ht]
      simp only
      rw [h]
      congr 1
      simp only [Packing.numbers, List.map_map]
      apply List.map_congr_left
      intro x _
      simp only [Function.comp]
      rw [← pointValue_eq c.ops s t.sect5 (by rw [h5']; exact Packing.common_r hs.r)
        (by rw [h5']; exact Packing.common_e hs.e) (by rw [h5']; exact Packing.common_d hs.d)]
      rfl
    exact C22_exact_values_partial c t _ hv hb (by simp [Packing.numbers, hn])
  have hpack : ∀ ys : List (Option Int), ys.length = xs.length → (∀ y, some y ∈ ys → y.natAbs < 2 ^ 29 - 1) →
      Packable ⟨1, 1, xs.length, 0, 0, 1, 0, 1, 0⟩ 30 Packing.base
        (singles (ys.map fun x => (x.map fun y => (y - Packing.base).toNat).getD Packing.absent)) ∧
      (singles (ys.map fun x => (x.map fun y => (y - Packing.base).toNat).getD Packing.absent)).flatMap
        (PGroup.values 1 30 Packing.base) = ys.map dv := by
    intro ys hl hy
    have hbv : Packing.base = -2 ^ 29 := rfl
    have h1 := singles_packable (ys.map fun x => (x.map fun y => (y - Packing.base).toNat).getD Packing.absent) Packing.base
      (by
        intro h
        have := congrArg List.length h
        have := List.length_pos_iff.mpr hlen.1
        simp only [List.length_map, List.length_nil] at *
        omega)
      (by rw [List.length_map]; omega)
      (by
        intro r hr
        simp only [List.mem_map] at hr
        obtain ⟨x, hx, rfl⟩ := hr
        cases x with
        | none => decide
        | some x => have := hy x hx; simp only [Option.map_some, Option.getD_some]; omega)
      (by decide)
    rw [List.length_map, hl] at h1
    exact ⟨h1, singles_values ys _ (by intro y h; have := hy y h; omega)⟩
  apply hfinish
  cases second with
  | false =>
    obtain ⟨p1, p2, p3⟩ := hp
    obtain ⟨q1, q2⟩ := hpack (Packing.differences1 none xs) (differences1_length _ _)
      (differences1_range none xs (by simp) p3)
    obtain ⟨f1, f2⟩ := present_range p3 (by decide) 0
    have hf := signMagnitude_signOctets 4 (by omega) (Packing.firstPresent 0 xs) (by omega)
    refine C29_round_trip1 c.ops t hOk hO (xs.map dv) ?_ (signOctets 4 (Packing.firstPresent 0 xs))
      (signOctets 4 Packing.base) (by rw [hQ]; rfl) (by rw [hQ]; rfl) ?_ 0 _ (by rw [hT, hB, hbase]; exact q1) ?_ ?_
    · intro x hx
      rw [normals_dv] at hx
      simp only [List.mem_filterMap, id_eq, exists_eq_right] at hx
      have := p3 x hx
      omega
    · intro x hx
      rw [normals_dv] at hx
      rw [hf]
      exact f2 x hx
    · rw [hT, hB, hbase, diff1_dv]; exact q2
    · rw [hT, hB, singles_encoded, h7, List.append_assoc]; rfl
  | true =>
    obtain ⟨p1, p2, p3⟩ := hp
    obtain ⟨q1, q2⟩ := hpack (Packing.differences2 [] xs) (differences2_length _ _)
      (differences2_range [] (by simp) xs (by simp) p3)
    obtain ⟨f1, f2⟩ := present_range p3 (by decide) 0
    obtain ⟨g1, g2⟩ := present_range p3 (by decide) 1
    have hf := signMagnitude_signOctets 4 (by omega) (Packing.firstPresent 0 xs) (by omega)
    have hg := signMagnitude_signOctets 4 (by omega) (Packing.firstPresent 1 xs) (by omega)
    refine C29_round_trip2 c.ops t hOk hO (xs.map dv) ?_ (signOctets 4 (Packing.firstPresent 0 xs))
      (signOctets 4 (Packing.firstPresent 1 xs))
      (signOctets 4 Packing.base) (by rw [hQ]; rfl) (by rw [hQ]; rfl) (by rw [hQ]; rfl) ?_ ?_ 0 0 _
      (by rw [hT, hB, hbase]; exact q1) ?_ ?_
    · intro x hx
      rw [normals_dv] at hx
      simp only [List.mem_filterMap, id_eq, exists_eq_right] at hx
      have := p3 x hx
      omega
    · intro x hx
      rw [normals_dv] at hx
      rw [hf]
      exact f2 x hx
    · intro x hx
      rw [normals_dv] at hx
      rw [hg]
      exact g2 x hx
    · rw [hT, hB, hbase, diff2_dv _ (by simp)]; exact q2
    · rw [hT, hB, singles_encoded, h7, List.append_assoc, List.append_assoc]; rfl

theorem table_entry (A : List UInt8) (hA : A.length = 12) (table : List Nat) (ht : ∀ x ∈ table, x < 2 ^ 16) (i : Nat)
    (hi : i < table.length) :
    sectNumber (A ++ table.flatMap (beBytes 2)) (16 + 2 * (i + 1)) (17 + 2 * (i + 1)) = table.getD i 0 := by
  rw [Packing.sectNumber_after A _ hA (by omega)]
  induction table generalizing i with
  | nil => simp at hi
  | cons x xs ih =>
    rw [List.flatMap_cons]
    cases i with
    | zero => exact (show _ = be (beBytes 2 x) from rfl).trans (be_beBytes 2 x (ht x (by simp)))
    | succ i =>
      rw [Packing.sectNumber_after (n := 2) (beBytes 2 x) _ (beBytes_length _ _) (by omega)]
      have := ih (fun y hy => ht y (by simp [hy])) i (by simpa using hi)
      rw [show 16 + 2 * (i + 1 + 1) - 12 - 2 = 16 + 2 * (i + 1) - 12 by omega,
        show 17 + 2 * (i + 1 + 1) - 12 - 2 = 17 + 2 * (i + 1) - 12 by omega, this]
      simp

theorem levels_decoded (c : Codecs F) (t : Decoder) (s : Scaling) (hd : 0 ≤ s.d ∧ s.d < 128) (n : Nat) (table : List Nat)
    (xs : List (Option Nat))
    (hp : (Packing.levels n table xs).Ok) (h5 : t.sect5 = (Packing.levels n table xs).sect5 s) (ht : t.templateNum = 200)
    (he : t.numPointsEncoded = xs.length)
    (h7 : t.sect7 = (Packing.levels n table xs).sect7) (hb : t.bitmap = createBitmap t.numPointsTotal)
    (hn : xs.length = t.numPointsTotal) (hl : xs.length < 2 ^ 32) :
    ∃ it, t.dispatch c = .ok it ∧
      it.toList c.ops = .done ((Packing.levels n table xs).numbers.map (decodedAt c.ops s .table)) := by
  obtain ⟨p1, p2, p3, p4, p5⟩ := hp
  have h2 : 2 ^ n ≤ 2 ^ 15 := Nat.pow_le_pow_right (by decide) p2
  have hA : t.sect5 = (beBytes 4 xs.length ++ (beBytes 2 200 ++ (UInt8.ofNat n :: (beBytes 2 table.length ++
      (beBytes 2 table.length ++ [UInt8.ofNat s.d.toNat]))))) ++ table.flatMap (beBytes 2) := by
    rw [h5]; simp [Packing.sect5]
  have hlen : t.sect5.length = 12 + 2 * table.length := by
    rw [hA, List.length_append]
    have : (table.flatMap (beBytes 2)).length = 2 * table.length := by
      clear p3 p4 p5 h5 h7 hA
      induction table with
      | nil => rfl
      | cons x xs ih => rw [List.flatMap_cons, List.length_append, ih, beBytes_length, List.length_cons]; omega
    rw [this]; rfl
  have hT : runLengthTemplate t.sect5 = ⟨n, table.length, table.length, s.d.toNat⟩ := by
    rw [hA]
    unfold runLengthTemplate
    have e1 : ∀ B, sectNumber ((beBytes 4 xs.length ++ (beBytes 2 200 ++ (UInt8.ofNat n :: (beBytes 2 table.length ++
      (beBytes 2 table.length ++ [UInt8.ofNat s.d.toNat]))))) ++ B) 12 12 = n := fun B =>
      (show _ = 0 * 256 + (UInt8.ofNat n).toNat from rfl).trans (by simp; omega)
    have e2 : ∀ B, sectNumber ((beBytes 4 xs.length ++ (beBytes 2 200 ++ (UInt8.ofNat n :: (beBytes 2 table.length ++
      (beBytes 2 table.length ++ [UInt8.ofNat s.d.toNat]))))) ++ B) 13 14 = table.length := fun B =>
      (show _ = be (beBytes 2 table.length) from rfl).trans (be_beBytes 2 _ (by omega))
    have e3 : ∀ B, sectNumber ((beBytes 4 xs.length ++ (beBytes 2 200 ++ (UInt8.ofNat n :: (beBytes 2 table.length ++
      (beBytes 2 table.length ++ [UInt8.ofNat s.d.toNat]))))) ++ B) 15 16 = table.length := fun B =>
      (show _ = be (beBytes 2 table.length) from rfl).trans (be_beBytes 2 _ (by omega))
    have e4 : ∀ B, sectNumber ((beBytes 4 xs.length ++ (beBytes 2 200 ++ (UInt8.ofNat n :: (beBytes 2 table.length ++
      (beBytes 2 table.length ++ [UInt8.ofNat s.d.toNat]))))) ++ B) 17 17 = s.d.toNat := fun B =>
      (show _ = 0 * 256 + (UInt8.ofNat s.d.toNat).toNat from rfl).trans (by simp; omega)
    rw [e1, e2, e3, e4]
  have hv : t.decodeValues c = .ok (((Packing.levels n table xs).numbers.map (decodedAt c.ops s .table)).map .ok) := by
    unfold Decoder.decodeValues
    rw [ht]
    simp only
    have hlev : ∀ l ∈ xs.map Packing.level, l ≤ table.length := by
      intro l hl
      obtain ⟨x, hx, rfl⟩ := List.mem_map.mp hl
      cases x with
      | none => simp [Packing.level]
      | some i => have := p5 i hx; simp [Packing.level]; omega
    rw [C25_octet_wide c.ops t ⟨n, table.length, table.length, s.d.toNat⟩ hT.symm (Nat.le_of_eq hlen.symm) p1 p2 p3
      (xs.map Packing.level) (fun l h => ⟨hlev l h, hlev l h⟩) (by simpa using he) (by simpa using hl) h7]
    simp only [Packing.numbers, List.map_map]
    congr 1
    apply List.map_congr_left
    intro x hx
    simp only [Function.comp_apply]
    congr 1
    cases x with
    | none => rfl
    | some i =>
      have e : sectNumber t.sect5 (16 + 2 * (i + 1)) (17 + 2 * (i + 1)) = table.getD i 0 := by
        rw [hA]; exact table_entry _ rfl table p4 i (p5 i hx)
      show levelValue c.ops t.sect5 (i + 1) = _
      unfold levelValue
      rw [if_neg (by omega), e, hT]
      simp only [Option.map_some, decodedAt]
      rw [Int.toNat_of_nonneg hd.1]
  obtain ⟨it, i1, i2⟩ := C22_exact_values_partial c t _ hv hb (by simpa [Packing.numbers] using hn)
  exact ⟨it, i1, i2⟩

theorem sectBytes_drop (n : Nat) (p : List UInt8) : (sectBytes n p).drop 5 = p := by
  unfold sectBytes
  rw [List.drop_append_of_le_length (by simp [beBytes_length]), List.drop_eq_nil_of_le (by simp [beBytes_length])]
  rfl

theorem sectBytes_field (n : Nat) (p : List UInt8) {a b : Nat} (ha : 6 ≤ a) : field (sectBytes n p) 0 a b = sectNumber p a b := by
  have h : sectNumber ((sectBytes n p).drop 5) a b = field (sectBytes n p) 0 a b := by
    unfold sectNumber field number
    congr 1
    funext acc k
    unfold octet
    simp only [List.getD_eq_getElem?_getD, List.getElem?_drop]
    rw [show 5 + (a - 6 + k) = 0 + (a - 1) + k by omega]
  rw [← h, sectBytes_drop]

/-- Section 3 of a message. -/
def gridPayload (m : FieldMessage) : List UInt8 := m.source :: (beBytes 4 m.points ++ m.grid)

/-- The numbers of a packing and what follows them. -/
def decodedField (ops : FloatOps F) (f : Field) : List F :=
  f.packing.numbers.map (decodedAt ops f.scaling (kind f.packing)) ++
    List.replicate (if kind f.packing = .masked then surplus f.packing.numbers.length else 0) ops.nan

theorem field_decoded (c : Codecs F) (m : FieldMessage) (hm : m.Ok) (f : Field) (hf : f.Ok m.points) :
    ∃ d it, decoderOf (sectBytes 3 (gridPayload m)) (sectBytes 5 (f.packing.sect5 f.scaling)) (sectBytes 6 f.packing.sect6)
        (sectBytes 7 f.packing.sect7) = .ok d ∧ d.numPointsTotal = m.points ∧
      d.dispatch c = .ok it ∧ it.toList c.ops = .done (decodedField c.ops f) := by
  have hp : field (sectBytes 3 (gridPayload m)) 0 7 10 = m.points := by
    rw [sectBytes_field 3 _ (by omega)]
    exact (show _ = be (beBytes 4 m.points) from rfl).trans (be_beBytes 4 m.points hm.points)
  have h10 : ∀ (count template nbit : Nat) (tail : List UInt8), template < 2 ^ 16 →
      field (sectBytes 5 (Packing.common count template f.scaling nbit ++ tail)) 0 10 11 = template := by
    intro count template nbit tail h
    rw [sectBytes_field 5 _ (by omega), Packing.common_template h]
  have hn := hf.points
  unfold decoderOf
  simp only [hp, sectBytes_drop]
  obtain ⟨product, s, packing⟩ := f
  have hs := hf.scaling
  have hk := hf.packing
  simp only at hn hs hk h10 ⊢
  cases packing with
  | simple n xs =>
    have h6 : field (sectBytes 6 (Packing.simple n xs).sect6) 0 6 6 = 255 := by
      rw [sectBytes_field 6 _ (by omega)]; rfl
    simp only [h6, show (255 : Nat) ≠ 0 by decide, if_false, if_true]
    simp only [Packing.numbers, List.length_map] at hn
    obtain ⟨it, i1, i2⟩ := simple_decoded c ⟨m.points, field (sectBytes 5 ((Packing.simple n xs).sect5 s)) 0 6 9,
      field (sectBytes 5 ((Packing.simple n xs).sect5 s)) 0 10 11, (Packing.simple n xs).sect5 s,
      List.replicate ((m.points + 7) / 8) 0xff, (Packing.simple n xs).sect7⟩ s hs n xs hk rfl
      (by have := h10 xs.length 0 (8 * n) [] (by omega); rwa [List.append_nil] at this) rfl
      (createBitmap_replicate _).symm hn
    exact ⟨_, it, rfl, rfl, i1, by rw [i2]; simp [decodedField, kind]⟩
  | masked n xs =>
    have h6 : field (sectBytes 6 (Packing.masked n xs).sect6) 0 6 6 = 0 := by
      rw [sectBytes_field 6 _ (by omega)]; rfl
    have hd6 : (sectBytes 6 (Packing.masked n xs).sect6).drop 6 = packOctets (xs.map Option.isSome) := by
      rw [show 6 = 5 + 1 from rfl, ← List.drop_drop, sectBytes_drop]; rfl
    simp only [h6, if_true, hd6]
    simp only [Packing.numbers, List.length_map] at hn
    obtain ⟨it, i1, i2⟩ := masked_decoded c ⟨m.points, field (sectBytes 5 ((Packing.masked n xs).sect5 s)) 0 6 9,
      field (sectBytes 5 ((Packing.masked n xs).sect5 s)) 0 10 11, (Packing.masked n xs).sect5 s,
      packOctets (xs.map Option.isSome), (Packing.masked n xs).sect7⟩ s hs n xs hk rfl
      (by have := h10 (xs.filterMap id).length 0 n [] (by omega); rwa [List.append_nil] at this) rfl rfl hn
    exact ⟨_, it, rfl, rfl, i1, by rw [i2]; simp [decodedField, kind, Packing.numbers]⟩
  | grouped xs =>
    have h6 : field (sectBytes 6 (Packing.grouped xs).sect6) 0 6 6 = 255 := by
      rw [sectBytes_field 6 _ (by omega)]; rfl
    simp only [h6, show (255 : Nat) ≠ 0 by decide, if_false, if_true]
    simp only [Packing.numbers, List.length_map] at hn
    obtain ⟨it, i1, i2⟩ := grouped_decoded c ⟨m.points, field (sectBytes 5 ((Packing.grouped xs).sect5 s)) 0 6 9,
      field (sectBytes 5 ((Packing.grouped xs).sect5 s)) 0 10 11, (Packing.grouped xs).sect5 s,
      List.replicate ((m.points + 7) / 8) 0xff, (Packing.grouped xs).sect7⟩ s hs xs hk rfl
      (h10 xs.length 2 30 _ (by omega)) rfl (createBitmap_replicate _).symm hn
    exact ⟨_, it, rfl, rfl, i1, by rw [i2]; simp [decodedField, kind]⟩
  | differenced second xs =>
    have h6 : field (sectBytes 6 (Packing.differenced second xs).sect6) 0 6 6 = 255 := by
      rw [sectBytes_field 6 _ (by omega)]; rfl
    simp only [h6, show (255 : Nat) ≠ 0 by decide, if_false, if_true]
    simp only [Packing.numbers] at hn
    obtain ⟨it, i1, i2⟩ := differenced_decoded c ⟨m.points, field (sectBytes 5 ((Packing.differenced second xs).sect5 s)) 0 6 9,
      field (sectBytes 5 ((Packing.differenced second xs).sect5 s)) 0 10 11, (Packing.differenced second xs).sect5 s,
      List.replicate ((m.points + 7) / 8) 0xff, (Packing.differenced second xs).sect7⟩ s hs second xs hk rfl
      (h10 xs.length 3 30 _ (by omega)) rfl (createBitmap_replicate _).symm hn
    exact ⟨_, it, rfl, rfl, i1, by rw [i2]; simp [decodedField, kind]⟩
  | levels n table xs =>
    have h6 : field (sectBytes 6 (Packing.levels n table xs).sect6) 0 6 6 = 255 := by
      rw [sectBytes_field 6 _ (by omega)]; rfl
    simp only [h6, show (255 : Nat) ≠ 0 by decide, if_false, if_true]
    simp only [Packing.numbers, List.length_map] at hn
    have hfits := hf.fits
    obtain ⟨-, -, hd⟩ := hfits
    have hl : xs.length < 2 ^ 32 := by rw [hn]; exact hm.points
    obtain ⟨it, i1, i2⟩ := levels_decoded c ⟨m.points, field (sectBytes 5 ((Packing.levels n table xs).sect5 s)) 0 6 9,
      field (sectBytes 5 ((Packing.levels n table xs).sect5 s)) 0 10 11, (Packing.levels n table xs).sect5 s,
      List.replicate ((m.points + 7) / 8) 0xff, (Packing.levels n table xs).sect7⟩ s hd n table xs hk rfl
      (by rw [sectBytes_field 5 _ (by omega)]; exact (show _ = be (beBytes 2 200) from rfl).trans (be_beBytes 2 200 (by decide)))
      (by rw [sectBytes_field 5 _ (by omega)]; exact (show _ = be (beBytes 4 xs.length) from rfl).trans (be_beBytes 4 _ hl)) rfl
      (createBitmap_replicate _).symm hn hl
    exact ⟨_, it, rfl, rfl, i1, by rw [i2]; simp [decodedField, kind]⟩

theorem flatMap_beBytes_length (n : Nat) (xs : List Nat) : (xs.flatMap (beBytes n)).length = n * xs.length := by
  induction xs with
  | nil => rfl
  | cons x xs ih => rw [List.flatMap_cons, List.length_append, ih, beBytes_length, List.length_cons, Nat.mul_succ]; omega

theorem sect5_length (s : Scaling) (p : Packing) (h : p.Ok) : 12 ≤ (p.sect5 s).length ∧ (p.sect5 s).length ≤ 100000 := by
  cases p with
  | levels n table xs =>
    obtain ⟨-, p2, p3, -⟩ := h
    have h2 : 2 ^ n ≤ 2 ^ 15 := Nat.pow_le_pow_right (by decide) p2
    simp only [Packing.sect5, List.length_append, List.length_cons, beBytes_length, flatMap_beBytes_length]
    omega
  | _ => simp [Packing.sect5, Packing.common_length, Packing.oneByOne_length]

theorem sect6_length (p : Packing) : 1 ≤ p.sect6.length ∧ p.sect6.length ≤ p.numbers.length + 8 := by
  cases p <;> simp [Packing.sect6, Packing.numbers]
  omega

theorem raw_ok (m : FieldMessage) (h : m.Ok) : m.raw.Ok := by
  have hg : ∀ g ∈ m.raw.groups, ∃ f ∈ m.fields, ∃ grid, g = f.group grid ∧ (grid = none ∨ grid = some (gridPayload m)) := by
    intro g hg
    simp only [RawMessage.groups, FieldMessage.raw, List.mem_cons, List.mem_map] at hg
    rcases hg with rfl | ⟨f, hf, rfl⟩
    · exact ⟨m.first, by simp [FieldMessage.fields], _, rfl, .inr rfl⟩
    · exact ⟨f, by simp [FieldMessage.fields, hf], none, rfl, .inl rfl⟩
  refine ⟨?_, ?_, rfl⟩
  · intro x hx
    simp only [RawMessage.raw, List.mem_cons, List.mem_flatMap] at hx
    rcases hx with rfl | ⟨g, hgm, hx⟩
    · exact h.ident
    · obtain ⟨f, hf, grid, rfl, hgrid⟩ := hg g hgm
      have hok := h.fields f hf
      have h5 := sect5_length f.scaling f.packing hok.packing
      have h6 := sect6_length f.packing
      have hp := h.points
      have hn := hok.points
      simp only [rawGroup, Field.group, Option.map_none, Option.toList_none, List.nil_append, List.mem_append,
        List.mem_cons, List.not_mem_nil, or_false] at hx
      rcases hx with hx | rfl | rfl | rfl | rfl
      · rcases hgrid with rfl | rfl
        · simp at hx
        · simp only [Option.map_some, Option.toList_some, List.mem_singleton] at hx
          subst hx
          have := h.grid
          simp only [RawOk, minPayload, gridPayload, List.length_cons, List.length_append, beBytes_length]
          omega
      · exact hok.product
      · simp only [RawOk, minPayload]; omega
      · refine ⟨h6.1, ?_⟩
        show f.packing.sect6.length + 5 < 2 ^ 32
        revert h6 hn
        cases f.packing <;> simp only [Packing.sect6, Packing.numbers, List.length_cons, List.length_nil, packOctets_length, List.length_map] <;> omega
      · exact ⟨Nat.zero_le _, hok.size⟩
  · intro g hgm hl
    obtain ⟨f, hf, grid, rfl, hgrid⟩ := hg g hgm
    simp [Field.group] at hl

/-- The octets of the sections of a field. -/
def fieldSects (dummy : List UInt8) (m : FieldMessage) (k : Nat) (f : Field) : Nine (List UInt8) :=
  ⟨m.raw.head, sectBytes 1 m.ident, none, sectBytes 3 (gridPayload m), sectBytes 4 f.product,
    sectBytes 5 (f.packing.sect5 f.scaling), sectBytes 6 f.packing.sect6, sectBytes 7 f.packing.sect7,
    if k + 1 = m.fields.length then [0x37, 0x37, 0x37, 0x37] else dummy⟩

theorem message_subs (dummy d : List UInt8) (msg : Nat) (m : FieldMessage) :
    (m.raw.octets).subs dummy d msg = m.fields.zipIdx.map fun x => ⟨msg, x.2, fieldSects dummy m x.2 x.1⟩ := by
  have hlen : m.raw.octets.groups.length = m.fields.length := by
    simp [Message.groups, RawMessage.octets, FieldMessage.raw, FieldMessage.fields]
  have hgroups : m.raw.octets.groups = (m.first.group (some (gridPayload m))).octets ::
      m.rest.map fun f => (f.group none).octets := by
    simp [Message.groups, RawMessage.octets, FieldMessage.raw, gridPayload]
  unfold Message.subs
  apply List.ext_getElem
  · simp [hlen]
  · intro k h1 h2
    simp only [List.length_map, List.length_range, hlen] at h1
    simp only [List.getElem_map, List.getElem_range, List.getElem_zipIdx, Nat.zero_add]
    have hnone : ∀ fs : List Field, (fs.map fun f => ((f.group none).octets).grid).filterMap id = [] := by
      intro fs; induction fs with
      | nil => rfl
      | cons f fs ih => simp only [List.map_cons, List.filterMap_cons, ih]; rfl
    have hnone2 : ∀ fs : List Field, (fs.map fun f => ((f.group none).octets).loc).filterMap id = [] := by
      intro fs; induction fs with
      | nil => rfl
      | cons f fs ih => simp only [List.map_cons, List.filterMap_cons, ih]; rfl
    have hgrid : mostRecent ((m.raw.octets.groups.take (k + 1)).map Group.grid) = some (sectBytes 3 (gridPayload m)) := by
      rw [hgroups, List.take_succ_cons, List.map_cons, ← List.map_take, List.map_map]
      unfold mostRecent
      have := hnone (m.rest.take k)
      rw [List.filterMap_cons]
      simp only [id_eq]
      rw [show (Group.grid ∘ fun f : Field => (f.group none).octets) = fun f => ((f.group none).octets).grid from rfl, this]
      rfl
    have hloc : mostRecent ((m.raw.octets.groups.take (k + 1)).map Group.loc) = none := by
      rw [hgroups, List.take_succ_cons, List.map_cons, ← List.map_take, List.map_map]
      unfold mostRecent
      have := hnone2 (m.rest.take k)
      rw [List.filterMap_cons]
      simp only [id_eq]
      rw [show (Group.loc ∘ fun f : Field => (f.group none).octets) = fun f => ((f.group none).octets).loc from rfl, this]
      rfl
    have hk : ∃ grid, m.raw.octets.groups.getD k m.raw.octets.first = ((m.fields[k]'h1).group grid).octets := by
      rw [List.getD_eq_getElem?_getD, hgroups]
      cases k with
      | zero => exact ⟨_, rfl⟩
      | succ k =>
        refine ⟨none, ?_⟩
        have h3 : k < m.rest.length := by simpa [FieldMessage.fields] using h1
        rw [List.getElem?_cons_succ, List.getElem?_map, List.getElem?_eq_getElem h3]
        rfl
    obtain ⟨grid, hk⟩ := hk
    rw [hgrid, hloc, hk, hlen]
    rfl

theorem fileSubs_fields (dummy d : List UInt8) (start : Nat) (ms : List FieldMessage) :
    fileSubs dummy d start (ms.map fun m => m.raw.octets) =
      (numberedFields start ms).map fun x => ⟨x.1, x.2.1, fieldSects dummy x.2.2.1 x.2.1 x.2.2.2⟩ := by
  induction ms generalizing start with
  | nil => rfl
  | cons m ms ih =>
    rw [List.map_cons, fileSubs, ih, message_subs, numberedFields, List.map_append, List.map_map]
    rfl

/-- C81. For every file of fields: it opens; the submessages listed are the fields, in order, each under the number of its
message and its number in the message; the octets of its sections 1, 3 and 4 are those written; and decoding it, with the
reader in any state, gives the numbers that were packed, put through the formula, with NaN where there was no number
(followed by NaN for the padding of a bitmap, see C22). -/
theorem C81_written_fields (c : Codecs F) (l : List (List UInt8 × FieldMessage)) (hl : ∀ x ∈ l, NoMagic x.1 ∧ x.2.Ok)
    (trailing : List UInt8) (ht : ∀ q, ¬ MagicAt trailing q) (hlen : (writeFields l).length < 2 ^ 64)
    (evs : List IoEv) (hev : Benign evs) :
    ∃ g : Grib2, Grib2.read ⟨writeFields l ++ trailing, 0, evs⟩ = .ok g ∧
      (SubIter.drain (g.len + 1) g.iter).length = (numberedFields 0 (l.map (·.2))).length ∧
      ∀ (k : Nat) (x : (Nat × Nat) × SubMessage) (i j : Nat) (m : FieldMessage) (f : Field),
        (SubIter.drain (g.len + 1) g.iter)[k]? = some x → (numberedFields 0 (l.map (·.2)))[k]? = some (i, j, m, f) →
        x.1 = (i, j) ∧
        octetsAt (writeFields l ++ trailing) x.2.s1.2 = sectBytes 1 m.ident ∧
        octetsAt (writeFields l ++ trailing) x.2.s3.2 = sectBytes 3 (m.source :: (beBytes 4 m.points ++ m.grid)) ∧
        octetsAt (writeFields l ++ trailing) x.2.s4.2 = sectBytes 4 f.product ∧
        ∀ r : Rdr, r.data = writeFields l ++ trailing → IoEv.fail ∉ r.evs →
          ∃ d it, (Decoder.fromSub x.2 r).1 = .ok d ∧ d.numPointsTotal = m.points ∧ d.dispatch c = .ok it ∧
            it.toList c.ops = .done (decodedField c.ops f) := by
  obtain ⟨g, dummy, h1, h2, h3⟩ := C49_written_file (l.map fun x : List UInt8 × FieldMessage => (x.1, x.2.raw)) (by
      intro x hx
      simp only [List.mem_map] at hx
      obtain ⟨y, hy, rfl⟩ := hx
      exact ⟨(hl y hy).1, raw_ok y.2 (hl y hy).2⟩) trailing ht hlen evs hev
  have e : ((l.map fun x => (x.1, x.2.raw)).map (·.2.octets)) = (l.map (·.2)).map fun m => m.raw.octets := by
    rw [List.map_map, List.map_map]; rfl
  rw [e, fileSubs_fields] at h2
  refine ⟨g, h1, by simpa using congrArg List.length h2, ?_⟩
  intro k x i j m f hx hf
  have hk := congrArg (fun z => z[k]?) h2
  simp only [List.getElem?_map, hx, hf, Option.map_some, Option.some.injEq] at hk
  rw [Submsg.mk.injEq] at hk
  obtain ⟨k1, k2, k3⟩ := hk
  have hmem : ∃ y ∈ l, y.2 = m ∧ f ∈ m.fields := by
    have := List.mem_of_getElem? hf
    have key : ∀ (ms : List FieldMessage) (start : Nat), (i, j, m, f) ∈ numberedFields start ms → m ∈ ms ∧ f ∈ m.fields := by
      intro ms
      induction ms with
      | nil => intro start h; simp [numberedFields] at h
      | cons a ms ih =>
        intro start h
        simp only [numberedFields, List.mem_append, List.mem_map, Prod.mk.injEq] at h
        rcases h with ⟨y, hy, -, -, rfl, rfl⟩ | h
        · exact ⟨by simp, List.fst_mem_of_mem_zipIdx hy⟩
        · exact ⟨List.mem_cons_of_mem _ (ih _ h).1, (ih _ h).2⟩
    obtain ⟨a, b⟩ := key _ _ this
    simp only [List.mem_map] at a
    obtain ⟨y, hy, rfl⟩ := a
    exact ⟨y, hy, rfl, b⟩
  obtain ⟨y, hy, rfl, hfm⟩ := hmem
  have hok := (hl y hy).2
  refine ⟨Prod.ext k1 k2, ?_, ?_, ?_, ?_⟩
  · exact congrArg Nine.s1 k3
  · exact congrArg Nine.s3 k3
  · exact congrArg Nine.s4 k3
  · intro r hr hb
    obtain ⟨d, it, d1, d2, d3, d4⟩ := field_decoded c y.2 hok f (hok.fields f hfm)
    refine ⟨d, it, ?_, d2, d3, d4⟩
    have := h3 x (List.mem_of_getElem? hx) r hr hb
    simp only at this
    rw [this]
    show decoderOf (Nine.s3 _) (Nine.s5 _) (Nine.s6 _) (Nine.s7 _) = _
    rw [show Nine.map (octetsAt (messagesBytes (l.map fun x => (x.1, x.2.raw)) ++ trailing) ∘ Prod.snd) x.2 = _ from k3]
    exact d1

theorem decodedAt_exact (s : Scaling) (r : Rat) (hr : f32Value s.r = some r) (k : Kind) (hk : k = .table → s.r = 0 ∧ s.e = 0)
    (x : Option Int) : decodedAt FloatOps.exact s k x = x.map (unpacked r s.e s.d) := by
  cases x with
  | some x =>
    have key : scaledWith FloatOps.exact s (FloatOps.exact.ofInt x) = some (unpacked r s.e s.d x) := by
      refine Eq.trans ?_ (unpack_exact ⟨some r, s.e, s.d, 0⟩ rfl x)
      rw [← hr]; rfl
    cases k with
    | plain => exact key
    | masked => exact key
    | table =>
      obtain ⟨h1, h2⟩ := hk rfl
      have h0 : f32Value 0 = some 0 := by decide +kernel
      rw [h1, h0] at hr
      cases hr
      rw [Option.map_some, ← key]
      unfold decodedAt scaledWith FloatOps.exact
      rw [h1, h2]
      simp only [h0]
      simp [Rat.zero_add]
      rw [show ratPowi 2 0 = 1 by decide +kernel, Rat.mul_one]
  | none =>
    unfold decodedAt
    cases k
    · simp only [scaledWith, FloatOps.exact]
      cases f32Value s.r <;> rfl
    · rfl
    · rfl

/-- C81. In exact arithmetic: the values at the grid points are exactly those of the field, in order; without a bitmap
nothing follows them. -/
theorem C81_exact (c : Codecs (Option Rat)) (hc : c.ops = FloatOps.exact) (l : List (List UInt8 × FieldMessage))
    (hl : ∀ x ∈ l, NoMagic x.1 ∧ x.2.Ok) (trailing : List UInt8) (ht : ∀ q, ¬ MagicAt trailing q)
    (hlen : (writeFields l).length < 2 ^ 64) (evs : List IoEv) (hev : Benign evs) :
    ∃ g : Grib2, Grib2.read ⟨writeFields l ++ trailing, 0, evs⟩ = .ok g ∧
      (SubIter.drain (g.len + 1) g.iter).length = (numberedFields 0 (l.map (·.2))).length ∧
      ∀ (k : Nat) (x : (Nat × Nat) × SubMessage) (i j : Nat) (m : FieldMessage) (f : Field) (ref : Rat),
        (SubIter.drain (g.len + 1) g.iter)[k]? = some x → (numberedFields 0 (l.map (·.2)))[k]? = some (i, j, m, f) →
        f32Value f.scaling.r = some ref → x.1 = (i, j) ∧
        ∀ r : Rdr, r.data = writeFields l ++ trailing → IoEv.fail ∉ r.evs →
          ∃ d it out, (Decoder.fromSub x.2 r).1 = .ok d ∧ d.dispatch c = .ok it ∧ it.toList c.ops = .done out ∧
            out.take m.points = f.values ref ∧ ((∀ n xs, f.packing ≠ .masked n xs) → out = f.values ref) := by
  obtain ⟨g, h1, h2, h3⟩ := C81_written_fields c l hl trailing ht hlen evs hev
  refine ⟨g, h1, h2, ?_⟩
  intro k x i j m f ref hx hf href
  obtain ⟨k1, -, -, -, k5⟩ := h3 k x i j m f hx hf
  refine ⟨k1, ?_⟩
  intro r hr hb
  obtain ⟨d, it, d1, d2, d3, d4⟩ := k5 r hr hb
  have hfok : f.Ok m.points := by
    have key : ∀ (ms : List FieldMessage) (start : Nat), (∀ m ∈ ms, m.Ok) → (i, j, m, f) ∈ numberedFields start ms →
        f.Ok m.points := by
      intro ms
      induction ms with
      | nil => intro start _ h; simp [numberedFields] at h
      | cons a ms ih =>
        intro start hok h
        simp only [numberedFields, List.mem_append, List.mem_map, Prod.mk.injEq] at h
        rcases h with ⟨y, hy, -, -, rfl, rfl⟩ | h
        · exact (hok _ (by simp)).fields _ (List.fst_mem_of_mem_zipIdx hy)
        · exact ih _ (fun m hm => hok m (by simp [hm])) h
    exact key _ _ (by
      intro m hm
      simp only [List.mem_map] at hm
      obtain ⟨y, hy, rfl⟩ := hm
      exact (hl y hy).2) (List.mem_of_getElem? hf)
  have hn : (f.values ref).length = m.points := by simpa [Field.values] using hfok.points
  have hv : f.packing.numbers.map (decodedAt c.ops f.scaling (kind f.packing)) = f.values ref := by
    rw [hc]
    apply List.map_congr_left
    intro x _
    refine decodedAt_exact f.scaling ref href _ ?_ x
    intro hk
    have hfit := hfok.fits
    unfold Field.scalingFits at hfit
    cases hq : f.packing with
    | levels n table xs => rw [hq] at hfit; exact ⟨hfit.1, hfit.2.1⟩
    | _ => rw [hq] at hk; cases hk
  refine ⟨d, it, _, d1, d3, d4, ?_, ?_⟩
  · unfold decodedField
    rw [hv, List.take_append_of_le_length (by omega), List.take_of_length_le (by omega)]
  · intro hm
    have : kind f.packing ≠ .masked := by
      cases hq : f.packing with
      | masked n xs => exact absurd hq (hm n xs)
      | _ => intro h; cases h
    unfold decodedField
    rw [hv, if_neg this]
    simp

/-- A sequence of numbers as a field, and the field as a message. -/
def soleField (xs : List (Option Int)) (s : Scaling) : Field := ⟨[0, 0, 0, 0], s, .differenced false xs⟩

def soleMessage (xs : List (Option Int)) (s : Scaling) : FieldMessage :=
  ⟨0, List.replicate 16 0, 0, xs.length, [0, 0, 0, 0], soleField xs s, []⟩

theorem sole_ok (xs : List (Option Int)) (hne : xs ≠ []) (hlen : xs.length ≤ 100000000)
    (hx : ∀ x, some x ∈ xs → x.natAbs < 2 ^ 28) (s : Scaling) (hs : s.Ok) :
    (soleMessage xs s).Ok ∧ (writeFields [([], soleMessage xs s)]).length < 2 ^ 64 := by
  have h7 : (Packing.differenced false xs).sect7.length = 8 + (30 * xs.length + 7) / 8 := by
    show (signOctets 4 _ ++ (signOctets 4 _ ++ packInts 30 _)).length = _
    simp only [signOctets, packInts, List.length_append, beBytes_length, packOctets_length, flatMap_toBits_length,
      List.length_map, differences1_length]
    omega
  have h5 := sect5_length s (Packing.differenced false xs) ⟨hne, hlen, hx⟩
  have h6 : (Packing.differenced false xs).sect6.length = 1 := rfl
  refine ⟨⟨⟨by simp [soleMessage], by simp [soleMessage]⟩, ⟨by simp [soleMessage], by simp [soleMessage]⟩, ?_, ?_⟩, ?_⟩
  · show xs.length < 2 ^ 32; omega
  · intro f' hf'
    have : f' = soleField xs s := by simpa [FieldMessage.fields, soleMessage] using hf'
    subst this
    refine ⟨⟨by simp [soleField], by simp [soleField]⟩, hs, trivial, ⟨hne, hlen, hx⟩, rfl, ?_⟩
    show (Packing.differenced false xs).sect7.length + 5 < 2 ^ 32
    omega
  · simp only [writeFields, messagesBytes, List.map_cons, List.map_nil, List.flatMap_cons, List.flatMap_nil, List.append_nil,
      List.nil_append]
    rw [bytes_length]
    simp only [RawMessage.total, RawMessage.raw, RawMessage.groups, FieldMessage.raw, soleMessage, soleField, List.map_nil,
      List.flatMap_cons,
      List.flatMap_nil, rawGroup, Field.group, rawBytes, Option.map_none, Option.map_some, Option.toList_none,
      Option.toList_some, List.nil_append, List.cons_append, List.append_nil, List.length_append, sectBytes_length, List.length_cons,
      List.length_nil, List.length_replicate, beBytes_length, h6, h7]
    omega

/-- C81. In particular: for every non-empty sequence of up to 10^8 numbers of less than 29 bits with signs, some of them
missing, and every scaling with a finite reference value, there are octets that open as a file with exactly one
submessage, which decodes to exactly that sequence. -/
theorem C81_every_sequence (c : Codecs (Option Rat)) (hc : c.ops = FloatOps.exact) (xs : List (Option Int)) (hne : xs ≠ [])
    (hlen : xs.length ≤ 100000000) (hx : ∀ x, some x ∈ xs → x.natAbs < 2 ^ 28) (s : Scaling) (hs : s.Ok) (ref : Rat)
    (href : f32Value s.r = some ref) :
    ∃ data : List UInt8, ∀ evs, Benign evs → ∃ (g : Grib2) (m : SubMessage), Grib2.read ⟨data, 0, evs⟩ = .ok g ∧
      SubIter.drain (g.len + 1) g.iter = [((0, 0), m)] ∧
      ∀ r : Rdr, r.data = data → IoEv.fail ∉ r.evs → ∃ d it, (Decoder.fromSub m r).1 = .ok d ∧ d.dispatch c = .ok it ∧
        it.toList c.ops = .done (xs.map (Option.map (unpacked ref s.e s.d))) := by
  obtain ⟨hm, htot⟩ := sole_ok xs hne hlen hx s hs
  refine ⟨writeFields [([], soleMessage xs s)] ++ [], ?_⟩
  intro evs hev
  obtain ⟨g, h1, h2, h3⟩ := C81_exact c hc [([], soleMessage xs s)] (by
      intro x hx
      simp only [List.mem_singleton] at hx
      subst hx
      exact ⟨noMagic_of_short (by simp), hm⟩) [] (by intro q h; simp [MagicAt] at h) htot evs hev
  have h2' : (SubIter.drain (g.len + 1) g.iter).length = 1 := h2
  obtain ⟨x, hd⟩ := List.length_eq_one_iff.mp h2'
  obtain ⟨k1, k2⟩ := h3 0 x 0 0 (soleMessage xs s) (soleField xs s) ref (by rw [hd]; rfl) rfl href
  refine ⟨g, x.2, h1, ?_, ?_⟩
  · rw [hd, ← k1]
  · intro r hr hb
    obtain ⟨d, it, out, d1, d2, d3, -, d5⟩ := k2 r hr hb
    refine ⟨d, it, d1, d2, ?_⟩
    rw [d3, d5 (by intro n xs h; cases h)]
    rfl

/-! ## A concrete file -/

/-- `R = 1.5`, `E = -2`, `D = 1`. -/
def sampleScaling : Scaling := ⟨0x3fc00000, -2, 1⟩

/-- Two messages: three fields of nine points, packed in three ways; and two of two points. -/
def sampleFields : List (List UInt8 × FieldMessage) :=
  [([1, 2], ⟨0, List.replicate 16 7, 0, 9, [0, 0, 0, 1],
      ⟨[0, 0, 0, 0], sampleScaling, .simple 2 [1, 2, 3, 500, 65535, 0, 7, 8, 9]⟩,
      [⟨[0, 0, 0, 0, 5], sampleScaling, .masked 5 [some 1, none, some 31, none, some 4, some 5, some 6, some 7, some 8]⟩,
       ⟨[0, 0, 0, 0], sampleScaling, .differenced true [none, some 5, some (-7), none, some 100000, some 3, some 3, none, some 0]⟩]⟩),
   ([], ⟨2, List.replicate 16 7, 0, 2, [0, 0, 0, 1],
      ⟨[0, 0, 0, 0], ⟨0, 0, 0⟩, .grouped [some 1073741822, none]⟩,
      [⟨[0, 0, 0, 0], ⟨0, 0, 1⟩, .levels 9 [5, 250] [none, some 1]⟩]⟩)]

instance (p : Packing) : Decidable p.Ok := by
  cases p with
  | simple n xs => unfold Packing.Ok; infer_instance
  | masked n xs =>
    exact decidable_of_iff (1 ≤ n ∧ n ≤ 32 ∧ ∀ x ∈ xs, ∀ y ∈ x, y < 2 ^ n)
      ⟨fun h => ⟨h.1, h.2.1, fun x hx => h.2.2 _ hx x rfl⟩, fun h => ⟨h.1, h.2.1, fun x hx y hy => h.2.2 y (by cases hy; exact hx)⟩⟩
  | grouped xs =>
    exact decidable_of_iff (xs ≠ [] ∧ xs.length ≤ 100000000 ∧ ∀ x ∈ xs, ∀ y ∈ x, y < 2 ^ 30 - 1)
      ⟨fun h => ⟨h.1, h.2.1, fun x hx => h.2.2 _ hx x rfl⟩, fun h => ⟨h.1, h.2.1, fun x hx y hy => h.2.2 y (by cases hy; exact hx)⟩⟩
  | differenced b xs =>
    cases b
    · exact decidable_of_iff (xs ≠ [] ∧ xs.length ≤ 100000000 ∧ ∀ x ∈ xs, ∀ y ∈ x, y.natAbs < 2 ^ 28)
        ⟨fun h => ⟨h.1, h.2.1, fun x hx => h.2.2 _ hx x rfl⟩, fun h => ⟨h.1, h.2.1, fun x hx y hy => h.2.2 y (by cases hy; exact hx)⟩⟩
    · exact decidable_of_iff (xs ≠ [] ∧ xs.length ≤ 100000000 ∧ ∀ x ∈ xs, ∀ y ∈ x, y.natAbs < 2 ^ 27)
        ⟨fun h => ⟨h.1, h.2.1, fun x hx => h.2.2 _ hx x rfl⟩, fun h => ⟨h.1, h.2.1, fun x hx y hy => h.2.2 y (by cases hy; exact hx)⟩⟩
  | levels n table xs =>
    exact decidable_of_iff (8 ≤ n ∧ n ≤ 15 ∧ table.length + 1 < 2 ^ n ∧ (∀ x ∈ table, x < 2 ^ 16) ∧
        ∀ x ∈ xs, ∀ i ∈ x, i < table.length)
      ⟨fun h => ⟨h.1, h.2.1, h.2.2.1, h.2.2.2.1, fun i hi => h.2.2.2.2 _ hi i rfl⟩,
        fun h => ⟨h.1, h.2.1, h.2.2.1, h.2.2.2.1, fun x hx i hi => h.2.2.2.2 i (by cases hi; exact hx)⟩⟩

instance (f : Field) : Decidable f.scalingFits := by
  unfold Field.scalingFits
  split <;> infer_instance

theorem sampleFields_ok : ∀ x ∈ sampleFields, NoMagic x.1 ∧ x.2.Ok := by
  have h : ∀ x ∈ sampleFields, x.1.length < 4 ∧ (16 ≤ x.2.ident.length ∧ x.2.ident.length + 5 < 2 ^ 32) ∧
      (4 ≤ x.2.grid.length ∧ x.2.grid.length + 10 < 2 ^ 32) ∧ x.2.points < 2 ^ 32 ∧
      ∀ f ∈ x.2.fields, (4 ≤ f.product.length ∧ f.product.length + 5 < 2 ^ 32) ∧
        (f.scaling.r < 2 ^ 32 ∧ f.scaling.e.natAbs < 2 ^ 15 ∧ f.scaling.d.natAbs < 2 ^ 15) ∧ f.scalingFits ∧ f.packing.Ok ∧
        f.packing.numbers.length = x.2.points ∧ f.packing.sect7.length + 5 < 2 ^ 32 := by decide +kernel
  intro x hx
  obtain ⟨a, b, c, d, e⟩ := h x hx
  refine ⟨noMagic_of_short a, b, c, d, ?_⟩
  intro f hf
  obtain ⟨p, q, v, r, s, t⟩ := e f hf
  exact ⟨p, ⟨q.1, q.2.1, q.2.2⟩, v, r, s, t⟩

example : ∃ g : Grib2, Grib2.read ⟨writeFields sampleFields, 0, []⟩ = .ok g ∧
    decodeAt exactCodecs g [2, 0, 4, 3, 1] =
      [.ok (.done [none, some (11 / 40), some (-1 / 40), none, some (50003 / 20), some (9 / 40), some (9 / 40), none, some (3 / 20)]),
       .ok (.done [some (7 / 40), some (1 / 5), some (9 / 40), some (253 / 20), some (65541 / 40), some (3 / 20), some (13 / 40),
         some (7 / 20), some (3 / 8)]),
       .ok (.done [none, some 25]),
       .ok (.done [some 1073741822, none]),
       .ok (.done ([some (7 / 40), none, some (37 / 40), none, some (1 / 4), some (11 / 40), some (3 / 10), some (13 / 40),
         some (7 / 20)] ++ List.replicate 7 none))] :=
  Outcome.exists_of_ok? (f := fun g : Grib2 => decodeAt exactCodecs g [2, 0, 4, 3, 1]) (by decide +kernel)

/-- `C81_exact` says the same about the second field of the first message. -/
example : ∃ g : Grib2, Grib2.read ⟨writeFields sampleFields, 0, []⟩ = .ok g ∧
    (SubIter.drain (g.len + 1) g.iter).length = 5 := by
  obtain ⟨g, h1, h2, -⟩ := C81_exact exactCodecs rfl sampleFields sampleFields_ok [] (by intro q h; simp [MagicAt] at h)
    (by decide +kernel) [] (by simp [Benign])
  rw [List.append_nil] at h1
  exact ⟨g, h1, h2⟩

/-- And `C81_every_sequence` about a sequence. -/
example : ∃ data : List UInt8, ∃ (g : Grib2) (m : SubMessage), Grib2.read ⟨data, 0, []⟩ = .ok g ∧
    SubIter.drain (g.len + 1) g.iter = [((0, 0), m)] ∧ ∃ d it, (Decoder.fromSub m ⟨data, 0, []⟩).1 = .ok d ∧
      d.dispatch exactCodecs = .ok it ∧ it.toList exactCodecs.ops = .done [some (-17), none, some 4] := by
  obtain ⟨data, h⟩ := C81_every_sequence exactCodecs rfl [some (-17), none, some 4] (by decide) (by decide)
    (by
      intro x hx
      simp only [List.mem_cons, Option.some.injEq, reduceCtorEq, List.not_mem_nil, or_false, false_or] at hx
      rcases hx with rfl | rfl <;> decide) ⟨0, 0, 0⟩ ⟨by decide, by decide, by decide⟩ 0 (by decide +kernel)
  obtain ⟨g, m, h1, h2, h3⟩ := h [] (by simp [Benign])
  obtain ⟨d, it, d1, d2, d3⟩ := h3 ⟨data, 0, []⟩ rfl (by simp)
  exact ⟨data, g, m, h1, h2, d, it, d1, d2, d3.trans (by decide +kernel)⟩

end Grib.Props
