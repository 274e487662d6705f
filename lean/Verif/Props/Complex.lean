import Verif.Lemmas.Complex
import Verif.Props.Simple

/-! # C27-C30: complex packing, spatial differencing, dispatch -/

namespace Grib.Props

open Grib.Model Grib.Spec

variable {F : Type}

/-- The fields of templates 5.2 and 5.3, by octet number. -/
def complexTemplate (sect5 : List UInt8) : ComplexParam where
  splitting := sectNumber sect5 22 22
  missing := sectNumber sect5 23 23
  ngroup := sectNumber sect5 32 35
  widthRef := sectNumber sect5 36 36
  widthNbit := sectNumber sect5 37 37
  lenRef := sectNumber sect5 38 41
  lenInc := sectNumber sect5 42 42
  lenLast := sectNumber sect5 43 46
  lenNbit := sectNumber sect5 47 47

/-- The number of spatial differencing descriptors is one more than the order (octet 48); each has this many octets (49). -/
def diffOrder (sect5 : List UInt8) : Nat := sectNumber sect5 48 48
def diffOctets (sect5 : List UInt8) : Nat := sectNumber sect5 49 49

/-- Template 7.2: the groups start at the first octet of the data. -/
def layout2 (t : Decoder) : Layout := ⟨complexTemplate t.sect5, bitsPerValue t.sect5, 0, t.sect7⟩

/-- Template 7.3: the groups start after the descriptors. -/
def layout3 (t : Decoder) : Layout :=
  ⟨complexTemplate t.sect5, bitsPerValue t.sect5, (diffOrder t.sect5 + 1) * diffOctets t.sect5, t.sect7⟩

/-- The formula `(R + X·2^E)·10^-D` for a decoded value; missing is NaN. -/
def pointValue (ops : FloatOps F) (sect5 : List UInt8) (v : DecodedValue) : F :=
  let x := match v with
    | .normal x => ops.ofInt x
    | .missing1 => ops.nan
    | .missing2 => ops.nan
  ops.mul (ops.add (ops.ofBits (sectNumber sect5 12 15)) (ops.mul x (ops.powi (ops.ofInt 2) (sectSigned sect5 16 17))))
    (ops.powi (ops.ofInt 10) (-sectSigned sect5 18 19))

/-- What templates 5.2 and 5.3 must say to be decoded: floating-point field, general splitting, missing-value management
0, 1 or 2. -/
structure ComplexOk (sect5 : List UInt8) : Prop where
  length : 42 ≤ sect5.length
  type : sectNumber sect5 21 21 = 0
  splitting : sectNumber sect5 22 22 = 1
  missing : sectNumber sect5 23 23 ≤ 2

theorem unpackAll_decoded (ops : FloatOps F) (sect5 : List UInt8) (nbit : Nat) (xs : List DecodedValue) :
    (SimpleParam.mk (ops.ofBits (sectNumber sect5 12 15)) (sectSigned sect5 16 17) (sectSigned sect5 18 19) nbit).unpackAll ops
      (DecodedValue.toF32 ops) (xs.map .ok) = xs.map fun v => .ok (pointValue ops sect5 v) := by
  unfold SimpleParam.unpackAll
  rw [List.map_map]
  apply List.map_congr_left
  intro v _
  cases v <;> rfl

/-- C27. Template 5.2, 7.2 with consistent sizes: the decoded values are those of the layout, in order, each put through
the standard formula: group by group, value `k` of group `g` being the group's reference plus the integer in its own
`width` bits at bit `groupAt g + k·width`. -/
theorem C27_values (ops : FloatOps F) (t : Decoder) (h5 : ComplexOk t.sect5) (hc : (layout2 t).Consistent 0) :
    complexDecode2 ops t = .ok (((layout2 t).values 0).map fun v => .ok (pointValue ops t.sect5 v)) := by
  have := h5.length
  unfold complexDecode2
  rw [fromSect5_eq ops (by omega), if_neg (by simpa using h5.type), Outcome.bind_ok, complexParam_eq h5.length, Outcome.bind_ok]
  simp only
  rw [if_neg (by have := h5.splitting; have := h5.missing; omega)]
  have := decodeComplexPacking_eq (ε := GribError) (layout2 t) 0 hc
  unfold layout2 complexTemplate bitsPerValue at this
  simp only at this
  rw [this, Outcome.bind_ok]
  congr 1
  exact unpackAll_decoded ops t.sect5 _ _

/-- C27. Where the values are: value `k` of group `g` is at position (sum of the lengths of the groups before) + `k`. -/
theorem C27_position (l : Layout) (zMin : Int) (g k : Nat) (hg : g < l.p.ngroup) (hk : k < l.len g) :
    (l.values zMin)[((List.range g).map l.len).sum + k]? = some (l.value zMin g k) := by
  unfold Layout.values
  generalize hn : l.p.ngroup = n at hg
  clear hn
  induction n with
  | zero => omega
  | succ n ih =>
    rw [List.range_succ, List.flatMap_append]
    have hlen : ∀ m, ((List.range m).flatMap fun g => (List.range (l.len g)).map fun k => l.value zMin g k).length =
        ((List.range m).map l.len).sum := by
      intro m
      rw [List.length_flatMap]
      simp
    by_cases h : g = n
    · subst h
      rw [List.getElem?_append_right (by rw [hlen]; omega), hlen, Nat.add_sub_cancel_left]
      simp [List.getElem?_range hk]
    · have hmono : ((List.range g).map l.len).sum + l.len g ≤ ((List.range n).map l.len).sum := by
        have : ∀ m, ((List.range (g + 1)).map l.len).sum ≤ ((List.range (g + 1 + m)).map l.len).sum := by
          intro m
          induction m with
          | zero => exact Nat.le_refl _
          | succ m ih => 
            rw [← Nat.add_assoc, List.range_succ (n := g + 1 + m), List.map_append, List.sum_append_nat]; omega
        have := this (n - (g + 1))
        rw [show g + 1 + (n - (g + 1)) = n by omega, List.range_succ, List.map_append, List.sum_append_nat] at this
        simpa using this
      rw [List.getElem?_append_left (by rw [hlen]; omega)]
      exact ih (by omega)

/-- C27. The values of the groups are what an encoder put there: packing groups (references, widths, lengths, each block
padded to octets, then the numbers without padding between groups) and decoding gives back the values of the groups. -/
theorem C27_round_trip (ops : FloatOps F) (t : Decoder) (h5 : ComplexOk t.sect5) (gs : List PGroup)
    (hp : Packable (complexTemplate t.sect5) (bitsPerValue t.sect5) 0 gs)
    (h7 : t.sect7 = encodeGroups (complexTemplate t.sect5) (bitsPerValue t.sect5) gs) :
    complexDecode2 ops t = .ok ((gs.flatMap (PGroup.values (complexTemplate t.sect5).missing (bitsPerValue t.sect5) 0)).map
      fun v => .ok (pointValue ops t.sect5 v)) := by
  obtain ⟨h1, h2⟩ := encoded_layout hp [] (layout2 t) (by unfold layout2; rw [h7]; rfl)
  rw [C27_values ops t h5 h1, h2]

/-- A section 5 with template 5.2 or 5.3: `R = 2`, `E = 1`, `D = 0`, 6 bits per reference, missing-value management 1, three
groups, widths from 0 in 3 bits, lengths from 1 by 2 in 2 bits, last length 2; order and octets of the differencing. -/
def sampleComplex5 (order octets : UInt8) : List UInt8 :=
  [0, 0, 0, 8, 0, 0, 0x40, 0, 0, 0, 0, 1, 0, 0, 6, 0, 1, 1, 0xff, 0xff, 0xff, 0xff, 0xff, 0xff, 0xff, 0xff, 0, 0, 0, 3,
    0, 3, 0, 0, 0, 1, 2, 0, 0, 0, 2, 2, order, octets]

def sampleGroups : List PGroup := [⟨9, 3, 1, [1, 7, 4]⟩, ⟨63, 0, 1, [0, 0, 0]⟩, ⟨2, 7, 0, [100, 5]⟩]

def sampleComplex2 : Decoder :=
  ⟨8, 8, 2, sampleComplex5 0 0, [0xff], encodeGroups (complexTemplate (sampleComplex5 0 0)) 6 sampleGroups⟩

theorem samplePackable : Packable (complexTemplate (sampleComplex5 0 0)) 6 0 sampleGroups := by
  constructor <;> first | decide | (intro g h; revert h; revert g; decide)

example : ComplexOk sampleComplex2.sect5 := ⟨by decide, by decide, by decide, by decide⟩

example : complexDecode2 FloatOps.exact sampleComplex2 =
    .ok [.ok (some 22), .ok none, .ok (some 28), .ok none, .ok none, .ok none, .ok (some 206), .ok (some 16)] := by
  decide +kernel

example : complexDecode2 FloatOps.exact sampleComplex2 =
    .ok ((sampleGroups.flatMap (PGroup.values 1 6 0)).map fun v => .ok (pointValue FloatOps.exact sampleComplex2.sect5 v)) :=
  C27_round_trip FloatOps.exact sampleComplex2 ⟨by decide, by decide, by decide, by decide⟩ sampleGroups samplePackable rfl

/-- C27, limits. No group at all is a panic (`ngroup - 1` underflows), whatever the data. -/
theorem C27_no_groups_panics (ops : FloatOps F) (t : Decoder) (h5 : ComplexOk t.sect5) (h0 : sectNumber t.sect5 32 35 = 0) :
    complexDecode2 ops t = .panic := by
  have := h5.length
  unfold complexDecode2
  rw [fromSect5_eq ops (by omega), if_neg (by simpa using h5.type), Outcome.bind_ok, complexParam_eq h5.length, Outcome.bind_ok]
  simp only
  rw [if_neg (by have := h5.splitting; have := h5.missing; omega), h0]
  have e : ∀ n, (getOctetLength n 0 : Outcome GribError Nat) = .ok 0 := by
    intro n; unfold getOctetLength checkU32; simp
  have b : ∀ d n, bitStreamTake d n 0 = some [] := by
    intro d n; unfold bitStreamTake; split <;> rfl
  unfold decodeComplexPacking
  simp only [e, Outcome.bind_ok, b, Outcome.ofOption_some, Nat.add_zero]
  rw [sliceTo_eq (Nat.le_refl 0) (Nat.zero_le _)]
  rfl

/-- C27, limits. A section 5 too short for the template is a panic. -/
theorem C27_short_section5_panics (ops : FloatOps F) (t : Decoder) (h : t.sect5.length < 42)
    (htype : 16 ≤ t.sect5.length → sectNumber t.sect5 21 21 = 0) : complexDecode2 ops t = .panic := by
  unfold complexDecode2
  by_cases h16 : t.sect5.length < 16
  · rw [fromSect5_short ops h16]; rfl
  · rw [fromSect5_eq ops (by omega), if_neg (by simpa using htype (by omega)), Outcome.bind_ok, complexParam_short h]; rfl

/-- C27, limits. A section 7 too short for the blocks of references, widths and lengths is a panic. -/
theorem C27_short_section7_panics : complexDecode2 FloatOps.exact { sampleComplex2 with sect7 := sampleComplex2.sect7.take 4 } =
    .panic := by decide +kernel

/-! ## Missing values -/

/-- C28. Exact arithmetic: the point for value `k` of group `g` (of width above 0) is NaN if and only if missing-value
management is 1 and the stored number is all ones, or it is 2 and the number is all ones or all ones but the last bit.
Otherwise it is the formula applied to the number plus the reference. -/
theorem C28_point (l : Layout) (sect5 : List UInt8) (zMin : Int) (g k : Nat) (hw : l.width g ≠ 0) (r : Rat)
    (hr : f32Value (sectNumber sect5 12 15) = some r) :
    pointValue FloatOps.exact sect5 (l.value zMin g k) =
      if (l.p.missing ≥ 1 ∧ l.stored g k = 2 ^ l.width g - 1) ∨ (l.p.missing = 2 ∧ l.stored g k = 2 ^ l.width g - 2) then none
      else some (unpacked r (sectSigned sect5 16 17) (sectSigned sect5 18 19) (l.stored g k + l.ref g + zMin)) := by
  have hp : 2 ≤ 2 ^ l.width g := by
    calc 2 = 2 ^ 1 := rfl
      _ ≤ 2 ^ l.width g := Nat.pow_le_pow_right (by decide) (by omega)
  have num : ∀ x : Int, pointValue FloatOps.exact sect5 (.normal x) =
      some (unpacked r (sectSigned sect5 16 17) (sectSigned sect5 18 19) x) := by
    intro x
    have := unpack_exact ⟨some r, sectSigned sect5 16 17, sectSigned sect5 18 19, 0⟩ rfl x
    rw [← this, ← hr]; rfl
  unfold Layout.value
  rw [if_neg hw]
  unfold Layout.missing
  by_cases c1 : 1 ≤ l.p.missing ∧ l.stored g k + 1 = 2 ^ l.width g
  · rw [if_pos c1, if_pos (by omega)]
    simp [pointValue, FloatOps.exact]
  · rw [if_neg c1]
    by_cases c2 : l.p.missing = 2 ∧ l.stored g k + 2 = 2 ^ l.width g
    · rw [if_pos c2, if_pos (by omega)]
      simp [pointValue, FloatOps.exact]
    · rw [if_neg c2, if_neg (by omega), Option.getD_none, num]

/-- C28. Groups of width 0: all their points are NaN if and only if their reference is all ones (or all ones but the last
bit) in the number of bits of a reference; otherwise all are the formula applied to the reference. -/
theorem C28_constant_group (l : Layout) (sect5 : List UInt8) (zMin : Int) (g k : Nat) (hw : l.width g = 0) (r : Rat)
    (hr : f32Value (sectNumber sect5 12 15) = some r) :
    pointValue FloatOps.exact sect5 (l.value zMin g k) =
      if (l.p.missing ≥ 1 ∧ l.ref g + 1 = 2 ^ l.nbit) ∨ (l.p.missing = 2 ∧ l.ref g + 2 = 2 ^ l.nbit) then none
      else some (unpacked r (sectSigned sect5 16 17) (sectSigned sect5 18 19) (l.ref g + zMin)) := by
  have num : ∀ x : Int, pointValue FloatOps.exact sect5 (.normal x) =
      some (unpacked r (sectSigned sect5 16 17) (sectSigned sect5 18 19) x) := by
    intro x
    have := unpack_exact ⟨some r, sectSigned sect5 16 17, sectSigned sect5 18 19, 0⟩ rfl x
    rw [← this, ← hr]; rfl
  unfold Layout.value
  rw [if_pos hw]
  unfold Layout.missing
  by_cases c1 : 1 ≤ l.p.missing ∧ l.ref g + 1 = 2 ^ l.nbit
  · rw [if_pos c1, if_pos (by omega)]
    simp [pointValue, FloatOps.exact]
  · rw [if_neg c1]
    by_cases c2 : l.p.missing = 2 ∧ l.ref g + 2 = 2 ^ l.nbit
    · rw [if_pos c2, if_pos (by omega)]
      simp [pointValue, FloatOps.exact]
    · rw [if_neg c2, if_neg (by omega), Option.getD_none, num]

/-- C28. The decoded sequence (template 5.2): NaN exactly at the values the layout says are missing. -/
theorem C28_decoded (t : Decoder) (h5 : ComplexOk t.sect5) (hc : (layout2 t).Consistent 0) (g k : Nat)
    (hg : g < (layout2 t).p.ngroup) (hk : k < (layout2 t).len g) (hw : (layout2 t).width g ≠ 0) (r : Rat)
    (hr : f32Value (sectNumber t.sect5 12 15) = some r) :
    ∃ items, complexDecode2 FloatOps.exact t = .ok items ∧
      items[((List.range g).map (layout2 t).len).sum + k]? = some (.ok (
        let x := (layout2 t).stored g k
        if (sectNumber t.sect5 23 23 ≥ 1 ∧ x = 2 ^ (layout2 t).width g - 1) ∨
          (sectNumber t.sect5 23 23 = 2 ∧ x = 2 ^ (layout2 t).width g - 2) then none
        else some (unpacked r (sectSigned t.sect5 16 17) (sectSigned t.sect5 18 19) (x + (layout2 t).ref g)))) := by
  refine ⟨_, C27_values FloatOps.exact t h5 hc, ?_⟩
  rw [List.getElem?_map, C27_position _ _ _ _ hg hk, Option.map_some, C28_point _ _ _ _ _ hw r hr, Int.add_zero]
  rfl

/-- The sample: the second number of the first group is 7 in three bits, missing. -/
example : ∃ items, complexDecode2 FloatOps.exact sampleComplex2 = .ok items ∧ items[0 + 1]? = some (.ok none) := by
  obtain ⟨hc, -⟩ := encoded_layout samplePackable [] (layout2 sampleComplex2) rfl
  have := C28_decoded sampleComplex2 ⟨by decide, by decide, by decide, by decide⟩ hc 0 1 (by decide) (by decide +kernel)
    (by decide +kernel) 2 (by decide +kernel)
  simpa [show (layout2 sampleComplex2).stored 0 1 = 7 by decide +kernel,
    show (layout2 sampleComplex2).width 0 = 3 by decide +kernel,
    show sectNumber sampleComplex2.sect5 23 23 = 1 by decide +kernel] using this

/-! ## Spatial differencing -/

/-- Template 5.3 in addition: order 1 or 2, descriptors of 1 to 4 octets. -/
structure DiffOk (sect5 : List UInt8) : Prop where
  complex : ComplexOk sect5
  length : 44 ≤ sect5.length
  order : diffOrder sect5 = 1 ∨ diffOrder sect5 = 2
  octets : 1 ≤ diffOctets sect5 ∧ diffOctets sect5 ≤ 4

/-- Descriptor `k` at the start of section 7 (sign and magnitude): first values for `k` less than the order, then the
overall minimum of the differences. -/
def descriptor (t : Decoder) (k : Nat) : Int :=
  signMagnitude ((t.sect7.drop (k * diffOctets t.sect5)).take (diffOctets t.sect5))

theorem complexDecode3_eq (ops : FloatOps F) (t : Decoder) (h5 : DiffOk t.sect5)
    (hc : (layout3 t).Consistent (descriptor t (diffOrder t.sect5))) :
    complexDecode3 ops t = .ok (SimpleParam.unpackAll ops
      ⟨ops.ofBits (sectNumber t.sect5 12 15), sectSigned t.sect5 16 17, sectSigned t.sect5 18 19, sectNumber t.sect5 20 20⟩
      (DecodedValue.toF32 ops)
      (let items := ((layout3 t).values (descriptor t (diffOrder t.sect5))).map .ok
       let first := (List.range (diffOrder t.sect5)).map (descriptor t)
       if diffOrder t.sect5 = 1 then stepItems Diff1.step { firstValues := first } items
       else stepItems Diff2.step { firstValues := first } items)) := by
  have := h5.length
  have hwhole : (diffOrder t.sect5 + 1) * diffOctets t.sect5 ≤ t.sect7.length := by
    have h := hc.whole
    have h1 : (layout3 t).start ≤ (layout3 t).dataAt := by
      unfold Layout.dataAt Layout.lensAt Layout.widthsAt; omega
    unfold Layout.groupAt at h
    have : 8 * (layout3 t).start ≤ 8 * t.sect7.length := Nat.le_trans (by omega) h
    have e : (layout3 t).start = (diffOrder t.sect5 + 1) * diffOctets t.sect5 := rfl
    omega
  obtain ⟨d, d1, d2, d3, d4⟩ := descriptors_eq (ε := GribError) h5.octets.1 h5.octets.2 hwhole
  have e48 : number t.sect5 42 1 = diffOrder t.sect5 := rfl
  have e49 : number t.sect5 43 1 = diffOctets t.sect5 := rfl
  unfold complexDecode3
  rw [fromSect5_eq ops (by omega), if_neg (by simpa using h5.complex.type), Outcome.bind_ok, complexParam_eq h5.complex.length,
    Outcome.bind_ok]
  simp only
  rw [rdAs_number (by omega), rdAs_number (by omega), e48, e49]
  simp only [Outcome.bind_ok]
  rw [if_neg (by have := h5.order; omega),
    if_neg (by have := h5.complex.splitting; have := h5.complex.missing; have := h5.order; omega), d1]
  simp only [Outcome.bind_ok]
  rw [d3, d4, d2]
  simp only [Outcome.bind_ok]
  have := decodeComplexPacking_eq (ε := GribError) (layout3 t) _ hc
  unfold layout3 complexTemplate bitsPerValue at this
  simp only at this
  have hm : leading t.sect7 (diffOctets t.sect5) (diffOrder t.sect5) = descriptor t (diffOrder t.sect5) := rfl
  rw [hm, this, Outcome.bind_ok]
  rfl

/-- C29, order 1. If the values of the groups, with the overall minimum added, are the first-order differences of a
sequence with missing points anywhere, and the first descriptor is the first value that is not missing, then decoding
gives back the sequence. -/
theorem C29_order1 (ops : FloatOps F) (t : Decoder) (h5 : DiffOk t.sect5) (ho : diffOrder t.sect5 = 1)
    (hc : (layout3 t).Consistent (descriptor t 1)) (xs : List DecodedValue) (hr : ∀ x ∈ normals xs, -2 ^ 31 ≤ x ∧ x < 2 ^ 31)
    (hf : ∀ x, (normals xs)[0]? = some x → descriptor t 0 = x) (fill : Int)
    (hd : (layout3 t).values (descriptor t 1) = diff1 fill none xs) :
    complexDecode3 ops t = .ok (xs.map fun v => .ok (pointValue ops t.sect5 v)) := by
  rw [complexDecode3_eq ops t h5 (by rw [ho]; exact hc), ho]
  simp only [if_true]
  congr 1
  rw [hd, stepItems_diff1 fill xs hr _ none (.inl ⟨rfl, rfl, ?_⟩)]
  · exact unpackAll_decoded ops t.sect5 _ _
  · intro x hx
    rw [← hf x (by rw [← hx, List.head?_eq_getElem?])]; rfl

/-- C29, order 2, for sequences of values below `2^30` in absolute value (so that their doubles fit 32 bits). -/
theorem C29_order2 (ops : FloatOps F) (t : Decoder) (h5 : DiffOk t.sect5) (ho : diffOrder t.sect5 = 2)
    (hc : (layout3 t).Consistent (descriptor t 2)) (xs : List DecodedValue) (hr : ∀ x ∈ normals xs, -2 ^ 30 ≤ x ∧ x < 2 ^ 30)
    (hf0 : ∀ x, (normals xs)[0]? = some x → descriptor t 0 = x) (hf1 : ∀ x, (normals xs)[1]? = some x → descriptor t 1 = x)
    (fill fill' : Int) (hd : (layout3 t).values (descriptor t 2) = diff2 fill fill' [] xs) :
    complexDecode3 ops t = .ok (xs.map fun v => .ok (pointValue ops t.sect5 v)) := by
  rw [complexDecode3_eq ops t h5 (by rw [ho]; exact hc), ho]
  simp only [show ¬ (2 = 1) by decide, if_false]
  congr 1
  rw [hd, stepItems_diff2 fill fill' xs _ [] hr (.inl ⟨rfl, rfl, ?_⟩)]
  · exact unpackAll_decoded ops t.sect5 _ _
  · intro k hk x hx
    match k, hk with
    | 0, _ => rw [← hf0 x hx]; rfl
    | 1, _ => rw [← hf1 x hx]; rfl

theorem descriptor_of_prefix {t : Decoder} {ds : List (List UInt8)} {rest : List UInt8} (h7 : t.sect7 = ds.flatten ++ rest)
    (hl : ∀ d ∈ ds, d.length = diffOctets t.sect5) (k : Nat) (hk : k < ds.length) : descriptor t k = signMagnitude ds[k] := by
  unfold descriptor
  rw [h7]
  generalize diffOctets t.sect5 = n at *
  clear h7 t
  congr 1
  induction ds generalizing k with
  | nil => simp at hk
  | cons d ds ih =>
    have hd := hl d (by simp)
    cases k with
    | zero =>
      rw [Nat.zero_mul, List.drop_zero, List.flatten_cons, List.append_assoc, ← hd, List.take_left]; rfl
    | succ k =>
      rw [Nat.succ_mul, Nat.add_comm, ← List.drop_drop, List.flatten_cons, List.append_assoc, ← hd, List.drop_left, hd]
      exact ih k (by simpa using hk) (fun d hd => hl d (by simp [hd]))

theorem flatten_length_const {ds : List (List UInt8)} {n : Nat} (hl : ∀ d ∈ ds, d.length = n) :
    ds.flatten.length = ds.length * n := by
  induction ds with
  | nil => simp
  | cons d ds ih =>
    rw [List.flatten_cons, List.length_append, hl d (by simp), ih (fun d hd => hl d (by simp [hd])), List.length_cons, Nat.succ_mul]
    omega

/-- C29. The whole way, order 1: take any sequence with missing points anywhere, difference it, write the first value and
the minimum as sign-and-magnitude descriptors, subtract the minimum, pack the rest in any groups; decoding gives back
the sequence. -/
theorem C29_round_trip1 (ops : FloatOps F) (t : Decoder) (h5 : DiffOk t.sect5) (ho : diffOrder t.sect5 = 1)
    (xs : List DecodedValue) (hr : ∀ x ∈ normals xs, -2 ^ 31 ≤ x ∧ x < 2 ^ 31)
    (first minimum : List UInt8) (hl1 : first.length = diffOctets t.sect5) (hl2 : minimum.length = diffOctets t.sect5)
    (hf : ∀ x, (normals xs)[0]? = some x → signMagnitude first = x) (fill : Int) (gs : List PGroup)
    (hp : Packable (complexTemplate t.sect5) (bitsPerValue t.sect5) (signMagnitude minimum) gs)
    (hg : gs.flatMap (PGroup.values (complexTemplate t.sect5).missing (bitsPerValue t.sect5) (signMagnitude minimum)) =
      diff1 fill none xs)
    (h7 : t.sect7 = first ++ minimum ++ encodeGroups (complexTemplate t.sect5) (bitsPerValue t.sect5) gs) :
    complexDecode3 ops t = .ok (xs.map fun v => .ok (pointValue ops t.sect5 v)) := by
  have h7' : t.sect7 = [first, minimum].flatten ++ encodeGroups (complexTemplate t.sect5) (bitsPerValue t.sect5) gs := by
    rw [h7]; simp
  have hl : ∀ d ∈ [first, minimum], d.length = diffOctets t.sect5 := by simp [hl1, hl2]
  have d0 := descriptor_of_prefix h7' hl 0 (by simp)
  have d1 := descriptor_of_prefix h7' hl 1 (by simp)
  simp only [List.getElem_cons_zero, List.getElem_cons_succ] at d0 d1
  obtain ⟨h1, h2⟩ := encoded_layout hp (first ++ minimum) (layout3 t) (by
    unfold layout3
    rw [ho, h7, List.length_append, hl1, hl2]
    congr 1; omega)
  refine C29_order1 ops t h5 ho (by rw [d1]; exact h1) xs hr (by rw [d0]; exact hf) fill (by rw [d1, h2, hg])

/-- C29. The whole way, order 2. -/
theorem C29_round_trip2 (ops : FloatOps F) (t : Decoder) (h5 : DiffOk t.sect5) (ho : diffOrder t.sect5 = 2)
    (xs : List DecodedValue) (hr : ∀ x ∈ normals xs, -2 ^ 30 ≤ x ∧ x < 2 ^ 30)
    (first second minimum : List UInt8) (hl0 : first.length = diffOctets t.sect5) (hl1 : second.length = diffOctets t.sect5)
    (hl2 : minimum.length = diffOctets t.sect5)
    (hf0 : ∀ x, (normals xs)[0]? = some x → signMagnitude first = x)
    (hf1 : ∀ x, (normals xs)[1]? = some x → signMagnitude second = x) (fill fill' : Int) (gs : List PGroup)
    (hp : Packable (complexTemplate t.sect5) (bitsPerValue t.sect5) (signMagnitude minimum) gs)
    (hg : gs.flatMap (PGroup.values (complexTemplate t.sect5).missing (bitsPerValue t.sect5) (signMagnitude minimum)) =
      diff2 fill fill' [] xs)
    (h7 : t.sect7 = first ++ second ++ minimum ++ encodeGroups (complexTemplate t.sect5) (bitsPerValue t.sect5) gs) :
    complexDecode3 ops t = .ok (xs.map fun v => .ok (pointValue ops t.sect5 v)) := by
  have h7' : t.sect7 = [first, second, minimum].flatten ++ encodeGroups (complexTemplate t.sect5) (bitsPerValue t.sect5) gs := by
    rw [h7]; simp
  have hl : ∀ d ∈ [first, second, minimum], d.length = diffOctets t.sect5 := by simp [hl0, hl1, hl2]
  have d0 := descriptor_of_prefix h7' hl 0 (by simp)
  have d1 := descriptor_of_prefix h7' hl 1 (by simp)
  have d2 := descriptor_of_prefix h7' hl 2 (by simp)
  simp only [List.getElem_cons_zero, List.getElem_cons_succ] at d0 d1 d2
  obtain ⟨h1, h2⟩ := encoded_layout hp (first ++ second ++ minimum) (layout3 t) (by
    unfold layout3
    rw [ho, h7, List.length_append, List.length_append, hl0, hl1, hl2]
    congr 1; omega)
  refine C29_order2 ops t h5 ho (by rw [d2]; exact h1) xs hr (by rw [d0]; exact hf0) (by rw [d1]; exact hf1) fill fill'
    (by rw [d2, h2, hg])

/-- A sequence with missing points at the start, in the middle and at the end. -/
def sampleSeq : List DecodedValue :=
  [.missing1, .normal (-7), .normal 3, .missing1, .normal 2, .normal 4, .normal 4, .missing1]

/-- Its first differences are `_, 10, -1, 2, 0`, minimum `-5`; three groups with 6-bit references. -/
def sampleDiffGroups1 : List PGroup := [⟨0, 5, 1, [31, 0, 15]⟩, ⟨3, 3, 1, [7, 1, 4]⟩, ⟨5, 1, 0, [0, 1]⟩]

def sampleDiff1 : Decoder :=
  ⟨8, 8, 3, sampleComplex5 1 2, [0xff], [0x80, 7] ++ [0x80, 5] ++ encodeGroups (complexTemplate (sampleComplex5 1 2)) 6 sampleDiffGroups1⟩

theorem sampleDiffOk (o n : UInt8) (ho : o = 1 ∨ o = 2) (hn : n = 1 ∨ n = 2) : DiffOk (sampleComplex5 o n) := by
  rcases ho with rfl | rfl <;> rcases hn with rfl | rfl <;>
    exact ⟨⟨by decide, by decide, by decide, by decide⟩, by decide, by decide, by decide⟩

theorem sampleDiffPackable1 : Packable (complexTemplate (sampleComplex5 1 2)) 6 (-5) sampleDiffGroups1 := by
  constructor <;> first | decide | (intro g h; revert h; revert g; decide)

example : complexDecode3 FloatOps.exact sampleDiff1 =
    .ok (sampleSeq.map fun v => .ok (pointValue FloatOps.exact sampleDiff1.sect5 v)) :=
  C29_round_trip1 _ sampleDiff1 (sampleDiffOk 1 2 (by decide) (by decide)) (by decide) sampleSeq (by decide) [0x80, 7] [0x80, 5]
    (by decide) (by decide) (by intro x hx; simp [sampleSeq, normals] at hx; subst hx; decide) (-5) sampleDiffGroups1
    sampleDiffPackable1 (by decide) rfl

/-- The second differences of `-7, 3, 2, 4` are `_, _, -11, 3`, minimum `-11`. -/
def sampleDiffGroups2 : List PGroup := [⟨0, 2, 1, [3, 0, 0]⟩, ⟨0, 4, 1, [15, 0, 14]⟩, ⟨8, 1, 0, [1, 1]⟩]

def sampleDiff2 : Decoder :=
  ⟨8, 8, 3, sampleComplex5 2 1, [0xff], [0x87] ++ [3] ++ [0x8b] ++ encodeGroups (complexTemplate (sampleComplex5 2 1)) 6 sampleDiffGroups2⟩

theorem sampleDiffPackable2 : Packable (complexTemplate (sampleComplex5 2 1)) 6 (-11) sampleDiffGroups2 := by
  constructor <;> first | decide | (intro g h; revert h; revert g; decide)

example : diff2 (-11) (-11) [] [.missing1, .normal (-7), .normal 3, .missing1, .normal 2, .normal 4, .missing1, .missing1] =
    [.missing1, .normal (-11), .normal (-11), .missing1, .normal (-11), .normal 3, .missing1, .missing1] := by decide

example : complexDecode3 FloatOps.exact sampleDiff2 = .ok
    ([DecodedValue.missing1, .normal (-7), .normal 3, .missing1, .normal 2, .normal 4, .missing1, .missing1].map fun v =>
      .ok (pointValue FloatOps.exact sampleDiff2.sect5 v)) :=
  C29_round_trip2 _ sampleDiff2 (sampleDiffOk 2 1 (by decide) (by decide)) (by decide) _ (by decide) [0x87] [3] [0x8b]
    (by decide) (by decide) (by decide) (by intro x hx; simp [normals] at hx; subst hx; decide)
    (by intro x hx; simp [normals] at hx; subst hx; decide) (-11) (-11) sampleDiffGroups2
    sampleDiffPackable2 (by decide) rfl

/-- C29, limits. The bound of order 2 is needed: undoing the differences of `2^30, 2^30, 2^30`, all of which fit the
32-bit integers the code works with, panics because the code computes the double of a value first. -/
theorem C29_order2_bound : stepItems Diff2.step { firstValues := [2 ^ 30, 2 ^ 30] }
    ((diff2 0 0 [] [.normal (2 ^ 30), .normal (2 ^ 30), .normal (2 ^ 30)]).map .ok) =
    [.ok (.normal (2 ^ 30)), .ok (.normal (2 ^ 30)), .panic] := by decide

/-! ## Dispatch -/

/-- C30. The six supported template numbers go to their decoders. -/
theorem C30_dispatch (c : Codecs F) (t : Decoder) :
    (t.templateNum = 0 → t.decodeValues c = simpleDecode c.ops t) ∧
    (t.templateNum = 2 → t.decodeValues c = complexDecode2 c.ops t) ∧
    (t.templateNum = 3 → t.decodeValues c = complexDecode3 c.ops t) ∧
    (t.templateNum = 40 → t.decodeValues c = jpeg2000Decode c t) ∧
    (t.templateNum = 41 → t.decodeValues c = pngDecode c t) ∧
    (t.templateNum = 200 → t.decodeValues c = runLengthDecode c.ops t) := by
  unfold Decoder.decodeValues
  refine ⟨?_, ?_, ?_, ?_, ?_, ?_⟩ <;> intro h <;> rw [h] <;> rfl

/-- C30. Every other template number is refused, whatever the sections contain. -/
theorem C30_unsupported (c : Codecs F) (t : Decoder) (h : t.templateNum ∉ [0, 2, 3, 40, 41, 200]) :
    t.dispatch c = .err (.decodeError .templateNumberUnsupported) := by
  simp only [List.mem_cons, List.not_mem_nil, or_false, not_or] at h
  unfold Decoder.dispatch Decoder.decodeValues
  split <;> first | omega | rfl

example : (4 : Nat) ∉ [0, 2, 3, 40, 41, 200] := by decide

/-- C30. Template 5.2 or 5.3 with another splitting method (row by row) or unknown missing-value management is refused
without reading section 7. -/
theorem C30_refused (ops : FloatOps F) (t : Decoder) (hlen : 44 ≤ t.sect5.length) (htype : sectNumber t.sect5 21 21 = 0)
    (h : sectNumber t.sect5 22 22 ≠ 1 ∨ 2 < sectNumber t.sect5 23 23) :
    complexDecode2 ops t = .err (.decodeError (.complexPacking .notSupported)) ∧
    (diffOrder t.sect5 ∈ [1, 2, 255] → complexDecode3 ops t = .err (.decodeError (.complexPacking .notSupported))) := by
  constructor
  · unfold complexDecode2
    rw [fromSect5_eq ops (by omega), if_neg (by simpa using htype), Outcome.bind_ok, complexParam_eq (by omega), Outcome.bind_ok]
    simp only
    rw [if_pos (by omega)]
  · intro ho
    have e48 : number t.sect5 42 1 = diffOrder t.sect5 := rfl
    simp only [List.mem_cons, List.not_mem_nil, or_false] at ho
    unfold complexDecode3
    rw [fromSect5_eq ops (by omega), if_neg (by simpa using htype), Outcome.bind_ok, complexParam_eq (by omega), Outcome.bind_ok]
    simp only
    rw [rdAs_number (by omega), rdAs_number (by omega), e48]
    simp only [Outcome.bind_ok]
    rw [if_neg (by omega), if_pos (by omega)]

/-- C30. Template 5.3: an order other than 1, 2 or 255 (missing), the order 255, and descriptors of a number of octets other
than 1 to 4 are refused. -/
theorem C30_order_refused (ops : FloatOps F) (t : Decoder) (hlen : 44 ≤ t.sect5.length) (htype : sectNumber t.sect5 21 21 = 0) :
    (diffOrder t.sect5 ∉ [1, 2, 255] → complexDecode3 ops t = .err .notSupported) ∧
    (diffOrder t.sect5 = 255 → complexDecode3 ops t = .err (.decodeError (.complexPacking .notSupported))) ∧
    (diffOrder t.sect5 ∈ [1, 2] → diffOctets t.sect5 = 0 ∨ 4 < diffOctets t.sect5 →
      complexDecode3 ops t = .err (.decodeError (.complexPacking .notSupported))) := by
  have e48 : number t.sect5 42 1 = diffOrder t.sect5 := rfl
  have e49 : number t.sect5 43 1 = diffOctets t.sect5 := rfl
  unfold complexDecode3
  rw [fromSect5_eq ops (by omega), if_neg (by simpa using htype), Outcome.bind_ok, complexParam_eq (by omega), Outcome.bind_ok]
  simp only
  rw [rdAs_number (by omega), rdAs_number (by omega), e48, e49]
  simp only [Outcome.bind_ok, List.mem_cons, List.not_mem_nil, or_false, not_or]
  refine ⟨?_, ?_, ?_⟩
  · intro h; rw [if_pos (by omega)]
  · intro h; rw [if_neg (by omega), if_pos (by omega)]
  · intro h h'
    rw [if_neg (by omega)]
    split
    · rfl
    · unfold DiffDescriptors.new
      rw [if_pos h']; rfl

example : complexDecode3 FloatOps.exact { sampleDiff1 with sect5 := sampleComplex5 3 2 } = .err .notSupported := by decide +kernel

end Grib.Props
