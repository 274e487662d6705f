import Verif.Model.Grid
import Verif.Model.Ieee
import Verif.Model.Calendar
import Verif.Model.Cli

/-! # Unit tests of the repository, run against the model

Each example is one `#[test]` (or one row of a test macro) of the repository: same input, same expected result.  They are
evidence that the model behaves as the code does, not proofs of properties.  `f32`/`f64` are the IEEE instances. -/

namespace Grib.Conformance

open Grib Grib.Model

/-! ## src/helpers.rs -/

/-- src/helpers.rs:62-76 `into_grib_i8`. -/
example : [0b01000000, 0b00000001, 0b10000001, 0b11000000].map (asGribInt 8) = [64, 1, -1, -64] := by decide +kernel

/-- src/helpers.rs:78-95 `into_grib_i16`. -/
example : [0b0000000001000000, 0b0000000000000001, 0b1000000000000001, 0b1000000001000000].map (asGribInt 16) =
    [64, 1, -1, -64] := by decide +kernel

/-- src/helpers.rs:109-155 `conversion_from_bytes_to_grib_int_..`. -/
example : [[0b01010101], [0b11010101], [0b01010101, 0b10101010], [0b11010101, 0b10101010],
      [0b01010101, 0b10101010, 0b10101010], [0b11010101, 0b10101010, 0b10101010], [0b10000000, 0b10101010, 0b10101010],
      [0b01010101, 0b10101010, 0b10101010, 0b10101010], [0b11010101, 0b10101010, 0b10101010, 0b10101010]].map gribIntFromBytes =
    [some 0b01010101, some (-0b01010101), some 0b0101_0101_1010_1010, some (-0b0101_0101_1010_1010),
      some 0b0101_0101_1010_1010_1010_1010, some (-0b0101_0101_1010_1010_1010_1010), some (-0b0000_0000_1010_1010_1010_1010),
      some 0b0101_0101_1010_1010_1010_1010_1010_1010, some (-0b0101_0101_1010_1010_1010_1010_1010_1010)] := by decide +kernel

/-! ## src/decoder/stream.rs -/

/-- `fixed_value_iterator_not_crashing_after_iteration_finished`: two items, then the end. -/
example : fixedItems (1 : Nat) 2 = [.ok 1, .ok 1] := by decide +kernel

/-- `nbitwise_iterator_u2` (the first six). -/
example : (NBit.new [0, 255, 255, 0, 0] 2).takeList 6 = some [0b00, 0b00, 0b00, 0b00, 0b11, 0b11] := by decide +kernel

/-- `nbitwise_iterator_u5`. -/
example : (NBit.new [0, 255, 255, 0, 0] 5).toList =
    .done [0b00000, 0b00011, 0b11111, 0b11111, 0b11110, 0b00000, 0b00000, 0b00000] := by decide +kernel

/-- `nbitwise_iterator_u9`. -/
example : (NBit.new [0, 255, 255, 0, 0] 9).toList = .done [0b000000001, 0b111111111, 0b111111000, 0b000000000] := by decide +kernel

/-- `nbitwise_iterator_u13`. -/
example : (NBit.new [0, 255, 255, 0, 0] 13).toList = .done [0b0000000011111, 0b1111111111100, 0b0000000000000] := by decide +kernel

/-- `nbitwise_iterator_with_offset`. -/
example : ((NBit.new [0, 255, 255, 0, 0] 2).withOffset 7).takeList 1 = some [0b01] := by decide +kernel

/-- `nbitwise_iterator_empty`: the next item is the end. -/
example : ((NBit.new [] 0).next).map Prod.fst = some none := by decide +kernel

/-! ## src/decoder/simple.rs -/

/-- `f32` operations, with `powi` as in compiler-rt. -/
def f32 : FloatOps Fl := .ieee .single (compilerRtPowi .single) fun _ => .nan

/-- `f64` operations, with `powi` as in compiler-rt. -/
def f64 : FloatOps Fl := .ieee .double (compilerRtPowi .double) fun _ => .nan

/-- A number strictly between two bounds. -/
def between (a b : Rat) : Outcome ε Fl → Bool
  | .ok (.fin v) => decide (a < v ∧ v < b)
  | _ => false

/-- `decode_simple_packing`: both numbers within 1e-8 of the expected ones (the parameters are at octets 6 to 15 of the payload). -/
example : (match simpleDecode f32 ⟨2, 2, 0, [0, 0, 0, 0, 0, 0, 0x35, 0x3e, 0x6b, 0xf6, 0x80, 0x1a, 0x00, 0x00, 0x10, 0x00], [],
      [0x00, 0x06, 0x00, 0x0d]⟩ with
    | .ok [a, b] => between (79878316 / 10 ^ 14 - 1 / 10 ^ 8) (79878316 / 10 ^ 14 + 1 / 10 ^ 8) a &&
        between (9030913 / 10 ^ 13 - 1 / 10 ^ 8) (9030913 / 10 ^ 13 + 1 / 10 ^ 8) b
    | _ => false) = true := by decide +kernel

/-- Much closer, in fact: both are the single-precision numbers the expected literals denote. -/
example : simpleDecode f32 ⟨2, 2, 0, [0, 0, 0, 0, 0, 0, 0x35, 0x3e, 0x6b, 0xf6, 0x80, 0x1a, 0x00, 0x00, 0x10, 0x00], [],
      [0x00, 0x06, 0x00, 0x0d]⟩ = .ok [.ok (f32.lit 79878316 (-14)), .ok (f32.lit 9030913 (-13))] := by decide +kernel

/-! ## src/decoder/bitmap.rs -/

/-- The iterator of both tests. -/
def bitmapIter : Outcome GribError (BitmapIter Fl) :=
  BitmapIter.new [0b01001100, 0b01110000, 0b11110000] ((List.range 10).map fun n : Nat => .ok (.fin (n : Rat))) 24

/-- `bitmap_iterator_works`. -/
example : BitmapIter.toList f32 <$> bitmapIter = .ok (.done [.nan, .fin 0, .nan, .nan, .fin 1, .fin 2, .nan, .nan, .nan, .fin 3,
    .fin 4, .fin 5, .nan, .nan, .nan, .nan, .fin 6, .fin 7, .fin 8, .fin 9, .nan, .nan, .nan, .nan]) := by decide +kernel

/-- `bitmap_iterator_size_hint`. -/
example : (do
    let it ← bitmapIter
    let a ← it.sizeHint
    let b ← (it.next f32).2.sizeHint
    return (a, b)) = .ok (24, 23) := by decide +kernel

/-! ## src/decoder/run_length.rs -/

/-- `decode_data_with_run_length_encoding`. -/
example : rleunpack ([3, 9, 12, 6, 4, 15, 2, 1, 0, 13, 12, 2, 3].map (· + 240)) 8 250 21 =
    .ok ([3, 9, 9, 6, 4, 4, 4, 4, 4, 2, 1, 0, 0, 0, 0, 0, 0, 0, 0, 2, 3].map (· + 240)) := by decide +kernel

set_option maxRecDepth 100000 in
/-- `decode_data_with_run_length_encoding_with_multibyte_length` (the test passes no expected length, the crate always does). -/
example : rleunpack [0x00, 0x14, 0x1c] 8 3 6065 = .ok (List.replicate 6065 0) := by decide +kernel

/-! ## src/decoder/complex/diff.rs -/

/-- Minimum and first values stored in the octets 0 to 15 for order 2. -/
def descriptors (numOctets : Nat) : Outcome GribError (Int × List Int) := do
  let d ← DiffDescriptors.new [0, 1, 2, 3, 4, 5, 6, 7, 8, 9, 10, 11, 12, 13, 14, 15] 2 numOctets
  return (← d.minimum, ← d.firstValues d.slice.length 0)

/-- `spdiff_minimum_value_..`, `spdiff_first_values_..`. -/
example : [1, 2, 3, 4].map descriptors =
    [.ok (0x02, [0x00, 0x01]), .ok (0x0405, [0x0001, 0x0203]), .ok (0x060708, [0x000102, 0x030405]),
      .ok (0x08090a0b, [0x00010203, 0x04050607])] := by decide +kernel

/-- The first-order iterator with first value 100, the second-order one with 100 and 99. -/
def first (xs : List DecodedValue) : Items DecodedValue := stepItems Diff1.step { firstValues := [100] } (xs.map .ok)
def second (xs : List DecodedValue) : Items DecodedValue := stepItems Diff2.step { firstValues := [100, 99] } (xs.map .ok)

/-- `(0_u32..10).map(|n| Normal(n as i32 * (-1_i32).pow(n)))` -/
def alternating : List DecodedValue := (List.range 10).map fun n : Nat => .normal ((n : Int) * (-1) ^ n)

/-- `first_order_spatial_differencing_decoding_consisting_of_normal_values`. -/
example : first alternating = ([100, 99, 101, 98, 102, 97, 103, 96, 104, 95].map fun v => .ok (.normal v)) := by decide +kernel

/-- `.._with_missing_values_in_first_values`. -/
example : first (.missing1 :: [0, -1, 2, -3, 4, -5, 6, -7, 8].map .normal) =
    .ok .missing1 :: [100, 99, 101, 98, 102, 97, 103, 96, 104].map fun v => .ok (.normal v) := by decide +kernel

/-- `.._with_missing_values_in_non_first_values`. -/
example : first [.normal 0, .normal (-1), .missing1, .normal 2, .normal (-3), .normal 4, .missing2, .normal (-5), .normal 6,
      .normal (-7)] =
    [.normal 100, .normal 99, .missing1, .normal 101, .normal 98, .normal 102, .missing2, .normal 97, .normal 103,
      .normal 96].map .ok := by decide +kernel

/-- `second_order_spatial_differencing_decoding_consisting_of_normal_values`. -/
example : second alternating = ([100, 99, 100, 98, 100, 97, 100, 96, 100, 95].map fun v => .ok (.normal v)) := by decide +kernel

/-- `.._with_missing_values_in_first_values`. -/
example : second (.missing1 :: .missing2 :: [0, -1, 2, -3, 4, -5, 6, -7].map .normal) =
    .ok .missing1 :: .ok .missing2 :: [100, 99, 100, 98, 100, 97, 100, 96].map fun v => .ok (.normal v) := by decide +kernel

/-- `.._with_missing_values_in_non_first_values`. -/
example : second [.normal 0, .normal (-1), .missing1, .normal 2, .normal (-3), .normal 4, .missing2, .normal (-5), .normal 6,
      .normal (-7)] =
    [.normal 100, .normal 99, .missing1, .normal 100, .normal 98, .normal 100, .missing2, .normal 97, .normal 100,
      .normal 96].map .ok := by decide +kernel

/-! ## src/datatypes/sections.rs -/

/-- `date_time_creation_..` and `error_in_date_time_creation`. -/
example : [createDateTime 2022 1 1 0 0 0, createDateTime 2022 11 31 0 0 0, createDateTime 2022 1 1 0 61 0].map
    (fun x => match x with | .ok _ => some true | .err .invalidValueError => some false | _ => none) =
    [some true, some false, some false] := by decide +kernel

/-- `grid_definition_template_0`. -/
example : GridTemplate.tryFrom ⟨[0x00, 0x00, 0x01, 0x50, 0x00, 0x00, 0x00, 0x00, 0x00, 0x04, 0xff, 0xff, 0xff, 0xff,
      0xff, 0x01, 0x03, 0xcd, 0x39, 0xfa, 0x01, 0x03, 0xc9, 0xf6, 0xa3, 0x00, 0x00, 0x01,
      0x00, 0x00, 0x00, 0x01, 0x50, 0x00, 0x00, 0x00, 0x00, 0xff, 0xff, 0xff, 0xff, 0x02,
      0xdb, 0xc9, 0x3d, 0x07, 0x09, 0x7d, 0xa4, 0x30, 0x01, 0x31, 0xcf, 0xc3, 0x08, 0xef,
      0xdd, 0x5c, 0x00, 0x01, 0xe8, 0x48, 0x00, 0x01, 0x45, 0x85, 0x00]⟩ =
    .ok (.template0 ⟨256, 336, 47958333, 118062500, 20041667, 149937500, 0b00000000⟩) := by decide +kernel

/-- The product definition of `prod_definition_parameters`. -/
def prodDefinition : ProdDefinition := ⟨[0, 0, 0, 0, 193, 0, 2, 153, 255, 0, 0, 0, 0, 0, 0, 0, 40, 1, 255, 255, 255, 255,
    255, 255, 255, 255, 255, 255, 255]⟩

/-- `prod_definition_parameters`. -/
example : prodDefinition.parameterCategory (ε := Empty) = .ok (some 193) ∧
    prodDefinition.parameterNumber (ε := Empty) = .ok (some 0) ∧
    prodDefinition.forecastTime (ε := Empty) = .ok (some (0, 40)) ∧
    prodDefinition.fixedSurfaces (ε := Empty) = .ok (some (⟨1, -127, -2147483647⟩, ⟨255, -127, -2147483647⟩)) := by
  decide +kernel

/-! ## src/context.rs -/

/-- `get_tmpl_code_normal`. -/
example : SectionInfo.getTmplCode (ε := Empty) ⟨5, 8902, 23, some (.section5 [0x00, 0x01, 0x50, 0x00, 0x00, 0xc8])⟩ =
    .ok (some (5, 200)) := by decide +kernel

/-- `get_templates_normal`: the codes before sorting, duplicates included (the sorting is C48's subject). -/
example : tmplCodes (ε := Empty) [⟨0, 0, 0, none⟩, ⟨1, 0, 0, none⟩, ⟨3, 0, 0, some (.section3 (List.replicate 9 0))⟩,
      ⟨4, 0, 0, some (.section4 (List.replicate 4 0))⟩, ⟨5, 0, 0, some (.section5 (List.replicate 6 0))⟩, ⟨6, 0, 0, none⟩,
      ⟨7, 0, 0, none⟩, ⟨3, 0, 0, some (.section3 [0, 0, 0, 0, 0, 0, 0, 0, 1])⟩, ⟨4, 0, 0, some (.section4 (List.replicate 4 0))⟩,
      ⟨5, 0, 0, some (.section5 (List.replicate 6 0))⟩, ⟨6, 0, 0, none⟩, ⟨7, 0, 0, none⟩, ⟨8, 0, 0, none⟩] =
    .ok [(3, 0), (4, 0), (5, 0), (3, 1), (4, 0), (5, 0)] := by decide +kernel

/-! ## src/codetables/grib2.rs -/

/-- `num_enum_conversion`. -/
example : Table4_4.tryFrom 1 = some .hour ∧ Table4_4.tryFrom 10 = some .threeHours ∧ Table4_4.tryFrom 254 = none := by
  decide +kernel

/-- `num_lookup_result_conversion`. -/
example : Code.ofTry 1 (Table4_4.tryFrom 1) = .name .hour ∧ Code.ofTry 254 (Table4_4.tryFrom 254) = .num 254 := by
  decide +kernel

/-! ## src/grid/helpers.rs -/

/-- The iterator of `lat_lon_grid_iter_..`: latitudes 0, 1, 2 and longitudes 10, 11. -/
def grid32 (mode : Nat) : RegularIter Nat := ⟨[0, 1, 2], [10, 11], GridIter.new 2 3 mode⟩

/-- `lat_lon_grid_iter_with_scanning_mode_..`. -/
example : [0b00000000, 0b00100000, 0b00010000, 0b00110000].map (fun m => (grid32 m).drain 7) =
    [.done [(0, 10), (0, 11), (1, 10), (1, 11), (2, 10), (2, 11)], .done [(0, 10), (1, 10), (2, 10), (0, 11), (1, 11), (2, 11)],
      .done [(0, 10), (0, 11), (1, 11), (1, 10), (2, 10), (2, 11)], .done [(0, 10), (1, 10), (2, 10), (2, 11), (1, 11), (0, 11)]] := by
  decide +kernel

/-- `lat_lon_grid_iterator_size_hint`. -/
example : (do
    let a ← (grid32 0).ij.sizeHint
    let (_, it) ← (grid32 0).next
    let b ← it.ij.sizeHint
    return (a, b) : Outcome Empty _) = .ok (6, 5) := by decide +kernel

/-! ## src/grid/latlon.rs -/

/-- `consistency_between_lat_..`. -/
example : [isConsistentForJ (ε := Empty) 37000000 36000000 0b00000000, isConsistentForJ 37000000 36000000 0b01000000,
      isConsistentForJ 36000000 37000000 0b00000000, isConsistentForJ 36000000 37000000 0b01000000] =
    [.ok true, .ok false, .ok false, .ok true] := by decide +kernel

/-- Two coordinates of a grid of 1500 times 751 points. -/
def corner (g : LatLonGrid) (js is : List Nat) : Outcome GribError (List (Option Fl) × List (Option Fl)) := do
  let it ← g.latlons f32
  return (js.map (it.lat[·]?), is.map (it.lon[·]?))

/-- The single-precision numbers denoted by literals with five decimals. -/
def lits (xs : List Int) : List (Option Fl) := xs.map fun x => some (f32.lit x (-5))

/-- `lat_lon_calculation_for_increasing_longitudes_and_positive_direction_scan`: first and last three points.  (The scan goes
along the parallels, so these are the first three longitudes with the first latitude and the last three with the last one; the
order of the points is C18's subject.) -/
example : corner ⟨1500, 751, -90000000, 0, 90000000, 359760000, 0b01000000⟩ [0, 750] [0, 1, 2, 1497, 1498, 1499] =
    .ok (lits [-9000000, 9000000], lits [0, 24000, 48000, 35928000, 35952000, 35976000]) := by decide +kernel

/-- `lat_lon_calculation_for_decreasing_longitudes_and_positive_direction_scan`: with the rounding errors the test expects. -/
example : corner ⟨1500, 751, -90000000, 180000000, 90000000, 179760000, 0b01000000⟩ [0, 750] [0, 1, 2, 1497, 1498, 1499] =
    .ok (lits [-9000000, 9000000], lits [18000000, 18024000, 18048000, 17928003, 17952002, 17976001]) := by decide +kernel

/-- `lat_lon_calculation_for_decreasing_longitudes_and_negative_direction_scan`. -/
example : corner ⟨1500, 751, -90000000, 359760000, 90000000, 0, 0b11000000⟩ [0, 750] [0, 1, 2, 1497, 1498, 1499] =
    .ok (lits [-9000000, 9000000], lits [35976000, 35952000, 35928000, 48000, 24000, 0]) := by decide +kernel

/-- `lat_lon_calculation_for_increasing_longitudes_and_negative_direction_scan`. -/
example : corner ⟨1500, 751, -90000000, 179760000, 90000000, 180000000, 0b11000000⟩ [0, 750] [0, 1, 2, 1497, 1498, 1499] =
    .ok (lits [-9000000, 9000000], lits [17976001, 17952002, 17928003, 18048000, 18024000, 18000000]) := by decide +kernel

/-! ## src/grid/gaussian.rs -/

/-- The function of `finding_root`: `x² - 2` over its derivative. -/
def newton (x : Fl) : Fl := f64.div (f64.sub (f64.mul x x) (.fin 2)) (f64.mul x (.fin 2))

/-- `dx.abs() < f64::EPSILON` (src/grid/gaussian.rs:194) -/
def small (dx : Fl) : Bool := Fl.lt (if dx.isNeg then dx.neg else dx) (.fin (1 / 2 ^ 52))

/-- `finding_root`: within 1e-8 of 1.41421356. -/
example : (match (findRoot f64.sub small (.fin 1) newton).1 with
    | some (.fin v) => decide (v - 141421356 / 10 ^ 8 ≤ 1 / 10 ^ 8 ∧ 141421356 / 10 ^ 8 - v ≤ 1 / 10 ^ 8)
    | _ => false) = true := by decide +kernel

/-- `failure_to_find_root`. -/
example : (findRoot f64.sub small (.fin 1000) newton).1 = none := by decide +kernel

/-! ## cli/src/cli.rs -/

/-- `successful_parsing_message_index` and `message_index_parsing_failure_..`. -/
example : Cli.parseIndex "1.1".toList = .ok (1, 1) ∧
    (["1_1", "a.1", "1.a", "_1.1", "1.1_"].map fun s => (match Cli.parseIndex s.toList with | .err _ => true | _ => false)) =
      [true, true, true, true, true] := by decide +kernel

end Grib.Conformance
