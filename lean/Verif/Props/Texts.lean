import Verif.Props.Panics

/-! # C66: the texts shown for times, surfaces, grids and columns; C42: the tables of the crate -/

namespace Grib.Cli

open Grib.Text Grib.Model Grib.Spec Grib.Props Grib.Codes

variable {ε F G : Type}

/-! ## C42: which generated table each table uses -/

/-- The number of each table in the Manual on Codes: section, number, and discipline and category where it has them. -/
def manualNumber : Table → Option (Nat × Nat × List Nat)
  | .common00 | .common11 => none
  | .t0_0 => some (0, 0, []) | .t1_1 => some (1, 1, []) | .t1_2 => some (1, 2, []) | .t1_3 => some (1, 3, [])
  | .t1_4 => some (1, 4, []) | .t3_1 => some (3, 1, []) | .t4_0 => some (4, 0, []) | .t4_1 d => some (4, 1, [d])
  | .t4_2 d c => some (4, 2, [d, c]) | .t4_3 => some (4, 3, []) | .t4_4 => some (4, 4, []) | .t4_5 => some (4, 5, [])
  | .t5_0 => some (5, 0, [])

/-- The discipline and category of a generated table. -/
def optNumbers : Gen.OptArg → List Nat
  | .none => []
  | .l1 d => [d]
  | .l2 d c => [d, c]

/-- The categories for which the crate has a table 4.2. -/
def HasTable42 (d c : Nat) : Prop :=
  (d = 0 ∧ (c ≤ 7 ∨ (13 ≤ c ∧ c ≤ 20) ∨ c = 190 ∨ c = 191)) ∨ (d = 1 ∧ c ≤ 2) ∨ (d = 2 ∧ (c = 0 ∨ (3 ≤ c ∧ c ≤ 5))) ∨
    (d = 3 ∧ c ≤ 6) ∨ (d = 4 ∧ c ≤ 10) ∨ (d = 10 ∧ (c ≤ 4 ∨ c = 191)) ∨ (d = 20 ∧ c ≤ 2)

instance (d c : Nat) : Decidable (HasTable42 d c) := by unfold HasTable42; infer_instance

theorem mem_pairs42 (d c : Nat) : (d, c) ∈ pairs42 ↔ HasTable42 d c := by
  constructor
  · intro h
    have : ∀ p ∈ pairs42, HasTable42 p.1 p.2 := by decide
    exact this _ h
  · intro h
    have key : ((List.range 21).all fun d => (List.range 192).all fun c => !decide (HasTable42 d c) || decide ((d, c) ∈ pairs42)) =
        true := by decide +kernel
    rw [List.all_eq_true] at key
    have key := key d (List.mem_range.mpr (by unfold HasTable42 at h; omega))
    rw [List.all_eq_true] at key
    have key := key c (List.mem_range.mpr (by unfold HasTable42 at h; omega))
    simpa [h] using key

/-- C42. Each table of the crate uses the generated table with its own number in the Manual on Codes; tables 4.1 and 4.2
exist for these disciplines and categories and no others. -/
theorem C42_numbers (t : Table) :
    (∀ id, t.source = .grib2 id → manualNumber t = some (id.1, id.2.1, optNumbers id.2.2)) ∧
    (∀ n, t.source = .common n → (t = .common00 ∧ n = 0) ∨ (t = .common11 ∧ n = 11)) ∧
    (t.source = .unsupported ↔ (∃ d, t = .t4_1 d ∧ d ∉ [0, 1, 2, 3, 4, 10, 20]) ∨ (∃ d c, t = .t4_2 d c ∧ ¬ HasTable42 d c)) := by
  cases t with
  | t4_1 d =>
    by_cases h : d ∈ [0, 1, 2, 3, 4, 10, 20]
    · have hs : (Table.t4_1 d).source = .grib2 (4, 1, .l1 d) := if_pos h
      rw [hs]
      refine ⟨fun id e => by cases e; rfl, (fun n e => by cases e), ⟨(fun e => by cases e), ?_⟩⟩
      rintro (⟨d', e, hd⟩ | ⟨d', c, e, -⟩)
      · cases e; exact absurd h hd
      · cases e
    · have hs : (Table.t4_1 d).source = .unsupported := if_neg h
      rw [hs]
      exact ⟨(fun id e => by cases e), (fun n e => by cases e), fun _ => .inl ⟨d, rfl, h⟩, fun _ => rfl⟩
  | t4_2 d c =>
    by_cases h : (d, c) ∈ pairs42
    · have hs : (Table.t4_2 d c).source = .grib2 (4, 2, .l2 d c) := if_pos h
      rw [hs]
      refine ⟨fun id e => by cases e; rfl, (fun n e => by cases e), ⟨(fun e => by cases e), ?_⟩⟩
      rintro (⟨d', e, hd⟩ | ⟨d', c', e, hn⟩)
      · cases e
      · cases e; exact absurd ((mem_pairs42 d c).mp h) hn
    · have hs : (Table.t4_2 d c).source = .unsupported := if_neg h
      rw [hs]
      exact ⟨(fun id e => by cases e), (fun n e => by cases e), fun _ => .inr ⟨d, c, rfl, fun hh => h ((mem_pairs42 d c).mpr hh)⟩,
        fun _ => rfl⟩
  | common00 => exact ⟨(fun id e => by cases e), (fun n e => by cases e; exact .inl ⟨rfl, rfl⟩), by simp [Table.source]⟩
  | common11 => exact ⟨(fun id e => by cases e), (fun n e => by cases e; exact .inr ⟨rfl, rfl⟩), by simp [Table.source]⟩
  | _ => exact ⟨(fun id e => by cases e; rfl), (fun n e => by cases e), by simp [Table.source]⟩

example : HasTable42 0 17 ∧ ¬ HasTable42 0 8 := by unfold HasTable42; omega

/-! ## Numbers -/

/-- `s` is the decimal notation of `v`: a minus sign exactly for negative numbers. -/
def IsSigned (s : Str) (v : Int) : Prop := (0 ≤ v ∧ IsDecimal s v.toNat) ∨ (v < 0 ∧ ∃ t, s = '-' :: t ∧ IsDecimal t (-v).toNat)

theorem showInt_signed (v : Int) : IsSigned (showInt v) v := by
  unfold showInt IsSigned
  split
  · rename_i h
    refine .inr ⟨h, showNat v.natAbs, rfl, ?_⟩
    rw [show (-v).toNat = v.natAbs by omega]
    exact showNat_decimal _
  · rename_i h
    refine .inl ⟨by omega, ?_⟩
    rw [show v.toNat = v.natAbs by omega]
    exact showNat_decimal _

/-! ## Times -/

/-- C66. The time shown in a listing is the stored number followed by the abbreviation of the stored unit in brackets; for
the unit "missing" by nothing, for a unit that is not in the table by its number. -/
theorem C66_time (unit value : Nat) : ∃ v, IsDecimal v value ∧
    (∀ u, timeUnitName unit = some u → (ForecastTime.fromNumbers unit value).show = v ++ " [".toList ++ u.toList ++ "]".toList) ∧
    (unit = 255 → (ForecastTime.fromNumbers unit value).show = v) ∧
    (timeUnitName unit = none → unit ≠ 255 → ∃ n, IsDecimal n unit ∧
      (ForecastTime.fromNumbers unit value).show = v ++ " [unit: ".toList ++ n ++ "]".toList) := by
  refine ⟨showNat value, showNat_decimal value, ?_, ?_, ?_⟩
  · intro u hu
    unfold timeUnitName at hu
    split at hu <;> first | (cases hu; done) | (cases hu; simp [ForecastTime.show, ForecastTime.fromNumbers, Table4_4.tryFrom,
      Code.ofTry, Table4_4.shortExpr])
  · rintro rfl
    simp [ForecastTime.show, ForecastTime.fromNumbers, Table4_4.tryFrom, Code.ofTry, Table4_4.shortExpr]
  · intro hu h255
    refine ⟨showNat unit, showNat_decimal unit, ?_⟩
    have : Table4_4.tryFrom unit = none := by
      unfold Table4_4.tryFrom
      unfold timeUnitName at hu
      split at hu <;> first | (cases hu; done) | (split <;> first | rfl | contradiction)
    simp [ForecastTime.show, ForecastTime.fromNumbers, this, Code.ofTry]

example : (ForecastTime.fromNumbers 10 8).show = "8 [3h]".toList ∧ (ForecastTime.fromNumbers 255 8).show = "8".toList ∧
    (ForecastTime.fromNumbers 9 8).show = "8 [unit: 9]".toList := by decide

/-- C66. The time shown in a description: the stored number, and the name of the stored unit, or its number if it has none. -/
theorem C66_time_description (unit value : Nat) :
    IsDecimal (ForecastTime.fromNumbers unit value).describe.2 value ∧
    ((∃ name, (unit, name) ∈ [(0, "Minute"), (1, "Hour"), (2, "Day"), (3, "Month"), (4, "Year"), (5, "Decade"), (6, "Normal"),
        (7, "Century"), (10, "ThreeHours"), (11, "SixHours"), (12, "TwelveHours"), (13, "Second"), (255, "Missing")] ∧
        (ForecastTime.fromNumbers unit value).describe.1 = name.toList) ∨
      (unit ∉ [0, 1, 2, 3, 4, 5, 6, 7, 10, 11, 12, 13, 255] ∧ ∃ n, IsDecimal n unit ∧
        (ForecastTime.fromNumbers unit value).describe.1 = "code ".toList ++ n)) := by
  refine ⟨showNat_decimal value, ?_⟩
  unfold ForecastTime.describe ForecastTime.fromNumbers
  dsimp only
  cases h : Table4_4.tryFrom unit with
  | none =>
    right
    refine ⟨?_, showNat unit, showNat_decimal unit, rfl⟩
    intro hm
    simp only [List.mem_cons, List.not_mem_nil, or_false] at hm
    rcases hm with rfl | rfl | rfl | rfl | rfl | rfl | rfl | rfl | rfl | rfl | rfl | rfl | rfl <;> cases h
  | some u =>
    left
    unfold Table4_4.tryFrom at h
    split at h <;> cases h <;> exact ⟨_, by simp, rfl⟩

/-! ## Surfaces -/

/-- Units of fixed surfaces (code table 4.5), by unit. -/
def surfaceUnits : List (String × List Nat) :=
  [("m", [11, 12, 26, 27, 30, 102, 103, 106, 117, 160, 161]), ("Pa", [18, 100, 108]), ("K", [20, 107, 170]),
   ("kg m-3", [21, 22, 169]), ("Bq m-3", [23, 24]), ("dBZ", [25]), ("%", [13]), ("\"sigma\" value", [104]),
   ("K m2 kg-1 s-1", [109]), ("m2 s-1", [171]), ("Numeric", [114, 151, 152, 168])]

/-- C66. The unit of a surface is the one whose list has its type. -/
theorem C66_unit (s : FixedSurface) (u : String) : s.unit = some u ↔ ∃ l, (u, l) ∈ surfaceUnits ∧ s.surfaceType ∈ l := by
  obtain ⟨t, f, v⟩ := s
  constructor
  · intro h
    unfold FixedSurface.unit at h
    dsimp only at h ⊢
    split at h <;> first | (cases h; done) | (cases h; simp [surfaceUnits])
  · rintro ⟨l, hl, ht⟩
    dsimp only at ht
    simp only [surfaceUnits, List.mem_cons, List.not_mem_nil, or_false, Prod.mk.injEq] at hl
    rcases hl with ⟨rfl, rfl⟩ | ⟨rfl, rfl⟩ | ⟨rfl, rfl⟩ | ⟨rfl, rfl⟩ | ⟨rfl, rfl⟩ | ⟨rfl, rfl⟩ | ⟨rfl, rfl⟩ | ⟨rfl, rfl⟩ |
      ⟨rfl, rfl⟩ | ⟨rfl, rfl⟩ | ⟨rfl, rfl⟩ <;>
    · simp only [List.mem_cons, List.not_mem_nil, or_false] at ht
      rcases ht with rfl | rfl | rfl | rfl | rfl | rfl | rfl | rfl | rfl | rfl | rfl <;> rfl

example : (⟨100, 0, 85000⟩ : FixedSurface).unit = some "Pa" := rfl

/-- C66. The surface shown in a description, from its octets: the text of its type; the scale factor, or "Missing" exactly if
all bits of its octet are set; the scaled value, or "Missing" exactly if all bits of its four octets are set. -/
theorem C66_surface (k : Constants) (t : Nat) (f : UInt8) (v : List UInt8) (hv : v.length = 4) :
    let d := (⟨t, asGribInt 8 f.toNat, asGribInt 32 (be v)⟩ : FixedSurface).describe k
    d.1 = tableText k .t4_5 t ∧
    (f = 255 → d.2.1 = "Missing".toList) ∧ (f ≠ 255 → IsSigned d.2.1 (signMagnitude [f])) ∧
    (v = [255, 255, 255, 255] → d.2.2 = "Missing".toList) ∧ (v ≠ [255, 255, 255, 255] → IsSigned d.2.2 (signMagnitude v)) := by
  have hf : f.toNat < 2 ^ 8 := f.toNat_lt
  have hbe : be v < 2 ^ 32 := by have := be_lt v; rwa [hv] at this
  have h255 : f = 255 ↔ f.toNat = 2 ^ 8 - 1 := by rw [← UInt8.toNat_inj]; rfl
  have hones : v = [255, 255, 255, 255] ↔ be v = 2 ^ 32 - 1 := by
    match v, hv with
    | [a, b, c, e], _ =>
      have := a.toNat_lt
      have := b.toNat_lt
      have := c.toNat_lt
      have := e.toNat_lt
      simp only [List.cons.injEq, and_true, ← UInt8.toNat_inj, be, List.foldl]
      have h : (255 : UInt8).toNat = 255 := rfl
      rw [h]
      omega
  obtain ⟨h1, h2⟩ := C41_missing_iff t f.toNat (be v) hf hbe
  have e1 : asGribInt 8 f.toNat = signMagnitude [f] := by
    rw [← asGribInt_spec [f] (by simp)]; simp [be]
  have e2 : asGribInt 32 (be v) = signMagnitude v := by
    rw [← asGribInt_spec v (by omega), hv]
  dsimp only [FixedSurface.describe]
  refine ⟨rfl, ?_, ?_, ?_, ?_⟩
  · intro h
    rw [if_pos (h2.mpr (h255.mp h))]
  · intro h
    rw [if_neg (fun hh => h (h255.mpr (h2.mp hh))), ← e1]
    exact showInt_signed _
  · intro h
    rw [if_pos (h1.mpr (hones.mp h))]
  · intro h
    rw [if_neg (fun hh => h (hones.mpr (h1.mp hh))), ← e2]
    exact showInt_signed _

/-- 850 hPa, and a missing surface. -/
example : ((⟨100, asGribInt 8 (0xfe : UInt8).toNat, asGribInt 32 (be [0, 0, 3, 82])⟩ : FixedSurface).describe noTables).2 =
      ("-126".toList, "850".toList) ∧
    ((⟨255, asGribInt 8 (0xff : UInt8).toNat, asGribInt 32 (be [255, 255, 255, 255])⟩ : FixedSurface).describe noTables).2 =
      ("Missing".toList, "Missing".toList) := by decide

/-! ## Grid types -/

/-- C66. The grid type in a listing, for a grid definition section long enough for its template. -/
theorem C66_grid_type (d : GridDefinition) (s : Str) (h : gridType d = .ok s) :
    let t := sectNumber d.payload 13 14
    ((t, s) ∈ [(0, "regular_ll".toList), (20, "polar_stereographic".toList), (30, "lambert".toList), (40, "regular_gg".toList)] ∧
      ((t = 0 ∨ t = 40) → d.payload.length = 67)) ∨
    (((t ≠ 0 ∧ t ≠ 20 ∧ t ≠ 30 ∧ t ≠ 40) ∨ ((t = 0 ∨ t = 40) ∧ 67 < d.payload.length)) ∧
      ∃ n, IsDecimal n t ∧ s = "unknown (template ".toList ++ n ++ ")".toList) := by
  dsimp only
  unfold gridType at h
  split at h
  · rename_i t ht
    cases h
    left
    obtain ⟨-, -, h3⟩ := C63_octets d t ht
    obtain ⟨-, hc⟩ := (C63_definition d).ok_iff.1 ⟨t, ht⟩
    refine ⟨?_, ?_⟩
    · simp only [List.mem_cons, List.not_mem_nil, or_false, Prod.mk.injEq] at h3 ⊢
      rcases h3 with ⟨e1, e2⟩ | ⟨e1, e2⟩ | ⟨e1, e2⟩ | ⟨e1, e2⟩ <;> rw [e1, e2] <;> simp
    · omega
  · rename_i e he
    right
    obtain ⟨-, h9, hc⟩ := ((C63_definition d).err_iff e).1 he
    refine ⟨hc, ?_⟩
    rw [GridDefinition.gridTmplNum, rdAs_number (ε := Empty) (i := 7) (n := 2) (by omega)] at h
    cases h
    exact ⟨_, showNat_decimal _, rfl⟩
  · cases h

example : (gridType ⟨List.replicate 67 0⟩).ok? = some "regular_ll".toList ∧
    (gridType ⟨[0, 0, 0, 0, 0, 0, 0, 0, 101]⟩).ok? = some "unknown (template 101)".toList := by decide +kernel

/-! ## Columns -/

/-- C66. A cell aligned to the right is preceded by the spaces that make it as wide as its column; one to the left is
followed by them; a cell that is too wide is not cut. -/
theorem C66_cells (n : Nat) (s : Str) :
    (∃ a, padLeft n s = List.replicate a ' ' ++ s) ∧ (padLeft n s).length = max n s.length ∧
    (∃ a, padRight n s = s ++ List.replicate a ' ') ∧ (padRight n s).length = max n s.length := by
  refine ⟨⟨_, rfl⟩, ?_, ⟨_, rfl⟩, ?_⟩
  · simp only [padLeft, List.length_append, List.length_replicate]; omega
  · simp only [padRight, List.length_append, List.length_replicate]; omega

/-- C66. A line of `list` whose cells are not wider than their columns is 190 characters wide, and each cell is in its own
columns, whatever the other ones are. -/
theorem C66_line (r : ListRow) (h1 : r.id.length ≤ 8) (h2 : r.category.length ≤ 31) (h3 : r.process.length ≤ 18)
    (h4 : r.time.length ≤ 14) (h5 : r.surface1.length ≤ 33) (h6 : r.surface2.length ≤ 33) (h7 : (showNat r.missing).length ≤ 10)
    (h8 : (showNat r.total).length ≤ 10) (h9 : r.gridType.length ≤ 21) :
    r.line.length = 190 ∧
    (r.line.drop 0).take 8 = padLeft 8 r.id ∧ (r.line.drop 11).take 31 = padRight 31 r.category ∧
    (r.line.drop 43).take 18 = padRight 18 r.process ∧ (r.line.drop 62).take 14 = padLeft 14 r.time ∧
    (r.line.drop 77).take 33 = padLeft 33 r.surface1 ∧ (r.line.drop 111).take 33 = padLeft 33 r.surface2 ∧
    (r.line.drop 147).take 10 = padLeft 10 (showNat r.missing) ∧ (r.line.drop 158).take 10 = padLeft 10 (showNat r.total) ∧
    r.line.drop 169 = padRight 21 r.gridType := by
  have l1 := (C66_cells 8 r.id).2.1
  have l2 := (C66_cells 31 r.category).2.2.2
  have l3 := (C66_cells 18 r.process).2.2.2
  have l4 := (C66_cells 14 r.time).2.1
  have l5 := (C66_cells 33 r.surface1).2.1
  have l6 := (C66_cells 33 r.surface2).2.1
  have l7 := (C66_cells 10 (showNat r.missing)).2.1
  have l8 := (C66_cells 10 (showNat r.total)).2.1
  have l9 := (C66_cells 21 r.gridType).2.2.2
  rw [Nat.max_eq_left h1] at l1
  rw [Nat.max_eq_left h2] at l2
  rw [Nat.max_eq_left h3] at l3
  rw [Nat.max_eq_left h4] at l4
  rw [Nat.max_eq_left h5] at l5
  rw [Nat.max_eq_left h6] at l6
  rw [Nat.max_eq_left h7] at l7
  rw [Nat.max_eq_left h8] at l8
  rw [Nat.max_eq_left h9] at l9
  have hb : " │ ".toList.length = 3 := by decide
  unfold ListRow.line
  generalize padLeft 8 r.id = c1 at *
  generalize padRight 31 r.category = c2 at *
  generalize padRight 18 r.process = c3 at *
  generalize padLeft 14 r.time = c4 at *
  generalize padLeft 33 r.surface1 = c5 at *
  generalize padLeft 33 r.surface2 = c6 at *
  generalize padLeft 10 (showNat r.missing) = c7 at *
  generalize padLeft 10 (showNat r.total) = c8 at *
  generalize padRight 21 r.gridType = c9 at *
  generalize " │ ".toList = bar at *
  have cut : ∀ (a b c : Str) (n m : Nat), a.length = n → b.length = m → ((a ++ (b ++ c)).drop n).take m = b := by
    intro a b c n m ha hb
    rw [← ha, List.drop_left, ← hb, List.take_left]
  refine ⟨by simp only [List.length_append, List.length_cons, List.length_nil]; omega, ?_, ?_, ?_, ?_, ?_, ?_, ?_, ?_, ?_⟩
  · exact (by simpa only [List.append_assoc, List.nil_append] using cut [] c1 _ 0 8 rfl l1)
  · simpa only [List.append_assoc] using cut (c1 ++ bar) c2 _ 11 31 (by simp only [List.length_append]; omega) l2
  · simpa only [List.append_assoc] using cut (c1 ++ bar ++ c2 ++ [' ']) c3 _ 43 18
      (by simp only [List.length_append, List.length_cons, List.length_nil]; omega) l3
  · simpa only [List.append_assoc] using cut (c1 ++ bar ++ c2 ++ [' '] ++ c3 ++ [' ']) c4 _ 62 14
      (by simp only [List.length_append, List.length_cons, List.length_nil]; omega) l4
  · simpa only [List.append_assoc] using cut (c1 ++ bar ++ c2 ++ [' '] ++ c3 ++ [' '] ++ c4 ++ [' ']) c5 _ 77 33
      (by simp only [List.length_append, List.length_cons, List.length_nil]; omega) l5
  · simpa only [List.append_assoc] using cut (c1 ++ bar ++ c2 ++ [' '] ++ c3 ++ [' '] ++ c4 ++ [' '] ++ c5 ++ [' ']) c6 _ 111 33
      (by simp only [List.length_append, List.length_cons, List.length_nil]; omega) l6
  · simpa only [List.append_assoc] using cut (c1 ++ bar ++ c2 ++ [' '] ++ c3 ++ [' '] ++ c4 ++ [' '] ++ c5 ++ [' '] ++ c6 ++ bar) c7 _
      147 10 (by simp only [List.length_append, List.length_cons, List.length_nil]; omega) l7
  · simpa only [List.append_assoc] using cut (c1 ++ bar ++ c2 ++ [' '] ++ c3 ++ [' '] ++ c4 ++ [' '] ++ c5 ++ [' '] ++ c6 ++ bar ++
      c7 ++ ['/']) c8 _ 158 10 (by simp only [List.length_append, List.length_cons, List.length_nil]; omega) l8
  · have : (c1 ++ bar ++ c2 ++ [' '] ++ c3 ++ [' '] ++ c4 ++ [' '] ++ c5 ++ [' '] ++ c6 ++ bar ++ c7 ++ ['/'] ++ c8 ++ [' ']).length =
        169 := by simp only [List.length_append, List.length_cons, List.length_nil]; omega
    rw [← this, List.drop_left]

example : (⟨"0.0".toList, "Temperature".toList, "Forecast".toList, "6 [h]".toList, "85000 [Pa]".toList, "NaN".toList, 0, 4,
    "regular_ll".toList⟩ : ListRow).line.length = 190 := by decide +kernel

/-! ## Parts of `inspect` -/

/-- C66. `inspect` shows all three parts if none is asked for, else exactly those asked for. -/
theorem C66_parts (a b c : Bool) : (⟨a, b, c⟩ : InspectFlags).items =
    ⟨a || (!b && !c), b || (!a && !c), c || (!a && !b)⟩ := by
  cases a <;> cases b <;> cases c <;> rfl

/-- C42. The text of a parameter is the entry with its number in Table 4.2 of its discipline and category, and there is none
beyond the table or if there is no such table. -/
theorem C42_parameter_text (k : Constants) (p : Parameter) :
    (∀ v, HasTable42 p.discipline p.category → k.grib2 (4, 2, .l2 p.discipline p.category) = some v →
      p.description k = v[p.num]?) ∧
    (¬ HasTable42 p.discipline p.category → p.description k = none) := by
  constructor
  · intro v hp hv
    have hs : (Table.t4_2 p.discipline p.category).source = .grib2 (4, 2, .l2 p.discipline p.category) :=
      if_pos ((mem_pairs42 _ _).mpr hp)
    unfold Parameter.description Table.data
    rw [hs]
    simp only [hv, Option.getD_some, lookup]
    cases v[p.num]? <;> rfl
  · intro hp
    have hs : (Table.t4_2 p.discipline p.category).source = .unsupported :=
      if_neg fun h => hp ((mem_pairs42 _ _).mp h)
    unfold Parameter.description Table.data
    rw [hs]
    simp [lookup, Codes.description]

example : (⟨0, 34, 2, 1, 3, 1⟩ : Parameter).description
    ⟨fun _ => none, fun t => if t = (4, 2, .l2 0 3) then some ["Pressure".toList, "Pressure reduced to MSL".toList] else none⟩ =
      some "Pressure reduced to MSL".toList := by decide +kernel

end Grib.Cli
