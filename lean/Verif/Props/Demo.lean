import Verif.Model.Demo
import Verif.Spec.Demo
import Verif.Lemmas.IeeeOps
import Verif.Props.SingleEdges
import Verif.Props.Panics
import Verif.Props.DecodeOutcome
import Verif.Props.Grid
import Mathlib.Tactic.Linarith
import Mathlib.Tactic.Positivity

/-! # C89: the demo application -/

namespace Grib.Demo

open Grib Grib.Text Grib.Model Grib.Spec Grib.Props Grib.Codes Grib.Cli

variable {G : Type}

/-! ## The palette -/

/-- Single-precision numbers are not rounded again. -/
theorem round_binary32 (s : Bool) (e m : Nat) (he : e < 255) (hm : m < 2 ^ 23) (y : Rat) (hy : (binary32 s e m).val = some y) :
    Fmt.single.round y = y := by
  unfold binary32 at hy
  rw [if_neg (by omega)] at hy
  by_cases h0 : e = 0 ∧ m = 0
  · rw [if_pos h0] at hy
    have : y = 0 := by cases s <;> simp [Fl.val] at hy <;> exact hy.symm
    rw [this, Fmt.round_zero]
  · rw [if_neg h0] at hy
    obtain rfl := Option.some.inj hy
    by_cases h1 : e = 0
    · have := Fmt.single.round_exact (by decide) (m := (if s then -1 else 1) * (m : Int)) (k := -149)
        (by rw [abs_mul, abs_of_nonneg (Int.natCast_nonneg m)]; cases s <;> simp [Fmt.single] <;> omega) (by decide)
      rw [if_pos h1, zpow_two_eq, ← mul_assoc]
      have e1 : ((if s then -1 else 1 : Rat)) * (m : Rat) = (((if s then -1 else 1) * (m : Int) : Int) : Rat) := by
        cases s <;> push_cast <;> rfl
      rw [e1]
      exact this
    · have := Fmt.single.round_exact (by decide) (m := (if s then -1 else 1) * ((2 ^ 23 + m : Nat) : Int)) (k := (e : Int) - 150)
        (by rw [abs_mul, abs_of_nonneg (Int.natCast_nonneg _)]; cases s <;> simp [Fmt.single] <;> omega)
        (by show (-149 : Int) ≤ _; omega)
      rw [if_neg h1, zpow_two_eq, ← mul_assoc]
      have e1 : ((if s then -1 else 1 : Rat)) * (2 ^ 23 + (m : Rat)) =
          (((if s then -1 else 1) * ((2 ^ 23 + m : Nat) : Int) : Int) : Rat) := by
        cases s <;> push_cast <;> rfl
      rw [e1]
      exact this

theorem toKelvin_val (t : Int) (ht : t ∈ [35, 30, 25, 20, 15, 10, 5, 0, -5]) :
    toKelvin t = .fin (t + 8950579 / 32768) := by
  revert t ht
  decide +kernel

theorem round_threshold (t : Int) (ht : t ∈ [35, 30, 25, 20, 15, 10, 5, 0, -5]) :
    Fmt.single.round (t + 27315 / 100) = t + 8950579 / 32768 := by
  revert t ht
  decide +kernel

theorem warmer_iff (s : Bool) (e m : Nat) (he : e < 255) (hm : m < 2 ^ 23) (y : Rat) (hy : (binary32 s e m).val = some y)
    (t : Int) (ht : t ∈ [35, 30, 25, 20, 15, 10, 5, 0, -5]) :
    warmer (binary32 s e m) t = decide ((t : Rat) + 27315 / 100 < y) := by
  unfold warmer
  rw [toKelvin_val t ht, Fl.lt_val (x := (t : Rat) + 8950579 / 32768) rfl hy]
  congr 1
  rw [eq_iff_iff]
  constructor
  · intro h
    by_contra hn
    have := Fmt.single.round_mono (by decide) (not_lt.mp hn)
    rw [round_binary32 s e m he hm y hy, round_threshold t ht] at this
    linarith
  · intro h
    linarith

/-- C89. The colour of every finite single-precision number is exactly that of its temperature. -/
theorem C89_palette (s : Bool) (e m : Nat) (he : e < 255) (hm : m < 2 ^ 23) (y : Rat) (hy : (binary32 s e m).val = some y) :
    palette (binary32 s e m) = temperatureColour y := by
  have w := warmer_iff s e m he hm y hy
  unfold palette temperatureColour temperatureClasses coldest
  rw [w 35 (by decide), w 30 (by decide), w 25 (by decide), w 20 (by decide), w 15 (by decide), w 10 (by decide),
    w 5 (by decide), w 0 (by decide), w (-5) (by decide)]
  simp only [List.find?_cons, List.find?_nil]
  generalize decide (((35 : Int) : Rat) + 27315 / 100 < y) = b1
  generalize decide (((30 : Int) : Rat) + 27315 / 100 < y) = b2
  generalize decide (((25 : Int) : Rat) + 27315 / 100 < y) = b3
  generalize decide (((20 : Int) : Rat) + 27315 / 100 < y) = b4
  generalize decide (((15 : Int) : Rat) + 27315 / 100 < y) = b5
  generalize decide (((10 : Int) : Rat) + 27315 / 100 < y) = b6
  generalize decide (((5 : Int) : Rat) + 27315 / 100 < y) = b7
  generalize decide (((0 : Int) : Rat) + 27315 / 100 < y) = b8
  generalize decide (((-5 : Int) : Rat) + 27315 / 100 < y) = b9
  clear w hy he hm
  revert b1 b2 b3 b4 b5 b6 b7 b8 b9
  decide +kernel

/-- C89. Values that are no numbers are shown like the coldest temperatures. -/
theorem C89_not_numbers : palette .nan = coldest ∧ palette (.inf true) = coldest ∧ palette (.inf false) = [180, 0, 104, 255] := by
  decide +kernel

/-- C89, failure: a missing value cannot be told from a temperature of -5 °C or less. -/
theorem C89_missing_fails (s : Bool) (e m : Nat) (he : e < 255) (hm : m < 2 ^ 23) (y : Rat)
    (hy : (binary32 s e m).val = some y) (hc : y ≤ 26815 / 100) : palette (binary32 s e m) = palette .nan := by
  rw [C89_palette s e m he hm y hy, C89_not_numbers.1]
  unfold temperatureColour
  rw [List.find?_eq_none.mpr]
  · rfl
  · intro c hcl
    have : -5 ≤ c.1 := by revert c; decide
    have : (-5 : Rat) ≤ c.1 := by exact_mod_cast this
    simp only [decide_eq_true_eq, not_lt]
    linarith

/-- 268.2 K as a single-precision number. -/
example : (binary32 false 135 0x61999).val = some (8788377 / 32768) ∧ palette (binary32 false 135 0x61999) = [0, 65, 255, 255] ∧
    temperatureColour (8788377 / 32768) = [0, 65, 255, 255] := by decide +kernel

/-! ## The picture -/

theorem palette_length (v : Fl) : (palette v).length = 4 := by
  unfold palette
  repeat' split
  all_goals rfl

theorem octets_length (vs : List Fl) : (vs.flatMap palette).length = 4 * vs.length := by
  induction vs with
  | nil => rfl
  | cons v vs ih => rw [List.flatMap_cons, List.length_append, ih, palette_length, List.length_cons]; omega

theorem octets_at (vs : List Fl) (k : Nat) (v : Fl) (h : vs[k]? = some v) :
    ((vs.flatMap palette).drop (4 * k)).take 4 = palette v := by
  induction vs generalizing k with
  | nil => simp at h
  | cons u vs ih =>
    cases k with
    | zero =>
      simp only [List.getElem?_cons_zero, Option.some.injEq] at h
      subst h
      rw [List.flatMap_cons, Nat.mul_zero, List.drop_zero, List.take_append_of_le_length (by rw [palette_length])]
      rw [← palette_length u, List.take_length]
    | succ k =>
      rw [List.getElem?_cons_succ] at h
      rw [List.flatMap_cons, List.drop_append, palette_length,
        List.drop_eq_nil_of_le (by rw [palette_length]; omega), List.nil_append,
        show 4 * (k + 1) - 4 = 4 * k by omega]
      exact ih k h

theorem imageData_iff (vs : List Fl) (w h : Nat) (i : Image) :
    imageData (vs.flatMap palette) w h = some i ↔ vs ≠ [] ∧ vs.length = w * h ∧ i = ⟨w, h, vs.flatMap palette⟩ := by
  unfold imageData
  rw [octets_length]
  have hn : vs ≠ [] ↔ vs.length ≠ 0 := by rw [ne_eq, ← List.length_eq_zero_iff]
  rw [hn]
  generalize vs.length = n
  have e4 : 4 * n / 4 = n := by omega
  rw [e4]
  by_cases h0 : n = 0
  · rw [if_pos (by left; omega)]; simp [h0]
  · rw [if_neg (by omega)]
    by_cases hw : w = 0 ∨ n % w ≠ 0
    · rw [if_pos hw]
      constructor
      · intro h; cases h
      · rintro ⟨-, he, -⟩
        rcases hw with rfl | hw
        · omega
        · rw [he] at hw; simp at hw
    · rw [if_neg hw]
      have hw1 : 0 < w := by omega
      have hw2 : n % w = 0 := by omega
      by_cases hh : n / w = h
      · rw [if_neg (by omega)]
        have : n = w * h := by rw [← hh]; have := Nat.div_add_mod n w; omega
        simp only [Option.some.injEq]
        constructor
        · intro h; exact ⟨h0, this, h.symm⟩
        · intro h; exact h.2.2.symm
      · rw [if_pos hh]
        constructor
        · intro h; cases h
        · rintro ⟨-, he, -⟩
          exfalso; apply hh; rw [he]; exact Nat.mul_div_cancel_left h hw1

/-- The picture has the values `vs` as pixels, row after row. -/
def Shows (i : Image) (w h : Nat) (vs : List Fl) : Prop :=
  i.width = w ∧ i.height = h ∧ i.octets.length = 4 * (w * h) ∧
    ∀ x < w, ∀ y < h, ∃ v, vs[y * w + x]? = some v ∧ i.pixel x y = palette v

/-- The submessage of a row. -/
theorem nth_row {r0 : Rdr} {g : Grib2} (h : Grib2.read r0 = .ok g) (index : Nat) :
    (g.iter.nth false index).1 = .ok (SubIter.drain (g.len + 1) g.iter)[index]? := by
  have e : g.len = g.submessages.length := rfl
  rw [SubIter.nth, Grib2.iter]
  simp only
  rw [opened_next h, opened_drain h _ _ (by omega), List.drop_zero, List.getElem?_map]
  cases g.submessages[index]? <;> rfl

/-- The picture of a submessage, given its grid definition. -/
theorem picture_eq (c : Codecs Fl) {r0 : Rdr} {g : Grib2} (h : Grib2.read r0 = .ok g) (r : Rdr) (index : Nat)
    (ix : Nat × Nat) (m : SubMessage) (hm : (SubIter.drain (g.len + 1) g.iter)[index]? = some (ix, m)) :
    picture c g r index =
      match gridShape ⟨payloadAt r0.data m.s3.2.offset m.s3.2.size⟩ with
      | .panic => .panic
      | .err _ => .ok none
      | .ok (w, h) =>
        match decodeSub c m r with
        | .ok (.done vs) =>
          match imageData (vs.flatMap palette) w h with
          | some i => .ok (some i)
          | none => .panic
        | _ => .panic := by
  obtain ⟨-, -, -, -, v5, -⟩ := view_reads (ε := Empty) h (List.mem_of_getElem? hm)
  unfold picture
  rw [nth_row h, hm, Outcome.bind_ok]
  dsimp only
  rw [v5, Outcome.bind_ok]
  cases gridShape ⟨payloadAt r0.data m.s3.2.offset m.s3.2.size⟩ with
  | panic => rfl
  | err e => rfl
  | ok wh =>
    dsimp only
    unfold decodeSub decodeAll
    cases (Decoder.fromSub m r).1 with
    | panic => rfl
    | err e => rfl
    | ok d =>
      simp only [unwrap, Outcome.bind_ok]
      cases d.dispatch c with
      | panic => rfl
      | err e => rfl
      | ok it =>
        simp only [Outcome.bind_ok]
        cases it.toList c.ops <;> rfl

/-- C89. Clicking on a row. -/
theorem C89_picture (c : Codecs Fl) (r0 : Rdr) (g : Grib2) (h : Grib2.read r0 = .ok g) (r : Rdr) (index : Nat)
    (ix : Nat × Nat) (m : SubMessage) (hm : (SubIter.drain (g.len + 1) g.iter)[index]? = some (ix, m))
    (d : GridDefinition) (hd : d = ⟨payloadAt r0.data m.s3.2.offset m.s3.2.size⟩) :
    ((∃ i, picture c g r index = .ok (some i)) ↔
      ∃ w h vs, gridShape d = .ok (w, h) ∧ decodeSub c m r = .ok (.done vs) ∧ vs ≠ [] ∧ vs.length = w * h) ∧
    (∀ i, picture c g r index = .ok (some i) →
      ∃ w h vs, gridShape d = .ok (w, h) ∧ decodeSub c m r = .ok (.done vs) ∧ Shows i w h vs) ∧
    (picture c g r index = .ok none ↔ ∃ e, gridShape d = .err e) := by
  have hp := picture_eq c h r index ix m hm
  rw [← hd] at hp
  have key : ∀ i, picture c g r index = .ok (some i) →
      ∃ w h vs, gridShape d = .ok (w, h) ∧ decodeSub c m r = .ok (.done vs) ∧ imageData (vs.flatMap palette) w h = some i := by
    intro i hi
    rw [hp] at hi
    split at hi
    · cases hi
    · cases hi
    · rename_i w h hs
      split at hi
      · rename_i vs hv
        split at hi
        · rename_i j hj
          cases hi
          exact ⟨w, h, vs, hs, hv, hj⟩
        · cases hi
      · cases hi
  refine ⟨⟨?_, ?_⟩, ?_, ?_⟩
  · rintro ⟨i, hi⟩
    obtain ⟨w, h, vs, h1, h2, h3⟩ := key i hi
    obtain ⟨a, b, -⟩ := (imageData_iff vs w h i).mp h3
    exact ⟨w, h, vs, h1, h2, a, b⟩
  · rintro ⟨w, h, vs, h1, h2, a, b⟩
    refine ⟨⟨w, h, vs.flatMap palette⟩, ?_⟩
    rw [hp, h1, h2]
    dsimp only
    rw [(imageData_iff vs w h _).mpr ⟨a, b, rfl⟩]
  · intro i hi
    obtain ⟨w, h, vs, h1, h2, h3⟩ := key i hi
    obtain ⟨a, b, rfl⟩ := (imageData_iff vs w h i).mp h3
    refine ⟨w, h, vs, h1, h2, rfl, rfl, by rw [octets_length, b], ?_⟩
    intro x hx y hy
    have hlt : y * w + x < vs.length := by
      rw [b]
      calc y * w + x < y * w + w := by omega
        _ = (y + 1) * w := by rw [Nat.succ_mul]
        _ ≤ h * w := Nat.mul_le_mul_right _ hy
        _ = w * h := Nat.mul_comm _ _
    refine ⟨vs[y * w + x], List.getElem?_eq_getElem hlt, ?_⟩
    exact octets_at vs _ _ (List.getElem?_eq_getElem hlt)
  · rw [hp]
    constructor
    · intro hi
      split at hi
      · cases hi
      · rename_i e he; exact ⟨e, he⟩
      · split at hi
        · split at hi <;> cases hi
        · cases hi
    · rintro ⟨e, he⟩
      rw [he]

theorem mapSubs_at {α : Type} {f : Nat × Nat → SubMessage → Outcome Empty α} {l : List ((Nat × Nat) × SubMessage)}
    {as : List α} (h : mapSubs f l = .ok as) (k : Nat) (a : α) (ha : as[k]? = some a) :
    ∃ x, l[k]? = some x ∧ f x.1 x.2 = .ok a := by
  induction l generalizing as k with
  | nil => cases h; simp at ha
  | cons x l ih =>
    obtain ⟨b, hb, h⟩ := Outcome.bind_eq_ok h
    obtain ⟨bs, hbs, h⟩ := Outcome.bind_eq_ok h
    cases h
    cases k with
    | zero => simp only [List.getElem?_cons_zero, Option.some.injEq] at ha; subst ha; exact ⟨x, rfl, hb⟩
    | succ k => exact ih hbs k ha

/-- C89. Clicks beyond the last row (which cannot happen) show nothing; the row that is clicked on is the row of the
submessage shown. -/
theorem C89_rows (k : Constants) (ops : FloatOps G) (showF : G → Str) (c : Codecs Fl) (r0 : Rdr) (g : Grib2)
    (h : Grib2.read r0 = .ok g) (title : Str) (rows : List ListRow) (hl : listing k ops showF g = .ok (title, rows)) :
    (∃ n, IsDecimal n rows.length ∧ title = n ++ " submessage(s)".toList) ∧
    (∀ (index : Nat) (row : ListRow), rows[index]? = some row →
      ∃ ix m, (SubIter.drain (g.len + 1) g.iter)[index]? = some (ix, m) ∧ row.id = showIndex ix ∧
        listRow k ops showF ix m = .ok row) ∧
    ∀ r index, rows.length ≤ index → picture c g r index = .ok none := by
  unfold listing at hl
  rw [sizeHint_iter, Outcome.bind_ok] at hl
  obtain ⟨rows', hr, hl⟩ := Outcome.bind_eq_ok hl
  cases hl
  have e : g.len = g.submessages.length := rfl
  have hlen : rows.length = (SubIter.drain (g.len + 1) g.iter).length := mapSubs_length hr
  have hcount : rows.length = g.len := by
    rw [hlen]
    unfold Grib2.iter
    rw [opened_drain h _ _ (by omega), List.length_map, List.drop_zero]
    rfl
  refine ⟨⟨showNat g.len, by rw [hcount]; exact showNat_decimal _, rfl⟩, ?_, ?_⟩
  · intro index row hrow
    obtain ⟨x, hx, hf⟩ := mapSubs_at hr index row hrow
    refine ⟨x.1, x.2, hx, ?_, hf⟩
    exact (C54_list_row k ops showF r0 g h x.1 x.2 (List.mem_of_getElem? hx) row hf).1
  · intro r index hi
    unfold picture
    rw [nth_row h, List.getElem?_eq_none (by omega)]
    rfl

/-- C89. The listing panics exactly if one of its rows does. -/
theorem C89_listing_panics (k : Constants) (ops : FloatOps G) (showF : G → Str) (r0 : Rdr) (g : Grib2)
    (h : Grib2.read r0 = .ok g) :
    listing k ops showF g = .panic ↔ ∃ ix m, (ix, m) ∈ SubIter.drain (g.len + 1) g.iter ∧ RowPanics r0.data m := by
  rw [← C64_list k ops showF r0 g h]
  unfold listing
  rw [sizeHint_iter, Outcome.bind_ok]
  cases listRows k ops showF g with
  | panic => simp
  | err e => exact e.elim
  | ok rows => simp

/-- C89. Dropping a file shows it exactly if it opens; if it is refused, nothing is shown any more. -/
theorem C89_dropped (data : List UInt8) :
    (∀ g, dropped data = .ok (some g) ↔ Grib2.read ⟨data, 0, []⟩ = .ok g) ∧
    (dropped data = .ok none ↔ ∃ e, Grib2.read ⟨data, 0, []⟩ = .err e) ∧
    (dropped data = .panic ↔ Grib2.read ⟨data, 0, []⟩ = .panic) := by
  unfold dropped
  cases Grib2.read ⟨data, 0, []⟩ with
  | ok g => simp
  | err e => simp
  | panic => simp

/-- C89. Which point of the grid a pixel shows: the pixels are in scanning order whatever that order is, so that the picture
is right (column `i` and row `j` for the point `(i, j)`) exactly for rows scanned all in the same direction, or a single row
or column. -/
theorem C89_right_iff (w h mode : Nat) :
    (∀ x < w, ∀ y < h, visit w h mode (y * w + x) = (x, y)) ↔
      w ≤ 1 ∨ h ≤ 1 ∨ (jConsecutive mode = false ∧ alternating mode = false) := by
  constructor
  · intro h1
    by_contra hn
    have hw : 2 ≤ w := by omega
    have hh : 2 ≤ h := by omega
    cases hj : jConsecutive mode with
    | true =>
      have := h1 1 (by omega) 0 (by omega)
      unfold visit at this
      rw [if_pos hj, Nat.zero_mul, Nat.zero_add, Nat.div_eq_of_lt (by omega)] at this
      exact absurd (congrArg Prod.fst this) (by simp)
    | false =>
      have ha : alternating mode = true := by
        cases ha : alternating mode with
        | true => rfl
        | false => exact absurd (Or.inr (Or.inr ⟨hj, ha⟩)) hn
      have := h1 0 (by omega) 1 (by omega)
      unfold visit along at this
      rw [hj, ha, if_neg (by simp), Nat.one_mul, Nat.add_zero, Nat.div_self (by omega), Nat.mod_self] at this
      have := congrArg Prod.fst this
      simp at this
      omega
  · intro h1 x hx y hy
    unfold visit along
    have d1 : (y * w + x) / w = y := by
      rw [Nat.mul_comm, Nat.mul_add_div (by omega), Nat.div_eq_of_lt hx, Nat.add_zero]
    have d2 : (y * w + x) % w = x := by rw [Nat.mul_comm, Nat.mul_add_mod, Nat.mod_eq_of_lt hx]
    rw [d1, d2]
    rcases h1 with h1 | h1 | ⟨h1, h2⟩
    · obtain rfl : w = 1 := by omega
      obtain rfl : x = 0 := by omega
      rw [Nat.mul_one, Nat.add_zero, Nat.div_eq_of_lt hy, Nat.mod_eq_of_lt hy]
      split <;> simp
    · obtain rfl : h = 1 := by omega
      obtain rfl : y = 0 := by omega
      simp
      intro _ _
      exact Nat.mod_one x
    · simp [h1, h2]

/-- `gridFile` with the reference value 270 K: 279 K and 274 K, two points missing. -/
def demoFile : List UInt8 := messagesBytes [([], { gridRaw with first := { gridRaw.first with repr :=
  [0, 0, 0, 2, 0, 0, 0x43, 0x87, 0, 0, 0, 0, 0, 0, 8, 0] } })]

def demoCodecs : Codecs Fl := singleCodecs (compilerRtPowi .single) (fun _ => none) (fun _ => .err .notSupported)

/-- Its picture: missing points are shown as the coldest ones. -/
example : ∃ g, Grib2.read ⟨demoFile, 0, []⟩ = .ok g ∧
    (picture demoCodecs g ⟨demoFile, 0, []⟩ 0).ok? = some (some ⟨2, 2,
      [0, 32, 128, 255, 185, 235, 255, 255, 0, 32, 128, 255, 0, 150, 255, 255]⟩) :=
  Outcome.exists_of_ok? (f := fun g : Grib2 => (picture demoCodecs g ⟨demoFile, 0, []⟩ 0).ok?) (by decide +kernel)

/-- A 3 by 3 grid, all points present, with a bitmap (nine ones, filled up with zeros to whole octets). -/
def maskedFile : List UInt8 := messagesBytes [([], { gridRaw with first := { gridRaw.first with
  grid := gridRaw.first.grid.map (fun p => ((p.set 4 9).set 28 3).set 32 3), bitmap := [0, 0xff, 0x80],
  repr := [0, 0, 0, 9, 0, 0, 0x43, 0x87, 0, 0, 0, 0, 0, 0, 8, 0], data := List.replicate 9 7 } })]

/-- C89, failure: a picture needs exactly as many values as the grid has columns times rows, but decoding gives an item
for every bit of the bitmap (C22): the demo panics. -/
theorem C89_bitmap_fails : ∃ g, Grib2.read ⟨maskedFile, 0, []⟩ = .ok g ∧
    (SubIter.drain (g.len + 1) g.iter).map (fun x => (x.1, (x.2.gridDef : Outcome GribError _).bind gridShape)) =
      [((0, 0), .ok (3, 3))] ∧
    picture demoCodecs g ⟨maskedFile, 0, []⟩ 0 = .panic := by
  obtain ⟨g, h1, h2⟩ := Outcome.exists_of_ok? (f := fun g : Grib2 =>
    ((SubIter.drain (g.len + 1) g.iter).map (fun x => (x.1, (x.2.gridDef : Outcome GribError _).bind gridShape)),
      picture demoCodecs g ⟨maskedFile, 0, []⟩ 0)) (x := Grib2.read ⟨maskedFile, 0, []⟩)
    (b := ([((0, 0), .ok (3, 3))], .panic)) (by decide +kernel)
  exact ⟨g, h1, congrArg Prod.fst h2, congrArg Prod.snd h2⟩

/-- C89, failure: in the picture of a grid of 2 columns and 2 rows scanned by columns, the pixel in the second column of the
first row shows the point in the first column of the second row. -/
theorem C89_columns_fails : visit 2 2 0b00100000 (0 * 2 + 1) = (0, 1) := by decide

end Grib.Demo
