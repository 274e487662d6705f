import Verif.Model.Jpeg
import Verif.Props.Simple

/-! # C47: JPEG 2000 code streams (and the image codecs in general) -/

namespace Grib.Props

open Grib.Model Grib.Spec

variable {F : Type}

/-- What a library reading a file directly would see: each request gets the next octets, as many as asked for or as are
left. -/
def ideal {α : Type} : OpjProg α → List UInt8 → α × List UInt8
  | .done a, left => (a, left)
  | .read true _ k, left => ideal (k []) left
  | .read false n k, left => ideal (k (left.take n)) (left.drop n)

/-- C47. Whatever the library asks for, in whatever sizes, even depending on what it was given before: it sees exactly the
octets of section 7, in order, and then nothing; the callback never panics. -/
theorem C47_stream {α : Type} (prog : OpjProg α) (sect7 : List UInt8) :
    ∃ s, prog.run (SliceWithOffset.ofBytes sect7) = .ok ((ideal prog sect7).1, s) := by
  suffices h : ∀ (buf : List UInt8) (offset : Nat), offset ≤ buf.length →
      ∃ s, prog.run ⟨buf, offset⟩ = .ok ((ideal prog (buf.drop offset)).1, s) from h sect7 0 (Nat.zero_le _)
  induction prog with
  | done a => exact fun buf offset _ => ⟨_, rfl⟩
  | read null n k ih =>
    intro buf offset ho
    cases null with
    | true => exact ih [] buf offset ho
    | false =>
      simp only [OpjProg.run, SliceWithOffset.read]
      rw [if_neg (by simp), if_neg (by omega), if_pos (by omega)]
      simp only
      have e1 : (buf.drop offset).take (min (buf.length - offset) n) = (buf.drop offset).take n := by
        rw [Nat.min_comm, ← List.length_drop, ← List.take_take, List.take_length]
      have e2 : buf.drop (offset + min (buf.length - offset) n) = (buf.drop offset).drop n := by
        rw [List.drop_drop]
        by_cases h : n ≤ buf.length - offset
        · rw [Nat.min_eq_right h]
        · rw [Nat.min_eq_left (by omega), List.drop_eq_nil_of_le (by omega), List.drop_eq_nil_of_le (by omega)]
      obtain ⟨s, hs⟩ := ih ((buf.drop offset).take n) buf (offset + min (buf.length - offset) n) (by omega)
      rw [e1, hs, e2]
      exact ⟨s, rfl⟩

/-- A program that asks for the given sizes and returns the chunks. -/
def askFor : List Nat → List (List UInt8) → OpjProg (List (List UInt8))
  | [], acc => .done acc
  | n :: ns, acc => .read false n fun bytes => askFor ns (acc ++ [bytes])

theorem ideal_askFor (ns : List Nat) (acc : List (List UInt8)) (left : List UInt8) :
    (ideal (askFor ns acc) left).1.flatten = acc.flatten ++ left.take ns.sum ∧
      (ideal (askFor ns acc) left).1.length = acc.length + ns.length := by
  induction ns generalizing acc left with
  | nil => simp [askFor, ideal]
  | cons n ns ih =>
    obtain ⟨h1, h2⟩ := ih (acc ++ [left.take n]) (left.drop n)
    simp only [askFor, ideal]
    rw [h1, h2]
    constructor
    · rw [List.flatten_append, List.append_assoc, List.sum_cons, List.take_add]
      simp
    · simp; omega

/-- C47. For any sequence of requested sizes, the concatenation of what is delivered is the beginning of section 7 of the
total length requested, all of section 7 once that much has been requested. -/
theorem C47_concatenation (ns : List Nat) (sect7 : List UInt8) :
    ∃ chunks s, (askFor ns []).run (SliceWithOffset.ofBytes sect7) = .ok (chunks, s) ∧ chunks.length = ns.length ∧
      chunks.flatten = sect7.take ns.sum ∧ (sect7.length ≤ ns.sum → chunks.flatten = sect7) := by
  obtain ⟨s, hs⟩ := C47_stream (askFor ns []) sect7
  obtain ⟨h1, h2⟩ := ideal_askFor ns [] sect7
  refine ⟨_, s, hs, by simpa using h2, by simpa using h1, fun h => ?_⟩
  rw [h1, List.take_of_length_le h]; rfl

example : ((askFor [2, 3, 4] []).run (SliceWithOffset.ofBytes [1, 2, 3, 4, 5, 6])).ok?.map (·.1) =
    some [[1, 2], [3, 4, 5], [6]] := by decide

/-- C47. Sizes reduced by a discard level are the ceilings of `u / 2^d`: the least number of blocks of `2^d` that cover
`u`. -/
theorem C47_ceiling (u d : Nat) (hd : d < 32) :
    ∃ q, valueForDiscardLevel u d = .ok q ∧ u ≤ q * 2 ^ d ∧ ∀ q', u ≤ q' * 2 ^ d → q ≤ q' := by
  have hp : 0 < 2 ^ d := Nat.two_pow_pos d
  have hdm := Nat.div_add_mod u (2 ^ d)
  have hlt := Nat.mod_lt u hp
  unfold valueForDiscardLevel
  rw [if_neg (by omega)]
  simp only
  by_cases h : u % 2 ^ d > 0
  · rw [if_pos h]
    refine ⟨_, rfl, ?_, fun q' hq => ?_⟩
    · rw [Nat.succ_mul, Nat.mul_comm]; omega
    · refine Nat.lt_of_not_le fun hle => ?_
      have : q' * 2 ^ d ≤ u / 2 ^ d * 2 ^ d := Nat.mul_le_mul_right _ hle
      rw [Nat.mul_comm (u / 2 ^ d)] at this
      omega
  · rw [if_neg h]
    refine ⟨_, rfl, by rw [Nat.mul_comm]; omega, fun q' hq => ?_⟩
    refine Nat.le_of_not_lt fun hlt => ?_
    have : (q' + 1) * 2 ^ d ≤ u / 2 ^ d * 2 ^ d := Nat.mul_le_mul_right _ hlt
    rw [Nat.mul_comm (u / 2 ^ d), Nat.succ_mul] at this
    omega

example : valueForDiscardLevel 17 2 = .ok 5 ∧ valueForDiscardLevel 16 2 = .ok 4 := by decide

/-- C47. A failure of the library at any stage is the corresponding error. -/
theorem C47_errors (lib : OpjLib) (sect7 : List UInt8) :
    (lib.create = false ∨ lib.setup = false → decodeJp2 lib sect7 = .err .decoderSetupError) ∧
    (lib.create = true → lib.setup = true → (ideal lib.header sect7).1 = false →
      decodeJp2 lib sect7 = .err .mainHeaderReadError) := by
  constructor
  · intro h
    unfold decodeJp2
    by_cases hc : lib.create = true
    · have hs : lib.setup = false := by rcases h with h | h; · rw [hc] at h; cases h
                                        · exact h
      rw [if_neg (by simp [hc]), if_pos (by simp [hs])]
    · rw [if_pos hc]
  · intro hc hs hh
    obtain ⟨s, hr⟩ := C47_stream lib.header sect7
    unfold decodeJp2
    rw [if_neg (by simp [hc]), if_neg (by simp [hs]), hr, hh]

/-- The octets that are left after a program. -/
theorem run_state {α : Type} (prog : OpjProg α) (sect7 : List UInt8) :
    ∃ s, prog.run (SliceWithOffset.ofBytes sect7) = .ok ((ideal prog sect7).1, s) ∧ s.buf = sect7 ∧ s.offset ≤ sect7.length ∧
      s.buf.drop s.offset = (ideal prog sect7).2 := by
  suffices h : ∀ (buf : List UInt8) (offset : Nat), offset ≤ buf.length →
      ∃ s, prog.run ⟨buf, offset⟩ = .ok ((ideal prog (buf.drop offset)).1, s) ∧ s.buf = buf ∧ s.offset ≤ buf.length ∧
        s.buf.drop s.offset = (ideal prog (buf.drop offset)).2 from h sect7 0 (Nat.zero_le _)
  induction prog with
  | done a => exact fun buf offset h => ⟨_, rfl, rfl, h, rfl⟩
  | read null n k ih =>
    intro buf offset ho
    cases null with
    | true => exact ih [] buf offset ho
    | false =>
      simp only [OpjProg.run, SliceWithOffset.read]
      rw [if_neg (by simp), if_neg (by omega), if_pos (by omega)]
      simp only
      have e1 : (buf.drop offset).take (min (buf.length - offset) n) = (buf.drop offset).take n := by
        rw [Nat.min_comm, ← List.length_drop, ← List.take_take, List.take_length]
      have e2 : buf.drop (offset + min (buf.length - offset) n) = (buf.drop offset).drop n := by
        rw [List.drop_drop]
        by_cases h : n ≤ buf.length - offset
        · rw [Nat.min_eq_right h]
        · rw [Nat.min_eq_left (by omega), List.drop_eq_nil_of_le (by omega), List.drop_eq_nil_of_le (by omega)]
      obtain ⟨s, hs⟩ := ih ((buf.drop offset).take n) buf (offset + min (buf.length - offset) n) (by omega)
      rw [e1, e2] at *
      exact ⟨s, hs⟩

theorem run_from {α : Type} (prog : OpjProg α) (s : SliceWithOffset) (h : s.offset ≤ s.buf.length) :
    ∃ s', prog.run s = .ok ((ideal prog (s.buf.drop s.offset)).1, s') := by
  induction prog generalizing s with
  | done a => exact ⟨_, rfl⟩
  | read null n k ih =>
    cases null with
    | true => exact ih [] s h
    | false =>
      simp only [OpjProg.run, SliceWithOffset.read]
      rw [if_neg (by simp), if_neg (by omega), if_pos (by omega)]
      simp only
      have e1 : (s.buf.drop s.offset).take (min (s.buf.length - s.offset) n) = (s.buf.drop s.offset).take n := by
        rw [Nat.min_comm, ← List.length_drop, ← List.take_take, List.take_length]
      have e2 : s.buf.drop (s.offset + min (s.buf.length - s.offset) n) = (s.buf.drop s.offset).drop n := by
        rw [List.drop_drop]
        by_cases h : n ≤ s.buf.length - s.offset
        · rw [Nat.min_eq_right h]
        · rw [Nat.min_eq_left (by omega), List.drop_eq_nil_of_le (by omega), List.drop_eq_nil_of_le (by omega)]
      obtain ⟨s', hs⟩ := ih ((s.buf.drop s.offset).take n) { s with offset := s.offset + min (s.buf.length - s.offset) n }
        (by simp only; omega)
      simp only [e2] at hs
      rw [e1, hs]
      exact ⟨s', rfl⟩

/-- C47. Template 5.40: if the library, reading section 7, ends with an image with one component that has at least as many
elements as the (reduced) image, the decoded values are those elements, in order, put through `(R + X·2^E)·10^-D`. -/
theorem C47_values (ops : FloatOps F) (png : List UInt8 → Option (List UInt8)) (lib : OpjLib) (t : Decoder)
    (hlen : 16 ≤ t.sect5.length) (htype : sectNumber t.sect5 21 21 = 0) (hn : 1 ≤ bitsPerValue t.sect5)
    (hc : lib.create = true) (hs : lib.setup = true) (hh : (ideal lib.header t.sect7).1 = true)
    (image : OpjImage) (hb : (ideal lib.body (ideal lib.header t.sect7).2).1 = some image)
    (gray : List Int) (hg : image.comps = [gray]) (hx : image.x0 ≤ image.x1) (hy : image.y0 ≤ image.y1)
    (hf : image.factor = 0) (hsize : (image.x1 - image.x0) * (image.y1 - image.y0) < 2 ^ 32)
    (hgray : (image.x1 - image.x0) * (image.y1 - image.y0) ≤ gray.length) :
    jpeg2000Decode (Codecs.ofOpj ops png lib) t =
      .ok ((gray.take ((image.x1 - image.x0) * (image.y1 - image.y0))).map fun x => .ok (ops.mul
        (ops.add (ops.ofBits (sectNumber t.sect5 12 15)) (ops.mul (ops.ofInt x) (ops.powi (ops.ofInt 2) (sectSigned t.sect5 16 17))))
        (ops.powi (ops.ofInt 10) (-sectSigned t.sect5 18 19)))) := by
  unfold jpeg2000Decode Codecs.ofOpj
  simp only
  rw [fromSect5_eq ops hlen, if_neg (by simpa using htype), Outcome.bind_ok]
  simp only [show sectNumber t.sect5 20 20 ≠ 0 from Nat.pos_iff_ne_zero.mp hn, if_false]
  obtain ⟨s, r1, r2, r3, r4⟩ := run_state lib.header t.sect7
  obtain ⟨s', r5⟩ := run_from lib.body s (by rw [r2]; exact r3)
  rw [r4, hb] at r5
  have hd : ∀ u, valueForDiscardLevel u image.factor = .ok u := by
    intro u; rw [hf]; unfold valueForDiscardLevel; simp [Nat.mod_one]
  have : decodeJp2 lib t.sect7 = .ok (gray.take ((image.x1 - image.x0) * (image.y1 - image.y0))) := by
    unfold decodeJp2
    rw [if_neg (by simp [hc]), if_neg (by simp [hs]), r1, hh]
    simp only
    rw [r5]
    simp only
    rw [if_neg (by rw [hg]; simp; omega), hd, Outcome.bind_ok, hd, Outcome.bind_ok, hg]
    simp only
    unfold checkU32
    rw [if_pos hsize, Outcome.bind_ok, if_neg (by omega)]
  rw [this]
  simp only [Outcome.mapErr, Outcome.bind_ok, SimpleParam.unpackAll, List.map_map, Function.comp_def, SimpleParam.unpack, Outcome.map_ok]

/-- A library that takes a two-octet header and makes an image of width 2 of the rest, octet by octet. -/
def toyOpj : OpjLib :=
  ⟨true, true, .read false 2 fun b => .done (b.length == 2), .read false 100 fun b =>
    .done (some ⟨0, 2, 0, b.length / 2, 0, [b.map fun x => (x.toNat : Int)]⟩)⟩

example : jpeg2000Decode (Codecs.ofOpj FloatOps.exact (fun _ => none) toyOpj)
    { sampleSimple with sect7 := [0xff, 0x4f, 17, 0, 31, 2] } =
    .ok [.ok (some (23 / 40)), .ok (some (3 / 20)), .ok (some (37 / 40)), .ok (some (1 / 5))] := by decide +kernel

/-- C47, limits. The number of elements is taken from the image, not from the component: a component with fewer elements
(subsampled) is read beyond its end (undefined behaviour; the model panics). -/
theorem C47_subsampled_fails : decodeJp2 { toyOpj with body := .done (some ⟨0, 4, 0, 4, 0, [[1, 2, 3, 4]]⟩) } [0, 0] = .panic := by
  decide

/-- Templates 5.41 and 5.40 with zero bits per value: the constant `R·10^-D` at every encoded point (for 5.41 provided that
the image can be decoded at all). -/
theorem C30_constant_images (c : Codecs F) (t : Decoder) (hlen : 16 ≤ t.sect5.length) (htype : sectNumber t.sect5 21 21 = 0)
    (hn : bitsPerValue t.sect5 = 0) :
    jpeg2000Decode c t = simpleDecode c.ops t ∧ (c.png t.sect7 ≠ none → pngDecode c t = simpleDecode c.ops t) := by
  constructor
  · unfold jpeg2000Decode simpleDecode
    rw [fromSect5_eq c.ops hlen, if_neg (by simpa using htype), Outcome.bind_ok, Outcome.bind_ok]
    simp only [show sectNumber t.sect5 20 20 = 0 from hn, if_true]
  · intro hp
    unfold pngDecode simpleDecode
    rw [fromSect5_eq c.ops hlen, if_neg (by simpa using htype), Outcome.bind_ok, Outcome.bind_ok]
    cases h : c.png t.sect7 with
    | none => exact absurd h hp
    | some buf => simp only [show sectNumber t.sect5 20 20 = 0 from hn, if_true]

/-- Template 5.41: the pixels of the decoded image are read as simple packing would read them. -/
theorem C30_png_values (c : Codecs F) (t : Decoder) (buf : List UInt8) (hp : c.png t.sect7 = some buf) :
    pngDecode c t = simpleDecode c.ops { t with sect7 := buf } := by
  unfold pngDecode simpleDecode
  simp only
  rw [hp]

example : pngDecode ⟨FloatOps.exact, fun b => some (b.drop 1), fun _ => .err .notSupported⟩
    { sampleSimple with sect7 := 0x89 :: sampleSimple.sect7 } = simpleDecode FloatOps.exact sampleSimple :=
  C30_png_values _ _ _ rfl

/-- C47, the other codec. Choosing a JPEG 2000 library changes nothing for PNG data: the image is decoded by the PNG library
given, and its pixels are read as simple packing would read them. -/
theorem C47_png (ops : FloatOps F) (png : List UInt8 → Option (List UInt8)) (lib : OpjLib) (t : Decoder) (buf : List UInt8)
    (hp : png t.sect7 = some buf) :
    pngDecode (Codecs.ofOpj ops png lib) t = simpleDecode ops { t with sect7 := buf } :=
  C30_png_values (Codecs.ofOpj ops png lib) t buf hp

example : pngDecode (Codecs.ofOpj FloatOps.exact (fun b => some (b.drop 1)) toyOpj)
    { sampleSimple with sect7 := 0x89 :: sampleSimple.sect7 } = simpleDecode FloatOps.exact sampleSimple :=
  C47_png _ _ _ _ _ rfl

/-- The number of rows (columns) of an image of extent `u` at discard level `d`: `u / 2^d` rounded up. -/
def reducedSize (u d : Nat) : Nat := (u + (2 ^ d - 1)) / 2 ^ d

/-- What decoding the octets of section 7 as JPEG 2000 gives. -/
inductive Jp2Case (lib : OpjLib) (sect7 : List UInt8) : Outcome Jpeg2000Error (List Int) → Prop
  | setup (h : lib.create = false ∨ lib.setup = false) : Jp2Case lib sect7 (.err .decoderSetupError)
  | header (h : lib.create = true ∧ lib.setup = true) (hh : (ideal lib.header sect7).1 = false) :
    Jp2Case lib sect7 (.err .mainHeaderReadError)
  | body (h : lib.create = true ∧ lib.setup = true) (hh : (ideal lib.header sect7).1 = true)
    (hb : (ideal lib.body (ideal lib.header sect7).2).1 = none) : Jp2Case lib sect7 (.err .bodyReadError)
  | components (h : lib.create = true ∧ lib.setup = true) (hh : (ideal lib.header sect7).1 = true) (i : OpjImage)
    (hb : (ideal lib.body (ideal lib.header sect7).2).1 = some i) (hx : i.x0 ≤ i.x1) (hy : i.y0 ≤ i.y1) (hf : i.factor < 32)
    (hc : 2 ≤ i.comps.length) : Jp2Case lib sect7 (.err .notSupported)
  | pixels (h : lib.create = true ∧ lib.setup = true) (hh : (ideal lib.header sect7).1 = true) (i : OpjImage)
    (hb : (ideal lib.body (ideal lib.header sect7).2).1 = some i) (hx : i.x0 ≤ i.x1) (hy : i.y0 ≤ i.y1) (hf : i.factor < 32)
    (gray : List Int) (hc : i.comps = [gray]) (n : Nat)
    (hn : n = reducedSize (i.x1 - i.x0) i.factor * reducedSize (i.y1 - i.y0) i.factor) (h32 : n < 2 ^ 32)
    (hl : n ≤ gray.length) : Jp2Case lib sect7 (.ok (gray.take n))
  | bad (h : lib.create = true ∧ lib.setup = true) (hh : (ideal lib.header sect7).1 = true) (i : OpjImage)
    (hb : (ideal lib.body (ideal lib.header sect7).2).1 = some i)
    (hbad : i.x1 < i.x0 ∨ i.y1 < i.y0 ∨ i.comps = [] ∨ 32 ≤ i.factor ∨
      ∃ gray, i.comps = [gray] ∧
        (2 ^ 32 ≤ reducedSize (i.x1 - i.x0) i.factor * reducedSize (i.y1 - i.y0) i.factor ∨
          gray.length < reducedSize (i.x1 - i.x0) i.factor * reducedSize (i.y1 - i.y0) i.factor)) :
    Jp2Case lib sect7 .panic

theorem valueForDiscardLevel_eq (u d : Nat) (hd : d < 32) : valueForDiscardLevel u d = .ok (reducedSize u d) := by
  unfold valueForDiscardLevel
  rw [if_neg (by omega)]
  have hp : 0 < 2 ^ d := Nat.pow_pos (by omega)
  simp only
  unfold reducedSize
  generalize 2 ^ d = b at hp
  have hm := Nat.div_add_mod u b
  have hlt := Nat.mod_lt u hp
  split
  · congr 1
    symm
    rw [Nat.div_eq_iff hp]
    rw [Nat.mul_comm] at hm
    have : (u / b + 1) * b = u / b * b + b := by rw [Nat.add_mul, Nat.one_mul]
    omega
  · congr 1
    symm
    rw [Nat.div_eq_iff hp]
    rw [Nat.mul_comm] at hm
    omega

/-- C47. Every outcome of JPEG 2000 decoding: a failure of the library at any stage is the corresponding error, an image with
several components is not supported, and one with a single component gives its first `width·height` elements, the sizes being
those of the reduced image; senseless images panic (in the program, some of these read beyond the component). -/
theorem C47_outcome (lib : OpjLib) (sect7 : List UInt8) (o : Outcome Jpeg2000Error (List Int)) :
    decodeJp2 lib sect7 = o ↔ Jp2Case lib sect7 o := by
  have step : lib.create = true → lib.setup = true → (ideal lib.header sect7).1 = true →
      ∀ i, (ideal lib.body (ideal lib.header sect7).2).1 = some i → decodeJp2 lib sect7 =
        (if i.x1 < i.x0 ∨ i.y1 < i.y0 ∨ i.comps = [] then .panic else do
          let width ← valueForDiscardLevel (i.x1 - i.x0) i.factor
          let height ← valueForDiscardLevel (i.y1 - i.y0) i.factor
          match i.comps with
          | [gray] =>
            let n ← checkU32 (width * height)
            if gray.length < n then .panic else .ok (gray.take n)
          | _ => .err .notSupported) := by
    intro hc hs hh i hb
    obtain ⟨s, r1, r2, r3, r4⟩ := run_state lib.header sect7
    obtain ⟨s', r5⟩ := run_from lib.body s (by rw [r2]; exact r3)
    rw [r4, hb] at r5
    unfold decodeJp2
    rw [if_neg (by simp [hc]), if_neg (by simp [hs]), r1, hh]
    simp only
    rw [r5]
    rfl
  have back : ∀ o, Jp2Case lib sect7 o → decodeJp2 lib sect7 = o := by
    intro o c
    cases c with
    | setup h => exact (C47_errors lib sect7).1 h
    | header h hh => exact (C47_errors lib sect7).2 h.1 h.2 hh
    | body h hh hb =>
      obtain ⟨s, r1, r2, r3, r4⟩ := run_state lib.header sect7
      obtain ⟨s', r5⟩ := run_from lib.body s (by rw [r2]; exact r3)
      rw [r4, hb] at r5
      unfold decodeJp2
      rw [if_neg (by simp [h.1]), if_neg (by simp [h.2]), r1, hh]
      simp only
      rw [r5]
    | components h hh i hb hx hy hf hc =>
      rw [step h.1 h.2 hh i hb, if_neg (by rintro (q | q | q); omega; omega; rw [q] at hc; simp at hc),
        valueForDiscardLevel_eq _ _ hf, Outcome.bind_ok, valueForDiscardLevel_eq _ _ hf, Outcome.bind_ok]
      match hcc : i.comps with
      | [] => simp [hcc] at hc
      | [_] => simp [hcc] at hc
      | _ :: _ :: _ => rfl
    | pixels h hh i hb hx hy hf gray hc n hn h32 hl =>
      rw [step h.1 h.2 hh i hb, if_neg (by rintro (q | q | q); omega; omega; rw [q] at hc; simp at hc),
        valueForDiscardLevel_eq _ _ hf, Outcome.bind_ok, valueForDiscardLevel_eq _ _ hf, Outcome.bind_ok, hc]
      simp only
      rw [← hn]
      unfold checkU32
      rw [if_pos h32, Outcome.bind_ok, if_neg (by omega)]
    | bad h hh i hb hbad =>
      rw [step h.1 h.2 hh i hb]
      by_cases q : i.x1 < i.x0 ∨ i.y1 < i.y0 ∨ i.comps = []
      · rw [if_pos q]
      rw [if_neg q]
      by_cases hf : i.factor < 32
      · rw [valueForDiscardLevel_eq _ _ hf, Outcome.bind_ok, valueForDiscardLevel_eq _ _ hf, Outcome.bind_ok]
        obtain ⟨gray, hc, hbig⟩ : ∃ gray, i.comps = [gray] ∧
            (2 ^ 32 ≤ reducedSize (i.x1 - i.x0) i.factor * reducedSize (i.y1 - i.y0) i.factor ∨
              gray.length < reducedSize (i.x1 - i.x0) i.factor * reducedSize (i.y1 - i.y0) i.factor) := by
          rcases hbad with z | z | z | z | z
          · exact absurd (.inl z) q
          · exact absurd (.inr (.inl z)) q
          · exact absurd (.inr (.inr z)) q
          · omega
          · exact z
        rw [hc]
        simp only
        unfold checkU32
        by_cases h32 : reducedSize (i.x1 - i.x0) i.factor * reducedSize (i.y1 - i.y0) i.factor < 2 ^ 32
        · rw [if_pos h32, Outcome.bind_ok, if_pos (by omega)]
        · rw [if_neg h32]; rfl
      · have : ∀ u, valueForDiscardLevel u i.factor = .panic := by
          intro u; unfold valueForDiscardLevel; rw [if_pos (by omega)]
        rw [this]; rfl
  constructor
  · rintro rfl
    suffices h : ∃ o, Jp2Case lib sect7 o by
      obtain ⟨o, c⟩ := h
      rw [back _ c]; exact c
    by_cases hs : lib.create = true ∧ lib.setup = true
    · cases hh : (ideal lib.header sect7).1 with
      | false => exact ⟨_, .header hs hh⟩
      | true =>
        cases hb : (ideal lib.body (ideal lib.header sect7).2).1 with
        | none => exact ⟨_, .body hs hh hb⟩
        | some i =>
          by_cases hx : i.x1 < i.x0
          · exact ⟨_, .bad hs hh i hb (.inl hx)⟩
          by_cases hy : i.y1 < i.y0
          · exact ⟨_, .bad hs hh i hb (.inr (.inl hy))⟩
          by_cases hf : 32 ≤ i.factor
          · exact ⟨_, .bad hs hh i hb (.inr (.inr (.inr (.inl hf))))⟩
          match hc : i.comps with
          | [] => exact ⟨_, .bad hs hh i hb (.inr (.inr (.inl hc)))⟩
          | [gray] =>
            by_cases h32 : 2 ^ 32 ≤ reducedSize (i.x1 - i.x0) i.factor * reducedSize (i.y1 - i.y0) i.factor
            · exact ⟨_, .bad hs hh i hb (.inr (.inr (.inr (.inr ⟨gray, hc, .inl h32⟩))))⟩
            by_cases hl : gray.length < reducedSize (i.x1 - i.x0) i.factor * reducedSize (i.y1 - i.y0) i.factor
            · exact ⟨_, .bad hs hh i hb (.inr (.inr (.inr (.inr ⟨gray, hc, .inr hl⟩))))⟩
            exact ⟨_, .pixels hs hh i hb (by omega) (by omega) (by omega) gray hc _ rfl (by omega) (by omega)⟩
          | a :: b :: cs => exact ⟨_, .components hs hh i hb (by omega) (by omega) (by omega) (by rw [hc]; simp)⟩
    · refine ⟨_, .setup ?_⟩
      cases h1 : lib.create <;> cases h2 : lib.setup <;> simp_all
  · exact back o

/-- A quarter of an image of 3×5 elements (discard level 1 gives 2×3) with the elements as stored. -/
example : decodeJp2 { toyOpj with body := .done (some ⟨0, 3, 0, 5, 1, [[1, 2, 3, 4, 5, 6, 7]]⟩) } [0, 0] = .ok [1, 2, 3, 4, 5, 6] :=
  (C47_outcome _ _ _).mpr (.pixels ⟨rfl, rfl⟩ rfl _ rfl (by decide) (by decide) (by decide) [1, 2, 3, 4, 5, 6, 7] rfl 6 rfl
    (by decide) (by decide))

example : decodeJp2 { toyOpj with body := .done none } [0, 0] = .err .bodyReadError :=
  (C47_outcome _ _ _).mpr (.body ⟨rfl, rfl⟩ rfl rfl)

end Grib.Props
