import Verif.Props.Fields
import Verif.Lemmas.IeeeOps

/-! # C81 in single precision -/

namespace Grib.Props

open Grib.Model Grib.Spec

theorem single_int {n : Int} (h : |n| ≤ 2 ^ 24) (s : Bool) (hs : n = 0 → s = false) :
    Fmt.single.ofRat s (n : Rat) = .fin n := by
  have hr : Fmt.single.round (n : Rat) = n := by
    have := Fmt.round_exact Fmt.single (by decide) (m := n) (k := 0) h (by decide)
    simpa [pow2_zero] using this
  have hlt : |(n : Rat)| < pow2 Fmt.single.top := by
    have h1 : |(n : Rat)| ≤ 2 ^ 24 := by exact_mod_cast h
    have h2 : (2 : Rat) ^ 24 < pow2 128 := by
      have := pow2_lt (a := 24) (b := 128) (by decide)
      rwa [show (24 : Int) = ((24 : Nat) : Int) from rfl, pow2_nat] at this
    exact lt_of_le_of_lt h1 h2
  rw [abs_lt] at hlt
  unfold Fmt.ofRat
  simp only [hr]
  rw [if_neg (by linarith), if_neg (by linarith)]
  by_cases h0 : n = 0
  · subst h0; simp [hs rfl]
  · rw [if_neg (by exact_mod_cast h0)]

/-- A number as a single-precision number, NaN for none. -/
def asSingle : Option Int → Fl
  | some y => .fin y
  | none => .nan

/-- With a reference value of zero and no scaling, integers of at most 24 bits are exact in single precision, and missing
points are NaN. -/
theorem single_decodedAt (powi : Fl → Int → Fl) (hpowi : ∀ x, powi x 0 = .fin 1) (powf : Nat → Fl) (k : Kind)
    (x : Option Int) (hx : ∀ y, x = some y → |y| ≤ 2 ^ 24) :
    decodedAt (FloatOps.ieee Fmt.single powi powf) ⟨0, 0, 0⟩ k x =
      asSingle x := by
  have h0 : Fl.ofBits32 0 = .fin 0 := by decide +kernel
  cases x with
  | none =>
    unfold decodedAt scaledWith FloatOps.ieee
    simp only [neg_zero, hpowi]
    rw [h0]
    cases k <;> rfl
  | some y =>
    have hy := hx y rfl
    have hm : ∀ y : Int, |y| ≤ 2 ^ 24 → Fmt.single.mul (.fin (y : Rat)) (.fin 1) = .fin y := by
      intro y hy
      unfold Fmt.mul
      simp only [mul_one]
      exact single_int hy _ (by rintro rfl; simp [Fl.isNeg])
    have ha : Fmt.single.add (.fin 0) (.fin (y : Rat)) = .fin y := by
      unfold Fmt.add
      simp only [zero_add]
      exact single_int hy false (fun _ => rfl)
    unfold decodedAt scaledWith FloatOps.ieee
    simp only [neg_zero, hpowi]
    cases k <;> simp only [h0, single_int hy false (fun _ => rfl), hm y hy, ha] <;> rfl

/-- The powers of the compiler's library. -/
theorem compilerRtPowi_zero (x : Fl) : compilerRtPowi Fmt.single x 0 = .fin 1 := by
  unfold compilerRtPowi powiLoop
  simp

/-- C81. As the program computes it, in single precision: a field of integers of at most 24 bits, with or without missing
points, written with reference value 0 and without scaling, comes back exactly. -/
theorem C81_single (powi : Fl → Int → Fl) (hpowi : ∀ x, powi x 0 = .fin 1) (powf : Nat → Fl) (png jp2)
    (l : List (List UInt8 × FieldMessage)) (hl : ∀ x ∈ l, NoMagic x.1 ∧ x.2.Ok)
    (trailing : List UInt8) (ht : ∀ q, ¬ MagicAt trailing q) (hlen : (writeFields l).length < 2 ^ 64)
    (evs : List IoEv) (hev : Benign evs) :
    ∃ g : Grib2, Grib2.read ⟨writeFields l ++ trailing, 0, evs⟩ = .ok g ∧
      (SubIter.drain (g.len + 1) g.iter).length = (numberedFields 0 (l.map (·.2))).length ∧
      ∀ (k : Nat) (x : (Nat × Nat) × SubMessage) (i j : Nat) (m : FieldMessage) (f : Field),
        (SubIter.drain (g.len + 1) g.iter)[k]? = some x → (numberedFields 0 (l.map (·.2)))[k]? = some (i, j, m, f) →
        f.scaling = ⟨0, 0, 0⟩ → (∀ y, some y ∈ f.packing.numbers → |y| ≤ 2 ^ 24) →
        ∀ r : Rdr, r.data = writeFields l ++ trailing → IoEv.fail ∉ r.evs →
          ∃ d it more, (Decoder.fromSub x.2 r).1 = .ok d ∧
            d.dispatch (⟨FloatOps.ieee Fmt.single powi powf, png, jp2⟩ : Codecs Fl) = .ok it ∧
            it.toList (FloatOps.ieee Fmt.single powi powf) = .done (f.packing.numbers.map asSingle ++ more) ∧ (∀ v ∈ more, v = .nan) ∧ ((∀ n xs, f.packing ≠ .masked n xs) → more = []) := by
  obtain ⟨g, h1, h2, h3⟩ := C81_written_fields (⟨FloatOps.ieee Fmt.single powi powf, png, jp2⟩ : Codecs Fl) l hl trailing ht
    hlen evs hev
  refine ⟨g, h1, h2, ?_⟩
  intro k x i j m f hx hf hs hb r hr hev
  obtain ⟨-, -, -, -, k5⟩ := h3 k x i j m f hx hf
  obtain ⟨d, it, d1, -, d3, d4⟩ := k5 r hr hev
  refine ⟨d, it, List.replicate (if kind f.packing = .masked then surplus f.packing.numbers.length else 0) .nan, d1, d3, ?_, ?_, ?_⟩
  · rw [d4]
    unfold decodedField
    congr 2
    apply List.map_congr_left
    intro y hy
    rw [hs]
    exact single_decodedAt powi hpowi powf _ y (by rintro z rfl; exact hb z hy)
  · intro v hv; exact (List.mem_replicate.mp hv).2
  · intro hm
    have : kind f.packing ≠ .masked := by
      cases hq : f.packing with
      | masked n xs => exact absurd hq (hm n xs)
      | _ => intro h; cases h
    rw [if_neg this]; rfl

/-- Three fields it is about. -/
def integerFields : List (List UInt8 × FieldMessage) :=
  [([], ⟨0, List.replicate 16 7, 0, 3, [0, 0, 0, 1],
      ⟨[0, 0, 0, 0], ⟨0, 0, 0⟩, .differenced false [some (-16777216), none, some 4]⟩,
      [⟨[0, 0, 0, 0], ⟨0, 0, 0⟩, .masked 7 [none, some 0, some 127]⟩,
       ⟨[0, 0, 0, 0], ⟨0, 0, 0⟩, .levels 8 [3, 65535] [some 1, some 1, none]⟩]⟩)]

theorem integerFields_ok : ∀ x ∈ integerFields, NoMagic x.1 ∧ x.2.Ok := by
  have h : ∀ x ∈ integerFields, x.1.length < 4 ∧ (16 ≤ x.2.ident.length ∧ x.2.ident.length + 5 < 2 ^ 32) ∧
      (4 ≤ x.2.grid.length ∧ x.2.grid.length + 10 < 2 ^ 32) ∧ x.2.points < 2 ^ 32 ∧
      ∀ f ∈ x.2.fields, (4 ≤ f.product.length ∧ f.product.length + 5 < 2 ^ 32) ∧
        (f.scaling.r < 2 ^ 32 ∧ f.scaling.e.natAbs < 2 ^ 15 ∧ f.scaling.d.natAbs < 2 ^ 15) ∧ f.scalingFits ∧ f.packing.Ok ∧
        f.packing.numbers.length = x.2.points ∧ f.packing.sect7.length + 5 < 2 ^ 32 := by decide +kernel
  intro x hx
  obtain ⟨a, b, c, d, e⟩ := h x hx
  refine ⟨noMagic_of_short a, b, c, d, ?_⟩
  intro f hf
  obtain ⟨p, q, v, r, s, t⟩ := e f hf
  exact ⟨p, ⟨q.1, q.2.1, q.2.2⟩, v, r, s, t⟩

def integerCodecs : Codecs Fl :=
  ⟨FloatOps.ieee Fmt.single (compilerRtPowi Fmt.single) (fun _ => .nan), fun _ => none, fun _ => .err .notSupported⟩

example : ∃ g : Grib2, Grib2.read ⟨writeFields integerFields, 0, []⟩ = .ok g ∧
    decodeAt integerCodecs g [0, 1, 2] =
      [.ok (.done [.fin (-16777216), .nan, .fin 4]), .ok (.done [.nan, .fin 0, .fin 127]),
       .ok (.done [.fin 65535, .fin 65535, .nan])] :=
  Outcome.exists_of_ok? (f := fun g : Grib2 => decodeAt integerCodecs g [0, 1, 2]) (by decide +kernel)

example : ∃ g : Grib2, Grib2.read ⟨writeFields integerFields, 0, []⟩ = .ok g ∧
    (SubIter.drain (g.len + 1) g.iter).length = 3 := by
  obtain ⟨g, h1, h2, -⟩ := C81_single _ compilerRtPowi_zero (fun _ => .nan) (fun _ => none) (fun _ => .err .notSupported)
    integerFields integerFields_ok [] (by intro q h; simp [MagicAt] at h) (by decide +kernel) [] (by simp [Benign])
  rw [List.append_nil] at h1
  exact ⟨g, h1, h2⟩

end Grib.Props
