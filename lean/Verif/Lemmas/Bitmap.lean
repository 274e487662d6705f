import Verif.Lemmas.Decoder

/-! # The bitmap iterator -/

namespace Grib.Model

open Grib.Spec

variable {F : Type}

theorem hasZeroAtOffset_eq (b : UInt8) (k : Nat) (hk : k < 8) :
    hasZeroAtOffset b k = !b.toNat.testBit (7 - k) := by
  unfold hasZeroAtOffset
  rw [show (0b10000000 : Nat) >>> k = 2 ^ (7 - k) by
    rw [Nat.shiftRight_eq_div_pow, show (0b10000000 : Nat) = 2 ^ 7 from rfl, Nat.pow_div (by omega) (by decide)]]
  cases h : b.toNat.testBit (7 - k)
  · have : b.toNat &&& 2 ^ (7 - k) = 0 := by
      apply Nat.eq_of_testBit_eq
      intro i
      rw [Nat.testBit_and, Nat.testBit_two_pow, Nat.zero_testBit]
      by_cases hi : 7 - k = i
      · subst hi; simp [h]
      · simp [hi]
    simp [this]
  · have : b.toNat &&& 2 ^ (7 - k) ≠ 0 := by
      intro h0
      have := congrArg (fun n => n.testBit (7 - k)) h0
      simp [Nat.testBit_and, h] at this
    simpa using this

/-- The bits that remain to be looked at. -/
def BitmapIter.effBits (it : BitmapIter F) : List Bool :=
  if it.len < 8 then ((bits it.bitmap).drop it.offset).take (it.len - it.offset) else (bits it.bitmap).drop it.offset

/-- What an iterator with these bits and values yields. -/
def spread (ops : FloatOps F) : List Bool → Items F → Drained F
  | [], _ => .done []
  | false :: bs, vs => (spread ops bs vs).cons ops.nan
  | true :: _, [] => .done []
  | true :: bs, .ok v :: vs => (spread ops bs vs).cons v
  | true :: _, _ :: _ => .panic

theorem drop_octetBits (b : UInt8) (rest : List UInt8) (k : Nat) (hk : k < 8) :
    (bits (b :: rest)).drop k = b.toNat.testBit (7 - k) :: (bits (b :: rest)).drop (k + 1) := by
  have h : k < (bits (b :: rest)).length := by rw [bits_length]; simp; omega
  rw [List.drop_eq_getElem_cons h]
  congr 1
  simp only [bits_cons]
  rw [List.getElem_append_left (by simpa using hk)]
  simp [octetBits]

/-- Invariant of the iterator. -/
def BitmapIter.Good (it : BitmapIter F) : Prop :=
  it.offset < 8 ∧ (it.len < 8 → it.offset ≤ it.len ∧ it.len ≤ 8 * it.bitmap.length)

theorem BitmapIter.drain_eq (ops : FloatOps F) (fuel : Nat) (it : BitmapIter F) (hg : it.Good)
    (hf : it.effBits.length < fuel) : it.drain ops fuel = spread ops it.effBits it.values := by
  induction fuel generalizing it with
  | zero => omega
  | succ fuel ih =>
    obtain ⟨bitmap, values, len, offset⟩ := it
    obtain ⟨h1, h2⟩ := hg
    simp only at h1 h2
    rw [BitmapIter.drain]
    unfold BitmapIter.next
    simp only
    by_cases hl : offset ≥ len
    · rw [if_pos hl]
      have : BitmapIter.effBits ⟨bitmap, values, len, offset⟩ = [] := by
        unfold BitmapIter.effBits; simp only
        rw [if_pos (by omega), show len - offset = 0 by omega]; rfl
      rw [this]; rfl
    · rw [if_neg hl]
      cases bitmap with
      | nil =>
        have : BitmapIter.effBits ⟨[], values, len, offset⟩ = [] := by
          unfold BitmapIter.effBits; simp
        rw [this]; rfl
      | cons byte rest =>
        -- the iterator after the call
        generalize hit' : (if offset < 7 then (⟨byte :: rest, values, len, offset + 1⟩ : BitmapIter F)
          else ⟨rest, values, len, 0⟩) = it'
        have hit'' : (if offset < 7 then ({ bitmap := byte :: rest, values := values, len := len, offset := offset + 1 } : BitmapIter F)
          else { bitmap := (byte :: rest).tail, values := values, len := len, offset := 0 }) = it' := hit'
        rw [hit'']
        have hv : it'.values = values := by rw [← hit']; split <;> rfl
        have heff : BitmapIter.effBits ⟨byte :: rest, values, len, offset⟩ =
            byte.toNat.testBit (7 - offset) :: it'.effBits := by
          rw [← hit']
          unfold BitmapIter.effBits
          simp only
          by_cases h7 : offset < 7
          · simp only [h7, if_true]
            rw [drop_octetBits _ _ _ h1]
            split
            · rw [show len - offset = (len - (offset + 1)) + 1 by omega, List.take_succ_cons]
            · rfl
          · simp only [h7, if_false]
            have : ¬ len < 8 := fun h => by omega
            simp only [this, if_false]
            rw [drop_octetBits _ _ _ h1, show offset + 1 = 8 by omega]
            simp [bits_cons]
        have hg' : it'.Good := by
          rw [← hit']
          unfold BitmapIter.Good
          split
          · simp only; exact ⟨by omega, fun h => ⟨by omega, (h2 h).2⟩⟩
          · simp only
            refine ⟨by omega, fun h => by omega⟩
        have hf' : it'.effBits.length < fuel := by rw [heff] at hf; simpa using hf
        have hrec : ∀ vs, BitmapIter.drain ops fuel { it' with values := vs } = spread ops it'.effBits vs := fun vs =>
          ih { it' with values := vs } hg' hf'
        rw [heff]
        simp only [hasZeroAtOffset_eq _ _ h1]
        cases byte.toNat.testBit (7 - offset)
        · simp only [Bool.not_false, if_true, spread]
          rw [ih it' hg' hf', hv]
        · simp only [Bool.not_true]
          cases values with
          | nil => simp [spread]
          | cons v vs =>
            cases v with
            | ok v => simp only [spread, Bool.false_eq_true, if_false, hrec vs]
            | err e => exact e.elim
            | panic => simp [spread]

theorem BitmapIter.toList_eq (ops : FloatOps F) (bitmap : List UInt8) (values : Items F) (len : Nat)
    (h : len ≤ 8 * bitmap.length) :
    (BitmapIter.mk bitmap values len 0).toList ops =
      spread ops (if len < 8 then (bits bitmap).take len else bits bitmap) values := by
  unfold BitmapIter.toList
  rw [BitmapIter.drain_eq]
  · simp [BitmapIter.effBits]
  · exact ⟨by simp, fun _ => ⟨by simp, h⟩⟩
  · unfold BitmapIter.effBits
    simp only
    split
    · simp; omega
    · simp

/-- Enough values: the items are the distributed values. -/
theorem spread_distribute (ops : FloatOps F) {bs : List Bool} {vs : List F} {pts : List (Option F)} {rest : Items F}
    (h : distribute bs vs = some pts) :
    spread ops bs (vs.map .ok ++ rest) = .done (pts.map (·.getD ops.nan)) := by
  induction bs generalizing vs pts with
  | nil => simp only [distribute, Option.some.injEq] at h; subst h; simp [spread]
  | cons b bs ih =>
    cases b with
    | false =>
      simp only [distribute, Option.map_eq_some_iff] at h
      obtain ⟨p, hp, rfl⟩ := h
      simp [spread, ih hp, Drained.cons]
    | true =>
      cases vs with
      | nil => simp [distribute] at h
      | cons v vs =>
        simp only [distribute, Option.map_eq_some_iff] at h
        obtain ⟨p, hp, rfl⟩ := h
        simp [spread, ih hp, Drained.cons]

theorem distribute_append {α : Type} {a b : List Bool} {vs : List α} {pts : List (Option α)}
    (h : distribute (a ++ b) vs = some pts) :
    ∃ pa pb, distribute a vs = some pa ∧ distribute b (vs.drop (a.countP id)) = some pb ∧ pts = pa ++ pb := by
  induction a generalizing vs pts with
  | nil => exact ⟨[], pts, rfl, by simpa using h, rfl⟩
  | cons x a ih =>
    cases x with
    | false =>
      simp only [List.cons_append, distribute, Option.map_eq_some_iff] at h
      obtain ⟨p, hp, rfl⟩ := h
      obtain ⟨pa, pb, h1, h2, rfl⟩ := ih hp
      exact ⟨none :: pa, pb, by simp [distribute, h1], by simpa using h2, rfl⟩
    | true =>
      cases vs with
      | nil => simp [distribute] at h
      | cons v vs =>
        simp only [List.cons_append, distribute, Option.map_eq_some_iff] at h
        obtain ⟨p, hp, rfl⟩ := h
        obtain ⟨pa, pb, h1, h2, rfl⟩ := ih hp
        refine ⟨some v :: pa, pb, by simp [distribute, h1], ?_, rfl⟩
        simpa using h2

theorem distribute_length {α : Type} {a : List Bool} {vs : List α} {pts : List (Option α)}
    (h : distribute a vs = some pts) : pts.length = a.length := by
  induction a generalizing vs pts with
  | nil => simp [distribute] at h; subst h; rfl
  | cons x a ih =>
    cases x with
    | false =>
      simp only [distribute, Option.map_eq_some_iff] at h
      obtain ⟨p, hp, rfl⟩ := h
      simp [ih hp]
    | true =>
      cases vs with
      | nil => simp [distribute] at h
      | cons v vs =>
        simp only [distribute, Option.map_eq_some_iff] at h
        obtain ⟨p, hp, rfl⟩ := h
        simp [ih hp]

/-- There are enough values exactly when there are at least as many as ones. -/
theorem distribute_isSome {α : Type} (a : List Bool) (vs : List α) :
    (distribute a vs).isSome = decide (a.countP id ≤ vs.length) := by
  induction a generalizing vs with
  | nil => simp [distribute]
  | cons x a ih =>
    cases x with
    | false => simp [distribute, ih]
    | true =>
      cases vs with
      | nil => simp [distribute]
      | cons v vs => simp [distribute, ih]

/-- Spreading over a longer bit string starts with the distribution over the beginning. -/
theorem spread_prefix (ops : FloatOps F) {a b : List Bool} {vs : List F} {pts : List (Option F)}
    (h : distribute a vs = some pts) :
    ∃ more, spread ops (a ++ b) (vs.map .ok) = .done (pts.map (·.getD ops.nan) ++ more) ∧ more.length ≤ b.length := by
  induction a generalizing vs pts with
  | nil =>
    simp only [distribute, Option.some.injEq] at h; subst h
    simp only [List.nil_append, List.map_nil]
    induction b generalizing vs with
    | nil => exact ⟨[], rfl, by simp⟩
    | cons x b ih =>
      cases x with
      | false =>
        obtain ⟨m, hm, hl⟩ := ih (vs := vs)
        exact ⟨ops.nan :: m, by simp [spread, hm, Drained.cons], by simpa using hl⟩
      | true =>
        cases vs with
        | nil => exact ⟨[], rfl, by simp⟩
        | cons v vs =>
          obtain ⟨m, hm, hl⟩ := ih (vs := vs)
          exact ⟨v :: m, by simp [spread, hm, Drained.cons], by simpa using hl⟩
  | cons x a ih =>
    cases x with
    | false =>
      simp only [distribute, Option.map_eq_some_iff] at h
      obtain ⟨p, hp, rfl⟩ := h
      obtain ⟨m, hm, hl⟩ := ih hp
      exact ⟨m, by simp [spread, hm, Drained.cons], hl⟩
    | true =>
      cases vs with
      | nil => simp [distribute] at h
      | cons v vs =>
        simp only [distribute, Option.map_eq_some_iff] at h
        obtain ⟨p, hp, rfl⟩ := h
        obtain ⟨m, hm, hl⟩ := ih hp
        exact ⟨m, by simp [spread, hm, Drained.cons], hl⟩

/-- Too few values: the items stop before the first point that lacks one. -/
theorem spread_short (ops : FloatOps F) {a b : List Bool} {vs : List F} (h : distribute a vs = none) :
    ∃ out, spread ops (a ++ b) (vs.map .ok) = .done out ∧ out.length < a.length := by
  induction a generalizing vs with
  | nil => simp [distribute] at h
  | cons x a ih =>
    cases x with
    | false =>
      simp only [distribute, Option.map_eq_none_iff] at h
      obtain ⟨m, hm, hl⟩ := ih h
      exact ⟨ops.nan :: m, by simp [spread, hm, Drained.cons], by simpa using hl⟩
    | true =>
      cases vs with
      | nil => exact ⟨[], rfl, by simp⟩
      | cons v vs =>
        simp only [distribute, Option.map_eq_none_iff] at h
        obtain ⟨m, hm, hl⟩ := ih h
        exact ⟨v :: m, by simp [spread, hm, Drained.cons], by simpa using hl⟩

theorem createBitmap_length (n : Nat) : (createBitmap n).length = (n + 7) / 8 := by
  unfold createBitmap; split <;> simp <;> omega

theorem bits_createBitmap (n : Nat) : bits (createBitmap n) = List.replicate (8 * ((n + 7) / 8)) true := by
  have key : ∀ k, bits (List.replicate k (0xff : UInt8)) = List.replicate (8 * k) true := by
    intro k
    induction k with
    | zero => rfl
    | succ k ih =>
      rw [List.replicate_succ, bits_cons, ih, show octetBits 0xff = List.replicate 8 true by decide,
        List.replicate_append_replicate, show 8 + 8 * k = 8 * (k + 1) by omega]
  unfold createBitmap
  split
  · rw [key]; congr 1; omega
  · rw [key]; congr 1; omega

theorem distribute_ones {α : Type} (n : Nat) (vs : List α) (h : n ≤ vs.length) :
    distribute (List.replicate n true) vs = some ((vs.take n).map some) := by
  induction n generalizing vs with
  | zero => simp [distribute]
  | succ n ih =>
    cases vs with
    | nil => simp at h
    | cons v vs => simp [List.replicate_succ, distribute, ih vs (by simpa using h)]

theorem spread_ones (ops : FloatOps F) (n : Nat) (vs : List F) :
    spread ops (List.replicate n true) (vs.map .ok) = .done (vs.take n) := by
  induction n generalizing vs with
  | zero => simp [spread]
  | succ n ih =>
    cases vs with
    | nil => simp [List.replicate_succ, spread]
    | cons v vs => simp [List.replicate_succ, spread, ih vs, Drained.cons]

end Grib.Model
