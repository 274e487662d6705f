import Verif.Lemmas.Decoder
import Verif.Props.Ints

/-! # The stored integers do not depend on floating-point arithmetic -/

namespace Grib.Model

open Grib.Spec

theorem _root_.Grib.Outcome.bind_ok_iff {ε α β : Type} {x : Outcome ε α} {f : α → Outcome ε β} {b : β} :
    (x >>= f) = .ok b ↔ ∃ a, x = .ok a ∧ f a = .ok b := by
  cases x with
  | ok a => simp
  | err e => exact ⟨fun h => (by cases h), fun ⟨_, h, _⟩ => (by cases h)⟩
  | panic => exact ⟨fun h => (by cases h), fun ⟨_, h, _⟩ => (by cases h)⟩

/-- An item of the decoded sequence: the stored integer put through the formula, or the formula applied to NaN. -/
def unpackStored {F : Type} (ops : FloatOps F) (p : SimpleParam F) : Option Int → F
  | some x => p.unpack ops (ops.ofInt x)
  | none => p.unpack ops ops.nan

def DecodedValue.toInt? : DecodedValue → Option Int
  | .normal v => some v
  | .missing1 => none
  | .missing2 => none

/-- The integers of a sequence are those of some machine type. -/
def Small (xs : Items (Option Int)) : Prop := ∀ x : Int, .ok (some x) ∈ xs → x.natAbs ≤ 2 ^ 32

/-- The parameters of section 5 with these float operations. -/
def paramOf {F : Type} (ops : FloatOps F) (s : List UInt8) : SimpleParam F :=
  ⟨ops.ofBits (sectNumber s 12 15), sectSigned s 16 17, sectSigned s 18 19, sectNumber s 20 20⟩

/-- What decoding with templates 0, 2, 3, 40, 41 looks like for all float operations at once. -/
def Uniform (png : List UInt8 → Option (List UInt8)) (jp2 : List UInt8 → Outcome Jpeg2000Error (List Int)) (t : Decoder) : Prop :=
  (∃ e, ∀ (F : Type) (ops : FloatOps F), t.decodeValues ⟨ops, png, jp2⟩ = .err e) ∨
  (∀ (F : Type) (ops : FloatOps F), t.decodeValues ⟨ops, png, jp2⟩ = .panic) ∨
  (16 ≤ t.sect5.length ∧ sectNumber t.sect5 20 20 = 0 ∧ ∀ (F : Type) (ops : FloatOps F), t.decodeValues ⟨ops, png, jp2⟩ =
    .ok (List.replicate t.numPointsEncoded (.ok ((paramOf ops t.sect5).zeroBitReferenceValue ops)))) ∨
  (16 ≤ t.sect5.length ∧ ∃ xs, Small xs ∧ ∀ (F : Type) (ops : FloatOps F), t.decodeValues ⟨ops, png, jp2⟩ =
    .ok (xs.map fun x => (unpackStored ops (paramOf ops t.sect5)) <$> x))

theorem nbit_items_small (data : List UInt8) {n : Nat} (hn : 1 ≤ n) :
    Small ((NBit.new data n).items.map fun x => (fun a : Nat => some (a : Int)) <$> x) := by
  rw [NBit.items_new _ hn]
  intro x hx
  simp only [List.map_map, List.mem_map, Function.comp] at hx
  obtain ⟨k, -, hk⟩ := hx
  simp only [Outcome.map_ok, Outcome.ok.injEq, Option.some.injEq] at hk
  subst hk
  have := Nat.mod_lt (bitField data (k * n) n) (show 0 < 2 ^ 32 by decide)
  rw [Int.natAbs_natCast]
  exact Nat.le_of_lt this

theorem unpackAll_nat {F : Type} (ops : FloatOps F) (p : SimpleParam F) (xs : Items Nat) :
    p.unpackAll ops (fun x : Nat => ops.ofInt x) xs =
      (xs.map fun x => (fun a : Nat => some (a : Int)) <$> x).map fun x => (unpackStored ops p) <$> x := by
  unfold SimpleParam.unpackAll
  rw [List.map_map]
  apply List.map_congr_left
  intro a _
  cases a <;> rfl

theorem uniform_simple (png jp2) (t : Decoder) (h : t.templateNum = 0) : Uniform png jp2 t := by
  have e : ∀ (F : Type) (ops : FloatOps F), t.decodeValues ⟨ops, png, jp2⟩ = simpleDecode ops t := by
    intro F ops; unfold Decoder.decodeValues; rw [h]; rfl
  unfold Uniform
  simp only [e]
  by_cases hl : 16 ≤ t.sect5.length
  · by_cases ht : sectNumber t.sect5 21 21 = 0
    · by_cases hn : sectNumber t.sect5 20 20 = 0
      · right; right; left
        refine ⟨hl, hn, fun F ops => ?_⟩
        unfold simpleDecode
        rw [fromSect5_eq ops hl, if_neg (by simpa using ht), Outcome.bind_ok, if_pos hn]
        rfl
      · right; right; right
        refine ⟨hl, _, nbit_items_small t.sect7 (Nat.pos_of_ne_zero hn), fun F ops => ?_⟩
        unfold simpleDecode
        rw [fromSect5_eq ops hl, if_neg (by simpa using ht), Outcome.bind_ok, if_neg hn, unpackAll_nat]
        rfl
    · left
      refine ⟨.decodeError (.simplePacking .originalFieldValueTypeNotSupported), fun F ops => ?_⟩
      unfold simpleDecode
      rw [fromSect5_eq ops hl, if_pos ht]; rfl
  · right; left
    intro F ops
    unfold simpleDecode
    rw [fromSect5_short ops (by omega)]; rfl

theorem uniform_png (png jp2) (t : Decoder) (h : t.templateNum = 41) : Uniform png jp2 t := by
  have e : ∀ (F : Type) (ops : FloatOps F), t.decodeValues ⟨ops, png, jp2⟩ = pngDecode ⟨ops, png, jp2⟩ t := by
    intro F ops; unfold Decoder.decodeValues; rw [h]; rfl
  unfold Uniform
  simp only [e]
  by_cases hl : 16 ≤ t.sect5.length
  · by_cases ht : sectNumber t.sect5 21 21 = 0
    · cases hp : png t.sect7 with
      | none =>
        left
        refine ⟨.decodeError (.png .pngError), fun F ops => ?_⟩
        unfold pngDecode
        simp only [hp]
        rw [fromSect5_eq ops hl, if_neg (by simpa using ht), Outcome.bind_ok]
      | some buf =>
        by_cases hn : sectNumber t.sect5 20 20 = 0
        · right; right; left
          refine ⟨hl, hn, fun F ops => ?_⟩
          unfold pngDecode
          simp only [hp]
          rw [fromSect5_eq ops hl, if_neg (by simpa using ht), Outcome.bind_ok, if_pos hn]
          rfl
        · right; right; right
          refine ⟨hl, _, nbit_items_small buf (Nat.pos_of_ne_zero hn), fun F ops => ?_⟩
          unfold pngDecode
          simp only [hp]
          rw [fromSect5_eq ops hl, if_neg (by simpa using ht), Outcome.bind_ok, if_neg hn, unpackAll_nat]
          rfl
    · left
      refine ⟨.decodeError (.simplePacking .originalFieldValueTypeNotSupported), fun F ops => ?_⟩
      unfold pngDecode
      rw [fromSect5_eq ops hl, if_pos ht]; rfl
  · right; left
    intro F ops
    unfold pngDecode
    rw [fromSect5_short ops (by omega)]; rfl

theorem uniform_jpeg (png jp2) (t : Decoder) (h : t.templateNum = 40)
    (hj : ∀ data xs, jp2 data = .ok xs → ∀ x ∈ xs, x.natAbs ≤ 2 ^ 32) : Uniform png jp2 t := by
  have e : ∀ (F : Type) (ops : FloatOps F), t.decodeValues ⟨ops, png, jp2⟩ = jpeg2000Decode ⟨ops, png, jp2⟩ t := by
    intro F ops; unfold Decoder.decodeValues; rw [h]; rfl
  unfold Uniform
  simp only [e]
  by_cases hl : 16 ≤ t.sect5.length
  · by_cases ht : sectNumber t.sect5 21 21 = 0
    · by_cases hn : sectNumber t.sect5 20 20 = 0
      · right; right; left
        refine ⟨hl, hn, fun F ops => ?_⟩
        unfold jpeg2000Decode
        rw [fromSect5_eq ops hl, if_neg (by simpa using ht), Outcome.bind_ok, if_pos hn]
        rfl
      · cases hp : jp2 t.sect7 with
        | err er =>
          left
          refine ⟨.decodeError (.jpeg2000 er), fun F ops => ?_⟩
          unfold jpeg2000Decode
          rw [fromSect5_eq ops hl, if_neg (by simpa using ht), Outcome.bind_ok, if_neg hn]
          simp only [hp]
          rfl
        | panic =>
          right; left
          intro F ops
          unfold jpeg2000Decode
          rw [fromSect5_eq ops hl, if_neg (by simpa using ht), Outcome.bind_ok, if_neg hn]
          simp only [hp]
          rfl
        | ok xs =>
          right; right; right
          refine ⟨hl, xs.map fun x => .ok (some x), ?_, fun F ops => ?_⟩
          · intro x hx
            simp only [List.mem_map, Outcome.ok.injEq, Option.some.injEq, exists_eq_right] at hx
            exact hj _ _ hp x hx
          · unfold jpeg2000Decode
            rw [fromSect5_eq ops hl, if_neg (by simpa using ht), Outcome.bind_ok, if_neg hn]
            simp only [hp]
            show Outcome.ok _ = _
            congr 1
            unfold SimpleParam.unpackAll
            rw [List.map_map, List.map_map]
            rfl
    · left
      refine ⟨.decodeError (.simplePacking .originalFieldValueTypeNotSupported), fun F ops => ?_⟩
      unfold jpeg2000Decode
      rw [fromSect5_eq ops hl, if_pos ht]; rfl
  · right; left
    intro F ops
    unfold jpeg2000Decode
    rw [fromSect5_short ops (by omega)]; rfl

/-! ## Complex packing -/

def SmallValues (xs : Items DecodedValue) : Prop := ∀ v : Int, .ok (.normal v) ∈ xs → v.natAbs ≤ 2 ^ 32

theorem checkI32_small {ε : Type} {a b : Int} (h : (checkI32 a : Outcome ε Int) = .ok b) : b.natAbs ≤ 2 ^ 32 := by
  unfold checkI32 at h
  split at h
  · cases h; omega
  · cases h

theorem groupValue_small {ε : Type} {env ref m1 m2 x v} (h : (groupValue env ref m1 m2 x : Outcome ε DecodedValue) = .ok (.normal v)) :
    v.natAbs ≤ 2 ^ 32 := by
  unfold groupValue at h
  split at h
  · cases h
  · split at h
    · cases h
    · obtain ⟨a, -, h⟩ := Outcome.bind_ok_iff.1 h
      obtain ⟨b, hb, h⟩ := Outcome.bind_ok_iff.1 h
      cases h
      exact checkI32_small hb

theorem mapPulls_mem {ε α β : Type} {f : α → Outcome ε β} {xs : List α} {ys : List β} (h : mapPulls f xs = .ok ys) :
    ∀ y ∈ ys, ∃ x, f x = .ok y := by
  induction xs generalizing ys with
  | nil => cases h; simp
  | cons a as ih =>
    obtain ⟨b, hb, h⟩ := Outcome.bind_ok_iff.1 h
    obtain ⟨bs, hbs, h⟩ := Outcome.bind_ok_iff.1 h
    cases h
    intro y hy
    rcases List.mem_cons.1 hy with rfl | hy
    · exact ⟨a, hb⟩
    · exact ih hbs y hy

theorem groupNext_small {ε : Type} {env st ref w l vs st'} (h : (groupNext env st ref w l : Outcome ε _) = .ok (vs, st')) :
    ∀ v : Int, DecodedValue.normal v ∈ vs → v.natAbs ≤ 2 ^ 32 := by
  intro v hv
  unfold groupNext at h
  split at h
  · obtain ⟨r, -, h⟩ := Outcome.bind_ok_iff.1 h
    split at h
    · cases h
    · dsimp only at h
      split at h
      · cases h; simp at hv
      · split at h
        · cases h; simp at hv
        · obtain ⟨b, hb, h⟩ := Outcome.bind_ok_iff.1 h
          cases h
          have := List.eq_of_mem_replicate hv
          cases this
          exact checkI32_small hb
  · obtain ⟨r, -, h⟩ := Outcome.bind_ok_iff.1 h
    dsimp only at h
    split at h
    · cases h
    · obtain ⟨sl, -, h⟩ := Outcome.bind_ok_iff.1 h
      obtain ⟨raw, -, h⟩ := Outcome.bind_ok_iff.1 h
      obtain ⟨vals, hvals, h⟩ := Outcome.bind_ok_iff.1 h
      cases h
      obtain ⟨x, hx⟩ := mapPulls_mem hvals _ hv
      exact groupValue_small hx

theorem groupItems_small (env : GroupEnv) (refs : List Nat) (ws ls : Items Nat) (st : GroupPos) :
    SmallValues (groupItems env refs ws ls st) := by
  induction refs generalizing ws ls st with
  | nil => intro v hv; simp [groupItems] at hv
  | cons ref refs ih =>
    cases ws with
    | nil => intro v hv; simp [groupItems] at hv
    | cons w ws =>
      cases ls with
      | nil => intro v hv; simp [groupItems] at hv
      | cons l ls =>
        intro v hv
        rw [groupItems] at hv
        cases hg : (do let w ← w; let l ← l; groupNext env st ref w l : Outcome Empty _) with
        | ok p =>
          obtain ⟨vs, st'⟩ := p
          rw [hg] at hv
          simp only [List.mem_append, List.mem_map] at hv
          rcases hv with ⟨a, ha, e⟩ | hv
          · cases e
            obtain ⟨w', -, hg⟩ := Outcome.bind_ok_iff.1 hg
            obtain ⟨l', -, hg⟩ := Outcome.bind_ok_iff.1 hg
            exact groupNext_small hg v ha
          · exact ih ws ls st' v hv
        | err e => exact e.elim
        | panic => rw [hg] at hv; simp at hv

theorem decodeComplex_small {ε : Type} {p s7 off nbit z items} (h : (decodeComplexPacking p s7 off nbit z : Outcome ε _) = .ok items) :
    SmallValues items := by
  unfold decodeComplexPacking at h
  obtain ⟨_, -, h⟩ := Outcome.bind_ok_iff.1 h
  obtain ⟨_, -, h⟩ := Outcome.bind_ok_iff.1 h
  obtain ⟨_, -, h⟩ := Outcome.bind_ok_iff.1 h
  obtain ⟨_, -, h⟩ := Outcome.bind_ok_iff.1 h
  obtain ⟨_, -, h⟩ := Outcome.bind_ok_iff.1 h
  obtain ⟨_, -, h⟩ := Outcome.bind_ok_iff.1 h
  obtain ⟨_, -, h⟩ := Outcome.bind_ok_iff.1 h
  split at h
  · cases h
  · obtain ⟨_, -, h⟩ := Outcome.bind_ok_iff.1 h
    obtain ⟨_, -, h⟩ := Outcome.bind_ok_iff.1 h
    obtain ⟨_, -, h⟩ := Outcome.bind_ok_iff.1 h
    cases h
    exact groupItems_small _ _ _ _ _

theorem gribInt_small {bs : List UInt8} {v : Int} (h : gribIntFromBytes bs = some v) : v.natAbs ≤ 2 ^ 32 := by
  by_cases hl : bs.length = 0 ∨ 4 < bs.length
  · rw [Grib.Props.C01_other_lengths bs hl] at h; cases h
  · have := (Grib.Props.C01_range bs.length (by omega) (by omega) v).1 ⟨bs, rfl, h⟩
    have h2 : 2 ^ (8 * bs.length - 1) ≤ 2 ^ 32 := Nat.pow_le_pow_right (by decide) (by omega)
    omega

theorem firstValues_small {ε : Type} {d : DiffDescriptors} {fuel pos vs} (h : (d.firstValues fuel pos : Outcome ε _) = .ok vs) :
    ∀ v ∈ vs, v.natAbs ≤ 2 ^ 32 := by
  induction fuel generalizing pos vs with
  | zero => cases h; simp
  | succ fuel ih =>
    unfold DiffDescriptors.firstValues at h
    split at h
    · cases h; simp
    · obtain ⟨sl, -, h⟩ := Outcome.bind_ok_iff.1 h
      obtain ⟨x, hx, h⟩ := Outcome.bind_ok_iff.1 h
      obtain ⟨xs, hxs, h⟩ := Outcome.bind_ok_iff.1 h
      cases h
      intro v hv
      rcases List.mem_cons.1 hv with rfl | hv
      · cases hg : gribIntFromBytes sl with
        | none => rw [hg] at hx; cases hx
        | some y =>
          rw [hg] at hx
          cases hx
          exact gribInt_small hg
      · exact ih hxs v hv

theorem diff1_small (s : Diff1) (xs : Items DecodedValue) (hf : ∀ v ∈ s.firstValues, v.natAbs ≤ 2 ^ 32) :
    SmallValues (stepItems Diff1.step s xs) := by
  induction xs generalizing s with
  | nil => intro v hv; simp [stepItems] at hv
  | cons x xs ih =>
    intro v hv
    cases x with
    | err e => exact e.elim
    | panic => simp [stepItems] at hv
    | ok a =>
      simp only [stepItems] at hv
      cases hs : (Diff1.step s a : Outcome Empty _) with
      | err e => exact e.elim
      | panic => rw [hs] at hv; simp at hv
      | ok p =>
        obtain ⟨b, s'⟩ := p
        rw [hs] at hv
        have key : (∀ w : Int, b = .normal w → w.natAbs ≤ 2 ^ 32) ∧ ∀ v ∈ s'.firstValues, v.natAbs ≤ 2 ^ 32 := by
          unfold Diff1.step at hs
          split at hs
          · split at hs
            · split at hs
              · cases hs
              · rename_i x xs hfv
                cases hs
                rw [hfv] at hf
                exact ⟨fun w hw => by cases hw; exact hf _ (by simp), fun v hv => hf v (by simp [hv])⟩
            · obtain ⟨c, hc, hs⟩ := Outcome.bind_ok_iff.1 hs
              cases hs
              exact ⟨fun w hw => by cases hw; exact checkI32_small hc, hf⟩
          · cases hs
            refine ⟨?_, hf⟩
            intro w hw
            subst hw
            simp_all
        rcases List.mem_cons.1 hv with h | h
        · cases h; exact key.1 v rfl
        · exact ih s' key.2 v h

theorem diff2_small (s : Diff2) (xs : Items DecodedValue) (hf : ∀ v ∈ s.firstValues, v.natAbs ≤ 2 ^ 32) :
    SmallValues (stepItems Diff2.step s xs) := by
  induction xs generalizing s with
  | nil => intro v hv; simp [stepItems] at hv
  | cons x xs ih =>
    intro v hv
    cases x with
    | err e => exact e.elim
    | panic => simp [stepItems] at hv
    | ok a =>
      simp only [stepItems] at hv
      cases hs : (Diff2.step s a : Outcome Empty _) with
      | err e => exact e.elim
      | panic => rw [hs] at hv; simp at hv
      | ok p =>
        obtain ⟨b, s'⟩ := p
        rw [hs] at hv
        have key : (∀ w : Int, b = .normal w → w.natAbs ≤ 2 ^ 32) ∧ ∀ v ∈ s'.firstValues, v.natAbs ≤ 2 ^ 32 := by
          unfold Diff2.step at hs
          split at hs
          · split at hs
            · split at hs
              · cases hs
              · rename_i x xs hfv
                cases hs
                rw [hfv] at hf
                exact ⟨fun w hw => by cases hw; exact hf _ (by simp), fun v hv => hf v (by simp [hv])⟩
            · split at hs
              · cases hs
              · rename_i x xs hfv
                cases hs
                rw [hfv] at hf
                exact ⟨fun w hw => by cases hw; exact hf _ (by simp), fun v hv => hf v (by simp [hv])⟩
            · obtain ⟨c1, -, hs⟩ := Outcome.bind_ok_iff.1 hs
              obtain ⟨c2, -, hs⟩ := Outcome.bind_ok_iff.1 hs
              obtain ⟨c, hc, hs⟩ := Outcome.bind_ok_iff.1 hs
              cases hs
              exact ⟨fun w hw => by cases hw; exact checkI32_small hc, hf⟩
          · cases hs
            refine ⟨?_, hf⟩
            intro w hw
            subst hw
            simp_all
        rcases List.mem_cons.1 hv with h | h
        · cases h; exact key.1 v rfl
        · exact ih s' key.2 v h

theorem small_of_values {xs : Items DecodedValue} (h : SmallValues xs) :
    Small (xs.map fun x => DecodedValue.toInt? <$> x) := by
  intro x hx
  obtain ⟨a, ha, e⟩ := List.mem_map.1 hx
  cases a with
  | err z => exact z.elim
  | panic => cases e
  | ok d =>
    cases d with
    | normal v => cases e; exact h _ ha
    | missing1 => cases e
    | missing2 => cases e

theorem unpackAll_values {F : Type} (ops : FloatOps F) (p : SimpleParam F) (xs : Items DecodedValue) :
    p.unpackAll ops (DecodedValue.toF32 ops) xs =
      (xs.map fun x => DecodedValue.toInt? <$> x).map fun x => (unpackStored ops p) <$> x := by
  unfold SimpleParam.unpackAll
  rw [List.map_map]
  apply List.map_congr_left
  intro a _
  cases a with
  | err e => exact e.elim
  | panic => rfl
  | ok d => cases d <;> rfl

/-- From a computation that does not mention the float operations. -/
theorem uniform_of {png jp2} {t : Decoder} (x : Outcome GribError (Items DecodedValue)) (hl : 16 ≤ t.sect5.length)
    (hx : ∀ items, x = .ok items → SmallValues items)
    (h : ∀ (F : Type) (ops : FloatOps F), t.decodeValues ⟨ops, png, jp2⟩ =
      (do let items ← x; .ok ((paramOf ops t.sect5).unpackAll ops (DecodedValue.toF32 ops) items))) : Uniform png jp2 t := by
  unfold Uniform
  cases hc : x with
  | err e => left; exact ⟨e, fun F ops => by rw [h, hc]; rfl⟩
  | panic => right; left; exact fun F ops => by rw [h, hc]; rfl
  | ok items =>
    right; right; right
    refine ⟨hl, _, small_of_values (hx items hc), fun F ops => ?_⟩
    rw [h, hc, Outcome.bind_ok, unpackAll_values]

theorem uniform_error {png jp2} {t : Decoder} (e : GribError)
    (h : ∀ (F : Type) (ops : FloatOps F), t.decodeValues ⟨ops, png, jp2⟩ = .err e) : Uniform png jp2 t := .inl ⟨e, h⟩

theorem uniform_panic {png jp2} {t : Decoder}
    (h : ∀ (F : Type) (ops : FloatOps F), t.decodeValues ⟨ops, png, jp2⟩ = .panic) : Uniform png jp2 t := .inr (.inl h)

theorem uniform_complex2 (png jp2) (t : Decoder) (h : t.templateNum = 2) : Uniform png jp2 t := by
  have e : ∀ (F : Type) (ops : FloatOps F), t.decodeValues ⟨ops, png, jp2⟩ = complexDecode2 ops t := by
    intro F ops; unfold Decoder.decodeValues; rw [h]; rfl
  by_cases hl : 16 ≤ t.sect5.length
  · by_cases ht : sectNumber t.sect5 21 21 = 0
    · refine uniform_of (do
          let complex ← ComplexParam.fromSect5 t.sect5
          if complex.splitting ≠ 1 ∨ complex.missing > 2 then .err (.decodeError (.complexPacking .notSupported)) else
          decodeComplexPacking complex t.sect7 0 (sectNumber t.sect5 20 20) 0) hl ?_ ?_
      · intro items hi
        obtain ⟨c, -, hi⟩ := Outcome.bind_ok_iff.1 hi
        split at hi
        · cases hi
        · exact decodeComplex_small hi
      · intro F ops
        rw [e]
        unfold complexDecode2
        rw [fromSect5_eq ops hl, if_neg (by simpa using ht), Outcome.bind_ok]
        cases (ComplexParam.fromSect5 t.sect5 : Outcome GribError _) with
        | err e => rfl
        | panic => rfl
        | ok c =>
          simp only [Outcome.bind_ok]
          split
          · rfl
          · rfl
    · exact uniform_error (.decodeError (.simplePacking .originalFieldValueTypeNotSupported)) fun F ops => by
        rw [e]; unfold complexDecode2; rw [fromSect5_eq ops hl, if_pos ht]; rfl
  · exact uniform_panic fun F ops => by rw [e]; unfold complexDecode2; rw [fromSect5_short ops (by omega)]; rfl

theorem uniform_complex3 (png jp2) (t : Decoder) (h : t.templateNum = 3) : Uniform png jp2 t := by
  have e : ∀ (F : Type) (ops : FloatOps F), t.decodeValues ⟨ops, png, jp2⟩ = complexDecode3 ops t := by
    intro F ops; unfold Decoder.decodeValues; rw [h]; rfl
  by_cases hl : 16 ≤ t.sect5.length
  · by_cases ht : sectNumber t.sect5 21 21 = 0
    · refine uniform_of (do
          let complex ← ComplexParam.fromSect5 t.sect5
          let order ← rdAs t.sect5 42 1
          if order ≠ 1 ∧ order ≠ 2 ∧ order ≠ 255 then .err .notSupported else do
          let octets ← rdAs t.sect5 43 1
          if complex.splitting ≠ 1 ∨ complex.missing > 2 ∨ order = 255 then .err (.decodeError (.complexPacking .notSupported))
          else do
          let d ← DiffDescriptors.new t.sect7 order octets
          let items ← decodeComplexPacking complex t.sect7 d.slice.length (sectNumber t.sect5 20 20) (← d.minimum)
          let first ← d.firstValues d.slice.length 0
          .ok (if order = 1 then stepItems Diff1.step { firstValues := first } items
            else stepItems Diff2.step { firstValues := first } items)) hl ?_ ?_
      · intro items hi
        obtain ⟨c, -, hi⟩ := Outcome.bind_ok_iff.1 hi
        obtain ⟨o, -, hi⟩ := Outcome.bind_ok_iff.1 hi
        split at hi
        · cases hi
        · obtain ⟨oc, -, hi⟩ := Outcome.bind_ok_iff.1 hi
          split at hi
          · cases hi
          · obtain ⟨d, -, hi⟩ := Outcome.bind_ok_iff.1 hi
            obtain ⟨m, -, hi⟩ := Outcome.bind_ok_iff.1 hi
            obtain ⟨its, -, hi⟩ := Outcome.bind_ok_iff.1 hi
            obtain ⟨fv, hfv, hi⟩ := Outcome.bind_ok_iff.1 hi
            have hs := firstValues_small hfv
            split at hi
            · cases hi; exact diff1_small _ _ hs
            · cases hi; exact diff2_small _ _ hs
      · intro F ops
        rw [e]
        unfold complexDecode3
        rw [fromSect5_eq ops hl, if_neg (by simpa using ht), Outcome.bind_ok]
        cases (ComplexParam.fromSect5 t.sect5 : Outcome GribError _) with
        | err e => rfl
        | panic => rfl
        | ok c =>
          simp only [Outcome.bind_ok]
          cases (rdAs t.sect5 42 1 : Outcome GribError _) with
          | err e => rfl
          | panic => rfl
          | ok o =>
            simp only [Outcome.bind_ok]
            split
            · rfl
            · cases (rdAs t.sect5 43 1 : Outcome GribError _) with
              | err e => rfl
              | panic => rfl
              | ok oc =>
                simp only [Outcome.bind_ok]
                split
                · rfl
                · cases DiffDescriptors.new t.sect7 o oc with
                  | err e => rfl
                  | panic => rfl
                  | ok d =>
                    simp only [Outcome.bind_ok]
                    cases (d.minimum : Outcome GribError _) with
                    | err e => rfl
                    | panic => rfl
                    | ok m =>
                      simp only [Outcome.bind_ok]
                      cases (decodeComplexPacking c t.sect7 d.slice.length (sectNumber t.sect5 20 20) m : Outcome GribError _) with
                      | err e => rfl
                      | panic => rfl
                      | ok its =>
                        simp only [Outcome.bind_ok]
                        cases (d.firstValues d.slice.length 0 : Outcome GribError _) with
                        | err e => rfl
                        | panic => rfl
                        | ok fv => rfl
    · exact uniform_error (.decodeError (.simplePacking .originalFieldValueTypeNotSupported)) fun F ops => by
        rw [e]; unfold complexDecode3; rw [fromSect5_eq ops hl, if_pos ht]; rfl
  · exact uniform_panic fun F ops => by rw [e]; unfold complexDecode3; rw [fromSect5_short ops (by omega)]; rfl

end Grib.Model
