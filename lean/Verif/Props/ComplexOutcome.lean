import Verif.Lemmas.ComplexDiff
import Verif.Props.Complex

/-! # C68: every outcome of complex packing, with and without spatial differencing

The template fields are those of C27 to C30.  `Layout.HeaderOk` and `Layout.GroupOk` (Spec/ComplexRead.lean) say what the
blocks and each group need; `Fits1` and `Fits2` what undoing the differences needs. -/

namespace Grib.Props

open Grib.Model Grib.Spec

variable {F : Type}

/-- The points for decoded values, and a panic at the end if the values stop short. -/
def points (ops : FloatOps F) (sect5 : List UInt8) (xs : List DecodedValue) (short : Prop) [Decidable short] : Items F :=
  (xs.map fun v => .ok (pointValue ops sect5 v)) ++ if short then [.panic] else []

def typeErr : GribError := .decodeError (.simplePacking .originalFieldValueTypeNotSupported)
def complexErr : GribError := .decodeError (.complexPacking .notSupported)

theorem unpackAll_points (ops : FloatOps F) (sect5 : List UInt8) (nbit : Nat) (xs : List DecodedValue) (short : Prop)
    [Decidable short] :
    (SimpleParam.mk (ops.ofBits (sectNumber sect5 12 15)) (sectSigned sect5 16 17) (sectSigned sect5 18 19) nbit).unpackAll ops
      (DecodedValue.toF32 ops) (xs.map .ok ++ if short then [.panic] else []) = points ops sect5 xs short := by
  have := unpackAll_decoded ops sect5 nbit xs
  unfold SimpleParam.unpackAll points at *
  rw [List.map_append, this]
  congr 1
  split <;> rfl

theorem complexTemplate_last (sect5 : List UInt8) : (complexTemplate sect5).lenLast < 2 ^ 32 := number_lt _ _ 4

/-- Template 5.2: all the cases. -/
inductive Complex2Case (ops : FloatOps F) (t : Decoder) : Outcome GribError (Items F) → Prop
  | short16 (h : t.sect5.length < 16) : Complex2Case ops t .panic
  | type (h : 16 ≤ t.sect5.length) (ht : sectNumber t.sect5 21 21 ≠ 0) : Complex2Case ops t (.err typeErr)
  | short42 (h : 16 ≤ t.sect5.length) (h' : t.sect5.length < 42) (ht : sectNumber t.sect5 21 21 = 0) : Complex2Case ops t .panic
  | unsupported (h : 42 ≤ t.sect5.length) (ht : sectNumber t.sect5 21 21 = 0)
      (hu : sectNumber t.sect5 22 22 ≠ 1 ∨ 2 < sectNumber t.sect5 23 23) : Complex2Case ops t (.err complexErr)
  | header (h : ComplexOk t.sect5) (hh : ¬ (layout2 t).HeaderOk) : Complex2Case ops t .panic
  | groups (h : ComplexOk t.sect5) (hh : (layout2 t).HeaderOk) (m : Nat) (hm : m ≤ sectNumber t.sect5 32 35)
      (hok : ∀ g < m, (layout2 t).GroupOk 0 g) (hbad : m < sectNumber t.sect5 32 35 → ¬ (layout2 t).GroupOk 0 m) :
      Complex2Case ops t (.ok (points ops t.sect5 ((layout2 t).readValues 0 m) (m < sectNumber t.sect5 32 35)))

/-- C68, template 5.2: the outcome of decoding is `o` if and only if the data are in the case of `o`, whatever the data.  If
the template is supported and the blocks are inside section 7, the points are those of the groups before the first one
that is not in order, where iteration panics; all points if there is none. -/
theorem C68_outcome2 (ops : FloatOps F) (t : Decoder) (o : Outcome GribError (Items F)) :
    complexDecode2 ops t = o ↔ Complex2Case ops t o := by
  have hlast := complexTemplate_last t.sect5
  have main : ComplexOk t.sect5 → complexDecode2 ops t = (do
      let items ← (decodeComplexPacking (layout2 t).p (layout2 t).data (layout2 t).start (layout2 t).nbit 0 : Outcome GribError _)
      .ok (SimpleParam.unpackAll ops ⟨ops.ofBits (sectNumber t.sect5 12 15), sectSigned t.sect5 16 17, sectSigned t.sect5 18 19,
        sectNumber t.sect5 20 20⟩ (DecodedValue.toF32 ops) items)) := by
    intro h5
    have := h5.length
    unfold complexDecode2
    rw [fromSect5_eq ops (by omega), if_neg (by simpa using h5.type), Outcome.bind_ok, complexParam_eq h5.length, Outcome.bind_ok]
    simp only
    rw [if_neg (by have := h5.splitting; have := h5.missing; omega)]
    rfl
  have back : ∀ o, Complex2Case ops t o → complexDecode2 ops t = o := by
    intro o h
    cases h with
    | short16 h => unfold complexDecode2; rw [fromSect5_short ops h]; rfl
    | type h ht => unfold complexDecode2; rw [fromSect5_eq ops h, if_pos ht]; rfl
    | short42 h h' ht => exact C27_short_section5_panics ops t h' (fun _ => ht)
    | unsupported h ht hu =>
      unfold complexDecode2
      rw [fromSect5_eq ops (by omega), if_neg (by simpa using ht), Outcome.bind_ok, complexParam_eq (by omega), Outcome.bind_ok]
      simp only
      rw [if_pos (by omega)]; rfl
    | header h hh =>
      rw [main h, (decodeComplexPacking_outcome (layout2 t) 0 hlast).1 hh]; rfl
    | groups h hh m hm hok hbad =>
      rw [main h, (decodeComplexPacking_outcome (layout2 t) 0 hlast).2 hh m hm hok hbad, Outcome.bind_ok]
      congr 1
      exact unpackAll_points ops t.sect5 _ _ _
  constructor
  · rintro rfl
    by_cases h16 : t.sect5.length < 16
    · have c := Complex2Case.short16 (ops := ops) h16
      rw [back _ c]; exact c
    by_cases ht : sectNumber t.sect5 21 21 = 0
    · by_cases h42 : t.sect5.length < 42
      · have c := Complex2Case.short42 (ops := ops) (by omega) h42 ht
        rw [back _ c]; exact c
      by_cases hu : sectNumber t.sect5 22 22 ≠ 1 ∨ 2 < sectNumber t.sect5 23 23
      · have c := Complex2Case.unsupported (ops := ops) (by omega) ht hu
        rw [back _ c]; exact c
      have h5 : ComplexOk t.sect5 := ⟨by omega, ht, by omega, by omega⟩
      rcases Classical.em (layout2 t).HeaderOk with hh | hh
      · obtain ⟨m, hm, hok, hbad⟩ := first_bad ((layout2 t).GroupOk 0) (sectNumber t.sect5 32 35)
        have c := Complex2Case.groups (ops := ops) h5 hh m hm hok hbad
        rw [back _ c]; exact c
      · have c := Complex2Case.header (ops := ops) h5 hh
        rw [back _ c]; exact c
    · have c := Complex2Case.type (ops := ops) (by omega) ht
      rw [back _ c]; exact c
  · exact back o

/-! ## Spatial differencing -/

/-- The differences in template 7.3: the values of the first `m` groups. -/
def differences (t : Decoder) (m : Nat) : List DecodedValue :=
  (layout3 t).readValues (descriptor t (diffOrder t.sect5)) m

/-- The values from their differences. -/
def undone (t : Decoder) (xs : List DecodedValue) : List DecodedValue :=
  if diffOrder t.sect5 = 1 then undo1 (descriptor t 0) none xs else undo2 (descriptor t 0) (descriptor t 1) [] xs

/-- The computation of the values stays within 32 bits. -/
def UndoneFits (t : Decoder) (xs : List DecodedValue) : Prop :=
  if diffOrder t.sect5 = 1 then Fits1 (descriptor t 0) none xs else Fits2 (descriptor t 0) (descriptor t 1) [] xs

/-- Template 5.3: all the cases. -/
inductive Complex3Case (ops : FloatOps F) (t : Decoder) : Outcome GribError (Items F) → Prop
  | short16 (h : t.sect5.length < 16) : Complex3Case ops t .panic
  | type (h : 16 ≤ t.sect5.length) (ht : sectNumber t.sect5 21 21 ≠ 0) : Complex3Case ops t (.err typeErr)
  | short43 (h : 16 ≤ t.sect5.length) (h' : t.sect5.length < 43) (ht : sectNumber t.sect5 21 21 = 0) : Complex3Case ops t .panic
  | order (h : 43 ≤ t.sect5.length) (ht : sectNumber t.sect5 21 21 = 0) (ho : diffOrder t.sect5 ∉ [1, 2, 255]) :
      Complex3Case ops t (.err .notSupported)
  | short44 (h : t.sect5.length = 43) (ht : sectNumber t.sect5 21 21 = 0) (ho : diffOrder t.sect5 ∈ [1, 2, 255]) :
      Complex3Case ops t .panic
  | unsupported (h : 44 ≤ t.sect5.length) (ht : sectNumber t.sect5 21 21 = 0) (ho : diffOrder t.sect5 ∈ [1, 2, 255])
      (hu : sectNumber t.sect5 22 22 ≠ 1 ∨ 2 < sectNumber t.sect5 23 23 ∨ diffOrder t.sect5 = 255 ∨
        diffOctets t.sect5 = 0 ∨ 4 < diffOctets t.sect5) : Complex3Case ops t (.err complexErr)
  | descriptors (h : DiffOk t.sect5) (hd : t.sect7.length < (diffOrder t.sect5 + 1) * diffOctets t.sect5) :
      Complex3Case ops t .panic
  | header (h : DiffOk t.sect5) (hd : (diffOrder t.sect5 + 1) * diffOctets t.sect5 ≤ t.sect7.length)
      (hh : ¬ (layout3 t).HeaderOk) : Complex3Case ops t .panic
  | groups (h : DiffOk t.sect5) (hh : (layout3 t).HeaderOk) (m : Nat) (hm : m ≤ sectNumber t.sect5 32 35)
      (hok : ∀ g < m, (layout3 t).GroupOk (descriptor t (diffOrder t.sect5)) g)
      (hbad : m < sectNumber t.sect5 32 35 → ¬ (layout3 t).GroupOk (descriptor t (diffOrder t.sect5)) m)
      (hfit : UndoneFits t (differences t m)) :
      Complex3Case ops t (.ok (points ops t.sect5 (undone t (differences t m)) (m < sectNumber t.sect5 32 35)))
  | overflow (h : DiffOk t.sect5) (hh : (layout3 t).HeaderOk) (m : Nat) (hm : m ≤ sectNumber t.sect5 32 35)
      (hok : ∀ g < m, (layout3 t).GroupOk (descriptor t (diffOrder t.sect5)) g)
      (hbad : m < sectNumber t.sect5 32 35 → ¬ (layout3 t).GroupOk (descriptor t (diffOrder t.sect5)) m)
      (n : Nat) (hn : n < (differences t m).length) (hfit : UndoneFits t ((differences t m).take n))
      (hover : ¬ UndoneFits t ((differences t m).take (n + 1))) :
      Complex3Case ops t (.ok (points ops t.sect5 ((undone t (differences t m)).take n) True))

theorem fits_nil (t : Decoder) : UndoneFits t [] := by
  unfold UndoneFits
  split
  · unfold Fits1; trivial
  · unfold Fits2; trivial

/-- If not all prefixes fit, there is a last one that does. -/
theorem fits_cut (t : Decoder) (xs : List DecodedValue) (h : ¬ UndoneFits t xs) :
    ∃ n < xs.length, UndoneFits t (xs.take n) ∧ ¬ UndoneFits t (xs.take (n + 1)) := by
  obtain ⟨m, hm, hok, hbad⟩ := first_bad (fun n => UndoneFits t (xs.take n)) (xs.length + 1)
  have hm' : m < xs.length + 1 := by
    apply Decidable.byContradiction
    intro hc
    have := hok xs.length (by omega)
    rw [List.take_length] at this
    exact h this
  have h0 : m ≠ 0 := by
    intro h0
    subst h0
    exact hbad hm' (by rw [List.take_zero]; exact fits_nil t)
  refine ⟨m - 1, by omega, hok (m - 1) (by omega), ?_⟩
  rw [show m - 1 + 1 = m by omega]
  exact hbad hm'

/-- C68, template 5.3: the same with the descriptors and the differences: the points are those of the values before the first
one whose computation leaves 32 bits, or whose group is not in order, where iteration panics. -/
theorem C68_outcome3 (ops : FloatOps F) (t : Decoder) (o : Outcome GribError (Items F)) :
    complexDecode3 ops t = o ↔ Complex3Case ops t o := by
  have hlast := complexTemplate_last t.sect5
  have e48 : number t.sect5 42 1 = diffOrder t.sect5 := rfl
  have e49 : number t.sect5 43 1 = diffOctets t.sect5 := rfl
  have main : DiffOk t.sect5 → (diffOrder t.sect5 + 1) * diffOctets t.sect5 ≤ t.sect7.length → complexDecode3 ops t = (do
      let items ← (decodeComplexPacking (layout3 t).p (layout3 t).data (layout3 t).start (layout3 t).nbit
        (descriptor t (diffOrder t.sect5)) : Outcome GribError _)
      .ok (SimpleParam.unpackAll ops ⟨ops.ofBits (sectNumber t.sect5 12 15), sectSigned t.sect5 16 17, sectSigned t.sect5 18 19,
        sectNumber t.sect5 20 20⟩ (DecodedValue.toF32 ops)
        (let first := (List.range (diffOrder t.sect5)).map (descriptor t)
         if diffOrder t.sect5 = 1 then stepItems Diff1.step { firstValues := first } items
         else stepItems Diff2.step { firstValues := first } items))) := by
    intro h5 hwhole
    have := h5.length
    obtain ⟨d, d1, d2, d3, d4⟩ := descriptors_eq (ε := GribError) h5.octets.1 h5.octets.2 hwhole
    unfold complexDecode3
    rw [fromSect5_eq ops (by omega), if_neg (by simpa using h5.complex.type), Outcome.bind_ok,
      complexParam_eq h5.complex.length, Outcome.bind_ok]
    simp only
    rw [rdAs_number (by omega), rdAs_number (by omega), e48, e49]
    simp only [Outcome.bind_ok]
    rw [if_neg (by have := h5.order; omega),
      if_neg (by have := h5.complex.splitting; have := h5.complex.missing; have := h5.order; omega), d1]
    simp only [Outcome.bind_ok]
    rw [d3, d4, d2]
    simp only [Outcome.bind_ok]
    rfl
  have inside : (layout3 t).HeaderOk → (diffOrder t.sect5 + 1) * diffOctets t.sect5 ≤ t.sect7.length := by
    intro hh
    have h := hh.inside
    have h1 : (layout3 t).start ≤ (layout3 t).dataAt := by
      unfold Layout.dataAt Layout.lensAt Layout.widthsAt; omega
    exact Nat.le_trans h1 h
  have items : DiffOk t.sect5 → (layout3 t).HeaderOk → ∀ m ≤ sectNumber t.sect5 32 35,
      (∀ g < m, (layout3 t).GroupOk (descriptor t (diffOrder t.sect5)) g) →
      (m < sectNumber t.sect5 32 35 → ¬ (layout3 t).GroupOk (descriptor t (diffOrder t.sect5)) m) →
      complexDecode3 ops t = .ok (SimpleParam.unpackAll ops
        ⟨ops.ofBits (sectNumber t.sect5 12 15), sectSigned t.sect5 16 17, sectSigned t.sect5 18 19, sectNumber t.sect5 20 20⟩
        (DecodedValue.toF32 ops)
        (let items := (differences t m).map .ok ++ if m < sectNumber t.sect5 32 35 then [.panic] else []
         let first := (List.range (diffOrder t.sect5)).map (descriptor t)
         if diffOrder t.sect5 = 1 then stepItems Diff1.step { firstValues := first } items
         else stepItems Diff2.step { firstValues := first } items)) := by
    intro h hh m hm hok hbad
    rw [main h (inside hh), (decodeComplexPacking_outcome (layout3 t) _ hlast).2 hh m hm hok hbad, Outcome.bind_ok]
    rfl
  have tail : ∀ m, ((if m < sectNumber t.sect5 32 35 then [.panic] else [] : Items DecodedValue) = [] ∨
      (if m < sectNumber t.sect5 32 35 then [.panic] else [] : Items DecodedValue) = [.panic]) := by
    intro m; split
    · exact .inr rfl
    · exact .inl rfl
  have back : ∀ o, Complex3Case ops t o → complexDecode3 ops t = o := by
    intro o h
    cases h with
    | short16 h => unfold complexDecode3; rw [fromSect5_short ops h]; rfl
    | type h ht => unfold complexDecode3; rw [fromSect5_eq ops h, if_pos ht]; rfl
    | short43 h h' ht =>
      unfold complexDecode3
      rw [fromSect5_eq ops h, if_neg (by simpa using ht), Outcome.bind_ok]
      by_cases h42 : t.sect5.length < 42
      · rw [complexParam_short h42]; rfl
      · rw [complexParam_eq (by omega), Outcome.bind_ok, rdAs_panic (by omega)]; rfl
    | order h ht ho =>
      simp only [List.mem_cons, List.not_mem_nil, or_false, not_or] at ho
      unfold complexDecode3
      rw [fromSect5_eq ops (by omega), if_neg (by simpa using ht), Outcome.bind_ok, complexParam_eq (by omega), Outcome.bind_ok,
        rdAs_number (by omega), e48]
      simp only [Outcome.bind_ok]
      rw [if_pos ho]
    | short44 h ht ho =>
      simp only [List.mem_cons, List.not_mem_nil, or_false] at ho
      unfold complexDecode3
      rw [fromSect5_eq ops (by omega), if_neg (by simpa using ht), Outcome.bind_ok, complexParam_eq (by omega), Outcome.bind_ok,
        rdAs_number (by omega), e48]
      simp only [Outcome.bind_ok]
      rw [if_neg (by omega), rdAs_panic (by omega)]; rfl
    | unsupported h ht ho hu =>
      obtain ⟨-, o1, o2⟩ := C30_order_refused ops t h ht
      by_cases hu' : sectNumber t.sect5 22 22 ≠ 1 ∨ 2 < sectNumber t.sect5 23 23
      · exact (C30_refused ops t h ht hu').2 ho
      · by_cases h255 : diffOrder t.sect5 = 255
        · exact o1 h255
        · refine o2 ?_ (by omega)
          simp only [List.mem_cons, List.not_mem_nil, or_false] at ho ⊢
          omega
    | descriptors h hd =>
      have := h.length
      unfold complexDecode3
      rw [fromSect5_eq ops (by omega), if_neg (by simpa using h.complex.type), Outcome.bind_ok,
        complexParam_eq h.complex.length, Outcome.bind_ok]
      simp only
      rw [rdAs_number (by omega), rdAs_number (by omega), e48, e49]
      simp only [Outcome.bind_ok]
      rw [if_neg (by have := h.order; omega),
        if_neg (by have := h.complex.splitting; have := h.complex.missing; have := h.order; omega)]
      unfold DiffDescriptors.new
      rw [if_neg (by have := h.octets; omega), sliceTo_beyond hd]; rfl
    | header h hd hh =>
      rw [main h hd, (decodeComplexPacking_outcome (layout3 t) _ hlast).1 hh]; rfl
    | groups h hh m hm hok hbad hfit =>
      rw [items h hh m hm hok hbad]
      congr 1
      unfold UndoneFits at hfit
      unfold undone
      rcases h.order with ho | ho
      · rw [if_pos ho] at hfit
        simp only [ho, if_true]
        rw [(stepItems_undo1 (descriptor t 0) (differences t m) _ (tail m) _ none (.inl ⟨rfl, rfl, rfl⟩)).1 hfit]
        exact unpackAll_points ops t.sect5 _ _ _
      · rw [if_neg (by omega)] at hfit
        simp only [ho, show ¬ (2 = 1) by decide, if_false]
        rw [(stepItems_undo2 (descriptor t 0) (descriptor t 1) (differences t m) _ (tail m) _ [] (.inl ⟨rfl, rfl, rfl⟩)).1 hfit]
        exact unpackAll_points ops t.sect5 _ _ _
    | overflow h hh m hm hok hbad n hn hfit hover =>
      rw [items h hh m hm hok hbad]
      congr 1
      unfold UndoneFits at hfit hover
      unfold undone
      rcases h.order with ho | ho
      · rw [if_pos ho] at hfit hover
        simp only [ho, if_true]
        rw [(stepItems_undo1 (descriptor t 0) (differences t m) _ (tail m) _ none (.inl ⟨rfl, rfl, rfl⟩)).2 n hn hfit hover]
        exact unpackAll_points ops t.sect5 _ _ True
      · rw [if_neg (by omega)] at hfit hover
        simp only [ho, show ¬ (2 = 1) by decide, if_false]
        rw [(stepItems_undo2 (descriptor t 0) (descriptor t 1) (differences t m) _ (tail m) _ [] (.inl ⟨rfl, rfl, rfl⟩)).2 n hn
          hfit hover]
        exact unpackAll_points ops t.sect5 _ _ True
  constructor
  · rintro rfl
    suffices h : ∃ o, Complex3Case ops t o by
      obtain ⟨o, c⟩ := h
      rw [back _ c]; exact c
    by_cases h16 : t.sect5.length < 16
    · exact ⟨_, .short16 h16⟩
    by_cases ht : sectNumber t.sect5 21 21 = 0
    · by_cases h43 : t.sect5.length < 43
      · exact ⟨_, .short43 (by omega) h43 ht⟩
      by_cases ho : diffOrder t.sect5 ∈ [1, 2, 255]
      · by_cases h44 : t.sect5.length = 43
        · exact ⟨_, .short44 h44 ht ho⟩
        by_cases hu : sectNumber t.sect5 22 22 ≠ 1 ∨ 2 < sectNumber t.sect5 23 23 ∨ diffOrder t.sect5 = 255 ∨
            diffOctets t.sect5 = 0 ∨ 4 < diffOctets t.sect5
        · exact ⟨_, .unsupported (by omega) ht ho hu⟩
        simp only [List.mem_cons, List.not_mem_nil, or_false] at ho
        have h5 : DiffOk t.sect5 := ⟨⟨by omega, ht, by omega, by omega⟩, by omega, by omega, by omega⟩
        by_cases hd : (diffOrder t.sect5 + 1) * diffOctets t.sect5 ≤ t.sect7.length
        · rcases Classical.em (layout3 t).HeaderOk with hh | hh
          · obtain ⟨m, hm, hok, hbad⟩ := first_bad ((layout3 t).GroupOk (descriptor t (diffOrder t.sect5))) (sectNumber t.sect5 32 35)
            rcases Classical.em (UndoneFits t (differences t m)) with hf | hf
            · exact ⟨_, .groups h5 hh m hm hok hbad hf⟩
            · obtain ⟨n, hn, h1, h2⟩ := fits_cut t _ hf
              exact ⟨_, .overflow h5 hh m hm hok hbad n hn h1 h2⟩
          · exact ⟨_, .header h5 hd hh⟩
        · exact ⟨_, .descriptors h5 (by omega)⟩
      · exact ⟨_, .order (by omega) ht ho⟩
    · exact ⟨_, .type (by omega) ht⟩
  · exact back o

theorem points_complete (ops : FloatOps F) (sect5 : List UInt8) (vs : List DecodedValue) (short : Prop) [Decidable short]
    (xs : List F) (h : xs.map Outcome.ok = points ops sect5 vs short) : ¬ short := by
  intro hs
  unfold points at h
  rw [if_pos hs] at h
  have h1 := congrArg List.getLast? h
  rw [List.getLast?_append, List.getLast?_map] at h1
  simp only [List.getLast?_singleton, Option.some_or] at h1
  cases hx : xs.getLast? <;> rw [hx] at h1 <;> cases h1

/-- C68. All values of template 5.2 are decoded, with no panic in the iteration, if and only if the template is supported, the
blocks are inside section 7 and all groups are in order. -/
theorem C68_all2 (ops : FloatOps F) (t : Decoder) :
    (∃ xs : List F, complexDecode2 ops t = .ok (xs.map .ok)) ↔
      ComplexOk t.sect5 ∧ (layout2 t).HeaderOk ∧ ∀ g < sectNumber t.sect5 32 35, (layout2 t).GroupOk 0 g := by
  constructor
  · rintro ⟨xs, h⟩
    have c := (C68_outcome2 ops t _).mp h
    generalize ho : (Outcome.ok (xs.map Outcome.ok) : Outcome GribError (Items F)) = o at c
    cases c <;> try (cases ho; done)
    rename_i h5 hh m hm hok hbad
    have := points_complete ops t.sect5 _ _ xs (Outcome.ok.inj ho)
    exact ⟨h5, hh, by rw [show sectNumber t.sect5 32 35 = m by omega]; exact hok⟩
  · rintro ⟨h5, hh, hok⟩
    have := (C68_outcome2 ops t _).mpr (.groups h5 hh _ (Nat.le_refl _) hok (fun h => absurd h (Nat.lt_irrefl _)))
    rw [this]
    refine ⟨((layout2 t).readValues 0 (sectNumber t.sect5 32 35)).map (pointValue ops t.sect5), ?_⟩
    simp [points, List.map_map, Function.comp_def]

/-- C68. All values of template 5.3 are decoded, with no panic in the iteration, if and only if besides the differences can be
undone within 32 bits. -/
theorem C68_all3 (ops : FloatOps F) (t : Decoder) :
    (∃ xs : List F, complexDecode3 ops t = .ok (xs.map .ok)) ↔
      DiffOk t.sect5 ∧ (layout3 t).HeaderOk ∧
      (∀ g < sectNumber t.sect5 32 35, (layout3 t).GroupOk (descriptor t (diffOrder t.sect5)) g) ∧
      UndoneFits t (differences t (sectNumber t.sect5 32 35)) := by
  constructor
  · rintro ⟨xs, h⟩
    have c := (C68_outcome3 ops t _).mp h
    generalize ho : (Outcome.ok (xs.map Outcome.ok) : Outcome GribError (Items F)) = o at c
    cases c <;> try (cases ho; done)
    · rename_i h5 hh m hm hok hbad hfit
      have := points_complete ops t.sect5 _ _ xs (Outcome.ok.inj ho)
      have e : sectNumber t.sect5 32 35 = m := by omega
      exact ⟨h5, hh, by rw [e]; exact hok, by rw [e]; exact hfit⟩
    · exact absurd trivial (points_complete ops t.sect5 _ _ xs (Outcome.ok.inj ho))
  · rintro ⟨h5, hh, hok, hfit⟩
    have := (C68_outcome3 ops t _).mpr (.groups h5 hh _ (Nat.le_refl _) hok (fun h => absurd h (Nat.lt_irrefl _)) hfit)
    rw [this]
    refine ⟨(undone t (differences t (sectNumber t.sect5 32 35))).map (pointValue ops t.sect5), ?_⟩
    simp [points, List.map_map, Function.comp_def]

/-- C68. With widths of up to 32 bits nothing is cut: what is read is what the layout of C27 says. -/
theorem C68_as_stored (l : Layout) (h1 : l.nbit ≤ 32) (h2 : l.p.widthNbit ≤ 32) (h3 : l.p.lenNbit ≤ 32) (zMin : Int) :
    (∀ g, l.readRef g = l.ref g ∧ l.readWidth g = l.width g ∧ l.readLen g = l.len g) ∧
    l.readValues zMin l.p.ngroup = l.values zMin := by
  have er : l.readRef = l.ref := by
    funext g; unfold Layout.readRef Layout.ref; rw [bitField_mod h1]
  have ew : l.readWidth = l.width := by
    funext g; unfold Layout.readWidth Layout.width; rw [bitField_mod h2]
  have el : l.readLen = l.len := by
    funext g; unfold Layout.readLen Layout.len; rw [bitField_mod h3]
  have ea : l.readAt = l.groupAt := by
    funext g; unfold Layout.readAt Layout.groupAt; rw [ew, el]
  have es : l.readStored = l.stored := by
    funext g k; unfold Layout.readStored Layout.stored; rw [ea, ew]
  have ev : l.readValue zMin = l.value zMin := by
    funext g k; unfold Layout.readValue Layout.value; rw [er, ew, es]
  refine ⟨fun g => ⟨by rw [er], by rw [ew], by rw [el]⟩, ?_⟩
  unfold Layout.readValues Layout.values
  rw [el, ev]

/-! ## Cases that occur -/

/-- The sample of C27 with its last octet missing: the third group is not inside. -/
example : Complex2Case FloatOps.exact { sampleComplex2 with sect7 := sampleComplex2.sect7.dropLast }
    (.ok [.ok (some 22), .ok none, .ok (some 28), .ok none, .ok none, .ok none, .panic]) :=
  (C68_outcome2 _ _ _).mp (by decide +kernel)

example : Complex2Case FloatOps.exact { sampleComplex2 with sect7 := [] } .panic :=
  (C68_outcome2 _ _ _).mp (by decide +kernel)

/-- The sample of C29 with the first value `2^15 - 1` instead of -7. -/
example : ∃ xs : List (Option Rat), Complex3Case FloatOps.exact { sampleDiff1 with sect7 := [0x7f, 0xff] ++ sampleDiff1.sect7.drop 2 }
    (.ok (xs.map .ok)) ∧ xs.length = 8 := by
  refine ⟨[none, some 65536, some 65556, none, some 65554, some 65558, some 65558, none], (C68_outcome3 _ _ _).mp ?_, rfl⟩
  decide +kernel

/-- With descriptors of four octets and the greatest first value, the next positive difference overflows. -/
example : ∃ x : Rat, Complex3Case FloatOps.exact { sampleDiff1 with
      sect5 := sampleComplex5 1 4,
      sect7 := [0x7f, 0xff, 0xff, 0xff, 0x80, 0, 0, 5] ++ sampleDiff1.sect7.drop 4 }
    (.ok [.ok none, .ok (some x), .panic]) := by
  refine ⟨2 * 2147483647 + 2, (C68_outcome3 _ _ _).mp ?_⟩
  decide +kernel

end Grib.Props
