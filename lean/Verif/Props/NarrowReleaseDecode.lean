import Verif.Lemmas.NarrowReleaseGrid
import Verif.Props.NarrowRelease
import Verif.Props.NarrowDecode
import Verif.Props.ReleaseGrid
import Verif.Model.GaussianDouble

/-! # C94: decoding and coordinates in release builds for 32-bit platforms

`relDecodeAll` (C83) is decoding in a release build for 64 bits, `narrowDecodeAll` (C90) in a debug build for 32 bits;
`Model/NarrowReleaseDecode.lean` has release builds for 32 bits, where `usize` wraps around at `2^32`. -/

namespace Grib.Props

open Grib.Model Grib.Spec

variable {F G : Type}

/-- Choosing the decoder and pulling all points, in a release build for 32 bits. -/
def r32DecodeAll (grow : Nat → Bool) (c : Codecs F) (t : Decoder) : Outcome GribError (Drained F) := do
  let it ← R32.dispatch grow c t
  .ok (it.toList c.ops)

/-- Reading the sections of a submessage and decoding it, in a release build for 32 bits. -/
def r32DecodeSub (grow : Nat → Bool) (c : Codecs F) (m : SubMessage) (r : Rdr) : Outcome GribError (Drained F) := do
  let d ← (R32.fromSub m r).1
  r32DecodeAll grow c d

/-- C94. Where a debug build for 32 bits does not panic, neither on the call nor while the points are pulled, a release build
for 32 bits gives the same points or the same error. -/
theorem C94_same (grow : Nat → Bool) (c : Codecs F) (t : Decoder) (h1 : narrowDecodeAll grow c t ≠ .panic)
    (h2 : narrowDecodeAll grow c t ≠ .ok .panic) : r32DecodeAll grow c t = narrowDecodeAll grow c t := by
  unfold narrowDecodeAll at *
  unfold r32DecodeAll
  rcases R32.dispatch_bext grow c t with h | ⟨e, h, h'⟩ | ⟨a, b, h, h', hb⟩
  · rw [h] at h1; exact absurd rfl h1
  · rw [h, h']
  · rw [h] at h2 ⊢
    rw [h']
    simp only [Outcome.bind_ok] at h2 ⊢
    rcases Rel.toList_bext c.ops hb with h3 | h3
    · rw [h3] at h2; exact absurd rfl h2
    · rw [h3]

/-- C94. The points a debug build for 32 bits delivers before it panics are delivered by a release build as well. -/
theorem C94_points_before_panic (grow : Nat → Bool) (c : Codecs F) (t : Decoder) {a : BitmapIter F}
    (h : N32.dispatch grow c t = .ok a) :
    ∃ b, R32.dispatch grow c t = .ok b ∧ ∀ n, a.drain c.ops n ≠ .panic → b.drain c.ops n = a.drain c.ops n := by
  rcases R32.dispatch_bext grow c t with h' | ⟨e, h', -⟩ | ⟨a', b, h1, h2, hb⟩
  · rw [h] at h'; cases h'
  · rw [h] at h'; cases h'
  · rw [h] at h1
    obtain rfl := Outcome.ok.inj h1
    exact ⟨b, h2, fun n hn => (Rel.drain_bext c.ops n hb).resolve_left hn⟩

/-- C94. Release builds for 32 and for 64 bits: values that come without a panic on 64 bits are the same on 32 bits if there
are at most `2^27` of them and section 7 has less than `2^29` octets, except with run-length packing, where `C94_run_length`
asks for more. -/
theorem C94_values {grow : Nat → Bool} (hg : Growth grow) (c : Codecs F) (t : Decoder) (h7 : t.sect7.length < 2 ^ 29)
    (ht : t.templateNum ≠ 200) {xs : Items F} (h : Rel.decodeValues c t = .ok xs) (hn : .panic ∉ xs)
    (hl : xs.length ≤ 2 ^ 27) : R32.decodeValues grow c t = .ok xs := by
  unfold Rel.decodeValues at h
  unfold R32.decodeValues
  split at h
  · rename_i e; rw [e]; exact h
  · rename_i e; rw [e]; exact R32.complexDecode2_same hg.small _ _ h7 h hn hl
  · rename_i e; rw [e]; exact R32.complexDecode3_same hg.small _ _ h7 h hn hl
  · rename_i e; rw [e]; exact h
  · rename_i e; rw [e]; exact h
  · contradiction
  · cases h

/-- C94. So for such submessages decoding has the same result in release builds for 32 and for 64 bits, if there are less than
`2^29` octets of bitmap. -/
theorem C94_release {grow : Nat → Bool} (hg : Growth grow) (c : Codecs F) (t : Decoder) (h7 : t.sect7.length < 2 ^ 29)
    (h6 : t.bitmap.length < 2 ^ 29) (ht : t.templateNum ≠ 200) {xs : Items F} (h : Rel.decodeValues c t = .ok xs)
    (hn : .panic ∉ xs) (hl : xs.length ≤ 2 ^ 27) : r32DecodeAll grow c t = relDecodeAll c t := by
  unfold r32DecodeAll relDecodeAll R32.dispatch Rel.dispatch R32.bitmapNew BitmapIter.new
  rw [C94_values hg c t h7 ht h hn hl, h]
  simp only [Outcome.bind_ok]
  rw [Nat.mod_eq_of_lt (by omega)]

/-- C94. Run-length packing: where a debug build for 64 bits delivers the values and the powers of the base fit 32 bits, all
four builds deliver them. -/
theorem C94_run_length {grow : Nat → Bool} (hg : Growth grow) (c : Codecs F) (t : Decoder) (h7 : t.sect7.length < 2 ^ 29)
    (h6 : t.bitmap.length < 2 ^ 29) (hp : t.templateNum = 200 → PowersFit t) {xs : Items F} (h : t.decodeValues c = .ok xs)
    (hn : .panic ∉ xs) (hl : xs.length ≤ 2 ^ 27) (hb : decodeAll c t ≠ .panic) (hb' : decodeAll c t ≠ .ok .panic) :
    r32DecodeAll grow c t = decodeAll c t ∧ narrowDecodeAll grow c t = decodeAll c t ∧ relDecodeAll c t = decodeAll c t := by
  have e := C90_same hg c t h7 h6 hp h hn hl
  refine ⟨?_, e, C83_same c t hb hb'⟩
  rw [← e]
  exact C94_same grow c t (by rw [e]; exact hb) (by rw [e]; exact hb')

theorem r32_fromSub_eq (m : SubMessage)
    (h : ∀ s ∈ [m.s5.2, m.s6.2, m.s7.2], ∀ r, R32.readSectPayloadAsSlice s r = Model.readSectPayloadAsSlice s r)
    (r : Rdr) : R32.fromSub m r = Decoder.fromSub m r := by
  have e5 := funext (h m.s5.2 (by simp))
  have e6 := funext (h m.s6.2 (by simp))
  have e7 := funext (h m.s7.2 (by simp))
  unfold R32.fromSub Decoder.fromSub
  simp only [e5, e6, e7]
  rfl

/-- C94, the whole way. A file of less than `2^29` octets that is opened on a 64-bit platform is opened by a release build for 32
bits, with the same submessages, and the decoder gets the same octets, with the reader in any state.  Where a debug build for
32 bits decodes without a panic, a release build has the same result. -/
theorem C94_submessage {grow : Nat → Bool} {r0 : Rdr} (hl : r0.data.length < 2 ^ 29) (hp : r0.pos < 2 ^ 32)
    {g : Grib2} (h : Grib2.read r0 = .ok g) :
    R32.read r0 = .ok g ∧
    ∀ (ix : Nat × Nat) (m : SubMessage), (ix, m) ∈ SubIter.drain (g.len + 1) g.iter → ∀ (r : Rdr),
      R32.fromSub m r = Decoder.fromSub m r ∧
      ∀ (c : Codecs F), narrowDecodeSub grow c m r ≠ .panic → narrowDecodeSub grow c m r ≠ .ok .panic →
        r32DecodeSub grow c m r = narrowDecodeSub grow c m r := by
  have h32 := C88_opens r0 (by omega) hp g h
  refine ⟨(C93_opens_iff r0 (by omega) hp g).2 h32, fun ix m hm r => ?_⟩
  obtain ⟨-, -, -, -, -, hk⟩ := C17_accessors r0 g h ix m hm (ε := Unit)
  have key : ∀ (x : Nat × SectionInfo) (k : Nat),
      (x, k) ∈ [(m.s0, 0), (m.s1, 1), (m.s3, 3), (m.s4, 4), (m.s5, 5), (m.s6, 6), (m.s7, 7)] → 1 ≤ k → k ≤ 7 →
      x.2 ∈ g.sections ∧ 5 ≤ x.2.size ∧ x.2.offset + 5 < 2 ^ 32 := by
    intro x k hx k1 k7
    have q := hk (x, k) hx
    have hn : x.2.num = k := q.1
    have w := opened_whole h _ (List.mem_of_getElem? q.2.1)
    have hh := q.2.2.header (by omega) (by omega)
    simp only at w hh
    exact ⟨List.mem_of_getElem? q.2.1, by omega⟩
  have hs : ∀ s ∈ [m.s5.2, m.s6.2, m.s7.2], s ∈ g.sections ∧ 5 ≤ s.size ∧ s.offset + 5 < 2 ^ 32 := by
    intro s hs
    simp only [List.mem_cons, List.not_mem_nil, or_false] at hs
    rcases hs with rfl | rfl | rfl
    · exact key m.s5 5 (by simp) (by omega) (by omega)
    · exact key m.s6 6 (by simp) (by omega) (by omega)
    · exact key m.s7 7 (by simp) (by omega) (by omega)
  have hp' : ∀ s ∈ [m.s5.2, m.s6.2, m.s7.2], ∀ r', N32.readSectPayloadAsSlice s r' = Model.readSectPayloadAsSlice s r' :=
    fun s h' r' => C88_payload r0 (by omega) g h s (hs s h').1 r'
  have e : N32.fromSub m r = Decoder.fromSub m r := N32.fromSub_eq m hp' r
  have e' : R32.fromSub m r = Decoder.fromSub m r := by
    apply r32_fromSub_eq
    intro s h' r'
    rw [← hp' s h' r', R32.payloadAsSlice_eq (hs s h').2.1 (hs s h').2.2]
  refine ⟨e', fun c h1 h2 => ?_⟩
  unfold narrowDecodeSub at h1 h2 ⊢
  unfold r32DecodeSub
  rw [e] at h1 h2 ⊢
  rw [e']
  cases hd : (Decoder.fromSub m r).1 with
  | ok d =>
    rw [hd] at h1 h2
    exact C94_same grow c d h1 h2
  | err e => rfl
  | panic => rfl

/-! ## Coordinates -/

/-- C94. Where a debug build for 32 bits does not panic, the indices and coordinates are the same in a release build. -/
theorem C94_grids {grow : Nat → Bool} (hg : Growth grow) (o : GridOps G F) (d : GridDefinition) :
    (N32.subIj d ≠ .panic → R32.subIj d = N32.subIj d) ∧
    (N32.subLatlons o d ≠ .panic → R32.subLatlons grow o d = N32.subLatlons o d) ∧
    ∀ (it : RegularIter F) (n : Nat), it.drain n ≠ .panic → R32.regularDrain n it = it.drain n := by
  have of {α : Type} {a b : Outcome GribError α} (h : Rel.Fol a b) (hn : a ≠ .panic) : b = a := h.resolve_left hn
  refine ⟨of ?_, of ?_, fun it n h => (R32.regularDrain_fol n it).resolve_left h⟩
  · unfold N32.subIj R32.subIj
    refine Rel.Fol.bind (.refl _) (fun n => ?_)
    cases ht : GridTemplate.tryFrom d with
    | panic => exact .inl rfl
    | err e => exact .refl _
    | ok t =>
      simp only [Outcome.bind_ok]
      cases hij : t.ij with
      | panic => exact .inl rfl
      | err e => exact .refl _
      | ok ij =>
        have := gridIj_ok hij
        subst this
        simp only [Outcome.bind_ok]
        exact Rel.Fol.bind_ok (R32.gridSizeHint_fol _ _ _) (.refl _)
  · unfold N32.subLatlons R32.subLatlons
    refine Rel.Fol.bind (.refl _) (fun n => ?_)
    cases ht : GridTemplate.tryFrom d with
    | panic => exact .inl rfl
    | err e => exact .refl _
    | ok t =>
      obtain ⟨hi, hj⟩ := tryFrom_shape_lt ht
      simp only [Outcome.bind_ok]
      rcases R32.templateLatlons_fol hg.small o t hi hj with h | h
      · rw [h]; exact .inl rfl
      · rw [h]
        cases hl : N32.templateLatlons o t with
        | panic => exact .inl rfl
        | err e => exact .refl _
        | ok pts =>
          simp only [Outcome.bind_ok]
          cases pts with
          | lambert ps => exact .refl _
          | latLon it =>
            have hl' : t.latlons o = .ok (.latLon it) := by
              rcases N32.templateLatlons_fol o t with h' | h'
              · rw [hl] at h'; cases h'
              · rw [h', hl]
            obtain ⟨hij, -, -⟩ := latlons_regular o t it hl'
            have e1 : N32.pointsSizeHint (.latLon it) = (N32.gridSizeHint it.ij : Outcome GribError _) := rfl
            have e2 : R32.pointsSizeHint (.latLon it) = R32.gridSizeHint it.ij := rfl
            rw [e1, e2, hij]
            exact Rel.Fol.bind_ok (R32.gridSizeHint_fol _ _ _) (.refl _)

/-- C94. The points of a grid come in the order of its scanning mode, for all grids and any number of calls; the size hint is
the number of points still to come modulo `2^32`. -/
theorem C94_order (ni nj mode k : Nat) (hi : 0 < ni) (hj : 0 < nj) (hi32 : ni < 2 ^ 32) (hj32 : nj < 2 ^ 32)
    (hk : k ≤ ni * nj) :
    (R32.gridCalls k (GridIter.new ni nj mode)).1 = (List.range k).map (visit ni nj mode) ∧
    R32.gridSizeHint (R32.gridCalls k (GridIter.new ni nj mode)).2 = (ni * nj - k) % 2 ^ 32 := by
  obtain ⟨it, h1, h2⟩ := C32_hint_partial (ε := Empty) ni nj mode k hi hj hk
  rw [C84_index_iterator, ← R32.calls_new] at h1
  have h1 := Outcome.ok.inj h1
  rw [h1]
  refine ⟨rfl, ?_⟩
  have hit : it = GridIter.at ni nj mode k := by
    have := GridIter.calls_at (ε := Empty) (ni := ni) (nj := nj) (mode := mode) k 0 (by omega)
    rw [← GridIter.new_eq, C84_index_iterator, ← R32.calls_new, h1, Nat.zero_add] at this
    exact (Prod.mk.inj (Outcome.ok.inj this)).2
  rw [hit]
  unfold R32.gridSizeHint GridIter.at
  dsimp only
  have hm := lines_mul ni nj mode
  have hp : 0 < perLine ni nj mode := by
    apply Nat.pos_of_ne_zero
    intro h0
    rw [h0, Nat.mul_zero] at hm
    have := Nat.mul_pos hi hj
    omega
  have hd := Nat.div_add_mod k (perLine ni nj mode)
  have hlt := Nat.mod_lt k hp
  have hle : k / perLine ni nj mode ≤ lines ni nj mode := by
    apply Nat.div_le_of_le_mul
    rw [Nat.mul_comm, hm]; exact hk
  have hp32 : perLine ni nj mode < 2 ^ 32 := by unfold perLine; split <;> assumption
  rw [R32.usub_le hle, Nat.sub_mul, hm]
  generalize hq : k / perLine ni nj mode * perLine ni nj mode = q
  rw [Nat.mul_comm, hq] at hd
  generalize k % perLine ni nj mode = m at *
  rw [← hd]
  have hqm : q + m ≤ ni * nj := by omega
  have hm32 : m < 2 ^ 32 := by omega
  generalize ni * nj = N at *
  clear hm hlt hp32 hle hd hk hit h1 h2
  rw [show N - (q + m) = N - q - m by omega]
  have hx : m ≤ N - q := by omega
  generalize N - q = x at *
  unfold R32.usub
  split <;> omega

example : (R32.gridCalls 7 (GridIter.new 3 2 0b00010000)).1 = [(0, 0), (1, 0), (2, 0), (2, 1), (1, 1), (0, 1)] := by decide
example : R32.gridSizeHint (R32.gridCalls 4 (GridIter.new 3 2 0)).2 = 2 := by decide +kernel

/-- C94. A grid whose template can be read and whose scanning mode is supported: the indices come exactly if the number of
points stated in section 3 is the number of points of the grid modulo `2^32`; otherwise there is an error, never a panic. -/
theorem C94_count (d : GridDefinition) (t : GridTemplate) (ij : GridIter) (ht : GridTemplate.tryFrom d = .ok t)
    (hij : t.ij = .ok ij) :
    R32.subIj d = if number d.payload 1 4 = (t.gridShape.1 * t.gridShape.2) % 2 ^ 32 then .ok ij else .err .invalidValueError := by
  have h9 : 9 ≤ d.payload.length := by
    apply Classical.byContradiction
    intro hc
    have : GridTemplate.tryFrom d = .panic := (C63_definition d).panic_iff.2 (.inl (by omega))
    rw [this] at ht; cases ht
  unfold R32.subIj GridDefinition.numPoints
  rw [rdAs_number (by omega), Outcome.bind_ok, ht, Outcome.bind_ok, hij, Outcome.bind_ok, gridIj_ok hij, R32.gridSizeHint_new]

/-- A grid of `2^16` rows and columns, with 0 stated as the number of points. -/
def wrappedGrid : GridDefinition :=
  ⟨(sampleGrid.payload.take 1 ++ [0, 0, 0, 0] ++ sampleGrid.payload.drop 5).take 25 ++ [0, 1, 0, 0, 0, 1, 0, 0] ++ sampleGrid.payload.drop 33⟩

/-- C94 fails: this grid is accepted, and indices come for it, although it is refused by a release build for 64 bits (and is a
panic in a debug build for 32 bits). -/
theorem C94_count_fails : R32.subIj wrappedGrid = .ok (GridIter.new 65536 65536 0) ∧
    (R32.gridCalls 3 (GridIter.new 65536 65536 0)).1 = [(0, 0), (1, 0), (2, 0)] ∧
    Rel.subIj wrappedGrid = .err .invalidValueError ∧ N32.subIj wrappedGrid = .panic := by
  refine ⟨?_, ?_, ?_, ?_⟩ <;> decide +kernel

/-- A guard after something that does not panic. -/
theorem comes_guard {α : Type} {x : Outcome GribError α} {A S c : Prop} {R : GribError → Prop} [Decidable c] (hc : Comes x A False R)
    (hs : c ↔ ¬ S) : Comes (x >>= fun a => if c then .panic else .ok a) (A ∧ S) (A ∧ ¬ S) R := by
  cases x with
  | panic => exact absurd rfl (fun h => hc.panic_iff.1 h)
  | err e =>
    have hn : ¬ A := by
      intro h
      obtain ⟨it, h⟩ := hc.ok_iff.2 h
      cases h
    refine .of_err (e0 := e) (R32.bind_err' _ _) (fun h => hn h.1) (fun h => hn h.1) (fun e' => ?_)
    rw [← hc.err_iff e']
    constructor
    · intro h; cases h; rfl
    · intro h; rw [h]
  | ok it =>
    have ho := hc.ok_iff.1 ⟨it, rfl⟩
    have hr : ∀ e, ¬ R e := by
      intro e he
      have := (hc.err_iff e).2 he
      cases this
    rw [Outcome.bind_ok]
    by_cases hS : S
    · rw [if_neg (fun h => hs.1 h hS)]
      exact .of_ok rfl ⟨ho, hS⟩ (fun h => h.2 hS) hr
    · rw [if_pos (hs.2 hS)]
      exact .of_panic rfl (fun h => hS h.2) ⟨ho, hS⟩ hr

theorem pred32_room {n : Nat} (hn : n < 2 ^ 32) : 4 * (Rel.pred32 n + 1) ≥ 2 ^ 31 ↔ ¬ (0 < n ∧ n < 2 ^ 29) := by
  by_cases h0 : n = 0
  · subst h0; rw [Rel.pred32_zero]; omega
  · rw [Rel.pred32_pos (by omega) hn]; omega

/-- C94. Coordinates of a latitude/longitude grid: a panic exactly if the coordinates are in order (C84) but there are no columns,
no rows, or `2^29` of either or more. -/
theorem C94_latlon (ops : FloatOps F) (g : LatLonGrid) (h1 : fitsI32 g.firstLat) (h2 : fitsI32 g.lastLat)
    (hi : g.ni < 2 ^ 32) (hj : g.nj < 2 ^ 32) :
    Comes (R32.latLonLatlons ops g)
      (((agreesJ g.firstLat g.lastLat g.mode ↔ fitsI32 (g.lastLat - g.firstLat)) ∧ g.mode % 16 = 0) ∧
        (0 < g.ni ∧ g.ni < 2 ^ 29) ∧ (0 < g.nj ∧ g.nj < 2 ^ 29))
      (((agreesJ g.firstLat g.lastLat g.mode ↔ fitsI32 (g.lastLat - g.firstLat)) ∧ g.mode % 16 = 0) ∧
        ¬ ((0 < g.ni ∧ g.ni < 2 ^ 29) ∧ (0 < g.nj ∧ g.nj < 2 ^ 29)))
      (fun e => (e = .invalidValueError ∧ ¬ (agreesJ g.firstLat g.lastLat g.mode ↔ fitsI32 (g.lastLat - g.firstLat))) ∨
        (e = .notSupported ∧ (agreesJ g.firstLat g.lastLat g.mode ↔ fitsI32 (g.lastLat - g.firstLat)) ∧ g.mode % 16 ≠ 0)) := by
  unfold R32.latLonLatlons
  refine comes_guard (C84_latlon ops g h1 h2) ?_
  rw [pred32_room hi, pred32_room hj]
  generalize (0 < g.ni ∧ g.ni < 2 ^ 29) = a
  generalize (0 < g.nj ∧ g.nj < 2 ^ 29) = b
  rw [Classical.not_and_iff_not_or_not]
  exact Or.comm

example : ∃ it, R32.latLonLatlons FloatOps.exact sampleLatLon = .ok it :=
  (C94_latlon FloatOps.exact sampleLatLon (by unfold fitsI32; decide) (by unfold fitsI32; decide) (by decide) (by decide)).ok_iff.2
    (by unfold agreesJ fitsI32; decide +kernel)

/-- A grid without columns, for which a release build for 64 bits computes `2^32` longitudes (C84). -/
example : R32.latLonLatlons FloatOps.exact { sampleLatLon with ni := 0 } = .panic :=
  (C94_latlon FloatOps.exact { sampleLatLon with ni := 0 } (by unfold fitsI32; decide) (by unfold fitsI32; decide) (by decide)
    (by decide)).panic_iff.2 (by unfold agreesJ fitsI32; decide +kernel)

/-! ## Gaussian grids -/

/-- C94. Up to 812 rows, the latitudes of a Gaussian grid are those of all other builds. -/
theorem C94_gaussian {grow : Nat → Bool} (hg : Growth grow) (g : GaussOps G F) (n : Nat) (hn : n < 813) :
    R32.gaussianLatitudes grow g n = gaussianLatitudes g n := by
  have h := (C90_gaussian_rows g n).2 hn
  rcases R32.gaussianLatitudes_fol hg.small g n with h' | h'
  · exfalso
    rw [h'] at h
    unfold gaussianLatitudes at h
    rw [R32.legendreRoots_small g (by have := cube_lt (n := n); omega), Outcome.bind_ok] at h
    split at h <;> cases h
  · rw [h', h]

/-- A number that is not finite. -/
def NotFinite : Fl → Prop
  | .nan | .inf _ => True
  | _ => False

theorem fl_mul_nan (f : Fmt) (a : Fl) : f.mul .nan a = .nan ∧ f.mul a .nan = .nan := by
  cases a <;> exact ⟨rfl, rfl⟩

theorem fl_add_nan (f : Fmt) (a : Fl) : f.add .nan a = .nan ∧ f.add a .nan = .nan := by
  cases a <;> exact ⟨rfl, rfl⟩

theorem fl_div_nan (f : Fmt) (a : Fl) : f.div .nan a = .nan ∧ f.div a .nan = .nan := by
  cases a <;> exact ⟨rfl, rfl⟩

theorem fl_add_inf (f : Fmt) (a : Fl) (s : Bool) : NotFinite (f.add a (.inf s)) := by
  cases a with
  | inf t => simp only [Fmt.add]; split <;> trivial
  | _ => trivial

theorem fl_mul_notFinite (f : Fmt) {a : Fl} (h : NotFinite a) (b : Fl) : NotFinite (f.mul a b) := by
  cases a with
  | nan => rw [(fl_mul_nan f b).1]; trivial
  | inf s =>
    cases b with
    | nan => trivial
    | inf t => trivial
    | negZero => simp only [Fmt.mul]; split <;> trivial
    | fin v => simp only [Fmt.mul]; split <;> trivial
  | negZero => exact h.elim
  | fin v => exact h.elim

/-- The recurrence for the Legendre polynomials, in 32 bits, once there is a NaN. -/
theorem r32_loop_nan (powi : Fl → Int → Fl) (powf10 : Nat → Fl) (x : Fl) (steps k : Nat) (p0 : Fl) :
    (R32.legendreLoop (FloatOps.ieee .double powi powf10) x steps k (p0, .nan)).2 = .nan := by
  induction steps generalizing k p0 with
  | zero => rfl
  | succ n ih =>
    unfold R32.legendreLoop
    have e : ∀ a b c : Fl, Fmt.double.div (Fmt.double.add (Fmt.double.mul a .nan) b) c = .nan := by
      intro a b c; rw [(fl_mul_nan _ a).2, (fl_add_nan _ b).1, (fl_div_nan _ c).1]
    dsimp only [FloatOps.ieee] at ih ⊢
    rw [e]
    exact ih _ _

theorem r32_step_nan (powi : Fl → Int → Fl) (powf10 : Nat → Fl) {n : Nat} (hn : 3 ≤ n) {x : Fl} (hx : NotFinite x) :
    R32.legendreStep (FloatOps.ieee .double powi powf10) n x = .nan := by
  have hl : (R32.legendreLoop (FloatOps.ieee .double powi powf10) x (n - 1) 2 ((FloatOps.ieee .double powi powf10).ofInt 1, x)).2 = .nan := by
    cases x with
    | nan => exact r32_loop_nan powi powf10 _ _ _ _
    | inf s =>
      obtain ⟨m, hm⟩ : ∃ m, n - 1 = m + 2 := ⟨n - 3, by omega⟩
      rw [hm]
      unfold R32.legendreLoop
      unfold R32.legendreLoop
      dsimp only [FloatOps.ieee]
      have e : Fmt.double.div (Fmt.double.add (Fmt.double.mul (Fmt.double.mul (Fmt.double.ofRat false (((2 * (2 + 1) - 1) % 2 ^ 32 : Nat) : Int)) (.inf s))
          (Fmt.double.div (Fmt.double.add (Fmt.double.mul (Fmt.double.mul (Fmt.double.ofRat false (((2 * 2 - 1) % 2 ^ 32 : Nat) : Int)) (.inf s)) (.inf s))
            (Fmt.double.mul (Fmt.double.ofRat false ((2 - 1 : Nat) : Int)) (Fmt.double.ofRat false ((1 : Int) : Rat))).neg) (Fmt.double.ofRat false ((2 : Nat) : Int))))
          (Fmt.double.mul (Fmt.double.ofRat false ((2 + 1 - 1 : Nat) : Int)) (.inf s)).neg) (Fmt.double.ofRat false ((2 + 1 : Nat) : Int)) = .nan := by
        cases s <;> decide +kernel
      rw [e]
      exact r32_loop_nan powi powf10 _ _ _ _
    | negZero => exact hx.elim
    | fin v => exact hx.elim
  unfold R32.legendreStep
  generalize R32.legendreLoop _ _ _ _ _ = q at hl
  obtain ⟨a, b⟩ := q
  dsimp only at hl ⊢
  rw [hl]
  exact (fl_div_nan .double (legendreDerivative (FloatOps.ieee .double powi powf10) n x a .nan)).1

/-- The search for a root (src/grid/gaussian.rs:186-206) from a number that is not finite. -/
theorem findRoot_notFinite (powi : Fl → Int → Fl) (powf10 : Nat → Fl) (cos asin : Fl → Fl) (f : Fl → Fl) (hf : ∀ x, NotFinite x → f x = .nan) (count : Nat) {x : Fl} (hx : NotFinite x) :
    (findRootLoop (FloatOps.ieee .double powi powf10).sub (doubleGauss powi powf10 cos asin).small f count x).1 = none := by
  have hs : (doubleGauss powi powf10 cos asin).small .nan = false := rfl
  have hsub : ∀ x, (FloatOps.ieee .double powi powf10).sub x .nan = .nan := fun x => (fl_add_nan _ x).2
  induction count generalizing x with
  | zero =>
    unfold findRootLoop
    rw [hf x hx]
    dsimp only
    rw [hs, if_neg (by decide)]
  | succ n ih =>
    unfold findRootLoop
    rw [hf x hx]
    dsimp only
    rw [hs, if_neg (by decide), hsub]
    exact ih trivial

/-- C94. From 813 rows on, where a debug build for 32 bits panics, a release build computes the first guesses from `8·n³` modulo
`2^32`.  For 1024 rows (the grid F512), and every other multiple of that, this is zero: the guesses are not finite and the grid
is refused, in double precision as the code has it, whatever `cos`, `asin` and `powi` are. -/
theorem C94_rows (grow : Nat → Bool) (powi : Fl → Int → Fl) (powf10 : Nat → Fl) (cos asin : Fl → Fl) (k : Nat) (hk : 0 < k) :
    R32.gaussianLatitudes grow (doubleGauss powi powf10 cos asin) (k * 1024) = .err .unknown ∧
    N32.gaussianLatitudes (doubleGauss powi powf10 cos asin) (k * 1024) = .panic := by
  refine ⟨?_, (C90_gaussian_rows _ _).1 (by omega)⟩
  obtain ⟨n, hn⟩ : ∃ n, n = k * 1024 := ⟨_, rfl⟩
  have hz : (8 * n * n * n) % 2 ^ 32 = 0 := by
    rw [hn, show 8 * (k * 1024) * (k * 1024) * (k * 1024) = (k * k * k * 2) * 2 ^ 32 by ring]
    exact Nat.mul_mod_left _ _
  rw [← hn]
  have hn3 : 3 ≤ n := by omega
  clear hn
  have hroots : R32.legendreRoots (doubleGauss powi powf10 cos asin) n = List.replicate n none := by
    unfold R32.legendreRoots
    dsimp only
    rw [hz]
    apply List.eq_replicate_iff.2
    refine ⟨by simp, ?_⟩
    intro x hx
    obtain ⟨i, -, rfl⟩ := List.mem_map.1 hx
    refine findRoot_notFinite powi powf10 cos asin _ (fun x hx => r32_step_nan powi powf10 hn3 hx) _ ?_
    refine fl_mul_notFinite _ ?_ _
    have e : Fmt.double.div (Fmt.double.ofRat (decide ((1 : Int) < 0)) ((1 : Int) * ratPowi 10 0)) (Fmt.double.ofRat false (((0 : Nat) : Int) : Rat)) = .inf false := by
      decide +kernel
    dsimp only [doubleGauss, FloatOps.ieee]
    rw [e]
    exact fl_add_inf _ _ _
  unfold R32.gaussianLatitudes
  obtain ⟨m, rfl⟩ : ∃ m, n = m + 1 := ⟨n - 1, by omega⟩
  rw [hroots, List.map_replicate, List.replicate_succ]
  rfl

/-! The same for 64 bits, where C84 has it in exact arithmetic. -/

theorem loop_nan (powi : Fl → Int → Fl) (powf10 : Nat → Fl) (x : Fl) (steps k : Nat) (p0 : Fl) :
    (legendreLoop (FloatOps.ieee .double powi powf10) x steps k (p0, .nan)).2 = .nan := by
  induction steps generalizing k p0 with
  | zero => rfl
  | succ n ih =>
    unfold legendreLoop
    have e : ∀ a b c : Fl, Fmt.double.div (Fmt.double.add (Fmt.double.mul a .nan) b) c = .nan := by
      intro a b c; rw [(fl_mul_nan _ a).2, (fl_add_nan _ b).1, (fl_div_nan _ c).1]
    dsimp only [FloatOps.ieee] at ih ⊢
    rw [e]
    exact ih _ _

theorem step_nan (powi : Fl → Int → Fl) (powf10 : Nat → Fl) {n : Nat} (hn : 3 ≤ n) {x : Fl} (hx : NotFinite x) :
    legendreStep (FloatOps.ieee .double powi powf10) n x = .nan := by
  have hl : (legendreLoop (FloatOps.ieee .double powi powf10) x (n - 1) 2 ((FloatOps.ieee .double powi powf10).ofInt 1, x)).2 = .nan := by
    cases x with
    | nan => exact loop_nan powi powf10 _ _ _ _
    | inf s =>
      obtain ⟨m, hm⟩ : ∃ m, n - 1 = m + 2 := ⟨n - 3, by omega⟩
      rw [hm]
      unfold legendreLoop
      unfold legendreLoop
      dsimp only [FloatOps.ieee]
      have e : Fmt.double.div (Fmt.double.add (Fmt.double.mul (Fmt.double.mul (Fmt.double.ofRat false ((2 * (2 + 1) - 1 : Nat) : Int)) (.inf s))
          (Fmt.double.div (Fmt.double.add (Fmt.double.mul (Fmt.double.mul (Fmt.double.ofRat false ((2 * 2 - 1 : Nat) : Int)) (.inf s)) (.inf s))
            (Fmt.double.mul (Fmt.double.ofRat false ((2 - 1 : Nat) : Int)) (Fmt.double.ofRat false ((1 : Int) : Rat))).neg) (Fmt.double.ofRat false ((2 : Nat) : Int))))
          (Fmt.double.mul (Fmt.double.ofRat false ((2 + 1 - 1 : Nat) : Int)) (.inf s)).neg) (Fmt.double.ofRat false ((2 + 1 : Nat) : Int)) = .nan := by
        cases s <;> decide +kernel
      rw [e]
      exact loop_nan powi powf10 _ _ _ _
    | negZero => exact hx.elim
    | fin v => exact hx.elim
  unfold legendreStep legendrePolynomial
  generalize legendreLoop _ _ _ _ _ = q at hl
  obtain ⟨a, b⟩ := q
  dsimp only at hl ⊢
  rw [hl]
  exact (fl_div_nan .double (legendreDerivative (FloatOps.ieee .double powi powf10) n x a .nan)).1

/-- C84. On 64 bits a release build refuses the multiples of `2^21` rows in double precision as well. -/
theorem C84_rows_double (powi : Fl → Int → Fl) (powf10 : Nat → Fl) (cos asin : Fl → Fl) (k : Nat) (hk : 0 < k) :
    Rel.gaussianLatitudes (doubleGauss powi powf10 cos asin) (k * 2 ^ 21) = .err .unknown := by
  obtain ⟨n, hn⟩ : ∃ n, n = k * 2 ^ 21 := ⟨_, rfl⟩
  have hz : (8 * n * n * n) % USIZE = 0 := by
    rw [hn, show 8 * (k * 2 ^ 21) * (k * 2 ^ 21) * (k * 2 ^ 21) = (k * k * k * 4) * 2 ^ 64 by ring]
    exact Nat.mul_mod_left _ _
  rw [← hn]
  have hn3 : 3 ≤ n := by omega
  clear hn
  have hroots : Rel.legendreRoots (doubleGauss powi powf10 cos asin) n = List.replicate n none := by
    unfold Rel.legendreRoots
    dsimp only
    rw [hz]
    apply List.eq_replicate_iff.2
    refine ⟨by simp, ?_⟩
    intro x hx
    obtain ⟨i, -, rfl⟩ := List.mem_map.1 hx
    refine findRoot_notFinite powi powf10 cos asin _ (fun x hx => step_nan powi powf10 hn3 hx) _ ?_
    refine fl_mul_notFinite _ ?_ _
    have e : Fmt.double.div (Fmt.double.ofRat (decide ((1 : Int) < 0)) ((1 : Int) * ratPowi 10 0)) (Fmt.double.ofRat false (((0 : Nat) : Int) : Rat)) = .inf false := by
      decide +kernel
    dsimp only [doubleGauss, FloatOps.ieee]
    rw [e]
    exact fl_add_inf _ _ _
  unfold Rel.gaussianLatitudes
  obtain ⟨m, rfl⟩ : ∃ m, n = m + 1 := ⟨n - 1, by omega⟩
  rw [hroots, List.map_replicate, List.replicate_succ]
  rfl

/-! ## Groups that wrap around -/

/-- One group of `2^31` values of 2 bits each, in a section 7 that ends after one octet of them. -/
def wrappedGroup : Decoder :=
  ⟨1, 1, 2, [0, 0, 0, 3, 0, 0, 0, 0, 0, 0, 0, 0, 0, 0, 8, 0, 1, 0, 0xff, 0xff, 0xff, 0xff, 0xff, 0xff, 0xff, 0xff, 0, 0, 0, 1,
    2, 0, 0, 0, 0, 1, 1, 0x80, 0, 0, 0, 1], [0x80], [7, 0, 0]⟩

/-- C94 fails: the `2^32` bits of that group are taken for none; there are no values, and no notice that the point of the grid
has none.  All other builds panic. -/
theorem C94_group_fails :
    r32DecodeAll (fun n => decide (n < 2 ^ 31)) exactCodecs wrappedGroup = .ok (.done []) ∧
    relDecodeAll exactCodecs wrappedGroup = .ok .panic ∧ decodeAll exactCodecs wrappedGroup = .ok .panic ∧
    narrowDecodeAll (fun n => decide (n < 2 ^ 31)) exactCodecs wrappedGroup = .ok .panic := by
  refine ⟨?_, ?_, ?_, ?_⟩ <;> decide +kernel

/-! ## Cases -/

/-- Two groups (C27), and the sample of C25: 1008 values with runs of up to 1000. -/
example : r32DecodeAll (fun n => decide (n < 2 ^ 31)) exactCodecs sampleComplex2 = relDecodeAll exactCodecs sampleComplex2 := by
  obtain ⟨xs, h, hf⟩ := Outcome.exists_of_ok? (x := Rel.decodeValues exactCodecs sampleComplex2)
    (f := fun xs => (xs.all (fun x => x.ok?.isSome), xs.length)) (b := (true, 8)) (by decide +kernel)
  simp only [Prod.mk.injEq] at hf
  have hp : Outcome.panic ∉ xs := fun hp => by
    have := List.all_eq_true.1 hf.1 _ hp
    simp [Outcome.ok?] at this
  exact C94_release growth_half _ _ (by decide +kernel) (by decide +kernel) (by decide) h hp (by omega)

example : r32DecodeAll (fun n => decide (n < 2 ^ 31)) exactCodecs sampleRunLength = decodeAll exactCodecs sampleRunLength := by
  obtain ⟨xs, hx, h1, h2⟩ : ∃ xs, sampleRunLength.decodeValues exactCodecs = .ok xs ∧ .panic ∉ xs ∧ xs.length ≤ 2 ^ 27 := by
    obtain ⟨xs, h, hf⟩ := Outcome.exists_of_ok? (x := sampleRunLength.decodeValues exactCodecs)
      (f := fun xs => (xs.all (fun x => x.ok?.isSome), xs.length)) (b := (true, 1008)) (by decide +kernel)
    simp only [Prod.mk.injEq] at hf
    refine ⟨xs, h, fun hp => ?_, by omega⟩
    have := List.all_eq_true.1 hf.1 _ hp
    simp [Outcome.ok?] at this
  refine (C94_run_length growth_half _ _ (by decide +kernel) (by decide +kernel) (fun _ => ?_) hx h1 h2 (by decide +kernel) (by decide +kernel)).1
  refine powersFit_of (l := [2, 247, 7, 0, 5, 3, 1, 7, 2]) (by decide +kernel) (by decide +kernel)

/-- Run-length packing where the powers do not fit 32 bits (C90): the debug build panics, the release build delivers the value,
since the digits of the wrapped powers are zero. -/
example : narrowDecodeAll (fun n => decide (n < 2 ^ 31)) exactCodecs longRun = .panic ∧
    r32DecodeAll (fun n => decide (n < 2 ^ 31)) exactCodecs longRun = decodeAll exactCodecs longRun := by
  constructor <;> decide +kernel

/-- A submessage to which `C94_submessage` applies. -/
example : packedFile.length < 2 ^ 29 ∧ ∃ g, Grib2.read ⟨packedFile, 0, []⟩ = .ok g ∧
    [narrowFacts g 2, narrowFacts g 3] = [some (3, 0, true, 3), some (3, 0, true, 2)] :=
  ⟨by decide +kernel, Outcome.exists_of_ok? (f := fun g => [narrowFacts g 2, narrowFacts g 3]) (by decide +kernel)⟩

/-- The grid of C31: 4 columns, 3 rows. -/
example : R32.subIj sampleGrid = .ok (GridIter.new 4 3 0) := by
  rw [(C94_grids growth_half (⟨FloatOps.exact, toyGauss, none⟩ : GridOps (Option Rat) (Option Rat)) sampleGrid).1 (by decide +kernel)]
  decide +kernel

end Grib.Props
