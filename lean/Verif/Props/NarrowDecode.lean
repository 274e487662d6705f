import Verif.Lemmas.NarrowDecode
import Verif.Props.Narrow
import Verif.Props.ReleaseDecode
import Verif.Props.GridOutcome
import Verif.Props.RunLengthOutcome
import Verif.Props.EndToEnd
import Verif.Props.GaussianReal

/-! # C90: decoding and coordinates on a 32-bit platform

`decodeAll` and `decodeSub` (C69), `subIj` and `subLatlons` (C67) are those of a 64-bit platform, `Model/NarrowDecode.lean` has
those of a 32-bit platform, both with the arithmetic of a debug build. -/

namespace Grib.Props

open Grib.Model Grib.Spec

variable {F G : Type}

/-- What is assumed of growing vectors: `2^30` octets are always possible, more than `isize::MAX` octets never. -/
structure Growth (grow : Nat → Bool) : Prop where
  small : ∀ n, n ≤ 2 ^ 30 → grow n = true
  large : ∀ n, 2 ^ 31 ≤ n → grow n = false

/-- Choosing the decoder and pulling all points, on a 32-bit platform. -/
def narrowDecodeAll (grow : Nat → Bool) (c : Codecs F) (t : Decoder) : Outcome GribError (Drained F) := do
  let it ← N32.dispatch grow c t
  .ok (it.toList c.ops)

/-- Reading the sections of a submessage and decoding it, on a 32-bit platform. -/
def narrowDecodeSub (grow : Nat → Bool) (c : Codecs F) (m : SubMessage) (r : Rdr) : Outcome GribError (Drained F) := do
  let d ← (N32.fromSub m r).1
  narrowDecodeAll grow c d

/-- C90. Nothing is decoded differently without notice: on a 32-bit platform decoding panics, when the decoder is chosen or
when points are pulled, or it gives the points or the error of a 64-bit platform. -/
theorem C90_follows {grow : Nat → Bool} (hg : Growth grow) (c : Codecs F) (t : Decoder) :
    narrowDecodeAll grow c t = .panic ∨ narrowDecodeAll grow c t = .ok .panic ∨
    narrowDecodeAll grow c t = decodeAll c t := by
  unfold narrowDecodeAll decodeAll
  rcases N32.dispatch_bext hg.large c t with h | ⟨e, h, h'⟩ | ⟨a, b, h, h', hb⟩
  · left; rw [h]; rfl
  · right; right; rw [h, h']
  · right
    rw [h, h']
    simp only [Outcome.bind_ok]
    rcases Rel.toList_bext c.ops hb with h | h
    · left; rw [h]
    · right; rw [h]

/-- C90. The points before a panic are those of a 64-bit platform. -/
theorem C90_points_before_panic {grow : Nat → Bool} (hg : Growth grow) (c : Codecs F) (t : Decoder) {a : BitmapIter F}
    (h : N32.dispatch grow c t = .ok a) :
    ∃ b, t.dispatch c = .ok b ∧ ∀ n, a.drain c.ops n ≠ .panic → b.drain c.ops n = a.drain c.ops n := by
  rcases N32.dispatch_bext hg.large c t with h' | ⟨e, h', -⟩ | ⟨a', b, h1, h2, hb⟩
  · rw [h] at h'; cases h'
  · rw [h] at h'; cases h'
  · rw [h] at h1
    obtain rfl := Outcome.ok.inj h1
    exact ⟨b, h2, fun n hn => (Rel.drain_bext c.ops n hb).resolve_left hn⟩

/-- For run-length packing: as many digits as follow each other in section 7 can be raised to a power below `2^32`. -/
def PowersFit (t : Decoder) : Prop :=
  ∀ before digits after, sectNumbers t.sect7 (runLengthTemplate t.sect5).nbit = before ++ digits ++ after →
    (∀ v ∈ digits, (runLengthTemplate t.sect5).maxv < v) → (runLengthTemplate t.sect5).base ^ digits.length < 2 ^ 32

theorem runLength_same {grow : Nat → Bool} (hg : Growth grow) (ops : FloatOps F) (t : Decoder) (hp : PowersFit t)
    {xs : Items F} (h : runLengthDecode ops t = .ok xs) (hl : xs.length ≤ 2 ^ 28) : N32.runLengthDecode grow ops t = .ok xs := by
  by_cases hu : RunLengthUsable t
  swap
  · rw [not_usable_panic ops t hu] at h; cases h
  have hb := base_bound hu
  have hfit := hu
  obtain ⟨-, h2, h3, h4⟩ := hu
  have hpl : (2 : Nat) ^ (runLengthTemplate t.sect5).nbit ≤ 2 ^ 15 := Nat.pow_le_pow_right (by decide) h2
  have e1 : (rdAs t.sect5 6 1 : Outcome GribError Nat) = .ok (runLengthTemplate t.sect5).nbit ∧
      (rdAs t.sect5 7 2 : Outcome GribError Nat) = .ok (runLengthTemplate t.sect5).maxv := by
    have h5 := hfit.complete
    constructor
    · rw [rdAs_number (by omega)]; rfl
    · rw [rdAs_number (by omega)]; rfl
  unfold Model.runLengthDecode at h
  unfold N32.runLengthDecode
  rw [e1.1] at h ⊢
  simp only [Outcome.bind_ok] at h ⊢
  rw [e1.2] at h ⊢
  simp only [Outcome.bind_ok] at h ⊢
  refine N32.bind_same h fun maxLevel _ h => N32.bind_same h fun digits _ h => N32.bind_same h fun levels _ h => ?_
  obtain ⟨decoded, hd, h⟩ := N32.bind_ok_inv h
  obtain ⟨values, hv, hx⟩ := N32.bind_ok_inv h
  have hx := Outcome.ok.inj hx
  subst hx
  have hlen : values.length = decoded.length := by
    cases hv' : levelsToValues (ops.nan :: levels) decoded with
    | err e => rw [hv'] at hv; cases hv
    | panic => rw [hv'] at hv; cases hv
    | ok vs =>
      rw [hv'] at hv
      rw [← Outcome.ok.inj hv]
      exact N32.levelsToValues_length hv'
  rw [List.length_map] at hl
  have hd' : rleunpack t.sect7 (runLengthTemplate t.sect5).nbit (runLengthTemplate t.sect5).maxv t.numPointsEncoded = .ok decoded := by
    cases hr : rleunpack t.sect7 (runLengthTemplate t.sect5).nbit (runLengthTemplate t.sect5).maxv t.numPointsEncoded with
    | err e => rw [hr] at hd; cases hd
    | panic => rw [hr] at hd; cases hd
    | ok out => rw [hr] at hd; rw [Outcome.ok.inj hd]
  have hn : N32.rleunpack grow t.sect7 (runLengthTemplate t.sect5).nbit (runLengthTemplate t.sect5).maxv t.numPointsEncoded = .ok decoded := by
    rw [usable_unpack hfit] at hd'
    obtain ⟨out, ho, he⟩ := N32.bind_ok_inv hd'
    split at he
    · cases he
    · rename_i hne
      have hne : t.numPointsEncoded = out.length := by
        by_cases hh : t.numPointsEncoded = out.length
        · exact hh
        · exact absurd hh hne
      obtain rfl := Outcome.ok.inj he
      have hbase : 2 ^ (runLengthTemplate t.sect5).nbit - ((runLengthTemplate t.sect5).maxv + 1) = (runLengthTemplate t.sect5).base := by
        unfold RunLengthTemplate.base; omega
      have hdrain : (NBit.new t.sect7 (runLengthTemplate t.sect5).nbit).drain (8 * t.sect7.length + 1) =
          .done (sectNumbers t.sect7 (runLengthTemplate t.sect5).nbit) := by
        by_cases h0 : (runLengthTemplate t.sect5).nbit = 0
        · rw [h4 h0, h0]; rfl
        · rw [NBit.drain_spec _ _ (by simp [NBit.new]) (by simp [NBit.new]; omega), NBit.fields_new]
          · simp only [NBit.new, NBit.bitPos, Nat.mul_zero, Nat.add_zero, Nat.sub_zero]
            unfold sectNumbers
            congr 1
            apply List.map_congr_left
            intro k _
            exact bitField_mod (by omega)
          · simp only [NBit.new, NBit.bitPos, Nat.mul_zero, Nat.add_zero, Nat.sub_zero]
            have := Nat.div_le_self (8 * t.sect7.length) (runLengthTemplate t.sect5).nbit
            omega
      unfold N32.rleunpack
      rw [if_neg (by omega), if_neg (by omega), hdrain, hbase]
      simp only
      have hmod : ∀ v ∈ sectNumbers t.sect7 (runLengthTemplate t.sect5).nbit, v % 2 ^ 16 = v := by
        intro v hv
        have := hb.2 v hv
        exact Nat.mod_eq_of_lt (by omega)
      rw [N32.rleLoop_same hg.small [] (by simp) (Or.inl rfl) ?_ (by omega) ho]
      · simp only [Outcome.bind_ok]
        rw [if_neg (by omega)]
      · intro a mid post e hm
        rw [List.nil_append] at e
        refine hp a mid post e fun v hv => ?_
        have := hmod v (by rw [e]; simp [hv])
        have := hm v hv
        omega
  show ((N32.rleunpack grow t.sect7 _ _ t.numPointsEncoded).mapErr _ : Outcome GribError _).bind _ = _
  rw [hn]
  show ((levelsToValues (ops.nan :: levels) decoded).mapErr _ : Outcome GribError _).bind _ = _
  rw [hv]
  show (if grow (4 * values.length) = true then _ else _) = _
  rw [if_pos (hg.small _ (by omega))]

/-- C90. Values that come without a panic on a 64-bit platform come on a 32-bit platform: if there are at most `2^27` of them,
section 7 has less than `2^29` octets, and, for run-length packing, the powers of the base fit 32 bits. -/
theorem C90_values {grow : Nat → Bool} (hg : Growth grow) (c : Codecs F) (t : Decoder) (h7 : t.sect7.length < 2 ^ 29)
    (hp : t.templateNum = 200 → PowersFit t) {xs : Items F} (h : t.decodeValues c = .ok xs) (hn : .panic ∉ xs)
    (hl : xs.length ≤ 2 ^ 27) : N32.decodeValues grow c t = .ok xs := by
  unfold Decoder.decodeValues at h
  unfold N32.decodeValues
  split at h
  · rename_i e; rw [e]; exact h
  · rename_i e; rw [e]; exact N32.complexDecode2_same hg.small _ _ h7 h hn hl
  · rename_i e; rw [e]; exact N32.complexDecode3_same hg.small _ _ h7 h hn hl
  · rename_i e; rw [e]; exact h
  · rename_i e; rw [e]; exact h
  · rename_i e; rw [e]; exact runLength_same hg _ _ (hp e) h (by omega)
  · cases h

/-- C90. So for such submessages decoding has the same result on both platforms, if there are less than `2^29` octets of
bitmap. -/
theorem C90_same {grow : Nat → Bool} (hg : Growth grow) (c : Codecs F) (t : Decoder) (h7 : t.sect7.length < 2 ^ 29)
    (h6 : t.bitmap.length < 2 ^ 29) (hp : t.templateNum = 200 → PowersFit t) {xs : Items F} (h : t.decodeValues c = .ok xs)
    (hn : .panic ∉ xs) (hl : xs.length ≤ 2 ^ 27) : narrowDecodeAll grow c t = decodeAll c t := by
  unfold narrowDecodeAll decodeAll N32.dispatch Decoder.dispatch N32.bitmapNew
  rw [C90_values hg c t h7 hp h hn hl, h]
  simp only [Outcome.bind_ok]
  rw [if_neg (by omega)]

/-- C90. Refusals are the same, except with run-length packing. -/
theorem C90_refused (grow : Nat → Bool) (c : Codecs F) (t : Decoder) (ht : t.templateNum ≠ 200) {e : GribError}
    (h : t.decodeValues c = .err e) : narrowDecodeAll grow c t = .err e := by
  have : N32.decodeValues grow c t = .err e := by
    unfold Decoder.decodeValues at h
    unfold N32.decodeValues
    split at h
    · rename_i e; rw [e]; exact h
    · rename_i e; rw [e]; exact N32.complexDecode2_err h
    · rename_i e; rw [e]; exact N32.complexDecode3_err h
    · rename_i e; rw [e]; exact h
    · rename_i e; rw [e]; exact h
    · contradiction
    · split <;> first | contradiction | exact h
  unfold narrowDecodeAll N32.dispatch
  rw [this]; rfl

/-! ## From files -/

theorem readSlice_length {s : SectionInfo} {r r' : Rdr} {buf : List UInt8} (h : readSectPayloadAsSlice s r = (.ok buf, r')) :
    buf.length = s.size - 5 := by
  unfold readSectPayloadAsSlice at h
  obtain ⟨-, r1, -, h⟩ := RM.bind_ok_inv h
  split at h
  · simp [RM.panic] at h
  · exact (rdReadExactLoop_ok (Nat.le_refl _) h).2.2.2

theorem createBitmap_length (n : Nat) : (createBitmap n).length = (n + 7) / 8 := by
  unfold createBitmap
  split <;> simp <;> omega

theorem mapErr_read {s : SectionInfo} {r : Rdr} {buf : List UInt8} {r' : Rdr}
    (h : ((readSectPayloadAsSlice s r).1.mapErr GribError.parseError, (readSectPayloadAsSlice s r).2) = (.ok buf, r')) :
    buf.length = s.size - 5 := by
  rcases hr : readSectPayloadAsSlice s r with ⟨o, r''⟩
  rw [hr] at h
  cases o with
  | ok b =>
    simp only [Outcome.mapErr, Prod.mk.injEq, Outcome.ok.injEq] at h
    rw [← h.1]
    exact readSlice_length hr
  | err e => simp [Outcome.mapErr] at h
  | panic => simp [Outcome.mapErr] at h

theorem fromSub_lengths {m : SubMessage} {r : Rdr} {t : Decoder} (h : (Decoder.fromSub m r).1 = .ok t) :
    t.sect7.length ≤ m.s7.2.size ∧ (t.bitmap.length ≤ m.s6.2.size ∨ t.bitmap.length = (t.numPointsTotal + 7) / 8) := by
  unfold Decoder.fromSub at h
  split at h
  swap
  · cases h
  dsimp only at h
  split at h
  · cases h
  · cases h
  rename_i b3 b5 indicator _ _ _ _ total _
  split at h
  · cases h
  · cases h
  rename_i bitmap hbm
  split at h
  · cases h
  · cases h
  split at h
  · cases h
  · cases h
  split at h
  · cases h
  · cases h
  rename_i h7
  have ht := Outcome.ok.inj h
  subst ht
  refine ⟨by have := mapErr_read h7; simp only; omega, ?_⟩
  simp only
  split at hbm
  · left
    split at hbm
    · rename_i h6
      have := mapErr_read h6
      dsimp only at hbm
      split at hbm
      · cases hbm
      · rw [← Outcome.ok.inj hbm]; simp; omega
    · cases hbm
    · cases hbm
  · split at hbm
    · right
      rw [← Outcome.ok.inj hbm]
      exact createBitmap_length total
    · cases hbm

/-- C90, the whole way. A file of less than `2^29` octets that is opened on a 64-bit platform is opened on a 32-bit platform,
with the same submessages.  For each of them the decoder gets the same octets, with the reader in any state (failures
included), and where it yields at most `2^27` values without a panic, for a grid of at most `2^32 - 8` points, decoding has the
same result. -/
theorem C90_submessage {grow : Nat → Bool} (hg : Growth grow) {r0 : Rdr} (hl : r0.data.length < 2 ^ 29) (hp : r0.pos < 2 ^ 32)
    {g : Grib2} (h : Grib2.read r0 = .ok g) :
    N32.read r0 = .ok g ∧
    ∀ (ix : Nat × Nat) (m : SubMessage), (ix, m) ∈ SubIter.drain (g.len + 1) g.iter → ∀ (r : Rdr),
      N32.fromSub m r = Decoder.fromSub m r ∧
      ∀ (c : Codecs F) (t : Decoder) (xs : Items F), (Decoder.fromSub m r).1 = .ok t → t.numPointsTotal ≤ 2 ^ 32 - 8 →
        (t.templateNum = 200 → PowersFit t) → t.decodeValues c = .ok xs → .panic ∉ xs → xs.length ≤ 2 ^ 27 →
        narrowDecodeSub grow c m r = decodeSub c m r := by
  refine ⟨C88_opens r0 (by omega) hp g h, fun ix m hm r => ?_⟩
  obtain ⟨-, -, -, -, -, hk⟩ := C17_accessors r0 g h ix m hm (ε := Unit)
  have e : N32.fromSub m r = Decoder.fromSub m r := by
    apply N32.fromSub_eq
    intro s hs r'
    refine C88_payload r0 (by omega) g h s ?_ r'
    simp only [List.mem_cons, List.not_mem_nil, or_false] at hs
    rcases hs with rfl | rfl | rfl
    · exact List.mem_of_getElem? (hk (m.s5, 5) (by simp)).2.1
    · exact List.mem_of_getElem? (hk (m.s6, 6) (by simp)).2.1
    · exact List.mem_of_getElem? (hk (m.s7, 7) (by simp)).2.1
  refine ⟨e, fun c t xs ht htot hpw hv hn hx => ?_⟩
  have w6 := opened_whole h _ (List.mem_of_getElem? (hk (m.s6, 6) (by simp)).2.1)
  have w7 := opened_whole h _ (List.mem_of_getElem? (hk (m.s7, 7) (by simp)).2.1)
  obtain ⟨l7, l6⟩ := fromSub_lengths ht
  unfold narrowDecodeSub decodeSub
  rw [e, ht]
  simp only [Outcome.bind_ok]
  simp only at w6 w7
  exact C90_same hg c t (by omega) (by omega) hpw hv hn hx

/-! ## Coordinates -/

/-- C90. For every section 3, `ij()` and `latlons()` panic on a 32-bit platform or have the result of a 64-bit platform. -/
theorem C90_grid_follows (o : GridOps G F) (d : GridDefinition) :
    (N32.subIj d = .panic ∨ N32.subIj d = subIj d) ∧ (N32.subLatlons o d = .panic ∨ N32.subLatlons o d = subLatlons o d) :=
  ⟨(N32.subIj_fol d).imp_right Eq.symm, (N32.subLatlons_fol o d).imp_right Eq.symm⟩

theorem numPoints_lt {d : GridDefinition} {n : Nat} (h : (d.numPoints : Outcome GribError Nat) = .ok n) : n < 2 ^ 32 := by
  unfold GridDefinition.numPoints at h
  by_cases hl : 1 + 4 ≤ d.payload.length
  · rw [rdAs_number hl] at h
    rw [← Outcome.ok.inj h]
    exact Rel.number4_lt' _ _
  · rw [rdAs_panic (by omega)] at h; cases h

theorem major_minor (ni nj mode : Nat) :
    (GridIter.new ni nj mode).majorLen * (GridIter.new ni nj mode).minorLen = ni * nj := by
  unfold GridIter.new
  cases ScanningMode.isConsecutiveForI mode with
  | true => exact Nat.mul_comm _ _
  | false => rfl

theorem gridSizeHint_new {ni nj mode : Nat} (h : ni * nj < 2 ^ 32) :
    N32.gridSizeHint (GridIter.new ni nj mode) = (.ok (ni * nj) : Outcome GribError Nat) := by
  have e := GridIter.sizeHint_new (ε := GribError) ni nj mode
  unfold N32.gridSizeHint
  rw [if_neg, e]
  have hm : (GridIter.new ni nj mode).majorLen * (GridIter.new ni nj mode).minorLen = ni * nj := by
    exact major_minor ni nj mode
  have h0 : (GridIter.new ni nj mode).majorPos = 0 := by unfold GridIter.new; split; rfl
  rw [h0, Nat.sub_zero, hm]
  omega

/-- C90. The indices of a grid come on a 32-bit platform whenever they do on a 64-bit platform, whatever the grid. -/
theorem C90_ij (d : GridDefinition) (it : GridIter) (h : subIj d = .ok it) : N32.subIj d = .ok it := by
  unfold subIj at h
  unfold N32.subIj
  refine N32.bind_same h fun n hn h => N32.bind_same h fun t ht h => N32.bind_same h fun ij hij h => ?_
  unfold GridTemplate.ij gridIj at hij
  split at hij
  · cases hij
  · have := Outcome.ok.inj hij
    subst this
    rw [GridIter.sizeHint_new] at h
    simp only [Outcome.bind_ok] at h
    split at h
    · rename_i hnum
      have := numPoints_lt hn
      rw [gridSizeHint_new (by omega)]
      simp only [Outcome.bind_ok]
      rw [if_pos hnum]; exact h
    · cases h

/-- What a grid may have on a 32-bit platform: less than `2^29` columns and rows; less than 813 rows if they are Gaussian; less
than `2^27` points if they are projected. -/
def FitsNarrow : GridTemplate → Prop
  | .template0 g => g.ni < 2 ^ 29 ∧ g.nj < 2 ^ 29
  | .template20 g => g.ni * g.nj < 2 ^ 27
  | .template30 g => g.ni * g.nj < 2 ^ 27
  | .template40 g => g.ni < 2 ^ 29 ∧ g.nj < 813

theorem cube_lt {n : Nat} : 8 * n * n * n < 2 ^ 32 ↔ n < 813 := by
  constructor
  · intro h
    apply Nat.lt_of_not_le
    intro hn
    have h1 : 813 * 813 ≤ n * n := Nat.mul_le_mul hn hn
    have h2 : 813 * 813 * 813 ≤ n * n * n := Nat.mul_le_mul h1 hn
    have e : 8 * n * n * n = 8 * (n * n * n) := by ac_rfl
    omega
  · intro hn
    have h0 : n ≤ 812 := by omega
    have h1 : n * n ≤ 812 * 812 := Nat.mul_le_mul h0 h0
    have h2 : n * n * n ≤ 812 * 812 * 812 := Nat.mul_le_mul h1 h0
    have e : 8 * n * n * n = 8 * (n * n * n) := by ac_rfl
    omega

/-- C90. Gaussian latitudes: exactly from 813 rows on they cannot be computed on a 32-bit platform, whatever the floating-point
operations. -/
theorem C90_gaussian_rows (g : GaussOps G F) (n : Nat) :
    (813 ≤ n → N32.gaussianLatitudes g n = .panic) ∧ (n < 813 → N32.gaussianLatitudes g n = gaussianLatitudes g n) := by
  unfold N32.gaussianLatitudes N32.legendreRoots gaussianLatitudes
  have := cube_lt (n := n)
  constructor
  · intro h
    rw [if_pos (by omega)]; rfl
  · intro h
    rw [if_neg (by omega)]
    rfl

theorem gridIj_ok {ni nj mode : Nat} {ij : GridIter} (h : gridIj ni nj mode = .ok ij) : ij = GridIter.new ni nj mode := by
  unfold gridIj at h
  split at h
  · cases h
  · exact (Outcome.ok.inj h).symm

theorem latLon_ij {ops : FloatOps F} {g : LatLonGrid} {it : RegularIter F} (h : g.latlons ops = .ok it) :
    it.ij = GridIter.new g.ni g.nj g.mode := by
  unfold LatLonGrid.latlons at h
  obtain ⟨b, -, h⟩ := N32.bind_ok_inv h
  split at h
  · cases h
  · obtain ⟨ij, hij, h⟩ := N32.bind_ok_inv h
    split at h
    · cases h
    · dsimp only at h
      split at h
      · cases h
      · obtain ⟨lon, -, h⟩ := N32.bind_ok_inv h
        rw [← Outcome.ok.inj h]
        exact gridIj_ok hij

theorem gaussian_narrow {g : GaussOps G F} {ops : FloatOps F} {d : GaussianGrid} {it : RegularIter F} (h : d.latlons g ops = .ok it) :
    it.ij = GridIter.new d.ni d.nj d.mode ∧
    (d.ni < 2 ^ 29 ∧ d.nj < 813 → N32.gaussianLatlons g ops d = .ok it) ∧
    (¬ (d.ni < 2 ^ 29 ∧ d.nj < 813) → N32.gaussianLatlons g ops d = .panic) := by
  unfold GaussianGrid.latlons at h
  unfold N32.gaussianLatlons
  obtain ⟨b, hb, h⟩ := N32.bind_ok_inv h
  rw [hb]
  simp only [Outcome.bind_ok]
  split at h
  · cases h
  · rename_i hb'
    rw [if_neg hb']
    obtain ⟨ij, hij, h⟩ := N32.bind_ok_inv h
    obtain ⟨lat, hlat, h⟩ := N32.bind_ok_inv h
    dsimp only at h
    split at h
    · cases h
    · rename_i hni
      obtain ⟨lon, hlon, h⟩ := N32.bind_ok_inv h
      have hx := Outcome.ok.inj h
      subst hx
      rw [hij]
      simp only [Outcome.bind_ok]
      refine ⟨gridIj_ok hij, fun hf => ?_, fun hf => ?_⟩
      · rw [(C90_gaussian_rows g d.nj).2 hf.2, hlat]
        simp only [Outcome.bind_ok]
        rw [if_neg hni, hlon]
        simp only [Outcome.bind_ok]
        rw [if_neg (by omega)]
      · by_cases hr : 813 ≤ d.nj
        · rw [(C90_gaussian_rows g d.nj).1 hr]; rfl
        · rw [(C90_gaussian_rows g d.nj).2 (by omega), hlat]
          simp only [Outcome.bind_ok]
          rw [if_neg hni, hlon]
          simp only [Outcome.bind_ok]
          rw [if_pos (by omega)]

theorem projection_narrow {p : ProjOps G F} {d : ProjDef G} {first delta : G × G} {ni nj mode : Nat} {ps : List (F × F)}
    (h : latlonsFromProjection p d first delta (GridIter.new ni nj mode) = .ok ps) :
    (ni * nj < 2 ^ 27 → N32.latlonsFromProjection p d first delta (GridIter.new ni nj mode) = .ok ps) ∧
    (¬ ni * nj < 2 ^ 27 → N32.latlonsFromProjection p d first delta (GridIter.new ni nj mode) = .panic) := by
  have h0 := h
  unfold latlonsFromProjection at h
  unfold N32.latlonsFromProjection
  split at h
  · cases h
  · rename_i hv
    rw [if_neg hv]
    split at h
    · cases h
    · rename_i hf
      rw [hf, major_minor]
      dsimp only
      constructor
      · intro hs; rw [if_neg (by omega)]; exact h0
      · intro hs; rw [if_pos (by omega)]

theorem lambert_narrow {p : ProjOps G F} {d : LambertGrid} {ps : List (F × F)} (h : d.latlons p = .ok ps) :
    (d.ni * d.nj < 2 ^ 27 → N32.lambertLatlons p d = .ok ps) ∧ (¬ d.ni * d.nj < 2 ^ 27 → N32.lambertLatlons p d = .panic) := by
  unfold LambertGrid.latlons at h
  unfold N32.lambertLatlons
  split at h
  · cases h
  · rename_i hr
    rw [hr]
    dsimp only
    obtain ⟨ij, hij, h⟩ := N32.bind_ok_inv h
    rw [hij]
    simp only [Outcome.bind_ok]
    rw [gridIj_ok hij] at h ⊢
    exact projection_narrow h

theorem polar_narrow {p : ProjOps G F} {d : PolarGrid} {ps : List (F × F)} (h : d.latlons p = .ok ps) :
    (d.ni * d.nj < 2 ^ 27 → N32.polarLatlons p d = .ok ps) ∧ (¬ d.ni * d.nj < 2 ^ 27 → N32.polarLatlons p d = .panic) := by
  unfold PolarGrid.latlons at h
  unfold N32.polarLatlons
  split at h
  · cases h
  · rename_i hr
    rw [hr]
    dsimp only at h ⊢
    split at h
    · cases h
    · rename_i hc
      rw [if_neg hc]
      obtain ⟨ij, hij, h⟩ := N32.bind_ok_inv h
      rw [hij]
      simp only [Outcome.bind_ok]
      rw [gridIj_ok hij] at h ⊢
      exact projection_narrow h

/-- C90. Coordinates that a 64-bit platform delivers are delivered on a 32-bit platform exactly if the grid is small enough
there; otherwise `latlons()` panics. -/
theorem C90_latlons (o : GridOps G F) (d : GridDefinition) (t : GridTemplate) (ps : GridPoints F)
    (ht : GridTemplate.tryFrom d = .ok t) (h : subLatlons o d = .ok ps) :
    (FitsNarrow t → N32.subLatlons o d = .ok ps) ∧ (¬ FitsNarrow t → N32.subLatlons o d = .panic) := by
  unfold subLatlons at h
  obtain ⟨n, hn, h⟩ := N32.bind_ok_inv h
  have h' : (do
      let points ← t.latlons o
      let decoded ← points.sizeHint
      if n = decoded then Outcome.ok points else .err .invalidValueError : Outcome GribError _) = .ok ps := by
    obtain ⟨t', ht', h⟩ := N32.bind_ok_inv h
    rw [ht] at ht'
    rw [Outcome.ok.inj ht']; exact h
  have e : N32.subLatlons o d = (do
      let points ← N32.templateLatlons o t
      let decoded ← N32.pointsSizeHint points
      if n = decoded then Outcome.ok points else .err .invalidValueError : Outcome GribError _) := by
    unfold N32.subLatlons
    rw [hn]; simp only [Outcome.bind_ok]
    rw [ht]; simp only [Outcome.bind_ok]
  rw [e]
  clear e h
  have hn32 := numPoints_lt hn
  obtain ⟨pts, hp, h'⟩ := N32.bind_ok_inv h'
  obtain ⟨k, hk, h'⟩ := N32.bind_ok_inv h'
  split at h'
  swap
  · cases h'
  rename_i hnk
  have hps := Outcome.ok.inj h'
  subst hps
  have regular {ni nj mode : Nat} {it : RegularIter F} (hi : it.ij = GridIter.new ni nj mode) (hpt : pts = .latLon it) :
      (do
        let points ← (Outcome.ok pts : Outcome GribError _)
        let decoded ← N32.pointsSizeHint points
        if n = decoded then Outcome.ok points else .err .invalidValueError : Outcome GribError _) = .ok pts := by
    subst hpt
    have e1 : (GridPoints.latLon it).sizeHint = (.ok (ni * nj) : Outcome GribError Nat) := by
      show it.ij.sizeHint = _
      rw [hi]; exact GridIter.sizeHint_new _ _ _
    rw [e1] at hk
    have := Outcome.ok.inj hk
    simp only [Outcome.bind_ok]
    have e2 : N32.pointsSizeHint (GridPoints.latLon it) = (.ok (ni * nj) : Outcome GribError Nat) := by
      show N32.gridSizeHint it.ij = _
      rw [hi]; exact gridSizeHint_new (by omega)
    rw [e2]
    simp only [Outcome.bind_ok]
    rw [if_pos (by omega)]
  have projected {l : List (F × F)} (hpt : pts = .lambert l) :
      (do
        let points ← (Outcome.ok pts : Outcome GribError _)
        let decoded ← N32.pointsSizeHint points
        if n = decoded then Outcome.ok points else .err .invalidValueError : Outcome GribError _) = .ok pts := by
    subst hpt
    have e1 : (GridPoints.lambert l).sizeHint = (.ok l.length : Outcome GribError Nat) := rfl
    rw [e1] at hk
    have := Outcome.ok.inj hk
    show (if n = l.length then _ else _) = _
    rw [if_pos (by omega)]
  have key : (FitsNarrow t → N32.templateLatlons o t = .ok pts) ∧ (¬ FitsNarrow t → N32.templateLatlons o t = .panic) ∧
      ((∃ ni nj mode it, it.ij = GridIter.new ni nj mode ∧ pts = .latLon it) ∨ ∃ l, pts = .lambert l) := by
    clear regular projected
    cases t with
    | template0 g =>
      obtain ⟨it, hit, hx⟩ := N32.bind_ok_inv hp
      have e : N32.templateLatlons o (.template0 g) = (N32.latLonLatlons o.single g).bind fun it => .ok (.latLon it) := rfl
      have e' : N32.latLonLatlons o.single g = if 4 * g.nj ≥ 2 ^ 31 ∨ 4 * g.ni ≥ 2 ^ 31 then .panic else .ok it := by
        unfold N32.latLonLatlons
        rw [hit]; rfl
      rw [e, e']
      refine ⟨fun hf => ?_, fun hf => ?_, Or.inl ⟨_, _, _, it, latLon_ij hit, (Outcome.ok.inj hx).symm⟩⟩
      · unfold FitsNarrow at hf
        rw [if_neg (by omega)]; exact hx
      · unfold FitsNarrow at hf
        rw [if_pos (by omega)]; rfl
    | template20 g =>
      unfold GridTemplate.latlons at hp
      unfold N32.templateLatlons
      dsimp only at hp ⊢
      split at hp
      swap
      · cases hp
      rename_i p hproj
      rw [hproj]
      dsimp only
      obtain ⟨l, hl, hx⟩ := N32.bind_ok_inv hp
      refine ⟨fun hf => ?_, fun hf => ?_, Or.inr ⟨l, (Outcome.ok.inj hx).symm⟩⟩
      · rw [(polar_narrow hl).1 hf]; exact hx
      · rw [(polar_narrow hl).2 hf]; rfl
    | template30 g =>
      unfold GridTemplate.latlons at hp
      unfold N32.templateLatlons
      dsimp only at hp ⊢
      split at hp
      swap
      · cases hp
      rename_i p hproj
      rw [hproj]
      dsimp only
      obtain ⟨l, hl, hx⟩ := N32.bind_ok_inv hp
      refine ⟨fun hf => ?_, fun hf => ?_, Or.inr ⟨l, (Outcome.ok.inj hx).symm⟩⟩
      · rw [(lambert_narrow hl).1 hf]; exact hx
      · rw [(lambert_narrow hl).2 hf]; rfl
    | template40 g =>
      obtain ⟨it, hit, hx⟩ := N32.bind_ok_inv hp
      have e : N32.templateLatlons o (.template40 g) = (N32.gaussianLatlons o.gauss o.single g).bind fun it => .ok (.latLon it) := rfl
      obtain ⟨k1, k2, k3⟩ := gaussian_narrow hit
      rw [e]
      refine ⟨fun hf => ?_, fun hf => ?_, Or.inl ⟨_, _, _, it, k1, (Outcome.ok.inj hx).symm⟩⟩
      · rw [k2 hf]; exact hx
      · rw [k3 hf]; rfl
  obtain ⟨k1, k2, k3⟩ := key
  refine ⟨fun hf => ?_, fun hf => by rw [k2 hf]; rfl⟩
  rw [k1 hf]
  rcases k3 with ⟨ni, nj, mode, it, hi, hpt⟩ | ⟨l, hpt⟩
  · exact regular hi hpt
  · exact projected hpt

/-! ## Cases -/

/-- A growth policy: up to `2^31 - 1` octets. -/
theorem growth_half : Growth fun n => decide (n < 2 ^ 31) :=
  ⟨fun n h => decide_eq_true (by omega), fun n h => decide_eq_false (by omega)⟩

/-- It is enough to look at the parts of section 7. -/
theorem powersFit_of {t : Decoder} {l : List Nat} (hl : sectNumbers t.sect7 (runLengthTemplate t.sect5).nbit = l)
    (h : ∀ i ≤ l.length, ∀ k ≤ l.length, i + k ≤ l.length → (∀ v ∈ (l.drop i).take k, (runLengthTemplate t.sect5).maxv < v) →
      (runLengthTemplate t.sect5).base ^ k < 2 ^ 32) : PowersFit t := by
  intro a d b e hd
  rw [hl] at e
  have hlen : l.length = a.length + d.length + b.length := by rw [e]; simp [Nat.add_assoc]
  refine h a.length (by omega) d.length (by omega) (by omega) ?_
  have : (l.drop a.length).take d.length = d := by rw [e]; simp [List.append_assoc]
  rw [this]; exact hd

/-- The sample of C25: 1008 values with runs of up to 1000. -/
example : narrowDecodeAll (fun n => decide (n < 2 ^ 31)) exactCodecs sampleRunLength = decodeAll exactCodecs sampleRunLength := by
  obtain ⟨xs, hx, h1, h2⟩ : ∃ xs, sampleRunLength.decodeValues exactCodecs = .ok xs ∧ .panic ∉ xs ∧ xs.length ≤ 2 ^ 27 := by
    obtain ⟨xs, h, hf⟩ := Outcome.exists_of_ok? (x := sampleRunLength.decodeValues exactCodecs)
      (f := fun xs => (xs.all (fun x => x.ok?.isSome), xs.length)) (b := (true, 1008)) (by decide +kernel)
    simp only [Prod.mk.injEq] at hf
    refine ⟨xs, h, fun hp => ?_, by omega⟩
    have := List.all_eq_true.1 hf.1 _ hp
    simp [Outcome.ok?] at this
  refine C90_same growth_half _ _ (by decide +kernel) (by decide +kernel) (fun _ => ?_) hx h1 h2
  refine powersFit_of (l := [2, 247, 7, 0, 5, 3, 1, 7, 2]) (by decide +kernel) (by decide +kernel)

/-- Two groups (C27). -/
example : ∃ xs, sampleComplex2.decodeValues exactCodecs = .ok xs ∧ .panic ∉ xs ∧ xs.length = 8 ∧
    N32.decodeValues (fun n => decide (n < 2 ^ 31)) exactCodecs sampleComplex2 = .ok xs := by
  obtain ⟨xs, h, hf⟩ := Outcome.exists_of_ok? (x := sampleComplex2.decodeValues exactCodecs)
    (f := fun xs => (xs.all (fun x => x.ok?.isSome), xs.length)) (b := (true, 8)) (by decide +kernel)
  simp only [Prod.mk.injEq] at hf
  have hp : Outcome.panic ∉ xs := fun hp => by
    have := List.all_eq_true.1 hf.1 _ hp
    simp [Outcome.ok?] at this
  exact ⟨xs, h, hp, hf.2, C90_values growth_half _ _ (by decide +kernel) (fun h => absurd h (by decide)) h hp (by omega)⟩

/-- Refused on both: a template that does not exist. -/
example : narrowDecodeAll (fun n => decide (n < 2 ^ 31)) exactCodecs { sampleMasked with templateNum := 1000 } =
    .err (.decodeError .templateNumberUnsupported) :=
  C90_refused _ _ _ (by decide) (by decide +kernel)

/-- What `C90_submessage` asks of a submessage (one with indicator 255 or 0). -/
def narrowFacts (g : Grib2) (k : Nat) : Option (Nat × Nat × Bool × Nat) := do
  let x ← (SubIter.drain (g.len + 1) g.iter)[k]?
  match (Decoder.fromSub x.2 g.reader).1 with
  | .ok t =>
    match t.decodeValues exactCodecs with
    | .ok xs => some (t.numPointsTotal, t.templateNum, xs.all (fun x => x.ok?.isSome), xs.length)
    | _ => none
  | _ => none

example : packedFile.length < 2 ^ 29 ∧ ∃ g, Grib2.read ⟨packedFile, 0, []⟩ = .ok g ∧
    [narrowFacts g 2, narrowFacts g 3] = [some (3, 0, true, 3), some (3, 0, true, 2)] :=
  ⟨by decide +kernel, Outcome.exists_of_ok? (f := fun g => [narrowFacts g 2, narrowFacts g 3]) (by decide +kernel)⟩

/-- The grid of C31: 4 columns, 3 rows. -/
example : ∃ ps, subLatlons (⟨FloatOps.exact, toyGauss, none⟩ : GridOps (Option Rat) (Option Rat)) sampleGrid = .ok ps ∧
    N32.subLatlons ⟨FloatOps.exact, toyGauss, none⟩ sampleGrid = .ok ps := by
  obtain ⟨t, ht, hf⟩ := Outcome.exists_of_ok? (x := GridTemplate.tryFrom sampleGrid) (f := fun t => t)
    (b := .template0 ⟨4, 3, 45000000, 350000000, 15000000, 20000000, 0⟩) (by decide +kernel)
  obtain ⟨ps, hps, -⟩ := Outcome.exists_of_ok?
    (x := subLatlons (⟨FloatOps.exact, toyGauss, none⟩ : GridOps (Option Rat) (Option Rat)) sampleGrid)
    (f := fun _ => ()) (b := ()) (by decide +kernel)
  refine ⟨ps, hps, (C90_latlons _ _ t _ ht hps).1 ?_⟩
  rw [hf]; unfold FitsNarrow; decide

/-! ## Where a 32-bit platform panics and a 64-bit platform does not -/

/-- One value of level 0 followed by three digits 0 of base 4095: `4095^3` does not fit 32 bits. -/
def longRun : Decoder := ⟨1, 1, 200, [0, 0, 0, 1, 0, 200, 12, 0, 0, 0, 0, 0], [0x80], [0, 0, 1, 0, 0x10, 1]⟩

/-- C90 fails without `PowersFit`, for a single value. -/
theorem C90_run_length_fails (grow : Nat → Bool) :
    decodeAll exactCodecs longRun = .ok (.done [none]) ∧ narrowDecodeAll grow exactCodecs longRun = .panic := by
  refine ⟨by decide +kernel, ?_⟩
  have e : (NBit.new longRun.sect7 12).drain (8 * longRun.sect7.length + 1) = .done [0, 1, 1, 1] := by decide +kernel
  have k : N32.rleLoop grow (0 + 1) (2 ^ 12 - (0 + 1)) [0, 1, 1, 1] [] none 1 = .panic := by
    simp [N32.rleLoop]
  have u : N32.rleunpack grow longRun.sect7 12 0 1 = .panic := by
    unfold N32.rleunpack
    rw [if_neg (by decide), if_neg (by decide), e]
    dsimp only
    rw [k]; rfl
  have d : N32.runLengthDecode grow FloatOps.exact longRun = .panic := by
    unfold N32.runLengthDecode
    show (do
      let decoded ← (N32.rleunpack grow longRun.sect7 12 0 1).mapErr fun e => GribError.decodeError (.runLength e)
      let values ← (levelsToValues (FloatOps.exact.nan :: []) decoded).mapErr fun e => GribError.decodeError (.runLength e)
      if grow (4 * values.length) then .ok (values.map .ok) else .panic : Outcome GribError (Items (Option Rat))) = .panic
    rw [u]; rfl
  show (do let it ← (do let xs ← N32.runLengthDecode grow FloatOps.exact longRun; N32.bitmapNew _ xs _); _ : Outcome GribError _) = _
  rw [d]; rfl

/-- One group of `2^28` equal values, of which one point uses the first. -/
def longGroup : Decoder :=
  ⟨1, 1, 2, [0, 0, 0, 3, 0, 0, 0, 0, 0, 0, 0, 0, 0, 0, 8, 0, 1, 0, 0xff, 0xff, 0xff, 0xff, 0xff, 0xff, 0xff, 0xff, 0, 0, 0, 1,
    0, 0, 0, 0, 0, 1, 1, 0x10, 0, 0, 0, 1], [0x80], [7, 0, 0]⟩

/-- C90 fails for groups whose values do not fit into memory, even if the value needed comes first. -/
theorem C90_group_fails : (∃ xs, longGroup.decodeValues exactCodecs = .ok xs ∧ xs[0]? = some (.ok (some 7))) ∧
    ∀ grow, narrowDecodeAll grow exactCodecs longGroup = .ok .panic := by
  constructor
  · exact Outcome.exists_of_ok? (f := fun xs => xs[0]?) (by decide +kernel)
  · intro grow
    have h : N32.decodeValues grow exactCodecs longGroup = .ok [.panic] := by
      with_unfolding_all rfl
    unfold narrowDecodeAll N32.dispatch
    rw [h]; rfl

/-- C90 fails for more than `2^32 - 8` points: the 8 bits of `2^29` octets of bitmap are too many for 32 bits. -/
theorem C90_bitmap_fails {grow : Nat → Bool} (hg : Growth grow) (c : Codecs F) (t : Decoder) {xs : Items F} (h : t.decodeValues c = .ok xs)
    (hb : 2 ^ 29 ≤ t.bitmap.length) : narrowDecodeAll grow c t = .panic := by
  unfold narrowDecodeAll N32.dispatch N32.bitmapNew
  rcases N32.decodeValues_ext hg.large c t with h' | ⟨e, -, h'⟩ | ⟨a, b, h', -, -⟩
  · rw [h']; rfl
  · rw [h] at h'; cases h'
  · rw [h']
    simp only [Outcome.bind_ok]
    rw [if_pos (by omega)]; rfl

example : (createBitmap (2 ^ 32 - 7)).length = 2 ^ 29 := by rw [createBitmap_length]; omega

/-- C90 fails for refusals: `2^16` rows and columns are too many for the number of points in section 3, which is an error on a
64-bit platform; on a 32-bit platform already counting them is a panic. -/
theorem C90_count_fails : subIj ⟨sampleGrid.payload.take 25 ++ [0, 1, 0, 0, 0, 1, 0, 0] ++ sampleGrid.payload.drop 33⟩ = .err .invalidValueError ∧
    N32.subIj ⟨sampleGrid.payload.take 25 ++ [0, 1, 0, 0, 0, 1, 0, 0] ++ sampleGrid.payload.drop 33⟩ = .panic := by
  constructor <;> decide +kernel

/-- C90 fails for Gaussian grids in use: the latitudes of 1280 rows (F640), computed in real arithmetic. -/
theorem C90_gaussian_fails : (∃ lats : List ℝ, gaussianLatitudes (realGauss id) 1280 = .ok (lats.map some) ∧ lats.length = 1280) ∧
    N32.gaussianLatitudes (realGauss id) 1280 = .panic := by
  obtain ⟨lats, h1, h2, -⟩ := C65_latitudes 1280 (by omega) (zero 1280) (zeros_zero 1280) id
  exact ⟨⟨lats, h1, h2⟩, (C90_gaussian_rows _ _).1 (by omega)⟩

end Grib.Props
