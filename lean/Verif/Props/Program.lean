import Verif.Model.Program
import Verif.Props.Examples
import Verif.Props.GridOutcome
import Verif.Props.Export

/-! # C92: what the command-line program prints, and its exit status -/

namespace Grib.Cli

open Grib.Text Grib.Model Grib.Codes Grib.Spec Grib.Props Grib.Examples

variable {F G : Type}

/-! ## The points of a grid -/

/-- A Gaussian grid without rows whose points are consecutive in the `j` direction. -/
def NoRowsScannedByColumn (d : GridDefinition) : Prop :=
  sectNumber d.payload 13 14 = 40 ∧ sectNumber d.payload 35 38 = 0 ∧ flag (sectNumber d.payload 72 72) 3 = true

theorem listed_ne (o : GridOps G F) (t : GridTemplate) (h0 : ∀ g, t ≠ .template0 g) (h40 : ∀ g, t ≠ .template40 g)
    (it : RegularIter F) : t.latlons o ≠ .ok (.latLon it) := by
  intro h
  cases t with
  | template0 g => exact h0 g rfl
  | template40 g => exact h40 g rfl
  | template20 g =>
    simp only [GridTemplate.latlons] at h
    split at h
    · obtain ⟨x, -, h⟩ := Outcome.bind_eq_ok h; cases h
    · cases h
  | template30 g =>
    simp only [GridTemplate.latlons] at h
    split at h
    · obtain ⟨x, -, h⟩ := Outcome.bind_eq_ok h; cases h
    · cases h

theorem points_cases (o : GridOps G F) (d : GridDefinition) (h9 : 9 ≤ d.payload.length) (pts : GridPoints F)
    (h : subLatlons o d = .ok pts) :
    (∃ n, (pts.sizeHint : Outcome Empty Nat) = .ok n) ∧
    ((¬ NoRowsScannedByColumn d ∧ ∃ ps, PointsAre pts ps) ∨ (NoRowsScannedByColumn d ∧ pointsNext pts = .panic)) := by
  have h0 := h
  unfold subLatlons GridDefinition.numPoints at h
  rw [rdAs_number (by omega), Outcome.bind_ok] at h
  obtain ⟨t, ht, h⟩ := Outcome.bind_eq_ok h
  obtain ⟨pts', hl, h⟩ := Outcome.bind_eq_ok h
  obtain ⟨n, hn, h⟩ := Outcome.bind_eq_ok h
  split at h
  case isFalse => cases h
  cases h
  obtain ⟨o1, o2, o3⟩ := C63_octets d t ht
  have hnum : sectNumber d.payload 13 14 = 40 ↔ ∃ g, t = .template40 g := by
    cases t <;> simp [GridTemplate.shortName] at o3 <;> simp [o3]
  cases pts with
  | lambert ps =>
    refine ⟨⟨_, rfl⟩, Or.inl ⟨?_, ps, .listed ps⟩⟩
    rintro ⟨a, -, -⟩
    obtain ⟨g, rfl⟩ := hnum.1 a
    unfold GridTemplate.latlons at hl
    obtain ⟨x, -, hl⟩ := Outcome.bind_eq_ok hl
    cases hl
  | latLon it =>
    obtain ⟨hij, hla, hlo⟩ := latlons_regular o t it hl
    refine ⟨⟨t.gridShape.1 * t.gridShape.2, ?_⟩, ?_⟩
    · show it.ij.sizeHint = _
      rw [hij, GridIter.sizeHint_new]
    by_cases hj : 0 < t.gridShape.2
    · left
      have hi : 0 < t.gridShape.1 := by
        cases t with
        | template0 g =>
          unfold GridTemplate.latlons at hl
          obtain ⟨x, hx, -⟩ := Outcome.bind_eq_ok hl
          exact ((C63_latlon o.single g).ok_iff.1 ⟨x, hx⟩).2.2.2.1
        | template20 g => exact absurd hl (listed_ne o _ (by simp) (by simp) _)
        | template30 g => exact absurd hl (listed_ne o _ (by simp) (by simp) _)
        | template40 g =>
          unfold GridTemplate.latlons at hl
          obtain ⟨x, hx, -⟩ := Outcome.bind_eq_ok hl
          exact ((C63_gaussian o.gauss o.single g).ok_iff.1 ⟨x, hx⟩).2.2.2.2.2.1
      obtain ⟨ps, hp, -⟩ := C37_latlons o d t ht h9 hi hj _ h0
      refine ⟨?_, ps, .regular hp⟩
      rintro ⟨-, b, -⟩
      rw [o1] at hj
      dsimp only at hj
      omega
    · have hj : t.gridShape.2 = 0 := by omega
      have hg : ∃ g, t = .template40 g ∧ 0 < g.ni := by
        cases t with
        | template0 g =>
          unfold GridTemplate.latlons at hl
          obtain ⟨x, hx, -⟩ := Outcome.bind_eq_ok hl
          have := ((C63_latlon o.single g).ok_iff.1 ⟨x, hx⟩).2.2.2.2.1
          exact absurd hj (Nat.pos_iff_ne_zero.1 this)
        | template20 g => exact absurd hl (listed_ne o _ (by simp) (by simp) _)
        | template30 g => exact absurd hl (listed_ne o _ (by simp) (by simp) _)
        | template40 g =>
          unfold GridTemplate.latlons at hl
          obtain ⟨x, hx, -⟩ := Outcome.bind_eq_ok hl
          exact ⟨g, rfl, ((C63_gaussian o.gauss o.single g).ok_iff.1 ⟨x, hx⟩).2.2.2.2.2.1⟩
      obtain ⟨g, rfl, hni⟩ := hg
      have h40 := hnum.2 ⟨g, rfl⟩
      have hm : g.mode = sectNumber d.payload 72 72 := by
        rw [if_pos (Or.inr h40)] at o2; exact o2
      have hnj : g.nj = 0 := hj
      have hr : sectNumber d.payload 35 38 = 0 := by
        have := congrArg Prod.snd o1
        dsimp only at this
        rw [← this]; exact hj
      obtain ⟨la, lo, ij⟩ := it
      dsimp only at hij hla hlo
      have hc := mode_consecutive g.mode
      have e1 : ij = GridIter.new g.ni g.nj g.mode := hij
      rw [hnj] at e1
      have la0 : la = [] := List.length_eq_zero_iff.1 (by rw [hla]; exact hj)
      subst la0
      cases hf : jConsecutive g.mode with
      | false =>
        left
        rw [hf] at hc
        refine ⟨fun ⟨_, _, b⟩ => ?_, [], .regular (fuel := 1) ?_⟩
        · rw [← hm] at b; rw [show jConsecutive g.mode = flag g.mode 3 from rfl, b] at hf; cases hf
        · rw [e1]
          unfold RegularIter.drain RegularIter.next GridIter.new
          rw [hc]
          rfl
      | true =>
        right
        rw [hf] at hc
        refine ⟨⟨h40, hr, by rw [← hm]; exact hf⟩, ?_⟩
        rw [e1]
        unfold pointsNext RegularIter.next GridIter.new
        rw [hc]
        unfold GridIter.next
        dsimp only
        have hz : ¬ (0 = g.ni) := by omega
        simp [hz, hc, Outcome.ofOption]

/-! ## Text output of `decode` -/

theorem zipShow_eq (line : (F × F) × F → Str) (vs : List F) (ps : List (F × F)) (points : GridPoints F) (hp : PointsAre points ps) :
    zipShow line vs points = ((ps.zip vs).flatMap line, true) := by
  induction vs generalizing ps points with
  | nil =>
    have hc := hp.cases
    unfold zipShow
    cases ps with
    | nil => obtain ⟨q, hq⟩ := hc; rw [hq]; rfl
    | cons p ps => obtain ⟨q, hq, -⟩ := hc; rw [hq]; simp
  | cons v vs ih =>
    have hc := hp.cases
    unfold zipShow
    cases ps with
    | nil => obtain ⟨q, hq⟩ := hc; rw [hq]; rfl
    | cons p ps =>
      obtain ⟨q, hq, hq'⟩ := hc
      rw [hq]
      dsimp only
      rw [ih ps q hq']
      simp

theorem zipShow_panic (line : (F × F) × F → Str) (vs : List F) (points : GridPoints F) (hp : pointsNext points = .panic) :
    zipShow line vs points = ([], false) := by
  cases vs <;> (unfold zipShow; rw [hp])

/-- The submessage listed with the index that the argument stands for. -/
def Chosen (g : Grib2) (index : Str) (m : SubMessage) : Prop :=
  ∃ a b i j, index = a ++ '.' :: b ∧ IsDecimal a i ∧ IsDecimal b j ∧ i < 2 ^ 64 ∧ j < 2 ^ 64 ∧
    ((i, j), m) ∈ SubIter.drain (g.len + 1) g.iter

/-- All the cases of `decode` with text output on data that open as `g`, with at least one submessage: what is printed, and how it
ends. -/
inductive DecodeRun (s : Setting F G) (r : Rdr) (g : Grib2) (index : Str) : Str × Outcome CliError Unit → Prop
  | malformed (h : ¬ ∃ a b n m, index = a ++ '.' :: b ∧ IsDecimal a n ∧ IsDecimal b m) :
      DecodeRun s r g index ([], .err .badIndex)
  | tooLarge (a b : Str) (n m : Nat) (h : index = a ++ '.' :: b) (ha : IsDecimal a n) (hb : IsDecimal b m)
      (hl : 2 ^ 64 ≤ n ∨ 2 ^ 64 ≤ m) : DecodeRun s r g index ([], .panic)
  | unlisted (a b : Str) (n m : Nat) (h : index = a ++ '.' :: b) (ha : IsDecimal a n) (hb : IsDecimal b m)
      (hn : n < 2 ^ 64) (hm : m < 2 ^ 64) (hx : ∀ x ∈ SubIter.drain (g.len + 1) g.iter, x.1 ≠ (n, m)) :
      DecodeRun s r g index ([], .err (.noSuchIndex (n, m)))
  | gridPanics (m : SubMessage) (hm : Chosen g index m)
      (hl : subLatlons s.grid ⟨payloadAt r.data m.s3.2.offset m.s3.2.size⟩ = .panic) : DecodeRun s r g index ([], .panic)
  | undecodable (m : SubMessage) (hm : Chosen g index m)
      (hl : subLatlons s.grid ⟨payloadAt r.data m.s3.2.offset m.s3.2.size⟩ ≠ .panic) (e : GribError)
      (hd : decodeSub s.codecs m g.reader = .err e) : DecodeRun s r g index ([], .err (.grib e))
  | decodingPanics (m : SubMessage) (hm : Chosen g index m)
      (hl : subLatlons s.grid ⟨payloadAt r.data m.s3.2.offset m.s3.2.size⟩ ≠ .panic)
      (hd : decodeSub s.codecs m g.reader = .panic ∨ decodeSub s.codecs m g.reader = .ok .panic) :
      DecodeRun s r g index ([], .panic)
  | gridError (m : SubMessage) (hm : Chosen g index m) (e : GribError)
      (hl : subLatlons s.grid ⟨payloadAt r.data m.s3.2.offset m.s3.2.size⟩ = .err e) (he : e ≠ .notSupported) (vs : List F)
      (hd : decodeSub s.codecs m g.reader = .ok (.done vs)) : DecodeRun s r g index ([], .err (.unexpected e))
  | unsupported (m : SubMessage) (hm : Chosen g index m)
      (hl : subLatlons s.grid ⟨payloadAt r.data m.s3.2.offset m.s3.2.size⟩ = .err .notSupported) (vs : List F)
      (hd : decodeSub s.codecs m g.reader = .ok (.done vs)) :
      DecodeRun s r g index
        (decodeOutput s.fix6 s.showF (vs.map fun v => ((s.codecs.ops.nan, s.codecs.ops.nan), v)), .ok ())
  | rows (m : SubMessage) (hm : Chosen g index m) (pts : GridPoints F)
      (hl : subLatlons s.grid ⟨payloadAt r.data m.s3.2.offset m.s3.2.size⟩ = .ok pts) (ps : List (F × F)) (hp : PointsAre pts ps)
      (vs : List F) (hd : decodeSub s.codecs m g.reader = .ok (.done vs)) :
      DecodeRun s r g index (decodeOutput s.fix6 s.showF (ps.zip vs), .ok ())
  | noRows (m : SubMessage) (hm : Chosen g index m) (pts : GridPoints F)
      (hl : subLatlons s.grid ⟨payloadAt r.data m.s3.2.offset m.s3.2.size⟩ = .ok pts)
      (hn : NoRowsScannedByColumn ⟨payloadAt r.data m.s3.2.offset m.s3.2.size⟩)
      (vs : List F) (hd : decodeSub s.codecs m g.reader = .ok (.done vs)) :
      DecodeRun s r g index (decodeOutput s.fix6 s.showF [], .panic)

theorem Chosen.parse {g : Grib2} {index : Str} {m : SubMessage} (h : Chosen g index m) :
    ∃ ix, parseIndex index = .ok ix ∧ (ix, m) ∈ SubIter.drain (g.len + 1) g.iter := by
  obtain ⟨a, b, i, j, rfl, ha, hb, hi, hj, hm⟩ := h
  exact ⟨(i, j), (C46_accepts _ _ _).2 ⟨a, b, rfl, ha, hb, hi, hj⟩, hm⟩

theorem prepare_opened (o : GridOps G F) (c : Codecs F) {r : Rdr} {g : Grib2} (hr : Grib2.read r = .ok g) (hne : g.len ≠ 0) (index : Str) :
    decodePrepare o c r index = (do
      let ix ← (parseIndex index).mapErr fun _ => .badIndex
      match findIndex ix (g.len + 1) g.iter with
      | none => .err (.noSuchIndex ix)
      | some (_, m) =>
        let d ← m.gridDef
        let latlons := subLatlons o d
        Outcome.require (match latlons with | .panic => false | _ => true)
        let dec ← (Decoder.fromSub m g.reader).1.mapErr .grib
        let values ← (dec.dispatch c).mapErr .grib
        .ok (latlons, values)) := by
  unfold decodePrepare openGrib
  rw [hr]
  simp only [hne, if_false, Outcome.bind_ok]
  rfl

theorem prepare_chosen (o : GridOps G F) (c : Codecs F) {r : Rdr} {g : Grib2} (hr : Grib2.read r = .ok g) (hne : g.len ≠ 0) {index : Str}
    {m : SubMessage} (hm : Chosen g index m) :
    decodePrepare o c r index = (match subLatlons o ⟨payloadAt r.data m.s3.2.offset m.s3.2.size⟩ with
      | .panic => .panic
      | l => do
        let dec ← (Decoder.fromSub m g.reader).1.mapErr .grib
        let values ← (dec.dispatch c).mapErr .grib
        .ok (l, values)) := by
  obtain ⟨ix, hix, hx⟩ := hm.parse
  rw [prepare_opened o c hr hne, hix]
  simp only [Outcome.mapErr, Outcome.bind_ok]
  rw [(C46_selects r g hr ix m).2 hx]
  dsimp only
  rw [(C17_accessors r g hr ix m hx).2.2.1, Outcome.bind_ok]
  cases subLatlons o ⟨payloadAt r.data m.s3.2.offset m.s3.2.size⟩ <;> rfl

/-- What the loops over the values of `decode` see. -/
theorem shown_chosen (s : Setting F G) {r : Rdr} {g : Grib2} (hr : Grib2.read r = .ok g) (hne : g.len ≠ 0) {index : Str}
    {m : SubMessage} (hm : Chosen g index m) (l : Outcome GribError (GridPoints F))
    (hl : subLatlons s.grid ⟨payloadAt r.data m.s3.2.offset m.s3.2.size⟩ = l) (hlp : l ≠ .panic) :
    decodeShown s r index = (match decodeSub s.codecs m g.reader with
      | .err e => ([], .err (.grib e))
      | .ok (.done vs) =>
        (match textPoints s.codecs.ops vs.length l with
        | .err e => ([], .err e)
        | .panic => ([], .panic)
        | .ok points =>
          let p := zipShow (rowLine s.fix6 s.showF) vs points
          display points.sizeHint (decodeHeader ++ ['\n'] ++ p.1, p.2))
      | _ => ([], .panic)) := by
  unfold decodeShown
  rw [prepare_chosen s.grid s.codecs hr hne hm, hl]
  clear hl
  unfold decodeSub decodeAll
  cases l with
  | panic => exact absurd rfl hlp
  | ok pts =>
    dsimp only
    cases (Decoder.fromSub m g.reader).1 with
    | err e => rfl
    | panic => rfl
    | ok dec =>
      simp only [Outcome.mapErr, Outcome.bind_ok]
      cases dec.dispatch s.codecs with
      | err e => rfl
      | panic => rfl
      | ok values =>
        simp only [Outcome.mapErr, Outcome.bind_ok]
        cases values.toList s.codecs.ops <;> rfl
  | err e =>
    dsimp only
    cases (Decoder.fromSub m g.reader).1 with
    | err e => rfl
    | panic => rfl
    | ok dec =>
      simp only [Outcome.mapErr, Outcome.bind_ok]
      cases dec.dispatch s.codecs with
      | err e => rfl
      | panic => rfl
      | ok values =>
        simp only [Outcome.mapErr, Outcome.bind_ok]
        cases values.toList s.codecs.ops <;> rfl

theorem decodeSub_done (c : Codecs F) (m : SubMessage) (r : Rdr) (d : Drained F) (h : decodeSub c m r = .ok d) :
    d = .panic ∨ ∃ vs, d = .done vs := by
  unfold decodeSub decodeAll at h
  obtain ⟨dec, -, h⟩ := Outcome.bind_eq_ok h
  obtain ⟨it, hv, h⟩ := Outcome.bind_eq_ok h
  have h7 : it.offset = 0 := by
    unfold Decoder.dispatch at hv
    obtain ⟨items, -, hv⟩ := Outcome.bind_eq_ok hv
    unfold BitmapIter.new at hv
    split at hv
    · cases hv
    · cases hv; rfl
  obtain ⟨vs, b, -, e⟩ := C91_pulled c.ops it h7
  have h := Outcome.ok.inj h
  rw [e] at h
  cases b
  · exact .inr ⟨vs, h.symm⟩
  · exact .inl h.symm

theorem payload_nine {r : Rdr} {g : Grib2} (hr : Grib2.read r = .ok g) {index : Str} {m : SubMessage} (hm : Chosen g index m) :
    9 ≤ (payloadAt r.data m.s3.2.offset m.s3.2.size).length := by
  obtain ⟨ix, -, hx⟩ := hm.parse
  obtain ⟨h1, h2⟩ := (facts hr hx).f3
  obtain ⟨w1, w2⟩ := h1.whole (by omega)
  have w3 := w2 (by omega)
  rw [h2] at w3
  have : minPayload 3 = 9 := rfl
  unfold payloadAt
  simp only [List.length_take, List.length_drop]
  omega

theorem DecodeRun.eq {s : Setting F G} {r : Rdr} {g : Grib2} (hr : Grib2.read r = .ok g) (hne : g.len ≠ 0) {index : Str}
    {x : Str × Outcome CliError Unit} (h : DecodeRun s r g index x) : decodeShown s r index = x := by
  cases h with
  | malformed h =>
    unfold decodeShown
    rw [prepare_opened _ _ hr hne, (C46_rejects index).2 h]
    rfl
  | tooLarge a b n m h ha hb hl =>
    unfold decodeShown
    rw [prepare_opened _ _ hr hne, h, C46_overflow_fails a b n m ha hb hl]
    rfl
  | unlisted a b n m h ha hb hn hm hx =>
    unfold decodeShown
    rw [prepare_opened _ _ hr hne, h, (C46_accepts _ n m).2 ⟨a, b, rfl, ha, hb, hn, hm⟩]
    simp only [Outcome.mapErr, Outcome.bind_ok]
    rw [(C46_absent r g hr _).2 hx]
  | gridPanics m hm hl =>
    unfold decodeShown
    rw [prepare_chosen _ _ hr hne hm, hl]
  | undecodable m hm hl e hd =>
    rw [shown_chosen s hr hne hm _ rfl hl, hd]
  | decodingPanics m hm hl hd =>
    rw [shown_chosen s hr hne hm _ rfl hl]
    rcases hd with hd | hd <;> rw [hd]
  | gridError m hm e hl he vs hd =>
    rw [shown_chosen s hr hne hm _ hl (by simp), hd]
    cases e <;> first | rfl | exact absurd rfl he
  | unsupported m hm hl vs hd =>
    rw [shown_chosen s hr hne hm _ hl (by simp), hd]
    dsimp only [textPoints]
    rw [zipShow_eq _ vs _ _ (.listed _), zip_replicate]
    rfl
  | rows m hm pts hl ps hp vs hd =>
    rw [shown_chosen s hr hne hm _ hl (by simp), hd]
    dsimp only [textPoints]
    rw [zipShow_eq _ vs _ _ hp]
    obtain ⟨⟨n, hn⟩, -⟩ := points_cases s.grid _ (payload_nine hr hm) pts hl
    rw [hn]
    rfl
  | noRows m hm pts hl hnr vs hd =>
    rw [shown_chosen s hr hne hm _ hl (by simp), hd]
    dsimp only [textPoints]
    obtain ⟨⟨n, hn⟩, h | h⟩ := points_cases s.grid _ (payload_nine hr hm) pts hl
    · exact absurd hnr h.1
    · rw [zipShow_panic _ vs _ h.2, hn]
      rfl

theorem DecodeRun.total (s : Setting F G) {r : Rdr} {g : Grib2} (hr : Grib2.read r = .ok g) (index : Str) :
    ∃ x, DecodeRun s r g index x := by
  by_cases h : ∃ a b n m, index = a ++ '.' :: b ∧ IsDecimal a n ∧ IsDecimal b m
  swap
  · exact ⟨_, .malformed h⟩
  obtain ⟨a, b, n, k, h, ha, hb⟩ := h
  by_cases hn : n < 2 ^ 64
  swap
  · exact ⟨_, .tooLarge a b n k h ha hb (by omega)⟩
  by_cases hk : k < 2 ^ 64
  swap
  · exact ⟨_, .tooLarge a b n k h ha hb (by omega)⟩
  by_cases hx : ∀ x ∈ SubIter.drain (g.len + 1) g.iter, x.1 ≠ (n, k)
  · exact ⟨_, .unlisted a b n k h ha hb hn hk hx⟩
  obtain ⟨x, hx, he⟩ : ∃ x ∈ SubIter.drain (g.len + 1) g.iter, x.1 = (n, k) := by
    apply Classical.byContradiction
    intro hc
    exact hx fun x hx he => hc ⟨x, hx, he⟩
  obtain ⟨ix, m⟩ := x
  cases he
  have hm : Chosen g index m := ⟨a, b, n, k, h, ha, hb, hn, hk, hx⟩
  cases hl : subLatlons s.grid ⟨payloadAt r.data m.s3.2.offset m.s3.2.size⟩ with
  | panic => exact ⟨_, .gridPanics m hm hl⟩
  | err e =>
    have hlp : subLatlons s.grid ⟨payloadAt r.data m.s3.2.offset m.s3.2.size⟩ ≠ .panic := by rw [hl]; simp
    cases hd : decodeSub s.codecs m g.reader with
    | err e => exact ⟨_, .undecodable m hm hlp e hd⟩
    | panic => exact ⟨_, .decodingPanics m hm hlp (.inl hd)⟩
    | ok d =>
      rcases decodeSub_done _ _ _ _ hd with rfl | ⟨vs, rfl⟩
      · exact ⟨_, .decodingPanics m hm hlp (.inr hd)⟩
      · by_cases he : e = .notSupported
        · subst he; exact ⟨_, .unsupported m hm hl vs hd⟩
        · exact ⟨_, .gridError m hm e hl he vs hd⟩
  | ok pts =>
    have hlp : subLatlons s.grid ⟨payloadAt r.data m.s3.2.offset m.s3.2.size⟩ ≠ .panic := by rw [hl]; simp
    cases hd : decodeSub s.codecs m g.reader with
    | err e => exact ⟨_, .undecodable m hm hlp e hd⟩
    | panic => exact ⟨_, .decodingPanics m hm hlp (.inl hd)⟩
    | ok d =>
      rcases decodeSub_done _ _ _ _ hd with rfl | ⟨vs, rfl⟩
      · exact ⟨_, .decodingPanics m hm hlp (.inr hd)⟩
      · obtain ⟨-, ⟨-, ps, hp⟩ | ⟨hn, -⟩⟩ := points_cases s.grid _ (payload_nine hr hm) pts hl
        · exact ⟨_, .rows m hm pts hl ps hp vs hd⟩
        · exact ⟨_, .noRows m hm pts hl hn vs hd⟩

/-- C92. What `decode` prints on data that open, and how it ends, in every case. -/
theorem C92_decode (s : Setting F G) (r : Rdr) (g : Grib2) (hr : Grib2.read r = .ok g) (hne : g.len ≠ 0) (index : Str)
    (x : Str × Outcome CliError Unit) : runCommand s (.decode index) r = x ↔ DecodeRun s r g index x := by
  refine ⟨?_, fun h => h.eq hr hne⟩
  rintro rfl
  obtain ⟨x, hx⟩ := DecodeRun.total s hr index
  rw [show runCommand s (.decode index) r = x from hx.eq hr hne]
  exact hx

/-! ## Binary output of `decode` -/

/-- The octets of a value in the exported file. -/
def valueOctets (bits : F → BitVec 32) (big : Bool) (v : F) : List UInt8 := if big then toBeBytes (bits v) else toLeBytes (bits v)

/-- The iterator of the values of a submessage: `Grib2SubmessageDecoder::from` and `dispatch`. -/
def valuesOf (c : Codecs F) (m : SubMessage) (r : Rdr) : Outcome GribError (BitmapIter F) := do
  let d ← (Decoder.fromSub m r).1
  d.dispatch c

/-- All the cases of `decode` with binary output on data that open as `g`, with at least one submessage: how it ends, and what
is in the file if it was created. -/
inductive ExportRun (s : Setting F G) (big : Bool) (r : Rdr) (g : Grib2) (index : Str) :
    Outcome CliError Unit × Option (List UInt8) → Prop
  | malformed (h : ¬ ∃ a b n m, index = a ++ '.' :: b ∧ IsDecimal a n ∧ IsDecimal b m) :
      ExportRun s big r g index (.err .badIndex, none)
  | tooLarge (a b : Str) (n m : Nat) (h : index = a ++ '.' :: b) (ha : IsDecimal a n) (hb : IsDecimal b m)
      (hl : 2 ^ 64 ≤ n ∨ 2 ^ 64 ≤ m) : ExportRun s big r g index (.panic, none)
  | unlisted (a b : Str) (n m : Nat) (h : index = a ++ '.' :: b) (ha : IsDecimal a n) (hb : IsDecimal b m)
      (hn : n < 2 ^ 64) (hm : m < 2 ^ 64) (hx : ∀ x ∈ SubIter.drain (g.len + 1) g.iter, x.1 ≠ (n, m)) :
      ExportRun s big r g index (.err (.noSuchIndex (n, m)), none)
  | gridPanics (m : SubMessage) (hm : Chosen g index m)
      (hl : subLatlons s.grid ⟨payloadAt r.data m.s3.2.offset m.s3.2.size⟩ = .panic) : ExportRun s big r g index (.panic, none)
  | undecodable (m : SubMessage) (hm : Chosen g index m)
      (hl : subLatlons s.grid ⟨payloadAt r.data m.s3.2.offset m.s3.2.size⟩ ≠ .panic) (e : GribError)
      (hd : valuesOf s.codecs m g.reader = .err e) : ExportRun s big r g index (.err (.grib e), none)
  | decodingPanics (m : SubMessage) (hm : Chosen g index m)
      (hl : subLatlons s.grid ⟨payloadAt r.data m.s3.2.offset m.s3.2.size⟩ ≠ .panic)
      (hd : valuesOf s.codecs m g.reader = .panic) : ExportRun s big r g index (.panic, none)
  | written (m : SubMessage) (hm : Chosen g index m)
      (hl : subLatlons s.grid ⟨payloadAt r.data m.s3.2.offset m.s3.2.size⟩ ≠ .panic) (values : BitmapIter F)
      (hd : valuesOf s.codecs m g.reader = .ok values) (vs : List F) (b : Bool) (hv : Pulled s.codecs.ops values vs b)
      (content : List UInt8) (hw : writeOutput s.sched (vs.map (valueOctets s.bits big)) = (.ok (), content)) :
      ExportRun s big r g index (if b then .panic else .ok (), some content)
  | writeFails (m : SubMessage) (hm : Chosen g index m)
      (hl : subLatlons s.grid ⟨payloadAt r.data m.s3.2.offset m.s3.2.size⟩ ≠ .panic) (values : BitmapIter F)
      (hd : valuesOf s.codecs m g.reader = .ok values) (vs : List F) (b : Bool) (hv : Pulled s.codecs.ops values vs b)
      (content : List UInt8) (hw : writeOutput s.sched (vs.map (valueOctets s.bits big)) = (.err (), content)) :
      ExportRun s big r g index (.err .write, some content)

theorem pulledValues_eq {ops : FloatOps F} {it : BitmapIter F} {vs : List F} {b : Bool} (h : Pulled ops it vs b) (fuel : Nat)
    (hf : vs.length < fuel) : pulledValues ops fuel it = (vs, b) := by
  induction h generalizing fuel with
  | done h =>
    cases fuel with
    | zero => cases hf
    | succ fuel => unfold pulledValues; rw [h]
  | panic h =>
    cases fuel with
    | zero => cases hf
    | succ fuel => unfold pulledValues; rw [h]
  | more h _ ih =>
    cases fuel with
    | zero => cases hf
    | succ fuel =>
      unfold pulledValues
      rw [h]
      dsimp only
      rw [ih fuel (by simp only [List.length_cons] at hf; omega)]

theorem valuesOf_offset {c : Codecs F} {m : SubMessage} {r : Rdr} {it : BitmapIter F} (h : valuesOf c m r = .ok it) : it.offset = 0 := by
  unfold valuesOf at h
  obtain ⟨dec, -, hv⟩ := Outcome.bind_eq_ok h
  unfold Decoder.dispatch at hv
  obtain ⟨items, -, hv⟩ := Outcome.bind_eq_ok hv
  unfold BitmapIter.new at hv
  split at hv
  · cases hv
  · cases hv; rfl

theorem prepare_values (o : GridOps G F) (c : Codecs F) {r : Rdr} {g : Grib2} (hr : Grib2.read r = .ok g) (hne : g.len ≠ 0) {index : Str}
    {m : SubMessage} (hm : Chosen g index m) (l : Outcome GribError (GridPoints F))
    (hl : subLatlons o ⟨payloadAt r.data m.s3.2.offset m.s3.2.size⟩ = l) (hlp : l ≠ .panic) :
    decodePrepare o c r index = (match valuesOf c m g.reader with
      | .ok it => .ok (l, it)
      | .err e => .err (.grib e)
      | .panic => .panic) := by
  rw [prepare_chosen o c hr hne hm, hl]
  clear hl
  unfold valuesOf
  cases l with
  | panic => exact absurd rfl hlp
  | ok pts =>
    dsimp only
    cases (Decoder.fromSub m g.reader).1 with
    | err e => rfl
    | panic => rfl
    | ok dec =>
      simp only [Outcome.mapErr, Outcome.bind_ok]
      cases dec.dispatch c <;> rfl
  | err e =>
    dsimp only
    cases (Decoder.fromSub m g.reader).1 with
    | err e => rfl
    | panic => rfl
    | ok dec =>
      simp only [Outcome.mapErr, Outcome.bind_ok]
      cases dec.dispatch c <;> rfl

theorem ExportRun.eq {s : Setting F G} {big : Bool} {r : Rdr} {g : Grib2} (hr : Grib2.read r = .ok g) (hne : g.len ≠ 0) {index : Str}
    {x : Outcome CliError Unit × Option (List UInt8)} (h : ExportRun s big r g index x) :
    decodeBinary s.grid s.codecs s.bits big s.sched r index = x := by
  cases h with
  | malformed h =>
    unfold decodeBinary
    rw [prepare_opened _ _ hr hne, (C46_rejects index).2 h]
    rfl
  | tooLarge a b n m h ha hb hl =>
    unfold decodeBinary
    rw [prepare_opened _ _ hr hne, h, C46_overflow_fails a b n m ha hb hl]
    rfl
  | unlisted a b n m h ha hb hn hm hx =>
    unfold decodeBinary
    rw [prepare_opened _ _ hr hne, h, (C46_accepts _ n m).2 ⟨a, b, rfl, ha, hb, hn, hm⟩]
    simp only [Outcome.mapErr, Outcome.bind_ok]
    rw [(C46_absent r g hr _).2 hx]
  | gridPanics m hm hl =>
    unfold decodeBinary
    rw [prepare_chosen _ _ hr hne hm, hl]
  | undecodable m hm hl e hd =>
    unfold decodeBinary
    rw [prepare_values _ _ hr hne hm _ rfl hl, hd]
  | decodingPanics m hm hl hd =>
    unfold decodeBinary
    rw [prepare_values _ _ hr hne hm _ rfl hl, hd]
  | written m hm hl values hd vs b hv content hw =>
    unfold decodeBinary
    rw [prepare_values _ _ hr hne hm _ rfl hl, hd]
    dsimp only
    have hlen := hv.length_le (by rw [valuesOf_offset hd]; omega)
    rw [pulledValues_eq hv _ (by omega)]
    dsimp only
    rw [show (vs.map fun v => if big = true then toBeBytes (s.bits v) else toLeBytes (s.bits v)) =
      vs.map (valueOctets s.bits big) from rfl, hw]
  | writeFails m hm hl values hd vs b hv content hw =>
    unfold decodeBinary
    rw [prepare_values _ _ hr hne hm _ rfl hl, hd]
    dsimp only
    have hlen := hv.length_le (by rw [valuesOf_offset hd]; omega)
    rw [pulledValues_eq hv _ (by omega)]
    dsimp only
    rw [show (vs.map fun v => if big = true then toBeBytes (s.bits v) else toLeBytes (s.bits v)) =
      vs.map (valueOctets s.bits big) from rfl, hw]

theorem valueOctets_length (bits : F → BitVec 32) (big : Bool) (vs : List F) : ∀ d ∈ vs.map (valueOctets bits big), d.length = 4 := by
  intro d hd
  obtain ⟨v, -, rfl⟩ := List.mem_map.1 hd
  unfold valueOctets
  cases big <;> rfl

theorem ExportRun.total (s : Setting F G) (big : Bool) {r : Rdr} {g : Grib2} (index : Str) :
    ∃ x, ExportRun s big r g index x := by
  by_cases h : ∃ a b n m, index = a ++ '.' :: b ∧ IsDecimal a n ∧ IsDecimal b m
  swap
  · exact ⟨_, .malformed h⟩
  obtain ⟨a, b, n, k, h, ha, hb⟩ := h
  by_cases hn : n < 2 ^ 64
  swap
  · exact ⟨_, .tooLarge a b n k h ha hb (by omega)⟩
  by_cases hk : k < 2 ^ 64
  swap
  · exact ⟨_, .tooLarge a b n k h ha hb (by omega)⟩
  by_cases hx : ∀ x ∈ SubIter.drain (g.len + 1) g.iter, x.1 ≠ (n, k)
  · exact ⟨_, .unlisted a b n k h ha hb hn hk hx⟩
  obtain ⟨x, hx, he⟩ : ∃ x ∈ SubIter.drain (g.len + 1) g.iter, x.1 = (n, k) := by
    apply Classical.byContradiction
    intro hc
    exact hx fun x hx he => hc ⟨x, hx, he⟩
  obtain ⟨ix, m⟩ := x
  cases he
  have hm : Chosen g index m := ⟨a, b, n, k, h, ha, hb, hn, hk, hx⟩
  by_cases hl : subLatlons s.grid ⟨payloadAt r.data m.s3.2.offset m.s3.2.size⟩ = .panic
  · exact ⟨_, .gridPanics m hm hl⟩
  cases hd : valuesOf s.codecs m g.reader with
  | err e => exact ⟨_, .undecodable m hm hl e hd⟩
  | panic => exact ⟨_, .decodingPanics m hm hl hd⟩
  | ok values =>
    obtain ⟨vs, b, hv, -⟩ := C91_pulled s.codecs.ops values (valuesOf_offset hd)
    obtain ⟨bl, last, e1, e2, e3⟩ := blocks_exist (vs.map (valueOctets s.bits big)).length
    have hw := C73_export s.sched _ (valueOctets_length s.bits big vs) bl last e1 e2 e3
    cases ho : (exportOctets bl last s.sched).1 with
    | true => rw [ho] at hw; exact ⟨_, .written m hm hl values hd vs b hv _ hw⟩
    | false => rw [ho] at hw; exact ⟨_, .writeFails m hm hl values hd vs b hv _ hw⟩

/-- C92. How `decode` with binary output on data that open ends, and what is in the file if it was created, in every case;
nothing is printed. -/
theorem C92_export (s : Setting F G) (big : Bool) (r : Rdr) (g : Grib2) (hr : Grib2.read r = .ok g) (hne : g.len ≠ 0) (index : Str)
    (x : Outcome CliError Unit × Option (List UInt8)) :
    (decodeBinary s.grid s.codecs s.bits big s.sched r index = x ↔ ExportRun s big r g index x) ∧
      (ExportRun s big r g index x → runCommand s (.export big index) r = ([], x.1)) := by
  refine ⟨⟨?_, fun h => h.eq hr hne⟩, fun h => by unfold runCommand; dsimp only; rw [h.eq hr hne]⟩
  rintro rfl
  obtain ⟨x, hx⟩ := ExportRun.total s big index
  rw [hx.eq hr hne]
  exact hx

/-! ## `list`, `inspect` and `info` -/

/-- C92. `list` on data that open prints the header and the lines of the submessages up to the first for which a line panics; it
ends with success exactly if there is none.  The same for `list --dump`, without a header, with the descriptions. -/
theorem C92_list (s : Setting F G) (r : Rdr) (g : Grib2) (hr : Grib2.read r = .ok g) (hne : g.len ≠ 0) :
    (∃ (row : Listed → ListRow) (out : Str × Outcome CliError Unit),
      (∀ x ∈ SubIter.drain (g.len + 1) g.iter, ¬ RowPanics r.data x.2 → listRow s.tables s.wide s.showG x.1 x.2 = .ok (row x)) ∧
      PrintsWhile (SubIter.drain (g.len + 1) g.iter) (fun x => ¬ RowPanics r.data x.2) (fun x => (row x).line ++ ['\n']) out ∧
      runCommand s (.list false) r = (listHeader ++ ['\n'] ++ out.1, out.2)) ∧
    (∃ (text : Listed → Str),
      (∀ x ∈ SubIter.drain (g.len + 1) g.iter, ¬ TimeCut r.data x.2.s4.2 → ¬ SurfacesCut r.data x.2.s4.2 →
        (x.2.describe s.tables : Outcome Empty Str) = .ok (text x)) ∧
      PrintsWhile (SubIter.drain (g.len + 1) g.iter) (fun x => ¬ TimeCut r.data x.2.s4.2 ∧ ¬ SurfacesCut r.data x.2.s4.2)
        (fun x => showIndex x.1 ++ ['\n'] ++ text x ++ ['\n']) (runCommand s (.list true) r)) := by
  have hopen : openGrib r = .ok g := by unfold openGrib; rw [hr]; simp [hne]
  have hdisp : ∀ n (t : Str × Bool), display (.ok n) t = (t.1, if t.2 then .ok () else .panic) := fun _ _ => rfl
  have hlen := (C18_loop r g hr).1
  have hhint : (g.iter.sizeHint : Outcome Empty Nat) = .ok g.len := sizeHint_iter g
  constructor
  · have hn : listNumLines false g = .ok (1 + g.len) := by
      unfold listNumLines
      rw [hhint]; rfl
    have key : ∀ x ∈ SubIter.drain (g.len + 1) g.iter, (¬ RowPanics r.data x.2 → ∃ row, listRow s.tables s.wide s.showG x.1 x.2 = .ok row) ∧
        (¬ ¬ RowPanics r.data x.2 → listRow s.tables s.wide s.showG x.1 x.2 = .panic) := by
      intro x hx
      have := C64_list_row s.tables s.wide s.showG r g hr x.1 x.2 hx
      constructor
      · intro hp
        cases hrow : listRow s.tables s.wide s.showG x.1 x.2 with
        | err e => exact e.elim
        | panic => exact absurd (this.1 hrow) hp
        | ok row => exact ⟨row, rfl⟩
      · intro hp
        exact this.2 (Classical.not_not.1 hp)
    refine ⟨fun x => (listRow s.tables s.wide s.showG x.1 x.2).ok?.getD ⟨[], [], [], [], [], [], 0, 0, []⟩, _, ?_,
      prints_while (fun x => do
        let row ← listRow s.tables s.wide s.showG x.1 x.2
        .ok (row.line ++ ['\n'])) (SubIter.drain (g.len + 1) g.iter) _ _ ?_ ?_, ?_⟩
    · intro x hx hp
      obtain ⟨row, e⟩ := (key x hx).1 hp
      simp only [e]; rfl
    · intro x hx hp
      obtain ⟨row, e⟩ := (key x hx).1 hp
      simp only [e]
      rfl
    · intro x hx hp
      rw [(key x hx).2 hp]; rfl
    · unfold runCommand
      dsimp only
      rw [hopen]
      dsimp only
      rw [hn, hdisp]
      rfl
  · have hn : ∃ n, listNumLines true g = .ok n := by
      unfold listNumLines
      rw [hhint]
      simp only [Outcome.bind_ok, if_true]
      have : decide (1 ≤ (8 + 2) * g.len) = true := by simp; omega
      rw [this]
      exact ⟨_, rfl⟩
    obtain ⟨n, hn⟩ := hn
    have e : runCommand s (.list true) r = ((listText true s.tables s.wide s.showG g).1,
        if (listText true s.tables s.wide s.showG g).2 then .ok () else .panic) := by
      unfold runCommand
      dsimp only
      rw [hopen]
      dsimp only
      rw [hn, hdisp]
    rw [e]
    have key : ∀ x ∈ SubIter.drain (g.len + 1) g.iter, (x.2.describe s.tables : Outcome Empty Str) = .panic ↔
        TimeCut r.data x.2.s4.2 ∨ SurfacesCut r.data x.2.s4.2 := fun x hx => C64_describe s.tables r g hr x.1 x.2 hx
    have ok : ∀ x ∈ SubIter.drain (g.len + 1) g.iter, ¬ TimeCut r.data x.2.s4.2 → ¬ SurfacesCut r.data x.2.s4.2 →
        (x.2.describe s.tables : Outcome Empty Str) = .ok ((x.2.describe s.tables : Outcome Empty Str).ok?.getD []) := by
      intro x hx h1 h2
      cases hd : (x.2.describe s.tables : Outcome Empty Str) with
      | err e => exact e.elim
      | panic => rcases (key x hx).1 hd with h | h <;> contradiction
      | ok t => rfl
    refine ⟨fun x => (x.2.describe s.tables : Outcome Empty Str).ok?.getD [], ok, ?_⟩
    unfold listText
    dsimp only
    apply prints_while
    · rintro x hx ⟨h1, h2⟩
      rw [ok x hx h1 h2]; rfl
    · intro x hx hp
      rw [(key x hx).2 (by
        apply Classical.byContradiction
        intro hc
        exact hp ⟨fun h => hc (.inl h), fun h => hc (.inr h)⟩)]
      rfl

open Classical in
/-- C92. `list` succeeds exactly if no line panics. -/
theorem C92_list_status (s : Setting F G) (r : Rdr) (g : Grib2) (hr : Grib2.read r = .ok g) (hne : g.len ≠ 0) :
    exitStatus (runCommand s (.list false) r).2 =
      (if ∃ x ∈ SubIter.drain (g.len + 1) g.iter, RowPanics r.data x.2 then 101 else 0) ∧
    exitStatus (runCommand s (.list true) r).2 =
      (if ∃ x ∈ SubIter.drain (g.len + 1) g.iter, TimeCut r.data x.2.s4.2 ∨ SurfacesCut r.data x.2.s4.2 then 101 else 0) := by
  have key : ∀ (Bad : Listed → Prop) (line : Listed → Str) (out : Str × Outcome CliError Unit),
      PrintsWhile (SubIter.drain (g.len + 1) g.iter) (fun x => ¬ Bad x) line out →
      exitStatus out.2 = if ∃ x ∈ SubIter.drain (g.len + 1) g.iter, Bad x then 101 else 0 := by
    rintro Bad line out ⟨n, hn, -, hf, hb, hr⟩
    rw [hr]
    by_cases hl : n = (SubIter.drain (g.len + 1) g.iter).length
    · rw [if_pos hl, if_neg]; · rfl
      rintro ⟨x, hx, hbad⟩
      rw [hl, List.take_length] at hf
      exact hf x hx hbad
    · rw [if_neg hl, if_pos]; · rfl
      have hlt : n < (SubIter.drain (g.len + 1) g.iter).length := by omega
      exact ⟨_, List.getElem_mem hlt, Classical.not_not.1 (hb _ (List.getElem?_eq_getElem hlt))⟩
  obtain ⟨⟨row, out, -, h1, e⟩, text, -, h2⟩ := C92_list s r g hr hne
  constructor
  · rw [e]
    exact key (fun x => RowPanics r.data x.2) _ out h1
  · have := key (fun x => TimeCut r.data x.2.s4.2 ∨ SurfacesCut r.data x.2.s4.2) _ _ (by simpa only [not_or] using h2)
    exact this

/-- C92. `inspect` on data that open always succeeds, having printed its whole text (C74). -/
theorem C92_inspect (s : Setting F G) (hp : ∀ l, (s.perm l).Perm l) (hk : PlainTables s.tables) (r : Rdr) (g : Grib2)
    (hr : Grib2.read r = .ok g) (hne : g.len ≠ 0) (flags : InspectFlags) :
    runCommand s (.inspect flags) r = ((inspectText s.tables flags s.perm g).1, .ok ()) := by
  have hopen : openGrib r = .ok g := by unfold openGrib; rw [hr]; simp [hne]
  obtain ⟨h1, n, hn, -⟩ := C74_inspect s.tables hk r g hr s.perm hp flags
  unfold runCommand
  dsimp only
  rw [hopen]
  dsimp only
  rw [hn]
  unfold display
  dsimp only
  rw [h1]
  rfl

/-- C92. `info` on data that open, which are a sequence `ms` of well-ordered messages, prints the block of each message in order, up
to the first whose reference time is not a date and time of the calendar; it ends with status 0 if there is none, with an
error and status 1 otherwise. -/
theorem C92_info (s : Setting F G) (r : Rdr) (g : Grib2) (hr : Grib2.read r = .ok g) (hne : g.len ≠ 0) :
    ∃ ms : List (Message SectionInfo), (∀ m ∈ ms, m.Ok) ∧ g.sections = ms.flatMap Message.sections ∧
      (runCommand s .info r).1 = (ms.zipIdx.takeWhile fun p => chronoValid (timeOf r.data p.1.ident)).flatMap (fun p =>
        (blockOf s.tables r.data p.2 p.1.indicator p.1.ident).text) ∧
      exitStatus (runCommand s .info r).2 = (if ms.all fun m => chronoValid (timeOf r.data m.ident) then 0 else 1) := by
  have hopen : openGrib r = .ok g := by unfold openGrib; rw [hr]; simp [hne]
  obtain ⟨ms, h1, h2, h3⟩ := C55_blocks s.tables chronoValid r g hr
  refine ⟨ms, h1, h2, ?_, ?_⟩
  · unfold runCommand
    dsimp only
    rw [hopen]
    dsimp only
    unfold infoText
    rw [h3]
    simp only [List.flatMap_def, List.map_map]
    rfl
  · unfold runCommand
    dsimp only
    rw [hopen]
    dsimp only
    rw [h3]
    dsimp only
    cases ms.all fun m => chronoValid (timeOf r.data m.ident) <;> rfl

/-! ## All commands -/

/-- C92. Data that do not open, or have no submessage: every command ends in the same way, prints nothing and creates no file. -/
theorem C92_unopened (s : Setting F G) (cmd : Command) (big : Bool) (index : Str) (r : Rdr) :
    (∀ e, Grib2.read r = .err e → runCommand s cmd r = ([], .err (.open_ e)) ∧
      decodeBinary s.grid s.codecs s.bits big s.sched r index = (.err (.open_ e), none)) ∧
    (Grib2.read r = .panic → runCommand s cmd r = ([], .panic) ∧
      decodeBinary s.grid s.codecs s.bits big s.sched r index = (.panic, none)) ∧
    (∀ g, Grib2.read r = .ok g → g.len = 0 → runCommand s cmd r = ([], .err .emptyData) ∧
      decodeBinary s.grid s.codecs s.bits big s.sched r index = (.err .emptyData, none)) := by
  have key : (∀ e, openGrib r = .err e → runCommand s cmd r = ([], .err e) ∧
        decodeBinary s.grid s.codecs s.bits big s.sched r index = (.err e, none)) ∧
      (openGrib r = .panic → runCommand s cmd r = ([], .panic) ∧
        decodeBinary s.grid s.codecs s.bits big s.sched r index = (.panic, none)) := by
    constructor
    · intro e he
      have hp : ∀ index, decodePrepare s.grid s.codecs r index = .err e := by
        intro index; unfold decodePrepare; rw [he]; rfl
      constructor
      · cases cmd with
        | decode index => unfold runCommand decodeShown; dsimp only; rw [hp]
        | «export» big index => unfold runCommand decodeBinary; dsimp only; rw [hp]
        | info => unfold runCommand; dsimp only; rw [he]
        | inspect f => unfold runCommand; dsimp only; rw [he]
        | list d => unfold runCommand; dsimp only; rw [he]
      · unfold decodeBinary; rw [hp]
    · intro he
      have hp : ∀ index, decodePrepare s.grid s.codecs r index = .panic := by
        intro index; unfold decodePrepare; rw [he]; rfl
      constructor
      · cases cmd with
        | decode index => unfold runCommand decodeShown; dsimp only; rw [hp]
        | «export» big index => unfold runCommand decodeBinary; dsimp only; rw [hp]
        | info => unfold runCommand; dsimp only; rw [he]
        | inspect f => unfold runCommand; dsimp only; rw [he]
        | list d => unfold runCommand; dsimp only; rw [he]
      · unfold decodeBinary; rw [hp]
  refine ⟨fun e he => key.1 _ ?_, fun hp => key.2 ?_, fun g hg h0 => key.1 _ ?_⟩
  · unfold openGrib; rw [he]
  · unfold openGrib; rw [hp]
  · unfold openGrib; rw [hg]; dsimp only; rw [if_pos h0]

/-- C92. A command that ends with an error has printed nothing, except for `info`. -/
theorem C92_silent (s : Setting F G) (cmd : Command) (r : Rdr) (h : cmd ≠ .info) (h1 : exitStatus (runCommand s cmd r).2 = 1) :
    (runCommand s cmd r).1 = [] := by
  have hd : ∀ a t, exitStatus (display a t).2 ≠ 1 := by
    intro a t
    unfold display
    cases a with
    | err e => exact e.elim
    | panic => simp [exitStatus]
    | ok n => dsimp only; cases t.2 <;> simp [exitStatus]
  cases cmd with
  | info => exact absurd rfl h
  | decode index =>
    unfold runCommand decodeShown at h1 ⊢
    dsimp only at h1 ⊢
    cases hp : decodePrepare s.grid s.codecs r index with
    | err e => rfl
    | panic => rfl
    | ok x =>
      rw [hp] at h1
      dsimp only at h1 ⊢
      cases hv : x.2.toList s.codecs.ops with
      | panic => rfl
      | more _ => rfl
      | done vs =>
        rw [hv] at h1
        dsimp only at h1 ⊢
        cases ht : textPoints s.codecs.ops vs.length x.1 with
        | err e => rfl
        | panic => rfl
        | ok points =>
          rw [ht] at h1
          exact absurd h1 (hd _ _)
  | «export» big index => rfl
  | inspect f =>
    unfold runCommand at h1 ⊢
    dsimp only at h1 ⊢
    cases ho : openGrib r with
    | err e => rfl
    | panic => rfl
    | ok g => rw [ho] at h1; exact absurd h1 (hd _ _)
  | list d =>
    unfold runCommand at h1 ⊢
    dsimp only at h1 ⊢
    cases ho : openGrib r with
    | err e => rfl
    | panic => rfl
    | ok g => rw [ho] at h1; exact absurd h1 (hd _ _)

/-! ## Messages -/

/-- The message says that reading failed. -/
def ReadFailure : CliError → Prop
  | .open_ (.readError _) => True
  | _ => False

theorem append_ne {a b x y : Str} (h : a.isPrefixOf b = false) (h' : b.isPrefixOf a = false) : a ++ x ≠ b ++ y := by
  intro e
  induction a generalizing b with
  | nil => simp at h
  | cons c a ih =>
    cases b with
    | nil => simp at h'
    | cons d b =>
      simp only [List.cons_append, List.cons.injEq] at e
      simp only [List.isPrefixOf_cons_cons, Bool.and_eq_false_iff, beq_eq_false_iff_ne] at h h'
      exact ih (h.resolve_left fun hn => hn e.1) (h'.resolve_left fun hn => hn e.1.symm) e.2

/-- The fixed part of a message, and the rest. -/
def messageParts : CliError → Option (Str × Str)
  | .open_ (.readError _) => none
  | .open_ (.gribVersionMismatch v) => some ("Not GRIB version 2: ".toList, showNat v)
  | .open_ (.unknownSectionNumber n) => some ("Unknown section number: ".toList, showNat n)
  | .open_ .endSectionMismatch => some ("Content of End Section is not valid".toList, [])
  | .open_ (.unexpectedEndOfData i) => some ("Unexpected end of data at ".toList, showNat i)
  | .open_ (.invalidSectionOrder i) => some ("GRIB2 sections wrongly ordered at ".toList, showNat i)
  | .open_ (.noGridDefinition i) => some ("Grid Definition Section not found at ".toList, showNat i)
  | .emptyData => some ("empty GRIB2 data".toList, [])
  | .badIndex => some ("message index must be specified as 'N.M' where N and M are both integers".toList, [])
  | .noSuchIndex ix => some ("no such index: ".toList, showIndex ix)
  | _ => none

theorem message_read (io : Str) (k : ReadErrorKind) : ∃ x, errorMessage io (.open_ (.readError k)) = some ("Read error: ".toList ++ x) := by
  cases k with
  | sectionSizeTooSmall n => exact ⟨"Section size is too small: ".toList ++ showNat n, rfl⟩
  | unexpectedEof => exact ⟨io, rfl⟩
  | io => exact ⟨io, rfl⟩
  | resetPos => exact ⟨io, rfl⟩

theorem message_parts (io : Str) (e : CliError) (t : Str) (h : errorMessage io e = some t) :
    ReadFailure e ∧ (∃ x, t = "Read error: ".toList ++ x) ∨ ∃ p, messageParts e = some p ∧ t = p.1 ++ p.2 := by
  rcases e with p | _ | _ | ix | ge | ue | _
  · cases p with
    | readError k =>
      obtain ⟨x, hx⟩ := message_read io k
      rw [hx] at h
      exact .inl ⟨trivial, x, (Option.some.inj h).symm⟩
    | gribVersionMismatch v => exact .inr ⟨_, rfl, (Option.some.inj h).symm⟩
    | unknownSectionNumber n => exact .inr ⟨_, rfl, (Option.some.inj h).symm⟩
    | endSectionMismatch => exact .inr ⟨_, rfl, (Option.some.inj h).symm⟩
    | unexpectedEndOfData i => exact .inr ⟨_, rfl, (Option.some.inj h).symm⟩
    | invalidSectionOrder i => exact .inr ⟨_, rfl, (Option.some.inj h).symm⟩
    | noGridDefinition i => exact .inr ⟨_, rfl, (Option.some.inj h).symm⟩
  · exact .inr ⟨_, rfl, (Option.some.inj h).symm⟩
  · exact .inr ⟨_, rfl, (Option.some.inj h).symm⟩
  · exact .inr ⟨_, rfl, (Option.some.inj h).symm⟩
  · cases h
  · cases h
  · cases h

theorem messageParts_fixed (e : CliError) (p : Str × Str) (h : messageParts e = some p) : p.1 ∈ ["Not GRIB version 2: ".toList,
    "Unknown section number: ".toList, "Content of End Section is not valid".toList, "Unexpected end of data at ".toList,
    "GRIB2 sections wrongly ordered at ".toList, "Grid Definition Section not found at ".toList, "empty GRIB2 data".toList,
    "message index must be specified as 'N.M' where N and M are both integers".toList, "no such index: ".toList] := by
  rcases e with (_ | _ | _ | _ | _ | _ | _) | _ | _ | ix | ge | ue | _ <;> first | cases h <;> simp

theorem messageParts_inj (e e' : CliError) (f x y : Str) (h : messageParts e = some (f, x)) (h' : messageParts e' = some (f, y))
    (hxy : x = y) : e = e' := by
  subst hxy
  rcases e with (_ | _ | _ | _ | _ | _ | _) | _ | _ | ix | ge | ue | _ <;>
    rcases e' with (_ | _ | _ | _ | _ | _ | _) | _ | _ | ix' | ge' | ue' | _ <;>
    simp only [messageParts, Option.some.injEq, Prod.mk.injEq, reduceCtorEq] at h h' <;>
    first
    | rfl
    | (have := showNat_inj (h.2.trans h'.2.symm); subst this; rfl)
    | (have := C46_distinct _ _ (h.2.trans h'.2.symm); subst this; rfl)
    | (exact absurd (h.1.trans h'.1.symm) (by decide))

/-- C92. The messages of two different errors of opening the data or of the index are different, whatever texts the operating system
has for failures, unless both say that reading failed. -/
theorem C92_messages (io io' : Str) (e e' : CliError) (t : Str) (h : errorMessage io e = some t) (h' : errorMessage io' e' = some t) :
    e = e' ∨ (ReadFailure e ∧ ReadFailure e') := by
  have free : ∀ (e : CliError) (p : Str × Str) (x : Str), messageParts e = some p → "Read error: ".toList ++ x ≠ p.1 ++ p.2 := by
    intro e p x hp
    have : ∀ f ∈ ["Not GRIB version 2: ".toList,
        "Unknown section number: ".toList, "Content of End Section is not valid".toList, "Unexpected end of data at ".toList,
        "GRIB2 sections wrongly ordered at ".toList, "Grid Definition Section not found at ".toList, "empty GRIB2 data".toList,
        "message index must be specified as 'N.M' where N and M are both integers".toList, "no such index: ".toList],
        "Read error: ".toList.isPrefixOf f = false ∧ f.isPrefixOf "Read error: ".toList = false := by decide +kernel
    obtain ⟨a, b⟩ := this _ (messageParts_fixed e p hp)
    exact append_ne a b
  have apart : ∀ f ∈ ["Not GRIB version 2: ".toList,
        "Unknown section number: ".toList, "Content of End Section is not valid".toList, "Unexpected end of data at ".toList,
        "GRIB2 sections wrongly ordered at ".toList, "Grid Definition Section not found at ".toList, "empty GRIB2 data".toList,
        "message index must be specified as 'N.M' where N and M are both integers".toList, "no such index: ".toList],
      ∀ f' ∈ ["Not GRIB version 2: ".toList,
        "Unknown section number: ".toList, "Content of End Section is not valid".toList, "Unexpected end of data at ".toList,
        "GRIB2 sections wrongly ordered at ".toList, "Grid Definition Section not found at ".toList, "empty GRIB2 data".toList,
        "message index must be specified as 'N.M' where N and M are both integers".toList, "no such index: ".toList],
      f = f' ∨ (f.isPrefixOf f' = false ∧ f'.isPrefixOf f = false) := by decide +kernel
  rcases message_parts io e t h with ⟨r1, x, hx⟩ | ⟨p, hp, ht⟩
  · rcases message_parts io' e' t h' with ⟨r2, -⟩ | ⟨p', hp', ht'⟩
    · exact .inr ⟨r1, r2⟩
    · exact absurd (hx.symm.trans ht') (free e' p' x hp')
  · rcases message_parts io' e' t h' with ⟨r2, x, hx⟩ | ⟨p', hp', ht'⟩
    · exact absurd (hx.symm.trans ht) (free e p x hp)
    · left
      obtain ⟨f, x⟩ := p
      obtain ⟨f', y⟩ := p'
      rcases apart _ (messageParts_fixed e _ hp) _ (messageParts_fixed e' _ hp') with he | ⟨a, b⟩
      · dsimp only at he
        subst he
        exact messageParts_inj e e' f x y hp hp' (List.append_cancel_left (ht.symm.trans ht'))
      · exact absurd (ht.symm.trans ht') (append_ne a b)

/-! ## Examples -/

/-- Exact numbers, shown as fractions; no code tables. -/
def exampleSetting : Setting (Option Rat) (Option Rat) :=
  { tables := noTables, wide := FloatOps.exact, showG := showOpt, grid := exactOps, codecs := exactCodecs, fix6 := showOpt,
    showF := showOpt, bits := fun v => BitVec.ofNat 32 (v.getD 7).num.toNat, sched := [], perm := id }

/-- The grid file of C53: four lines after the header. -/
example : runCommand exampleSetting (.decode "0.0".toList) ⟨gridFile, 0, []⟩ =
    (("  Latitude   Longitude     Value\n        45          10       NaN\n        45          11         9\n" ++
      "        44          10       NaN\n        44          11         4\n").toList, .ok ()) := by
  decide +kernel

/-- The errors of the index. -/
example : runCommand exampleSetting (.decode "0.1".toList) ⟨gridFile, 0, []⟩ = ([], .err (.noSuchIndex (0, 1))) ∧
    runCommand exampleSetting (.decode "0".toList) ⟨gridFile, 0, []⟩ = ([], .err .badIndex) ∧
    runCommand exampleSetting (.decode "0.18446744073709551616".toList) ⟨gridFile, 0, []⟩ = ([], .panic) := by
  decide +kernel

/-- Its binary output, and its `list`, which panics (status 101) after the header line. -/
example : decodeBinary exampleSetting.grid exampleSetting.codecs exampleSetting.bits true [] ⟨gridFile, 0, []⟩ "0.0".toList =
      (.ok (), some [0, 0, 0, 7, 0, 0, 0, 9, 0, 0, 0, 7, 0, 0, 0, 4]) ∧
    runCommand exampleSetting (.export true "0.0".toList) ⟨gridFile, 0, []⟩ = ([], .ok ()) ∧
    runCommand exampleSetting (.list false) ⟨gridFile, 0, []⟩ = (listHeader ++ ['\n'], .panic) ∧
    exitStatus (runCommand exampleSetting (.list false) ⟨gridFile, 0, []⟩).2 = 101 := by
  decide +kernel

/-- `gridRaw` on a Gaussian grid without rows whose points are consecutive in the `j` direction, without values. -/
def rowlessRaw : RawMessage :=
  { gridRaw with
    first := ⟨none, some ([0, 0, 0, 0, 0, 0, 0, 0, 40] ++ List.replicate 16 0 ++
        [0, 0, 0, 2, 0, 0, 0, 0] ++ List.replicate 8 0 ++ [2, 0xae, 0xa5, 0x40, 0, 0x98, 0x96, 0x80, 0,
          2, 0x9f, 0x63, 0, 0, 0xa7, 0xd8, 0xc0] ++ List.replicate 8 0 ++ [0b00100000]), [0, 0, 0, 0],
      [0, 0, 0, 0, 0, 0, 0, 0, 0, 0, 0, 0, 0, 0, 8, 0], [255], []⟩ }

/-- The case `noRows` happens: the header is printed, then the program panics; the binary output is an empty file. -/
example : runCommand exampleSetting (.decode "0.0".toList) ⟨messagesBytes [([], rowlessRaw)], 0, []⟩ =
      (decodeHeader ++ ['\n'], .panic) ∧
    decodeBinary exampleSetting.grid exampleSetting.codecs exampleSetting.bits true [] ⟨messagesBytes [([], rowlessRaw)], 0, []⟩
      "0.0".toList = (.ok (), some []) := by
  decide +kernel

/-- Data without a message are an error for every command; a message cut off too. -/
example : runCommand exampleSetting .info ⟨[1, 2, 3], 0, []⟩ = ([], .err .emptyData) ∧
    errorMessage [] .emptyData = some "empty GRIB2 data".toList ∧
    exitStatus (runCommand exampleSetting (.list true) ⟨gridFile.take 20, 0, []⟩).2 = 1 := by
  decide +kernel

/-- `info` and `inspect` of the grid file succeed. -/
example : exitStatus (runCommand exampleSetting .info ⟨gridFile, 0, []⟩).2 = 0 ∧
    exitStatus (runCommand exampleSetting (.inspect ⟨false, true, false⟩) ⟨gridFile, 0, []⟩).2 = 0 := by
  decide +kernel

end Grib.Cli
