import Verif.Lemmas.ReleaseOpened
import Verif.Props.ReleaseCli
import Verif.Props.ReleaseGrid
import Verif.Props.Program

/-! # C97: what a release build of the command-line program prints, and its exit status -/

namespace Grib.Cli

open Grib.Text Grib.Model Grib.Codes Grib.Spec Grib.Props Grib.Examples

variable {F G : Type}

/-! ## The points of a grid -/

/-- What calls of `next` on an iterator over the points of a grid return in a release build: the points `ps`, and then (`b`) a
panic or (not `b`) the end. -/
inductive PulledPoints : GridPoints F → List (F × F) → Bool → Prop
  | done {it it'} (h : Rel.pointsNext it = .ok (none, it')) : PulledPoints it [] false
  | panic {it} (h : Rel.pointsNext it = .panic) : PulledPoints it [] true
  | more {it it' p ps b} (h : Rel.pointsNext it = .ok (some p, it')) (h' : PulledPoints it' ps b) : PulledPoints it (p :: ps) b

theorem PulledPoints.unique {it : GridPoints F} {ps qs : List (F × F)} {a b : Bool} (h : PulledPoints it ps a)
    (h' : PulledPoints it qs b) : ps = qs ∧ a = b := by
  induction h generalizing qs b with
  | done h => cases h' with
    | done h2 => exact ⟨rfl, rfl⟩
    | panic h2 => rw [h] at h2; cases h2
    | more h2 _ => rw [h] at h2; cases h2
  | panic h => cases h' with
    | done h2 => rw [h] at h2; cases h2
    | panic h2 => exact ⟨rfl, rfl⟩
    | more h2 _ => rw [h] at h2; cases h2
  | more h _ ih => cases h' with
    | done h2 => rw [h] at h2; cases h2
    | panic h2 => rw [h] at h2; cases h2
    | more h2 h3 =>
      rw [h] at h2
      cases h2
      obtain ⟨e1, e2⟩ := ih h3
      exact ⟨by rw [e1], e2⟩

theorem pulled_listed (ps : List (F × F)) : PulledPoints (.lambert ps) ps false := by
  induction ps with
  | nil => exact .done rfl
  | cons p ps ih => exact .more rfl ih

theorem rel_regularNext {it : RegularIter F} {x : Option (F × F) × RegularIter F}
    (h : (Model.Rel.regularNext it : Outcome Empty _) = .ok x) : Rel.pointsNext (.latLon it) = .ok (x.1, .latLon x.2) := by
  unfold Rel.pointsNext
  dsimp only
  rw [h]; rfl

theorem pulled_regular (n : Nat) (it : RegularIter F) (ps : List (F × F)) (h : Model.Rel.regularDrain n it = .done ps) :
    PulledPoints (.latLon it) ps false := by
  induction n generalizing it ps with
  | zero => cases h
  | succ n ih =>
    unfold Model.Rel.regularDrain at h
    cases hn : (Model.Rel.regularNext it : Outcome Empty _) with
    | err e => exact e.elim
    | panic => rw [hn] at h; cases h
    | ok x =>
      obtain ⟨p, it'⟩ := x
      rw [hn] at h
      cases p with
      | none => cases h; exact .done (rel_regularNext hn)
      | some p =>
        dsimp only at h
        cases hd : Model.Rel.regularDrain n it' with
        | panic => rw [hd] at h; cases h
        | more xs => rw [hd] at h; cases h
        | done xs =>
          rw [hd] at h
          cases h
          exact .more (rel_regularNext hn) (ih _ _ hd)

theorem pulled_panic (n : Nat) (it : RegularIter F) (ps : List (F × F)) (h : Model.Rel.regularDrain n it = .more ps)
    (h' : Model.Rel.regularDrain (n + 1) it = .panic) : PulledPoints (.latLon it) ps true := by
  induction n generalizing it ps with
  | zero =>
    cases h
    unfold Model.Rel.regularDrain at h'
    cases hn : (Model.Rel.regularNext it : Outcome Empty _) with
    | err e => exact e.elim
    | panic => exact .panic (by unfold Rel.pointsNext; dsimp only; rw [hn]; rfl)
    | ok x =>
      obtain ⟨p, it'⟩ := x
      rw [hn] at h'
      cases p <;> cases h'
  | succ n ih =>
    unfold Model.Rel.regularDrain at h h'
    cases hn : (Model.Rel.regularNext it : Outcome Empty _) with
    | err e => exact e.elim
    | panic => rw [hn] at h; cases h
    | ok x =>
      obtain ⟨p, it'⟩ := x
      rw [hn] at h h'
      cases p with
      | none => cases h
      | some p =>
        dsimp only at h h'
        cases hd : Model.Rel.regularDrain n it' with
        | panic => rw [hd] at h; cases h
        | done xs => rw [hd] at h; cases h
        | more xs =>
          rw [hd] at h
          cases h
          refine .more (rel_regularNext hn) (ih _ _ hd ?_)
          cases hd' : Model.Rel.regularDrain (n + 1) it' with
          | panic => rfl
          | done xs => rw [hd'] at h'; cases h'
          | more xs => rw [hd'] at h'; cases h'

/-- A latitude/longitude or Gaussian grid that has lines, but no points in them: rows without columns, or, where the points are
consecutive in the `j` direction, columns without rows. -/
def EmptyLines (d : GridDefinition) : Prop :=
  (sectNumber d.payload 13 14 = 0 ∨ sectNumber d.payload 13 14 = 40) ∧
  (if flag (sectNumber d.payload 72 72) 3 = true then 0 < sectNumber d.payload 31 34 ∧ sectNumber d.payload 35 38 = 0
    else 0 < sectNumber d.payload 35 38 ∧ sectNumber d.payload 31 34 = 0)

/-- A release build's iterator over the points of a latitude/longitude or Gaussian grid. -/
theorem rel_latlons_regular (o : GridOps G F) (t : GridTemplate) (it : RegularIter F) (h : Model.Rel.templateLatlons o t = .ok (.latLon it)) :
    (t.shortName = "regular_ll" ∨ t.shortName = "regular_gg") ∧ it.ij = GridIter.new t.gridShape.1 t.gridShape.2 t.mode ∧
      it.lon.length = Model.Rel.pred32 t.gridShape.1 + 1 ∧
      it.lat.length = (if t.shortName = "regular_ll" then Model.Rel.pred32 t.gridShape.2 + 1 else t.gridShape.2) := by
  cases t with
  | template20 g =>
    simp only [Model.Rel.templateLatlons] at h
    split at h
    · obtain ⟨x, -, h⟩ := Outcome.bind_eq_ok h; cases h
    · cases h
  | template30 g =>
    simp only [Model.Rel.templateLatlons] at h
    split at h
    · obtain ⟨x, -, h⟩ := Outcome.bind_eq_ok h; cases h
    · cases h
  | template0 g =>
    refine ⟨.inl rfl, ?_⟩
    simp only [Model.Rel.templateLatlons] at h
    obtain ⟨x, hx, h⟩ := Outcome.bind_eq_ok h
    cases h
    unfold Model.Rel.latLonLatlons at hx
    split at hx
    · cases hx
    · obtain ⟨ij, hij, hx⟩ := Outcome.bind_eq_ok hx
      rw [gridIj_ok hij] at hx
      have hx := Outcome.ok.inj hx
      subst hx
      dsimp only [GridTemplate.gridShape]
      rw [release_lon_length, evenlySpacedDegrees_length]
      refine ⟨rfl, rfl, ?_⟩
      exact (if_pos (c := (GridTemplate.template0 g).shortName = "regular_ll") rfl).symm
  | template40 g =>
    refine ⟨.inr rfl, ?_⟩
    simp only [Model.Rel.templateLatlons] at h
    obtain ⟨x, hx, h⟩ := Outcome.bind_eq_ok h
    cases h
    unfold Model.Rel.gaussianLatlons at hx
    split at hx
    · cases hx
    · obtain ⟨ij, hij, hx⟩ := Outcome.bind_eq_ok hx
      obtain ⟨lat, hlat, hx⟩ := Outcome.bind_eq_ok hx
      rw [gridIj_ok hij] at hx
      have hx := Outcome.ok.inj hx
      subst hx
      refine ⟨rfl, release_lon_length _ _ _ _ _, ?_⟩
      have hl : lat.length = g.nj := by
        unfold Model.Rel.gaussianLatitudes at hlat
        split at hlat
        · cases hlat
        · rename_i hs
          cases hlat
          rw [allSome_length hs, List.length_map]
          unfold Model.Rel.legendreRoots
          rw [List.length_map, List.length_range]
      show (List.map _ _).length = g.nj
      rw [List.length_map]
      split
      · rw [List.length_reverse, hl]
      · exact hl

/-- C97. The points of a grid in a release build: as many as section 3 states, and then the end; but on a grid with empty lines
2^32 points (none on a Gaussian grid without rows), and then a panic. -/
theorem C97_points (o : GridOps G F) (d : GridDefinition) (h9 : 9 ≤ d.payload.length) (pts : GridPoints F)
    (h : Model.Rel.subLatlons o d = .ok pts) : ∃ ps b, PulledPoints pts ps b ∧ (b = true ↔ EmptyLines d) ∧
      (¬ EmptyLines d → ps.length = sectNumber d.payload 7 10) ∧
      (EmptyLines d → sectNumber d.payload 7 10 = 0 ∧ ps.length =
        if sectNumber d.payload 13 14 = 40 ∧ sectNumber d.payload 35 38 = 0 then 0 else 2 ^ 32) := by
  unfold Model.Rel.subLatlons GridDefinition.numPoints at h
  rw [rdAs_number (by omega), Outcome.bind_ok] at h
  obtain ⟨t, ht, h⟩ := Outcome.bind_eq_ok h
  obtain ⟨pts', hl, h⟩ := Outcome.bind_eq_ok h
  split at h
  case isFalse => cases h
  rename_i he
  cases h
  have he : sectNumber d.payload 7 10 = Model.Rel.pointsSizeHint pts := he
  obtain ⟨o1, o2, o3⟩ := C63_octets d t ht
  obtain ⟨hi32, hj32⟩ := tryFrom_shape_lt ht
  cases pts with
  | lambert ps =>
    have hn : ¬ EmptyLines d := by
      rintro ⟨hc, -⟩
      have : t.shortName = "regular_ll" ∨ t.shortName = "regular_gg" := by
        rcases hc with hc | hc <;> rw [hc] at o3 <;> simp at o3
        · exact .inl o3
        · exact .inr o3
      cases t with
      | template0 g =>
        simp only [Model.Rel.templateLatlons] at hl
        obtain ⟨x, -, hl⟩ := Outcome.bind_eq_ok hl
        cases hl
      | template40 g =>
        simp only [Model.Rel.templateLatlons] at hl
        obtain ⟨x, -, hl⟩ := Outcome.bind_eq_ok hl
        cases hl
      | template20 g => simp [GridTemplate.shortName] at this
      | template30 g => simp [GridTemplate.shortName] at this
    refine ⟨ps, false, pulled_listed ps, by simp [hn], fun _ => he.symm, fun h => absurd h hn⟩
  | latLon it =>
    obtain ⟨hname, hij, hlo, hla⟩ := rel_latlons_regular o t it hl
    have hnum : sectNumber d.payload 13 14 = 0 ∧ t.shortName = "regular_ll" ∨ sectNumber d.payload 13 14 = 40 ∧ t.shortName = "regular_gg" := by
      simp only [List.mem_cons, Prod.mk.injEq, List.not_mem_nil, or_false] at o3
      rcases o3 with o3 | o3 | o3 | o3
      · exact .inl o3
      · rw [o3.2] at hname; simp at hname
      · rw [o3.2] at hname; simp at hname
      · exact .inr o3
    rw [if_pos (by rcases hnum with h | h <;> simp [h.1])] at o2
    have hempty : EmptyLines d ↔ OnlyEmptyLines t.gridShape.1 t.gridShape.2 t.mode := by
      unfold EmptyLines OnlyEmptyLines
      rw [o1, o2, show jConsecutive (sectNumber d.payload 72 72) = flag (sectNumber d.payload 72 72) 3 from rfl]
      rcases hnum with h | h <;> simp [h.1]
    have hs : sectNumber d.payload 7 10 = t.gridShape.1 * t.gridShape.2 := by
      rw [he]
      show Model.Rel.gridSizeHint it.ij = _
      rw [hij, Model.Rel.gridSizeHint_new _ hi32 hj32]
    have o5 : sectNumber d.payload 35 38 = t.gridShape.2 := by rw [o1]
    generalize t.gridShape.1 = ni at *
    generalize t.gridShape.2 = nj at *
    generalize t.mode = mode at *
    obtain ⟨la, lo, ij⟩ := it
    dsimp only at hij hlo hla
    subst hij
    have hpred : ∀ n, 0 < n → n < 2 ^ 32 → Model.Rel.pred32 n + 1 = n := by
      intro n h1 h2
      unfold Model.Rel.pred32
      omega
    by_cases hE : OnlyEmptyLines ni nj mode
    · have hz : sectNumber d.payload 7 10 = 0 := by
        rw [hs]
        unfold OnlyEmptyLines at hE
        split at hE <;> simp [hE.2]
      have fin : ∀ limit, (if jConsecutive mode then la.length = limit ∧ 0 < lo.length else lo.length = limit ∧ 0 < la.length) →
          ∃ ps, PulledPoints (.latLon ⟨la, lo, GridIter.new ni nj mode⟩) ps true ∧ ps.length = limit := by
        intro limit hlim
        obtain ⟨ps, h1, h2⟩ := (release_empty_lines hE la lo limit limit hlim).1 (Nat.le_refl _)
        exact ⟨ps, pulled_panic limit _ _ h1 ((release_empty_lines hE la lo (limit + 1) limit hlim).2 (by omega)), h2⟩
      obtain ⟨ps, h1, h2⟩ := fin (if sectNumber d.payload 13 14 = 40 ∧ nj = 0 then 0 else 2 ^ 32) (by
        have hp0 := Model.Rel.pred32_zero
        unfold OnlyEmptyLines at hE
        rcases hnum with ⟨a1, a2⟩ | ⟨a1, a2⟩
        · rw [a2] at hla
          rw [if_pos rfl] at hla
          rw [if_neg (c := sectNumber d.payload 13 14 = 40 ∧ nj = 0) (by rw [a1]; simp)]
          split at hE
          · rename_i hc
            rw [if_pos hc, hla, hlo, hE.2, hp0]
            exact ⟨by norm_num, by omega⟩
          · rename_i hc
            rw [if_neg hc, hla, hlo, hE.2, hp0]
            exact ⟨by norm_num, by omega⟩
        · rw [a2] at hla
          rw [if_neg (by decide)] at hla
          split at hE
          · rename_i hc
            rw [if_pos hc, if_pos (c := sectNumber d.payload 13 14 = 40 ∧ nj = 0) ⟨a1, hE.2⟩, hla, hlo]
            exact ⟨hE.2, by omega⟩
          · rename_i hc
            rw [if_neg hc, if_neg (c := sectNumber d.payload 13 14 = 40 ∧ nj = 0) (by omega), hla, hlo, hE.2, hp0]
            exact ⟨by norm_num, hE.1⟩)
      refine ⟨ps, true, h1, by simp [hempty, hE], fun hn => absurd (hempty.2 hE) hn, fun _ => ⟨hz, ?_⟩⟩
      rw [h2, o5]
    · have hD : ¬ EmptyLines d := fun h => hE (hempty.1 h)
      suffices ∃ ps, PulledPoints (.latLon ⟨la, lo, GridIter.new ni nj mode⟩) ps false ∧ ps.length = ni * nj by
        obtain ⟨ps, h1, h2⟩ := this
        exact ⟨ps, false, h1, by simp [hD], fun _ => by rw [h2, hs], fun h => absurd h hD⟩
      by_cases hp : 0 < ni ∧ 0 < nj
      · obtain ⟨hi, hj⟩ := hp
        have hlo' : lo.length = ni := by rw [hlo, hpred _ hi hi32]
        have hla' : la.length = nj := by
          rw [hla]
          split
          · exact hpred _ hj hj32
          · rfl
        have hd : lo ≠ [] := by intro h; rw [h] at hlo'; simp at hlo'; omega
        obtain ⟨x, xs, rfl⟩ := List.exists_cons_of_ne_nil hd
        have key := RegularIter.drain_at (perLine_pos mode hi hj) hla' hlo' x (ni * nj) 0 (Nat.zero_add _)
        rw [← GridIter.new_eq] at key
        rcases Model.Rel.regularDrain_fol _ ⟨la, x :: xs, GridIter.new ni nj mode⟩ with h | h
        · rw [h] at key; cases key
        · rw [key] at h
          exact ⟨_, pulled_regular _ _ _ h, by simp⟩
      · have hl0 : lines ni nj mode = 0 := by
          unfold OnlyEmptyLines at hE
          unfold lines
          cases hc : jConsecutive mode <;> rw [hc] at hE <;> simp at hE ⊢ <;> omega
        refine ⟨[], .done (it' := .latLon ⟨la, lo, GridIter.new ni nj mode⟩) (rel_regularNext (x := (none, _)) ?_), ?_⟩
        · unfold Model.Rel.regularNext Model.Rel.gridNext
          rw [if_pos (by rw [GridIter.new_eq]; unfold GridIter.at; dsimp only; rw [hl0]; simp)]
        · have : ni = 0 ∨ nj = 0 := by omega
          rcases this with h | h <;> simp [h]

theorem rel_zipShow_eq (line : (F × F) × F → Str) (vs : List F) (ps : List (F × F)) (b : Bool) (points : GridPoints F)
    (hp : PulledPoints points ps b) :
    Rel.zipShow line vs points = ((ps.zip vs).flatMap line, !(b && decide (ps.length ≤ vs.length))) := by
  induction hp generalizing vs with
  | done h => cases vs <;> (unfold Rel.zipShow; rw [h]; rfl)
  | panic h => cases vs <;> (unfold Rel.zipShow; rw [h]; rfl)
  | @more it it' p ps b h h' ih =>
    cases vs with
    | nil => unfold Rel.zipShow; rw [h]; simp
    | cons v vs =>
      unfold Rel.zipShow
      rw [h]
      dsimp only
      rw [ih vs]
      simp

/-! ## Text output of `decode` -/

/-- All the cases of `decode` with text output, in a release build, on data that open as `g`, with at least one submessage: what is
printed, and how it ends. -/
inductive ReleaseDecodeRun (s : Setting F G) (r : Rdr) (g : Grib2) (index : Str) : Str × Outcome CliError Unit → Prop
  | malformed (h : ¬ ∃ a b n m, index = a ++ '.' :: b ∧ IsDecimal a n ∧ IsDecimal b m) :
      ReleaseDecodeRun s r g index ([], .err .badIndex)
  | tooLarge (a b : Str) (n m : Nat) (h : index = a ++ '.' :: b) (ha : IsDecimal a n) (hb : IsDecimal b m)
      (hl : 2 ^ 64 ≤ n ∨ 2 ^ 64 ≤ m) : ReleaseDecodeRun s r g index ([], .panic)
  | unlisted (a b : Str) (n m : Nat) (h : index = a ++ '.' :: b) (ha : IsDecimal a n) (hb : IsDecimal b m)
      (hn : n < 2 ^ 64) (hm : m < 2 ^ 64) (hx : ∀ x ∈ SubIter.drain (g.len + 1) g.iter, x.1 ≠ (n, m)) :
      ReleaseDecodeRun s r g index ([], .err (.noSuchIndex (n, m)))
  | gridPanics (m : SubMessage) (hm : Chosen g index m)
      (hl : Model.Rel.subLatlons s.grid ⟨payloadAt r.data m.s3.2.offset m.s3.2.size⟩ = .panic) :
      ReleaseDecodeRun s r g index ([], .panic)
  | undecodable (m : SubMessage) (hm : Chosen g index m)
      (hl : Model.Rel.subLatlons s.grid ⟨payloadAt r.data m.s3.2.offset m.s3.2.size⟩ ≠ .panic) (e : GribError)
      (hd : relDecodeSub s.codecs m g.reader = .err e) : ReleaseDecodeRun s r g index ([], .err (.grib e))
  | decodingPanics (m : SubMessage) (hm : Chosen g index m)
      (hl : Model.Rel.subLatlons s.grid ⟨payloadAt r.data m.s3.2.offset m.s3.2.size⟩ ≠ .panic)
      (hd : relDecodeSub s.codecs m g.reader = .panic ∨ relDecodeSub s.codecs m g.reader = .ok .panic) :
      ReleaseDecodeRun s r g index ([], .panic)
  | gridError (m : SubMessage) (hm : Chosen g index m) (e : GribError)
      (hl : Model.Rel.subLatlons s.grid ⟨payloadAt r.data m.s3.2.offset m.s3.2.size⟩ = .err e) (he : e ≠ .notSupported)
      (vs : List F) (hd : relDecodeSub s.codecs m g.reader = .ok (.done vs)) :
      ReleaseDecodeRun s r g index ([], .err (.unexpected e))
  | unsupported (m : SubMessage) (hm : Chosen g index m)
      (hl : Model.Rel.subLatlons s.grid ⟨payloadAt r.data m.s3.2.offset m.s3.2.size⟩ = .err .notSupported) (vs : List F)
      (hd : relDecodeSub s.codecs m g.reader = .ok (.done vs)) :
      ReleaseDecodeRun s r g index
        (decodeOutput s.fix6 s.showF (vs.map fun v => ((s.codecs.ops.nan, s.codecs.ops.nan), v)), .ok ())
  | rows (m : SubMessage) (hm : Chosen g index m) (pts : GridPoints F)
      (hl : Model.Rel.subLatlons s.grid ⟨payloadAt r.data m.s3.2.offset m.s3.2.size⟩ = .ok pts) (ps : List (F × F)) (b : Bool)
      (hp : PulledPoints pts ps b) (vs : List F) (hd : relDecodeSub s.codecs m g.reader = .ok (.done vs)) :
      ReleaseDecodeRun s r g index (decodeOutput s.fix6 s.showF (ps.zip vs),
        if b = true ∧ ps.length ≤ vs.length then .panic else .ok ())

theorem rel_payload_nine {r : Rdr} {g : Grib2} (hl : r.data.length < 2 ^ 63) (hr : Model.Rel.read r = .ok g) {index : Str}
    {m : SubMessage} (hm : Chosen g index m) : 9 ≤ (payloadAt r.data m.s3.2.offset m.s3.2.size).length := by
  obtain ⟨ix, -, hx⟩ := hm.parse
  have hf := (rel_facts hl hr hx).f3
  obtain ⟨h1, h2⟩ := hf
  obtain ⟨w1, w2⟩ := h1.whole (by omega)
  have w3 := w2 (by omega)
  rw [h2] at w3
  have : minPayload 3 = 9 := rfl
  unfold payloadAt
  simp only [List.length_take, List.length_drop]
  omega

theorem rel_openGrib {r : Rdr} {g : Grib2} (_hl : r.data.length < 2 ^ 63) (hr : Model.Rel.read r = .ok g) (hne : g.len ≠ 0) :
    Rel.openGrib r = .ok g := by
  unfold Rel.openGrib; rw [hr]; simp [hne]

theorem rel_prepare_opened (o : GridOps G F) (c : Codecs F) {r : Rdr} {g : Grib2} (hl : r.data.length < 2 ^ 63)
    (hr : Model.Rel.read r = .ok g) (hne : g.len ≠ 0) (index : Str) :
    Rel.decodePrepare o c r index = (do
      let ix ← (parseIndex index).mapErr fun _ => .badIndex
      match findIndex ix (g.len + 1) g.iter with
      | none => .err (.noSuchIndex ix)
      | some (_, m) =>
        let d ← m.gridDef
        let latlons := Model.Rel.subLatlons o d
        Outcome.require (match latlons with | .panic => false | _ => true)
        let dec ← (Model.Rel.fromSub m g.reader).1.mapErr .grib
        let values ← (Model.Rel.dispatch c dec).mapErr .grib
        .ok (latlons, values)) := by
  unfold Rel.decodePrepare
  rw [rel_openGrib hl hr hne]
  rfl

theorem rel_prepare_chosen (o : GridOps G F) (c : Codecs F) {r : Rdr} {g : Grib2} (hl : r.data.length < 2 ^ 63)
    (hr : Model.Rel.read r = .ok g) (hne : g.len ≠ 0) {index : Str} {m : SubMessage} (hm : Chosen g index m) :
    Rel.decodePrepare o c r index = (match Model.Rel.subLatlons o ⟨payloadAt r.data m.s3.2.offset m.s3.2.size⟩ with
      | .panic => .panic
      | l => do
        let dec ← (Model.Rel.fromSub m g.reader).1.mapErr .grib
        let values ← (Model.Rel.dispatch c dec).mapErr .grib
        .ok (l, values)) := by
  obtain ⟨ix, hix, hx⟩ := hm.parse
  rw [rel_prepare_opened o c hl hr hne, hix]
  simp only [Outcome.mapErr, Outcome.bind_ok]
  rw [(rel_selects hl hr ix m).2 hx]
  dsimp only
  rw [(facts_reads (rel_facts hl hr hx)).2.2.2.2.1, Outcome.bind_ok]
  cases Model.Rel.subLatlons o ⟨payloadAt r.data m.s3.2.offset m.s3.2.size⟩ <;> rfl

/-- The iterator of the values of a submessage in a release build. -/
def releaseValuesOf (c : Codecs F) (m : SubMessage) (r : Rdr) : Outcome GribError (BitmapIter F) := do
  let d ← (Model.Rel.fromSub m r).1
  Model.Rel.dispatch c d

theorem releaseValuesOf_offset {c : Codecs F} {m : SubMessage} {r : Rdr} {it : BitmapIter F} (h : releaseValuesOf c m r = .ok it) :
    it.offset = 0 := by
  unfold releaseValuesOf at h
  obtain ⟨dec, -, hv⟩ := Outcome.bind_eq_ok h
  unfold Model.Rel.dispatch at hv
  obtain ⟨items, -, hv⟩ := Outcome.bind_eq_ok hv
  unfold BitmapIter.new at hv
  split at hv
  · cases hv
  · cases hv; rfl

theorem relDecodeSub_eq (c : Codecs F) (m : SubMessage) (r : Rdr) :
    relDecodeSub c m r = (match releaseValuesOf c m r with
      | .ok it => .ok (it.toList c.ops)
      | .err e => .err e
      | .panic => .panic) := by
  unfold relDecodeSub releaseValuesOf relDecodeAll
  cases (Model.Rel.fromSub m r).1 with
  | err e => rfl
  | panic => rfl
  | ok d =>
    simp only [Outcome.bind_ok]
    cases Model.Rel.dispatch c d <;> rfl

theorem relDecodeSub_done (c : Codecs F) (m : SubMessage) (r : Rdr) (d : Drained F) (h : relDecodeSub c m r = .ok d) :
    d = .panic ∨ ∃ vs, d = .done vs := by
  rw [relDecodeSub_eq] at h
  cases hv : releaseValuesOf c m r with
  | err e => rw [hv] at h; cases h
  | panic => rw [hv] at h; cases h
  | ok it =>
    rw [hv] at h
    obtain ⟨vs, b, -, e⟩ := C91_pulled c.ops it (releaseValuesOf_offset hv)
    have h := Outcome.ok.inj h
    rw [e] at h
    cases b
    · exact .inr ⟨vs, h.symm⟩
    · exact .inl h.symm

theorem rel_prepare_values (o : GridOps G F) (c : Codecs F) {r : Rdr} {g : Grib2} (hlen : r.data.length < 2 ^ 63)
    (hr : Model.Rel.read r = .ok g) (hne : g.len ≠ 0) {index : Str} {m : SubMessage} (hm : Chosen g index m)
    (l : Outcome GribError (GridPoints F)) (hl : Model.Rel.subLatlons o ⟨payloadAt r.data m.s3.2.offset m.s3.2.size⟩ = l)
    (hlp : l ≠ .panic) : Rel.decodePrepare o c r index = (match releaseValuesOf c m g.reader with
      | .ok it => .ok (l, it)
      | .err e => .err (.grib e)
      | .panic => .panic) := by
  rw [rel_prepare_chosen o c hlen hr hne hm, hl]
  clear hl
  unfold releaseValuesOf
  cases l with
  | panic => exact absurd rfl hlp
  | ok pts =>
    dsimp only
    cases (Model.Rel.fromSub m g.reader).1 with
    | err e => rfl
    | panic => rfl
    | ok dec =>
      simp only [Outcome.mapErr, Outcome.bind_ok]
      cases Model.Rel.dispatch c dec <;> rfl
  | err e =>
    dsimp only
    cases (Model.Rel.fromSub m g.reader).1 with
    | err e => rfl
    | panic => rfl
    | ok dec =>
      simp only [Outcome.mapErr, Outcome.bind_ok]
      cases Model.Rel.dispatch c dec <;> rfl

theorem rel_shown_chosen (s : Setting F G) {r : Rdr} {g : Grib2} (hlen : r.data.length < 2 ^ 63) (hr : Model.Rel.read r = .ok g)
    (hne : g.len ≠ 0) {index : Str} {m : SubMessage} (hm : Chosen g index m) (l : Outcome GribError (GridPoints F))
    (hl : Model.Rel.subLatlons s.grid ⟨payloadAt r.data m.s3.2.offset m.s3.2.size⟩ = l) (hlp : l ≠ .panic) :
    Rel.decodeShown s r index = (match relDecodeSub s.codecs m g.reader with
      | .err e => ([], .err (.grib e))
      | .ok (.done vs) =>
        (match textPoints s.codecs.ops vs.length l with
        | .err e => ([], .err e)
        | .panic => ([], .panic)
        | .ok points =>
          let p := Rel.zipShow (rowLine s.fix6 s.showF) vs points
          (decodeHeader ++ ['\n'] ++ p.1, if p.2 then .ok () else .panic))
      | _ => ([], .panic)) := by
  unfold Rel.decodeShown
  rw [rel_prepare_values s.grid s.codecs hlen hr hne hm l hl hlp, relDecodeSub_eq]
  cases releaseValuesOf s.codecs m g.reader with
  | err e => rfl
  | panic => rfl
  | ok it =>
    dsimp only
    cases it.toList s.codecs.ops <;> rfl

theorem ReleaseDecodeRun.eq {s : Setting F G} {r : Rdr} {g : Grib2} (hlen : r.data.length < 2 ^ 63) (hr : Model.Rel.read r = .ok g)
    (hne : g.len ≠ 0) {index : Str} {x : Str × Outcome CliError Unit} (h : ReleaseDecodeRun s r g index x) :
    Rel.decodeShown s r index = x := by
  cases h with
  | malformed h =>
    unfold Rel.decodeShown
    rw [rel_prepare_opened _ _ hlen hr hne, (C46_rejects index).2 h]
    rfl
  | tooLarge a b n m h ha hb hl =>
    unfold Rel.decodeShown
    rw [rel_prepare_opened _ _ hlen hr hne, h, C46_overflow_fails a b n m ha hb hl]
    rfl
  | unlisted a b n m h ha hb hn hm hx =>
    unfold Rel.decodeShown
    rw [rel_prepare_opened _ _ hlen hr hne, h, (C46_accepts _ n m).2 ⟨a, b, rfl, ha, hb, hn, hm⟩]
    simp only [Outcome.mapErr, Outcome.bind_ok]
    rw [(find_absent _).2 hx]
  | gridPanics m hm hl =>
    unfold Rel.decodeShown
    rw [rel_prepare_chosen _ _ hlen hr hne hm, hl]
  | undecodable m hm hl e hd =>
    rw [rel_shown_chosen s hlen hr hne hm _ rfl hl, hd]
  | decodingPanics m hm hl hd =>
    rw [rel_shown_chosen s hlen hr hne hm _ rfl hl]
    rcases hd with hd | hd <;> rw [hd]
  | gridError m hm e hl he vs hd =>
    rw [rel_shown_chosen s hlen hr hne hm _ hl (by simp), hd]
    cases e <;> first | rfl | exact absurd rfl he
  | unsupported m hm hl vs hd =>
    rw [rel_shown_chosen s hlen hr hne hm _ hl (by simp), hd]
    dsimp only [textPoints]
    rw [rel_zipShow_eq _ vs _ _ _ (pulled_listed _), zip_replicate]
    rfl
  | rows m hm pts hl ps b hp vs hd =>
    rw [rel_shown_chosen s hlen hr hne hm _ hl (by simp), hd]
    dsimp only [textPoints]
    rw [rel_zipShow_eq _ vs _ _ _ hp]
    refine Prod.ext rfl ?_
    dsimp only
    by_cases hc : ps.length ≤ vs.length <;> cases b <;> simp [hc]

theorem ReleaseDecodeRun.total (s : Setting F G) {r : Rdr} {g : Grib2} (hlen : r.data.length < 2 ^ 63) (hr : Model.Rel.read r = .ok g) (index : Str) :
    ∃ x, ReleaseDecodeRun s r g index x := by
  by_cases h : ∃ a b n m, index = a ++ '.' :: b ∧ IsDecimal a n ∧ IsDecimal b m
  swap
  · exact ⟨_, .malformed h⟩
  obtain ⟨a, b, n, k, h, ha, hb⟩ := h
  by_cases hn : n < 2 ^ 64
  swap
  · exact ⟨_, .tooLarge a b n k h ha hb (by omega)⟩
  by_cases hk : k < 2 ^ 64
  swap
  · exact ⟨_, .tooLarge a b n k h ha hb (by omega)⟩
  by_cases hx : ∀ x ∈ SubIter.drain (g.len + 1) g.iter, x.1 ≠ (n, k)
  · exact ⟨_, .unlisted a b n k h ha hb hn hk hx⟩
  obtain ⟨x, hx, he⟩ : ∃ x ∈ SubIter.drain (g.len + 1) g.iter, x.1 = (n, k) := by
    apply Classical.byContradiction
    intro hc
    exact hx fun x hx he => hc ⟨x, hx, he⟩
  obtain ⟨ix, m⟩ := x
  cases he
  have hm : Chosen g index m := ⟨a, b, n, k, h, ha, hb, hn, hk, hx⟩
  by_cases hlp : Model.Rel.subLatlons s.grid ⟨payloadAt r.data m.s3.2.offset m.s3.2.size⟩ = .panic
  · exact ⟨_, .gridPanics m hm hlp⟩
  cases hd : relDecodeSub s.codecs m g.reader with
  | err e => exact ⟨_, .undecodable m hm hlp e hd⟩
  | panic => exact ⟨_, .decodingPanics m hm hlp (.inl hd)⟩
  | ok d =>
    rcases relDecodeSub_done _ _ _ _ hd with rfl | ⟨vs, rfl⟩
    · exact ⟨_, .decodingPanics m hm hlp (.inr hd)⟩
    cases hl : Model.Rel.subLatlons s.grid ⟨payloadAt r.data m.s3.2.offset m.s3.2.size⟩ with
    | panic => exact absurd hl hlp
    | err e =>
      by_cases he : e = .notSupported
      · subst he; exact ⟨_, .unsupported m hm hl vs hd⟩
      · exact ⟨_, .gridError m hm e hl he vs hd⟩
    | ok pts =>
      obtain ⟨ps, b, hp, -⟩ := C97_points s.grid _ (rel_payload_nine hlen hr hm) pts hl
      exact ⟨_, .rows m hm pts hl ps b hp vs hd⟩

/-- C97. What `decode` prints in a release build on data that it opens, and how it ends, in every case. -/
theorem C97_decode (s : Setting F G) (r : Rdr) (hlen : r.data.length < 2 ^ 63) (g : Grib2) (hr : Model.Rel.read r = .ok g)
    (hne : g.len ≠ 0) (index : Str) (x : Str × Outcome CliError Unit) :
    Rel.runCommand s (.decode index) r = x ↔ ReleaseDecodeRun s r g index x := by
  refine ⟨?_, fun h => h.eq hlen hr hne⟩
  rintro rfl
  obtain ⟨x, hx⟩ := ReleaseDecodeRun.total s hlen hr index
  rw [show Rel.runCommand s (.decode index) r = x from hx.eq hlen hr hne]
  exact hx

/-! ## Binary output of `decode` -/

/-- All the cases of `decode` with binary output, in a release build, on data that open as `g`, with at least one submessage: how it
ends, and what is in the file if it was created. -/
inductive ReleaseExportRun (s : Setting F G) (big : Bool) (r : Rdr) (g : Grib2) (index : Str) :
    Outcome CliError Unit × Option (List UInt8) → Prop
  | malformed (h : ¬ ∃ a b n m, index = a ++ '.' :: b ∧ IsDecimal a n ∧ IsDecimal b m) :
      ReleaseExportRun s big r g index (.err .badIndex, none)
  | tooLarge (a b : Str) (n m : Nat) (h : index = a ++ '.' :: b) (ha : IsDecimal a n) (hb : IsDecimal b m)
      (hl : 2 ^ 64 ≤ n ∨ 2 ^ 64 ≤ m) : ReleaseExportRun s big r g index (.panic, none)
  | unlisted (a b : Str) (n m : Nat) (h : index = a ++ '.' :: b) (ha : IsDecimal a n) (hb : IsDecimal b m)
      (hn : n < 2 ^ 64) (hm : m < 2 ^ 64) (hx : ∀ x ∈ SubIter.drain (g.len + 1) g.iter, x.1 ≠ (n, m)) :
      ReleaseExportRun s big r g index (.err (.noSuchIndex (n, m)), none)
  | gridPanics (m : SubMessage) (hm : Chosen g index m)
      (hl : Model.Rel.subLatlons s.grid ⟨payloadAt r.data m.s3.2.offset m.s3.2.size⟩ = .panic) :
      ReleaseExportRun s big r g index (.panic, none)
  | undecodable (m : SubMessage) (hm : Chosen g index m)
      (hl : Model.Rel.subLatlons s.grid ⟨payloadAt r.data m.s3.2.offset m.s3.2.size⟩ ≠ .panic) (e : GribError)
      (hd : releaseValuesOf s.codecs m g.reader = .err e) : ReleaseExportRun s big r g index (.err (.grib e), none)
  | decodingPanics (m : SubMessage) (hm : Chosen g index m)
      (hl : Model.Rel.subLatlons s.grid ⟨payloadAt r.data m.s3.2.offset m.s3.2.size⟩ ≠ .panic)
      (hd : releaseValuesOf s.codecs m g.reader = .panic) : ReleaseExportRun s big r g index (.panic, none)
  | written (m : SubMessage) (hm : Chosen g index m)
      (hl : Model.Rel.subLatlons s.grid ⟨payloadAt r.data m.s3.2.offset m.s3.2.size⟩ ≠ .panic) (values : BitmapIter F)
      (hd : releaseValuesOf s.codecs m g.reader = .ok values) (vs : List F) (b : Bool) (hv : Pulled s.codecs.ops values vs b)
      (content : List UInt8) (hw : writeOutput s.sched (vs.map (valueOctets s.bits big)) = (.ok (), content)) :
      ReleaseExportRun s big r g index (if b then .panic else .ok (), some content)
  | writeFails (m : SubMessage) (hm : Chosen g index m)
      (hl : Model.Rel.subLatlons s.grid ⟨payloadAt r.data m.s3.2.offset m.s3.2.size⟩ ≠ .panic) (values : BitmapIter F)
      (hd : releaseValuesOf s.codecs m g.reader = .ok values) (vs : List F) (b : Bool) (hv : Pulled s.codecs.ops values vs b)
      (content : List UInt8) (hw : writeOutput s.sched (vs.map (valueOctets s.bits big)) = (.err (), content)) :
      ReleaseExportRun s big r g index (.err .write, some content)

theorem ReleaseExportRun.eq {s : Setting F G} {big : Bool} {r : Rdr} {g : Grib2} (hlen : r.data.length < 2 ^ 63)
    (hr : Model.Rel.read r = .ok g) (hne : g.len ≠ 0) {index : Str} {x : Outcome CliError Unit × Option (List UInt8)}
    (h : ReleaseExportRun s big r g index x) : Rel.decodeBinary s.grid s.codecs s.bits big s.sched r index = x := by
  cases h with
  | malformed h =>
    unfold Rel.decodeBinary
    rw [rel_prepare_opened _ _ hlen hr hne, (C46_rejects index).2 h]
    rfl
  | tooLarge a b n m h ha hb hl =>
    unfold Rel.decodeBinary
    rw [rel_prepare_opened _ _ hlen hr hne, h, C46_overflow_fails a b n m ha hb hl]
    rfl
  | unlisted a b n m h ha hb hn hm hx =>
    unfold Rel.decodeBinary
    rw [rel_prepare_opened _ _ hlen hr hne, h, (C46_accepts _ n m).2 ⟨a, b, rfl, ha, hb, hn, hm⟩]
    simp only [Outcome.mapErr, Outcome.bind_ok]
    rw [(find_absent _).2 hx]
  | gridPanics m hm hl =>
    unfold Rel.decodeBinary
    rw [rel_prepare_chosen _ _ hlen hr hne hm, hl]
  | undecodable m hm hl e hd =>
    unfold Rel.decodeBinary
    rw [rel_prepare_values _ _ hlen hr hne hm _ rfl hl, hd]
  | decodingPanics m hm hl hd =>
    unfold Rel.decodeBinary
    rw [rel_prepare_values _ _ hlen hr hne hm _ rfl hl, hd]
  | written m hm hl values hd vs b hv content hw =>
    unfold Rel.decodeBinary
    rw [rel_prepare_values _ _ hlen hr hne hm _ rfl hl, hd]
    dsimp only
    have hle := hv.length_le (by rw [releaseValuesOf_offset hd]; omega)
    rw [pulledValues_eq hv _ (by omega)]
    dsimp only
    rw [show (vs.map fun v => if big = true then toBeBytes (s.bits v) else toLeBytes (s.bits v)) =
      vs.map (valueOctets s.bits big) from rfl, hw]
  | writeFails m hm hl values hd vs b hv content hw =>
    unfold Rel.decodeBinary
    rw [rel_prepare_values _ _ hlen hr hne hm _ rfl hl, hd]
    dsimp only
    have hle := hv.length_le (by rw [releaseValuesOf_offset hd]; omega)
    rw [pulledValues_eq hv _ (by omega)]
    dsimp only
    rw [show (vs.map fun v => if big = true then toBeBytes (s.bits v) else toLeBytes (s.bits v)) =
      vs.map (valueOctets s.bits big) from rfl, hw]

theorem ReleaseExportRun.total (s : Setting F G) (big : Bool) {r : Rdr} {g : Grib2} (index : Str) :
    ∃ x, ReleaseExportRun s big r g index x := by
  by_cases h : ∃ a b n m, index = a ++ '.' :: b ∧ IsDecimal a n ∧ IsDecimal b m
  swap
  · exact ⟨_, .malformed h⟩
  obtain ⟨a, b, n, k, h, ha, hb⟩ := h
  by_cases hn : n < 2 ^ 64
  swap
  · exact ⟨_, .tooLarge a b n k h ha hb (by omega)⟩
  by_cases hk : k < 2 ^ 64
  swap
  · exact ⟨_, .tooLarge a b n k h ha hb (by omega)⟩
  by_cases hx : ∀ x ∈ SubIter.drain (g.len + 1) g.iter, x.1 ≠ (n, k)
  · exact ⟨_, .unlisted a b n k h ha hb hn hk hx⟩
  obtain ⟨x, hx, he⟩ : ∃ x ∈ SubIter.drain (g.len + 1) g.iter, x.1 = (n, k) := by
    apply Classical.byContradiction
    intro hc
    exact hx fun x hx he => hc ⟨x, hx, he⟩
  obtain ⟨ix, m⟩ := x
  cases he
  have hm : Chosen g index m := ⟨a, b, n, k, h, ha, hb, hn, hk, hx⟩
  by_cases hl : Model.Rel.subLatlons s.grid ⟨payloadAt r.data m.s3.2.offset m.s3.2.size⟩ = .panic
  · exact ⟨_, .gridPanics m hm hl⟩
  cases hd : releaseValuesOf s.codecs m g.reader with
  | err e => exact ⟨_, .undecodable m hm hl e hd⟩
  | panic => exact ⟨_, .decodingPanics m hm hl hd⟩
  | ok values =>
    obtain ⟨vs, b, hv, -⟩ := C91_pulled s.codecs.ops values (releaseValuesOf_offset hd)
    obtain ⟨bl, last, e1, e2, e3⟩ := blocks_exist (vs.map (valueOctets s.bits big)).length
    have hw := C73_export s.sched _ (valueOctets_length s.bits big vs) bl last e1 e2 e3
    cases ho : (exportOctets bl last s.sched).1 with
    | true => rw [ho] at hw; exact ⟨_, .written m hm hl values hd vs b hv _ hw⟩
    | false => rw [ho] at hw; exact ⟨_, .writeFails m hm hl values hd vs b hv _ hw⟩

/-- C97. How `decode` with binary output in a release build ends, and what is in the file if it was created, in every case; nothing is
printed. -/
theorem C97_export (s : Setting F G) (big : Bool) (r : Rdr) (hlen : r.data.length < 2 ^ 63) (g : Grib2) (hr : Model.Rel.read r = .ok g)
    (hne : g.len ≠ 0) (index : Str) (x : Outcome CliError Unit × Option (List UInt8)) :
    (Rel.decodeBinary s.grid s.codecs s.bits big s.sched r index = x ↔ ReleaseExportRun s big r g index x) ∧
      (ReleaseExportRun s big r g index x → Rel.runCommand s (.export big index) r = ([], x.1)) := by
  refine ⟨⟨?_, fun h => h.eq hlen hr hne⟩, fun h => by unfold Rel.runCommand; dsimp only; rw [h.eq hlen hr hne]⟩
  rintro rfl
  obtain ⟨x, hx⟩ := ReleaseExportRun.total s big index
  rw [hx.eq hlen hr hne]
  exact hx

/-! ## `list`, `inspect` and `info` -/

/-- C97. A line of `list` in a release build: it panics exactly if the template of section 4 or of section 3 is cut off; otherwise the
last two numbers are those of section 3 and section 5, the number of missing points taken modulo 2^32. -/
theorem C97_list_row (k : Constants) (ops : FloatOps G) (showF : G → Str) (r : Rdr) (g : Grib2) (hlen : r.data.length < 2 ^ 63)
    (h : Model.Rel.read r = .ok g) (ix : Nat × Nat) (m : SubMessage) (hm : (ix, m) ∈ SubIter.drain (g.len + 1) g.iter) :
    (Rel.listRow k ops showF ix m = .panic ↔ TimeCut r.data m.s4.2 ∨ SurfacesCut r.data m.s4.2 ∨ GridCut r.data m.s3.2) ∧
    ∀ row, Rel.listRow k ops showF ix m = .ok row → row.total = field r.data m.s3.2.offset 7 10 ∧ row.missing < 2 ^ 32 ∧
      (row.missing + field r.data m.s5.2.offset 6 9) % 2 ^ 32 = field r.data m.s3.2.offset 7 10 := by
  have hf := rel_facts hlen h hm
  obtain ⟨v1, v2, v3, v4, v5, v6, v7, v8⟩ := facts_reads (ε := Empty) hf
  obtain ⟨-, -, p, hp⟩ := C64_others (ε := Empty) _ _ _ (sect4 (r := r) hf)
  have ht := C64_time (ε := Empty) _ _ _ (sect4 (r := r) hf)
  have hs := C64_surfaces (ε := Empty) _ _ _ (sect4 (r := r) hf)
  have hg := C64_grid_type _ _ hf.f3.1 hf.f3.2
  constructor
  · rw [← ht, ← hs, ← hg]
    unfold Rel.listRow
    simp only [v1, v2, v3, v4, v5, v6, v7, v8, hp, Outcome.bind_ok]
    cases ((prodOf r.data m).forecastTime : Outcome Empty _) with
    | err e => exact e.elim
    | panic => simp
    | ok t =>
      cases ((prodOf r.data m).fixedSurfaces : Outcome Empty _) with
      | err e => exact e.elim
      | panic => simp
      | ok s =>
        cases gridType ⟨payloadAt r.data m.s3.2.offset m.s3.2.size⟩ with
        | err e => exact e.elim
        | panic => simp
        | ok t => simp
  · intro row hr
    unfold Rel.listRow at hr
    simp only [v1, v2, v3, v4, v5, v6, v7, v8, Outcome.bind_ok] at hr
    obtain ⟨p, hp, hr⟩ := Outcome.bind_eq_ok hr
    obtain ⟨t, ht, hr⟩ := Outcome.bind_eq_ok hr
    obtain ⟨s, hs, hr⟩ := Outcome.bind_eq_ok hr
    obtain ⟨gt, hgt, hr⟩ := Outcome.bind_eq_ok hr
    cases hr
    refine ⟨rfl, ?_, ?_⟩
    · exact Nat.mod_lt _ (by decide)
    · have h5 : field r.data m.s5.2.offset 6 9 < 2 ^ 32 := number_lt _ _ 4
      have h3 : field r.data m.s3.2.offset 7 10 < 2 ^ 32 := number_lt _ _ 4
      dsimp only [Model.Rel.sub32]
      omega

/-- What makes a line of `list` panic in a release build. -/
def ReleaseRowPanics (data : List UInt8) (m : SubMessage) : Prop :=
  TimeCut data m.s4.2 ∨ SurfacesCut data m.s4.2 ∨ GridCut data m.s3.2

/-- C97. `list` on data that open prints the header and the lines of the submessages up to the first for which a line panics; it
ends with success exactly if there is none.  The same for `list --dump`, without a header, with the descriptions. -/
theorem C97_list (s : Setting F G) (r : Rdr) (hlen : r.data.length < 2 ^ 63) (g : Grib2) (hr : Model.Rel.read r = .ok g) (hne : g.len ≠ 0) :
    (∃ (row : Listed → ListRow) (out : Str × Outcome CliError Unit),
      (∀ x ∈ SubIter.drain (g.len + 1) g.iter, ¬ ReleaseRowPanics r.data x.2 →
        Rel.listRow s.tables s.wide s.showG x.1 x.2 = .ok (row x)) ∧
      PrintsWhile (SubIter.drain (g.len + 1) g.iter) (fun x => ¬ ReleaseRowPanics r.data x.2) (fun x => (row x).line ++ ['\n']) out ∧
      Rel.runCommand s (.list false) r = (listHeader ++ ['\n'] ++ out.1, out.2)) ∧
    (∃ (text : Listed → Str),
      (∀ x ∈ SubIter.drain (g.len + 1) g.iter, ¬ TimeCut r.data x.2.s4.2 → ¬ SurfacesCut r.data x.2.s4.2 →
        (x.2.describe s.tables : Outcome Empty Str) = .ok (text x)) ∧
      PrintsWhile (SubIter.drain (g.len + 1) g.iter) (fun x => ¬ TimeCut r.data x.2.s4.2 ∧ ¬ SurfacesCut r.data x.2.s4.2)
        (fun x => showIndex x.1 ++ ['\n'] ++ text x ++ ['\n']) (Rel.runCommand s (.list true) r)) := by
  constructor
  · have key : ∀ x ∈ SubIter.drain (g.len + 1) g.iter,
        (¬ ReleaseRowPanics r.data x.2 → ∃ row, Rel.listRow s.tables s.wide s.showG x.1 x.2 = .ok row) ∧
        (¬ ¬ ReleaseRowPanics r.data x.2 → Rel.listRow s.tables s.wide s.showG x.1 x.2 = .panic) := by
      intro x hx
      have := (C97_list_row s.tables s.wide s.showG r g hlen hr x.1 x.2 hx).1
      constructor
      · intro hp
        cases hrow : Rel.listRow s.tables s.wide s.showG x.1 x.2 with
        | err e => exact e.elim
        | panic => exact absurd (this.1 hrow) hp
        | ok row => exact ⟨row, rfl⟩
      · intro hp
        exact this.2 (Classical.not_not.1 hp)
    refine ⟨fun x => (Rel.listRow s.tables s.wide s.showG x.1 x.2).ok?.getD ⟨[], [], [], [], [], [], 0, 0, []⟩, _, ?_,
      prints_while (fun x => do
        let row ← Rel.listRow s.tables s.wide s.showG x.1 x.2
        .ok (row.line ++ ['\n'])) (SubIter.drain (g.len + 1) g.iter) _ _ ?_ ?_, ?_⟩
    · intro x hx hp
      obtain ⟨row, e⟩ := (key x hx).1 hp
      simp only [e]; rfl
    · intro x hx hp
      obtain ⟨row, e⟩ := (key x hx).1 hp
      simp only [e]
      rfl
    · intro x hx hp
      rw [(key x hx).2 hp]; rfl
    · unfold Rel.runCommand
      dsimp only
      rw [rel_openGrib hlen hr hne]
      rfl
  · have e : Rel.runCommand s (.list true) r = ((Rel.listText true s.tables s.wide s.showG g).1,
        if (Rel.listText true s.tables s.wide s.showG g).2 then .ok () else .panic) := by
      unfold Rel.runCommand
      dsimp only
      rw [rel_openGrib hlen hr hne]
    rw [e]
    have key : ∀ x ∈ SubIter.drain (g.len + 1) g.iter, (x.2.describe s.tables : Outcome Empty Str) = .panic ↔
        TimeCut r.data x.2.s4.2 ∨ SurfacesCut r.data x.2.s4.2 := fun x hx => by
      have hf := rel_facts (ix := x.1) (m := x.2) hlen hr hx
      rw [facts_describe s.tables hf, C64_time _ _ _ (sect4 (r := r) hf), C64_surfaces _ _ _ (sect4 (r := r) hf)]
    have ok : ∀ x ∈ SubIter.drain (g.len + 1) g.iter, ¬ TimeCut r.data x.2.s4.2 → ¬ SurfacesCut r.data x.2.s4.2 →
        (x.2.describe s.tables : Outcome Empty Str) = .ok ((x.2.describe s.tables : Outcome Empty Str).ok?.getD []) := by
      intro x hx h1 h2
      cases hd : (x.2.describe s.tables : Outcome Empty Str) with
      | err e => exact e.elim
      | panic => rcases (key x hx).1 hd with h | h <;> contradiction
      | ok t => rfl
    refine ⟨fun x => (x.2.describe s.tables : Outcome Empty Str).ok?.getD [], ok, ?_⟩
    unfold Rel.listText
    dsimp only
    apply prints_while
    · rintro x hx ⟨h1, h2⟩
      rw [ok x hx h1 h2]; rfl
    · intro x hx hp
      rw [(key x hx).2 (by
        apply Classical.byContradiction
        intro hc
        exact hp ⟨fun h => hc (.inl h), fun h => hc (.inr h)⟩)]
      rfl

/-- C97. Where opening does not panic in a debug build, `list --dump` prints the same in both builds. -/
theorem C97_dump_same (s : Setting F G) (r : Rdr) (hlen : r.data.length < 2 ^ 63) (g : Grib2) (hr : Model.Rel.read r = .ok g)
    (hne : g.len ≠ 0) (hnp : Grib2.read r ≠ .panic) : Rel.runCommand s (.list true) r = runCommand s (.list true) r := by
  have hopen : openGrib r = .ok g := by unfold openGrib; rw [← C82_same r hlen hnp, hr]; simp [hne]
  have hn : ∃ n, listNumLines true g = .ok n := by
    unfold listNumLines
    rw [show (g.iter.sizeHint : Outcome Empty Nat) = .ok g.len from sizeHint_iter g]
    have hlen0 := hne
    simp only [Outcome.bind_ok, if_true]
    have : decide (1 ≤ (8 + 2) * g.len) = true := by simp; omega
    rw [this]
    exact ⟨_, rfl⟩
  obtain ⟨n, hn⟩ := hn
  unfold Rel.runCommand runCommand
  dsimp only
  rw [rel_openGrib hlen hr hne, hopen]
  dsimp only
  rw [hn, show Rel.listText true s.tables s.wide s.showG g = listText true s.tables s.wide s.showG g by
    unfold Rel.listText listText; simp only [if_true]]
  generalize listText true s.tables s.wide s.showG g = t
  unfold display
  rfl

open Classical in
/-- C97. `list` succeeds exactly if no line panics. -/
theorem C97_list_status (s : Setting F G) (r : Rdr) (hlen : r.data.length < 2 ^ 63) (g : Grib2)
    (hr : Model.Rel.read r = .ok g) (hne : g.len ≠ 0) :
    exitStatus (Rel.runCommand s (.list false) r).2 =
      (if ∃ x ∈ SubIter.drain (g.len + 1) g.iter, ReleaseRowPanics r.data x.2 then 101 else 0) ∧
    exitStatus (Rel.runCommand s (.list true) r).2 =
      (if ∃ x ∈ SubIter.drain (g.len + 1) g.iter, TimeCut r.data x.2.s4.2 ∨ SurfacesCut r.data x.2.s4.2 then 101 else 0) := by
  have key : ∀ (Bad : Listed → Prop) (line : Listed → Str) (out : Str × Outcome CliError Unit),
      PrintsWhile (SubIter.drain (g.len + 1) g.iter) (fun x => ¬ Bad x) line out →
      exitStatus out.2 = if ∃ x ∈ SubIter.drain (g.len + 1) g.iter, Bad x then 101 else 0 := by
    rintro Bad line out ⟨n, hn, -, hf, hb, hr⟩
    rw [hr]
    by_cases hl : n = (SubIter.drain (g.len + 1) g.iter).length
    · rw [if_pos hl, if_neg]; · rfl
      rintro ⟨x, hx, hbad⟩
      rw [hl, List.take_length] at hf
      exact hf x hx hbad
    · rw [if_neg hl, if_pos]; · rfl
      have hlt : n < (SubIter.drain (g.len + 1) g.iter).length := by omega
      exact ⟨_, List.getElem_mem hlt, Classical.not_not.1 (hb _ (List.getElem?_eq_getElem hlt))⟩
  obtain ⟨⟨row, out, -, h1, e⟩, text, -, h2⟩ := C97_list s r hlen g hr hne
  constructor
  · rw [e]
    exact key (fun x => ReleaseRowPanics r.data x.2) _ out h1
  · have := key (fun x => TimeCut r.data x.2.s4.2 ∨ SurfacesCut r.data x.2.s4.2) _ _ (by simpa only [not_or] using h2)
    exact this

/-- C97. On whatever a release build opens, which is a sequence `ms` of well-ordered messages, `info` prints one block for every message,
in order and numbered from 0, with the values of its sections 0 and 1, up to the first whose reference time is not valid; if there is
one, `info` fails, otherwise it succeeds. -/
theorem C97_info (s : Setting F G) (r : Rdr) (hlen : r.data.length < 2 ^ 63) (g : Grib2) (h : Model.Rel.read r = .ok g)
    (hne : g.len ≠ 0) :
    ∃ ms : List (Message SectionInfo), (∀ m ∈ ms, m.Ok) ∧ g.sections = ms.flatMap Message.sections ∧
      Rel.runCommand s .info r =
        ((ms.zipIdx.takeWhile fun p => chronoValid (timeOf r.data p.1.ident)).flatMap fun p =>
            (blockOf s.tables r.data p.2 p.1.indicator p.1.ident).text,
          if ms.all fun m => chronoValid (timeOf r.data m.ident) then .ok () else .err (.grib .invalidValueError)) := by
  obtain ⟨ms, hok, hs, e⟩ := rel_info s.tables chronoValid r hlen g h
  refine ⟨ms, hok, hs, ?_⟩
  unfold Rel.runCommand
  dsimp only
  rw [rel_openGrib hlen h hne]
  dsimp only
  unfold infoText
  rw [e]
  dsimp only
  rw [List.flatMap_map]
  by_cases ha : (ms.all fun m => chronoValid (timeOf r.data m.ident)) = true
  · rw [if_pos ha, if_pos ha]; rfl
  · rw [if_neg ha, if_neg ha]; rfl

/-- C97. On whatever a release build opens, `inspect` succeeds (whatever the order in which the set of templates is iterated), and
prints the parts that were asked for (all three if none was), in the order sections, submessages,
templates: for each section, submessage and template one line; a header line before the submessages; a title before each part
if there are at least two; an empty line between parts. -/
theorem C97_inspect (s : Setting F G) (r : Rdr) (hlen : r.data.length < 2 ^ 63) (g : Grib2) (h : Model.Rel.read r = .ok g)
    (hne : g.len ≠ 0) (hp : ∀ l, (s.perm l).Perm l) (flags : InspectFlags) :
    ∃ ts : List (Nat × Nat), ts.Pairwise LexLt ∧ (∀ c, c ∈ ts ↔ ∃ x ∈ g.sections, TemplateOf r.data x c) ∧
      let a := (inspectSections g).flatMap (· ++ ['\n'])
      let b := inspectHeader ++ ['\n'] ++ (SubIter.drain (g.len + 1) g.iter).flatMap fun x => (rowOf r.data x.1 x.2).line ++ ['\n']
      let c := ts.flatMap fun t => templateLine s.tables t ++ ['\n']
      let ta := "Sections:\n".toList
      let tb := "SubMessages:\n".toList
      let tc := "Templates:\n".toList
      Rel.runCommand s (.inspect flags) r = (match flags.items with
        | ⟨true, false, false⟩ => a
        | ⟨false, true, false⟩ => b
        | ⟨false, false, true⟩ => c
        | ⟨true, true, false⟩ => ta ++ a ++ ['\n'] ++ tb ++ b
        | ⟨true, false, true⟩ => ta ++ a ++ ['\n'] ++ tc ++ c
        | ⟨false, true, true⟩ => tb ++ b ++ ['\n'] ++ tc ++ c
        | ⟨true, true, true⟩ => ta ++ a ++ ['\n'] ++ tb ++ b ++ ['\n'] ++ tc ++ c
        | ⟨false, false, false⟩ => [], .ok ()) := by
  obtain ⟨ts, ht, h1, h2⟩ := rel_templates (ε := Empty) r hlen g h s.perm hp
  refine ⟨ts, h1, h2, ?_⟩
  have hsub : printEach (fun x : (Nat × Nat) × SubMessage => do
      let row ← inspectRow x.1 x.2
      (.ok (row.line ++ ['\n']) : Outcome Empty Str)) (SubIter.drain (g.len + 1) g.iter) =
      ((SubIter.drain (g.len + 1) g.iter).flatMap fun x => (rowOf r.data x.1 x.2).line ++ ['\n'], true) := by
    apply printEach_ok
    intro x hx
    have hf := rel_facts (ix := x.1) (m := x.2) hlen h hx
    unfold inspectRow
    rw [getTmplCode_3 hf.f3.1 hf.f3.2, getTmplCode_4 hf.f4.1 hf.f4.2, getTmplCode_5 hf.f5.1 hf.f5.2]
    simp only [Outcome.bind_ok, rowOf]
    cases x.2.s2 <;> rfl
  suffices hk : ∀ out : Str, inspectText s.tables flags s.perm g = (out, true) → Rel.runCommand s (.inspect flags) r = (out, .ok ()) by
    apply hk
    clear hk
    unfold inspectText
    have hts : (if flags.items.templates then g.listTemplates s.perm else .ok [] : Outcome Empty _) =
        .ok (if flags.items.templates then ts else []) := by
      cases flags.items.templates with
      | true => simpa using ht
      | false => rfl
    dsimp only
    rw [hts]
    dsimp only
    rw [hsub]
    rcases flags.items with ⟨x, y, z⟩
    cases x <;> cases y <;> cases z <;>
      simp [printParts, InspectFlags.count, List.append_assoc]
  intro out ho
  unfold Rel.runCommand
  dsimp only
  rw [rel_openGrib hlen h hne]
  dsimp only
  rw [ho]
  rfl

/-- C97. `info`, for all data that a debug build opens or refuses without a panic, and `inspect`, for those that it opens, print the
same in both builds and end in the same way. -/
theorem C97_info_inspect (s : Setting F G) (r : Rdr) (hlen : r.data.length < 2 ^ 63) (hr : Grib2.read r ≠ .panic) :
    Rel.runCommand s .info r = runCommand s .info r ∧
    (PlainTables s.tables → (∀ l, (s.perm l).Perm l) → ∀ flags,
      Rel.runCommand s (.inspect flags) r = runCommand s (.inspect flags) r) := by
  have ho : Rel.openGrib r = openGrib r := C86_open r hlen (by
    unfold openGrib
    cases h : Grib2.read r with
    | panic => exact absurd h hr
    | err e => simp
    | ok g => dsimp only; split <;> simp)
  constructor
  · unfold Rel.runCommand runCommand
    dsimp only
    rw [ho]
    rfl
  · intro hk hp flags
    unfold Rel.runCommand runCommand
    dsimp only
    rw [ho]
    cases h : Grib2.read r with
    | panic => exact absurd h hr
    | err e => unfold openGrib; rw [h]
    | ok g =>
      unfold openGrib
      rw [h]
      dsimp only
      by_cases h0 : g.len = 0
      · rw [if_pos h0]
      · rw [if_neg h0]
        dsimp only
        obtain ⟨-, n, hn, -⟩ := C74_inspect s.tables hk r g h s.perm hp flags
        rw [hn]
        rfl

/-! ## All commands -/

/-- C97. Data that do not open in a release build, or have no submessage: every command ends in the same way, prints nothing and creates
no file. -/
theorem C97_unopened (s : Setting F G) (cmd : Command) (big : Bool) (index : Str) (r : Rdr) :
    (∀ e, Model.Rel.read r = .err e → Rel.runCommand s cmd r = ([], .err (.open_ e)) ∧
      Rel.decodeBinary s.grid s.codecs s.bits big s.sched r index = (.err (.open_ e), none)) ∧
    (Model.Rel.read r = .panic → Rel.runCommand s cmd r = ([], .panic) ∧
      Rel.decodeBinary s.grid s.codecs s.bits big s.sched r index = (.panic, none)) ∧
    (∀ g, Model.Rel.read r = .ok g → g.len = 0 → Rel.runCommand s cmd r = ([], .err .emptyData) ∧
      Rel.decodeBinary s.grid s.codecs s.bits big s.sched r index = (.err .emptyData, none)) := by
  have key : (∀ e, Rel.openGrib r = .err e → Rel.runCommand s cmd r = ([], .err e) ∧
        Rel.decodeBinary s.grid s.codecs s.bits big s.sched r index = (.err e, none)) ∧
      (Rel.openGrib r = .panic → Rel.runCommand s cmd r = ([], .panic) ∧
        Rel.decodeBinary s.grid s.codecs s.bits big s.sched r index = (.panic, none)) := by
    constructor
    · intro e he
      have hp : ∀ index, Rel.decodePrepare s.grid s.codecs r index = .err e := by
        intro index; unfold Rel.decodePrepare; rw [he]; rfl
      constructor
      · cases cmd with
        | decode index => unfold Rel.runCommand Rel.decodeShown; dsimp only; rw [hp]
        | «export» big index => unfold Rel.runCommand Rel.decodeBinary; dsimp only; rw [hp]
        | info => unfold Rel.runCommand; dsimp only; rw [he]
        | inspect f => unfold Rel.runCommand; dsimp only; rw [he]
        | list d => unfold Rel.runCommand; dsimp only; rw [he]
      · unfold Rel.decodeBinary; rw [hp]
    · intro he
      have hp : ∀ index, Rel.decodePrepare s.grid s.codecs r index = .panic := by
        intro index; unfold Rel.decodePrepare; rw [he]; rfl
      constructor
      · cases cmd with
        | decode index => unfold Rel.runCommand Rel.decodeShown; dsimp only; rw [hp]
        | «export» big index => unfold Rel.runCommand Rel.decodeBinary; dsimp only; rw [hp]
        | info => unfold Rel.runCommand; dsimp only; rw [he]
        | inspect f => unfold Rel.runCommand; dsimp only; rw [he]
        | list d => unfold Rel.runCommand; dsimp only; rw [he]
      · unfold Rel.decodeBinary; rw [hp]
  refine ⟨fun e he => key.1 _ ?_, fun hp => key.2 ?_, fun g hg h0 => key.1 _ ?_⟩
  · unfold Rel.openGrib; rw [he]
  · unfold Rel.openGrib; rw [hp]
  · unfold Rel.openGrib; rw [hg]; dsimp only; rw [if_pos h0]

/-! ## Examples -/

/-- The grid file: four lines in a release build too. -/
example : Rel.runCommand exampleSetting (.decode "0.0".toList) ⟨gridFile, 0, []⟩ =
    (("  Latitude   Longitude     Value\n        45          10       NaN\n        45          11         9\n" ++
      "        44          10       NaN\n        44          11         4\n").toList, .ok ()) := by
  decide +kernel

/-- Its `list` succeeds, although a debug build panics after the header. -/
example : exitStatus (Rel.runCommand exampleSetting (.list false) ⟨gridFile, 0, []⟩).2 = 101 ∧
    exitStatus (Rel.runCommand exampleSetting (.list false) ⟨messagesBytes [([], fiveRaw)], 0, []⟩).2 = 0 ∧
    exitStatus (runCommand exampleSetting (.list false) ⟨messagesBytes [([], fiveRaw)], 0, []⟩).2 = 101 := by
  decide +kernel

/-- Rows without columns: accepted, as a grid without points, of which 2^32 are returned before the panic. -/
example : ∃ d : GridDefinition, ∃ pts, Model.Rel.subLatlons exactOps d = .ok pts ∧ EmptyLines d ∧
    ∃ ps, PulledPoints pts ps true ∧ ps.length = 2 ^ 32 := by
  let d : GridDefinition := ⟨[0, 0, 0, 0, 0, 0, 0, 0, 0] ++ [6, 0, 0, 0, 0, 0, 0, 0, 0, 0, 0, 0, 0, 0, 0, 0] ++
    [0, 0, 0, 0, 0, 0, 0, 3] ++ (sampleGrid.payload.drop 33)⟩
  have ht : GridTemplate.tryFrom d = .ok (.template0 { sampleLatLon with ni := 0 }) := by decide +kernel
  have hE : EmptyLines d := by unfold EmptyLines; decide +kernel
  have h9 : 9 ≤ d.payload.length := by decide +kernel
  have h0 : sectNumber d.payload 7 10 = 0 := by decide +kernel
  have h40 : ¬ (sectNumber d.payload 13 14 = 40 ∧ sectNumber d.payload 35 38 = 0) := by decide +kernel
  obtain ⟨it, hit⟩ := (C84_latlon FloatOps.exact { sampleLatLon with ni := 0 } (by unfold fitsI32; decide) (by unfold fitsI32; decide)).ok_iff.2
    (by unfold agreesJ fitsI32; decide +kernel)
  obtain ⟨-, hij, -, -⟩ := rel_latlons_regular exactOps (.template0 { sampleLatLon with ni := 0 }) it (by
    show Model.Rel.latLonLatlons FloatOps.exact { sampleLatLon with ni := 0 } >>= _ = _
    rw [hit]; rfl)
  have hpts : Model.Rel.subLatlons exactOps d = .ok (.latLon it) := by
    unfold Model.Rel.subLatlons GridDefinition.numPoints
    rw [rdAs_number (by omega), ht]
    simp only [Outcome.bind_ok, Model.Rel.templateLatlons]
    rw [show exactOps.single = FloatOps.exact from rfl, hit]
    simp only [Outcome.bind_ok]
    rw [if_pos]
    show sectNumber d.payload 7 10 = Model.Rel.gridSizeHint it.ij
    rw [hij, Model.Rel.gridSizeHint_new _ (by decide) (by decide), h0]
    rfl
  obtain ⟨ps, b, h1, h2, -, h3⟩ := C97_points exactOps d h9 _ hpts
  rw [h2.2 hE] at h1
  refine ⟨d, _, hpts, hE, ps, h1, ?_⟩
  rw [(h3 hE).2, if_neg h40]

/-- A Gaussian grid without rows whose points are consecutive in the `j` direction: the header is printed, then the program panics. -/
example : Rel.runCommand exampleSetting (.decode "0.0".toList) ⟨messagesBytes [([], rowlessRaw)], 0, []⟩ =
      (decodeHeader ++ ['\n'], .panic) ∧
    Rel.decodeBinary exampleSetting.grid exampleSetting.codecs exampleSetting.bits true []
      ⟨messagesBytes [([], rowlessRaw)], 0, []⟩ "0.0".toList = (.ok (), some []) := by
  decide +kernel

/-- The grid file with a section 7 of stated length 1 in the middle of it: only a release build opens it, with two submessages. -/
def overlapGridFile : List UInt8 :=
  let repr : List UInt8 := [0, 0, 0, 2, 0, 0, 0, 0, 0, 0, 0, 0, 0, 0, 8, 0]
  let sections := sectBytes 1 gridRaw.ident ++ (gridRaw.first.grid.map (sectBytes 3)).getD [] ++
    sectBytes 4 (List.replicate 29 0) ++ sectBytes 5 repr ++ sectBytes 6 [0, 0b01010000] ++
    [0, 0, 0, 1, 7, 4] ++ List.replicate 258 0 ++ sectBytes 5 repr ++ sectBytes 6 [0, 0b01010000] ++ sectBytes 7 [9, 4]
  [0x47, 0x52, 0x49, 0x42, 0, 0, 0, 2, 0, 0, 0, 0, 0, 0, UInt8.ofNat ((sections.length + 20) / 256),
    UInt8.ofNat (sections.length + 20)] ++ sections ++ [0x37, 0x37, 0x37, 0x37]

/-- The hypotheses of `C97_decode`, `C97_export`, `C97_list` on a file that a debug build does not open. -/
example : (∃ g, Model.Rel.read ⟨overlapGridFile, 0, []⟩ = .ok g ∧ g.len = 2) ∧ Grib2.read ⟨overlapGridFile, 0, []⟩ = .panic :=
  ⟨Outcome.exists_of_ok? (f := fun g : Grib2 => g.len) (by decide +kernel), by decide +kernel⟩
example : Rel.runCommand exampleSetting (.decode "0.1".toList) ⟨overlapGridFile, 0, []⟩ =
    (("  Latitude   Longitude     Value\n        45          10       NaN\n        45          11         9\n" ++
      "        44          10       NaN\n        44          11         4\n").toList, .ok ()) := by decide +kernel

example : exitStatus (Rel.runCommand exampleSetting (.list false) ⟨overlapGridFile, 0, []⟩).2 = 0 ∧
    exitStatus (Rel.runCommand exampleSetting (.decode "0.0".toList) ⟨overlapGridFile, 0, []⟩).2 = 101 ∧
    exitStatus (runCommand exampleSetting (.decode "0.1".toList) ⟨overlapGridFile, 0, []⟩).2 = 101 ∧
    exitStatus (Rel.runCommand exampleSetting .info ⟨overlapGridFile, 0, []⟩).2 = 0 ∧
    Rel.runCommand exampleSetting (.inspect ⟨false, true, false⟩) ⟨overlapGridFile, 0, []⟩ =
      (("      id │    S2    S3    S4    S5    S6    S7 │ Tmpl3   Tmpl4   Tmpl5\n" ++
        "     0.0 │     -     2     3     4     5     6 │ 3.0     4.0     5.0    \n" ++
        "     0.1 │     -     2     7     8     9    10 │ 3.0     4.0     5.0    \n").toList, .ok ()) := by
  decide +kernel

end Grib.Cli
