import Verif.Props.Cli
import Verif.Props.EndToEnd
import Verif.Props.LatLon
import Verif.Props.Gaussian

/-! # C53: the rows and files that `decode` produces -/

namespace Grib.Cli

open Grib.Text Grib.Model Grib.Spec Grib.Props

variable {F G : Type}

theorem zipRows_lambert (ps : List (F × F)) (vs : List F) : zipRows vs (.lambert ps) = .ok (ps.zip vs) := by
  induction vs generalizing ps with
  | nil => cases ps <;> rfl
  | cons v vs ih =>
    cases ps with
    | nil => rfl
    | cons p ps => simp only [zipRows, pointsNext, Outcome.bind_ok, ih]; rfl

theorem zipRows_latLon (fuel : Nat) (it : RegularIter F) (ps : List (F × F)) (h : it.drain fuel = .done ps) (vs : List F) :
    zipRows vs (.latLon it) = .ok (ps.zip vs) := by
  induction fuel generalizing it ps vs with
  | zero => cases h
  | succ fuel ih =>
    unfold RegularIter.drain at h
    cases hn : (it.next : Outcome Empty _) with
    | err e => exact e.elim
    | panic => rw [hn] at h; cases h
    | ok x =>
      obtain ⟨p, it'⟩ := x
      rw [hn] at h
      have hp : pointsNext (.latLon it) = .ok (p, .latLon it') := by unfold pointsNext; dsimp only; rw [hn]; rfl
      cases p with
      | none =>
        cases h
        cases vs <;> (unfold zipRows; rw [hp]; rfl)
      | some p =>
        dsimp only at h
        cases hd : it'.drain fuel with
        | panic => rw [hd] at h; cases h
        | more xs => rw [hd] at h; cases h
        | done xs =>
          rw [hd] at h
          cases h
          cases vs with
          | nil => unfold zipRows; rw [hp]; rfl
          | cons v vs =>
            unfold zipRows; rw [hp]
            simp only [Outcome.bind_ok, ih it' xs hd]
            rfl

/-- What the tool reads before producing output: the file opens and is not empty, the index is one of the listed ones,
`m` is its submessage, and its values decode. -/
structure Prepared (o : GridOps G F) (c : Codecs F) (r : Rdr) (index : Str) (latlons : Outcome GribError (GridPoints F))
    (values : BitmapIter F) : Prop where
  ex : ∃ (g : Grib2) (ix : Nat × Nat) (m : SubMessage) (dec : Decoder),
    Grib2.read r = .ok g ∧ parseIndex index = .ok ix ∧ (ix, m) ∈ SubIter.drain (g.len + 1) g.iter ∧
    latlons = subLatlons o ⟨payloadAt r.data m.s3.2.offset m.s3.2.size⟩ ∧ latlons ≠ .panic ∧
    (Decoder.fromSub m g.reader).1 = .ok dec ∧ dec.dispatch c = .ok values

theorem mapErr_ok {ε ε' α : Type} {x : Outcome ε α} {f : ε → ε'} {a : α} (h : x.mapErr f = .ok a) : x = .ok a := by
  cases x <;> simp_all [Outcome.mapErr]

theorem prepare_ok {o : GridOps G F} {c : Codecs F} {r : Rdr} {index : Str} {latlons : Outcome GribError (GridPoints F)}
    {values : BitmapIter F} (h : decodePrepare o c r index = .ok (latlons, values)) :
    Prepared o c r index latlons values := by
  unfold decodePrepare at h
  obtain ⟨g, hg, h⟩ := Outcome.bind_eq_ok h
  obtain ⟨ix, hix, h⟩ := Outcome.bind_eq_ok h
  have hix := mapErr_ok hix
  have hread : Grib2.read r = .ok g := by
    unfold openGrib at hg
    cases hr : Grib2.read r with
    | ok g' => rw [hr] at hg; dsimp only at hg; split at hg <;> cases hg; rfl
    | err e => rw [hr] at hg; cases hg
    | panic => rw [hr] at hg; cases hg
  cases hf : findIndex ix (g.len + 1) g.iter with
  | none => rw [hf] at h; cases h
  | some x =>
    obtain ⟨ix', m⟩ := x
    rw [hf] at h
    have hx : ix' = ix := by
      rw [findIndex_drain] at hf
      have := List.find?_some hf
      simpa using this
    subst hx
    have hm := (C46_selects r g hread ix' m).1 hf
    dsimp only at h
    rw [(C17_accessors r g hread ix' m hm).2.2.1, Outcome.bind_ok] at h
    generalize hl : subLatlons o ⟨payloadAt r.data m.s3.2.offset m.s3.2.size⟩ = l at h
    obtain ⟨u, hreq, h⟩ := Outcome.bind_eq_ok h
    obtain ⟨dec, hdec, h⟩ := Outcome.bind_eq_ok h
    obtain ⟨vals, hvals, h⟩ := Outcome.bind_eq_ok h
    cases h
    refine ⟨g, ix', m, dec, hread, hix, hm, hl.symm, ?_, mapErr_ok hdec, mapErr_ok hvals⟩
    rintro rfl
    cases hreq

/-- The tool goes on exactly when all of that holds. -/
theorem prepare_iff {o : GridOps G F} {c : Codecs F} {r : Rdr} {index : Str} {latlons : Outcome GribError (GridPoints F)}
    {values : BitmapIter F} : decodePrepare o c r index = .ok (latlons, values) ↔ Prepared o c r index latlons values := by
  refine ⟨prepare_ok, ?_⟩
  rintro ⟨g, ix, m, dec, hr, hix, hm, hl, hnp, hd, hv⟩
  have hne : g.len ≠ 0 := by
    intro h0
    have := (C18_loop r g hr).1
    rw [h0] at this
    rw [h0, List.length_eq_zero_iff.1 this] at hm
    cases hm
  unfold decodePrepare openGrib
  rw [hr]
  simp only [hne, if_false, Outcome.bind_ok, hix, Outcome.mapErr]
  rw [(C46_selects r g hr ix m).2 hm]
  dsimp only
  rw [(C17_accessors r g hr ix m hm).2.2.1, Outcome.bind_ok, ← hl]
  rw [hd]
  simp only [Outcome.bind_ok]
  rw [hv]
  clear hl
  cases latlons with
  | panic => exact absurd rfl hnp
  | ok x => rfl
  | err e => rfl

theorem zip_replicate {α : Type} (a : α) (vs : List F) : (List.replicate vs.length a).zip vs = vs.map fun v => (a, v) := by
  induction vs with
  | nil => rfl
  | cons v vs ih => rw [List.length_cons, List.replicate_succ, List.zip_cons_cons, ih, List.map_cons]

/-- C53: the text output of `decode` consists of the decoded values in order, each with the coordinates of the grid point
of the same rank; with "not a number" for both coordinates when the grid is not supported.  Nothing is printed
otherwise. -/
theorem C53_text (o : GridOps G F) (c : Codecs F) (r : Rdr) (index : Str) (rows : List ((F × F) × F))
    (h : decodeText o c r index = .ok rows) :
    ∃ latlons values vs, Prepared o c r index latlons values ∧ values.toList c.ops = .done vs ∧
      ((∃ it, latlons = .ok (.latLon it) ∧ ∀ fuel ps, it.drain fuel = .done ps → rows = ps.zip vs) ∨
       (∃ ps, latlons = .ok (.lambert ps) ∧ rows = ps.zip vs) ∨
       (latlons = .err .notSupported ∧ rows = vs.map fun v => ((c.ops.nan, c.ops.nan), v))) := by
  unfold decodeText at h
  obtain ⟨⟨latlons, values⟩, hp, h⟩ := Outcome.bind_eq_ok h
  dsimp only at h
  cases hv : values.toList c.ops with
  | panic => rw [hv] at h; cases h
  | more xs => rw [hv] at h; cases h
  | done vs =>
    rw [hv] at h
    dsimp only at h
    refine ⟨latlons, values, vs, prepare_ok hp, hv, ?_⟩
    obtain ⟨points, hpts, h⟩ := Outcome.bind_eq_ok h
    obtain ⟨hint, -, h⟩ := Outcome.bind_eq_ok h
    have hz : zipRows vs points = .ok rows := by
      cases hz : zipRows vs points with
      | ok r' => rw [hz] at h; cases h; rfl
      | err e => exact e.elim
      | panic => rw [hz] at h; cases h
    cases latlons with
    | panic => cases hpts
    | ok pts =>
      cases hpts
      cases points with
      | latLon it =>
        refine .inl ⟨it, rfl, ?_⟩
        intro fuel ps hd
        rw [zipRows_latLon fuel it ps hd] at hz
        cases hz; rfl
      | lambert ps =>
        refine .inr (.inl ⟨ps, rfl, ?_⟩)
        rw [zipRows_lambert] at hz
        cases hz; rfl
    | err e =>
      cases e <;> cases hpts
      refine .inr (.inr ⟨rfl, ?_⟩)
      rw [zipRows_lambert] at hz
      cases hz
      exact zip_replicate _ vs

/-- C53: and whenever the file opens, the index is listed and the values decode, the text is produced: every value with its
coordinates if the grid is supported, with "not a number" if it is not, and the error of the grid definition otherwise. -/
theorem C53_text_succeeds (o : GridOps G F) (c : Codecs F) (r : Rdr) (index : Str) (latlons : Outcome GribError (GridPoints F))
    (values : BitmapIter F) (vs : List F) (hp : Prepared o c r index latlons values) (hv : values.toList c.ops = .done vs) :
    (∀ it fuel ps, latlons = .ok (.latLon it) → it.drain fuel = .done ps → decodeText o c r index = .ok (ps.zip vs)) ∧
    (∀ ps, latlons = .ok (.lambert ps) → decodeText o c r index = .ok (ps.zip vs)) ∧
    (latlons = .err .notSupported → decodeText o c r index = .ok (vs.map fun v => ((c.ops.nan, c.ops.nan), v))) ∧
    (∀ e, latlons = .err e → e ≠ .notSupported → decodeText o c r index = .err (.unexpected e)) := by
  have hd := prepare_iff.2 hp
  obtain ⟨g, ix, m, dec, -, -, -, hl, -⟩ := hp
  have e : decodeText o c r index = (do
      let points ← textPoints c.ops vs.length latlons
      let _hint ← points.sizeHint
      match zipRows vs points with
      | .ok rows => .ok rows
      | _ => .panic) := by
    unfold decodeText
    rw [hd, Outcome.bind_ok]
    dsimp only
    rw [hv]
    rfl
  refine ⟨?_, ?_, ?_, ?_⟩
  · rintro it fuel ps rfl hdr
    have hs : ∃ n, (it.ij.sizeHint : Outcome CliError Nat) = .ok n := by
      unfold subLatlons at hl
      obtain ⟨_, -, hl⟩ := Outcome.bind_eq_ok hl.symm
      obtain ⟨_, -, hl⟩ := Outcome.bind_eq_ok hl
      obtain ⟨pts, -, hl⟩ := Outcome.bind_eq_ok hl
      obtain ⟨n, hn, hl⟩ := Outcome.bind_eq_ok hl
      split at hl <;> cases hl
      have hn : (it.ij.sizeHint : Outcome GribError Nat) = .ok n := hn
      unfold GridIter.sizeHint at hn ⊢
      split at hn
      · cases hn
      · split at hn
        · cases hn
        · rename_i h1 h2; rw [if_neg h1, if_neg h2]; exact ⟨_, rfl⟩
    obtain ⟨n, hn⟩ := hs
    rw [e]
    show (do
      let _hint ← it.ij.sizeHint
      match zipRows vs (.latLon it) with
      | .ok rows => (.ok rows : Outcome CliError _)
      | _ => .panic : Outcome CliError _) = _
    rw [hn, Outcome.bind_ok, zipRows_latLon fuel it ps hdr]
  · rintro ps rfl
    rw [e]
    show (match zipRows vs (.lambert ps) with
      | .ok rows => (.ok rows : Outcome CliError _)
      | _ => .panic) = _
    rw [zipRows_lambert]
  · rintro rfl
    rw [e]
    show (match zipRows vs (.lambert (List.replicate vs.length (c.ops.nan, c.ops.nan))) with
      | .ok rows => (.ok rows : Outcome CliError _)
      | _ => .panic) = _
    rw [zipRows_lambert, zip_replicate]
  · rintro err rfl hne
    rw [e]
    cases err <;> first | rfl | exact absurd rfl hne

theorem pulledValues_done (ops : FloatOps F) (fuel : Nat) (it : BitmapIter F) (vs : List F) (h : it.drain ops fuel = .done vs) :
    pulledValues ops fuel it = (vs, false) := by
  induction fuel generalizing it vs with
  | zero => cases h
  | succ fuel ih =>
    unfold BitmapIter.drain at h
    unfold pulledValues
    rcases hn : it.next ops with ⟨p, it'⟩
    rw [hn] at h
    match p with
    | .ok none => cases h; rfl
    | .panic => cases h
    | .ok (some v) =>
      dsimp only at h ⊢
      cases hd : it'.drain ops fuel with
      | panic => rw [hd] at h; cases h
      | more xs => rw [hd] at h; cases h
      | done xs =>
        rw [hd] at h
        cases h
        rw [ih it' xs hd]

/-- C53: the binary output does not depend on whether coordinates are available: an export succeeds with the octets of all
decoded values in order when no write fails. -/
theorem C53_binary (o : GridOps G F) (c : Codecs F) (bits : F → BitVec 32) (big : Bool) (sched : List (Option Nat))
    (hs : Benign sched) (r : Rdr) (index : Str) (latlons : Outcome GribError (GridPoints F)) (values : BitmapIter F)
    (vs : List F) (hp : Prepared o c r index latlons values) (hv : values.toList c.ops = .done vs) :
    decodeBinary o c bits big sched r index =
      (.ok (), some (vs.flatMap fun v => if big then toBeBytes (bits v) else toLeBytes (bits v))) := by
  unfold decodeBinary
  rw [prepare_iff.2 hp]
  dsimp only
  rw [pulledValues_done c.ops _ _ _ hv]
  dsimp only
  rw [C52_complete sched hs, List.flatMap_def]
  rfl

/-- C53: an index that is not listed is an error for both kinds of output, never the data of another submessage. -/
theorem C53_no_such_index (o : GridOps G F) (c : Codecs F) (bits : F → BitVec 32) (big : Bool) (sched : List (Option Nat))
    (r : Rdr) (g : Grib2) (hr : Grib2.read r = .ok g) (hne : g.len ≠ 0) (index : Str) (ix : Nat × Nat) (hix : parseIndex index = .ok ix)
    (hn : ∀ x ∈ SubIter.drain (g.len + 1) g.iter, x.1 ≠ ix) :
    decodeText o c r index = .err (.noSuchIndex ix) ∧ decodeBinary o c bits big sched r index = (.err (.noSuchIndex ix), none) := by
  have : decodePrepare o c r index = .err (.noSuchIndex ix) := by
    unfold decodePrepare openGrib
    rw [hr]
    simp only [hne, if_false, Outcome.bind_ok, hix, Outcome.mapErr]
    rw [(C46_absent r g hr ix).2 hn]
  constructor
  · unfold decodeText; rw [this]; rfl
  · unfold decodeBinary; rw [this]

/-- C53, failure: coordinates that make the library panic stop the binary export too, which does not need them. -/
theorem C53_binary_fails (o : GridOps G F) (c : Codecs F) (bits : F → BitVec 32) (big : Bool) (sched : List (Option Nat))
    (r : Rdr) (g : Grib2) (hr : Grib2.read r = .ok g) (index : Str) (ix : Nat × Nat) (hix : parseIndex index = .ok ix)
    (m : SubMessage) (hm : (ix, m) ∈ SubIter.drain (g.len + 1) g.iter)
    (hp : subLatlons o ⟨payloadAt r.data m.s3.2.offset m.s3.2.size⟩ = .panic) :
    decodeBinary o c bits big sched r index = (.panic, none) := by
  have hne : g.len ≠ 0 := by
    intro h0
    have := (C18_loop r g hr).1
    rw [h0] at this
    rw [h0, List.length_eq_zero_iff.1 this] at hm
    cases hm
  have : decodePrepare o c r index = .panic := by
    unfold decodePrepare openGrib
    rw [hr]
    simp only [hne, if_false, Outcome.bind_ok, hix, Outcome.mapErr]
    rw [(C46_selects r g hr ix m).2 hm]
    dsimp only
    rw [(C17_accessors r g hr ix m hm).2.2.1, Outcome.bind_ok, hp]
    rfl
  unfold decodeBinary; rw [this]

/-! ### A concrete file -/

/-- A message on a 2 by 2 grid (45 to 44 degrees north, 10 to 11 degrees east), values 9, 4 and two missing. -/
def gridRaw : RawMessage :=
  { reserved := (0, 0), discipline := 0, ident := [0, 7, 0, 0, 2, 1, 0, 7, 228, 1, 2, 3, 4, 5, 0, 1],
    first := ⟨none, some ([0, 0, 0, 0, 4, 0, 0, 0, 0] ++ List.replicate 16 0 ++
        [0, 0, 0, 2, 0, 0, 0, 2] ++ List.replicate 8 0 ++ [2, 0xae, 0xa5, 0x40, 0, 0x98, 0x96, 0x80, 0,
          2, 0x9f, 0x63, 0, 0, 0xa7, 0xd8, 0xc0] ++ List.replicate 8 0 ++ [0]), [0, 0, 0, 0],
      [0, 0, 0, 2, 0, 0, 0, 0, 0, 0, 0, 0, 0, 0, 8, 0], [0, 0b01010000], [9, 4]⟩,
    rest := [] }

def gridFile : List UInt8 := messagesBytes [([], gridRaw)]

def exactOps : GridOps (Option Rat) (Option Rat) := ⟨FloatOps.exact, toyGauss, none⟩

/-- The rows of the file: the missing points come first in each row of the grid. -/
example : decodeText exactOps exactCodecs ⟨gridFile, 0, []⟩ "0.0".toList =
    .ok [((some 45, some 10), none), ((some 45, some 11), some 9), ((some 44, some 10), none), ((some 44, some 11), some 4)] := by
  decide +kernel

/-- `C53_binary_fails` happens: `packedFile`'s grid definition is too short for its template. -/
example : decodeBinary exactOps exactCodecs (fun _ => 0#32) true [] ⟨packedFile, 0, []⟩ "1.0".toList = (.panic, none) := by
  decide +kernel

end Grib.Cli
