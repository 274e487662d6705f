import Verif.Lemmas.ReleaseMessages
import Verif.Props.Messages
import Verif.Props.ReleaseProgram

/-! # C98 Error messages of a release build -/

namespace Grib.Msg

open Grib Grib.Model Grib.Text Grib.Codes Grib.Cli Grib.Spec Grib.Props

variable {ε F G α β : Type}

/-- C98. The release build with texts prints and ends as the one without. -/
theorem C98_same (f : Foreign) (s : Setting F G) (cmd : Command) (r : Rdr) :
    (Rel.runCommand f s cmd r).1 = (Cli.Rel.runCommand s cmd r).1 ∧
    (Rel.runCommand f s cmd r).2.2.mapErr Failure.erase = (Cli.Rel.runCommand s cmd r).2 := by
  have shown : ∀ t : Str × Bool, (Rel.runCommand.shown t).1 = t.1 ∧
      (Rel.runCommand.shown t).2.2.mapErr Failure.erase = (if t.2 then .ok () else .panic) := by
    intro t
    unfold Rel.runCommand.shown
    cases t.2 <;> exact ⟨rfl, rfl⟩
  cases cmd with
  | decode index => exact Rel.decodeShown_erase f s r index
  | «export» big index => exact ⟨rfl, Rel.decodeBinary_erase f s big r index⟩
  | info =>
    dsimp only [Rel.runCommand, Cli.Rel.runCommand]
    rcases Rel.opened_erase r with ⟨e, h1, h2⟩ | ⟨h1, h2⟩ | ⟨g, h1, h2⟩
    · rw [h1, h2]; exact ⟨rfl, rfl⟩
    · rw [h1, h2]; exact ⟨rfl, rfl⟩
    · rw [h1, h2]; exact infoLoop_erase _ _
  | inspect flags =>
    dsimp only [Rel.runCommand, Cli.Rel.runCommand]
    rcases Rel.opened_erase r with ⟨e, h1, h2⟩ | ⟨h1, h2⟩ | ⟨g, h1, h2⟩
    · rw [h1, h2]; exact ⟨rfl, rfl⟩
    · rw [h1, h2]; exact ⟨rfl, rfl⟩
    · rw [h1, h2]; exact shown _
  | list dump =>
    dsimp only [Rel.runCommand, Cli.Rel.runCommand]
    rcases Rel.opened_erase r with ⟨e, h1, h2⟩ | ⟨h1, h2⟩ | ⟨g, h1, h2⟩
    · rw [h1, h2]; exact ⟨rfl, rfl⟩
    · rw [h1, h2]; exact ⟨rfl, rfl⟩
    · rw [h1, h2]; exact shown _

/-! ## Where a debug build does not panic -/

/-- C98. If a debug build does not panic, a release build prints the same on both streams and ends with the same error, text and all. -/
theorem C98_debug (f : Foreign) (s : Setting F G) (cmd : Command) (r : Rdr) (hl : r.data.length < 2 ^ 63)
    (h : exitStatus (Cli.runCommand s cmd r).2 ≠ 101) :
    Rel.runCommand f s cmd r = runCommand f s cmd r ∧
      stderr f (Rel.runCommand f s cmd r) = stderr f (runCommand f s cmd r) ∧ stderr f (runCommand f s cmd r) ≠ none := by
  have hne : (runCommand f s cmd r).2.2 ≠ .panic := by
    intro hp
    have := (C96_same f s cmd r).2
    rw [hp] at this
    rw [← this] at h
    exact h rfl
  suffices he : Rel.runCommand f s cmd r = runCommand f s cmd r by
    refine ⟨he, by rw [he], ?_⟩
    unfold stderr
    cases hx : (runCommand f s cmd r).2.2 with
    | ok a => simp
    | err e => simp
    | panic => exact absurd hx hne
  have shown : ∀ (a : Outcome Empty Nat) (t t' : Str × Bool), (t.2 = true → t' = t) →
      (runCommand.shown (Cli.display a t)).2.2 ≠ .panic → Rel.runCommand.shown t' = runCommand.shown (Cli.display a t) := by
    intro a t t' h2 hn
    cases a with
    | err e => exact e.elim
    | panic => exact absurd rfl hn
    | ok n =>
      cases ht : t.2 with
      | true =>
        rw [h2 ht]
        unfold Rel.runCommand.shown runCommand.shown Cli.display
        dsimp only
        rw [ht]; rfl
      | false =>
        refine absurd ?_ hn
        unfold runCommand.shown Cli.display
        dsimp only
        rw [ht]; rfl
  have opened : ∀ k k' : Grib2 → Str × Str × Outcome Failure Unit, (∀ g, (k g).2.2 ≠ .panic → k' g = k g) →
      (match openGrib r with
        | .ok g => k g
        | .err e => ([], [], .err e)
        | .panic => ([], [], .panic)).2.2 ≠ .panic →
      (match Rel.openGrib r with
        | .ok g => k' g
        | .err e => ([], [], .err e)
        | .panic => ([], [], .panic)) = (match openGrib r with
        | .ok g => k g
        | .err e => ([], [], .err e)
        | .panic => ([], [], .panic)) := by
    intro k k' hk
    by_cases hp : openGrib r = .panic
    · rw [hp]; exact fun h => absurd rfl h
    · rw [Rel.openGrib_same r hl hp]
      cases openGrib r with
      | panic => exact fun h => absurd rfl h
      | err e => exact fun _ => rfl
      | ok g => exact hk g
  cases cmd with
  | info => exact opened _ _ (fun g _ => rfl) hne
  | inspect flags => exact opened _ _ (fun g => shown _ _ _ fun _ => rfl) hne
  | list dump => exact opened _ _ (fun g => shown _ _ _ (C86_list dump s.tables s.wide s.showG g).2) hne
  | «export» big index =>
    have hn : (decodeBinary f s big r index).2 ≠ .panic := hne
    show (([] : Str), Rel.decodeBinary f s big r index) = ([], decodeBinary f s big r index)
    congr 1
    unfold decodeBinary at hn ⊢
    unfold Rel.decodeBinary
    rcases Rel.decodePrepare_fol f s.grid s.codecs r hl index with h1 | ⟨w, e, h1, h2⟩ | ⟨w, l, a, b, h1, h2, hb⟩
    · generalize decodePrepare f s.grid s.codecs r index = z at h1 hn
      obtain ⟨w, z⟩ := z
      dsimp only at h1
      subst h1
      exact absurd rfl hn
    · rw [h1, h2]
    · rw [h1] at hn ⊢
      rw [h2]
      dsimp only at hn ⊢
      have e : b.bitmap = a.bitmap := by rw [hb.1]
      rw [e]
      rcases pulledValues_bext s.codecs.ops (8 * a.bitmap.length + 1) hb with ⟨hp, t, ht⟩ | ht
      · rw [hp] at hn ⊢
        rw [← ht, List.map_append]
        unfold writeOutput at hn ⊢
        generalize (List.map _ (pulledValues s.codecs.ops (8 * a.bitmap.length + 1) a).1) = xs at hn ⊢
        generalize List.map _ t = ys
        rcases hw : writeEach xs ⟨[], ⟨[], s.sched⟩⟩ with ⟨o, w'⟩
        rw [hw] at hn
        cases o with
        | ok u => exact absurd rfl hn
        | panic => exact absurd rfl hn
        | err e => rw [writeEach_err xs ys _ w' hw]
      · rw [ht]; rfl
  | decode index =>
    have hn : (decodeShown f s r index).2.2 ≠ .panic := hne
    show Rel.decodeShown f s r index = decodeShown f s r index
    unfold decodeShown at hn ⊢
    unfold Rel.decodeShown
    rcases Rel.decodePrepare_fol f s.grid s.codecs r hl index with h1 | ⟨w, e, h1, h2⟩ | ⟨w, l, a, b, h1, h2, hb⟩
    · generalize decodePrepare f s.grid s.codecs r index = z at h1 hn
      obtain ⟨w, z⟩ := z
      dsimp only at h1
      subst h1
      exact absurd rfl hn
    · rw [h1, h2]
    · rw [h1] at hn ⊢
      rw [h2]
      dsimp only at hn ⊢
      rcases Model.Rel.toList_bext s.codecs.ops hb with ht | ht
      · rw [ht] at hn; exact absurd rfl hn
      · rw [ht]
        cases hv : a.toList s.codecs.ops with
        | more vs => rfl
        | panic => rfl
        | done vs =>
          rw [hv] at hn
          dsimp only at hn ⊢
          cases hp : textPoints s.codecs.ops vs.length l with
          | panic => rfl
          | err e => rfl
          | ok points =>
            rw [hp] at hn
            dsimp only at hn ⊢
            cases hs : (points.sizeHint : Outcome Empty Nat) with
            | panic => rw [hs] at hn; exact absurd rfl hn
            | err e => exact e.elim
            | ok n =>
              rw [hs] at hn
              dsimp only at hn ⊢
              have z2 := (zipShow_fol (rowLine s.fix6 s.showF) vs points).2
              cases hz : (Cli.zipShow (rowLine s.fix6 s.showF) vs points).2 with
              | false => rw [hz] at hn; exact absurd rfl hn
              | true => rw [z2 hz, hz]

/-! ## Why coordinates are refused -/

/-- How a release build decides whether the direction of rows agrees with the latitudes of the first and last points: the wrong way
round if their difference is not a 32-bit number. -/
def RowsAccepted (lat1 lat2 : Int) (mode : Nat) : Prop := RowsAgree lat1 lat2 mode ↔ fitsI32 (lat2 - lat1)

/-- The errors of `latlons` of a release build with their texts, by the octets of section 3. -/
inductive RefusedRelease (f : Foreign) (o : GridOps G F) (sect3 : List UInt8) : Error → Prop
  /-- A template other than 3.0 and 3.40: as in a debug build. -/
  | other {e : Error} (ht : sectNumber sect3 13 14 ≠ 0 ∧ sectNumber sect3 13 14 ≠ 40) (h : Refused f o sect3 e) :
      RefusedRelease f o sect3 e
  /-- A list of numbers of points. -/
  | list (ht : sectNumber sect3 13 14 = 0 ∨ sectNumber sect3 13 14 = 40) (hl : 67 < sect3.length) :
      RefusedRelease f o sect3 (.notSupported
        ("template ".toList ++ showNat (sectNumber sect3 13 14) ++ " with list of number of points".toList))
  /-- The latitudes of the first and last points (octets 47-50 and 56-59) against the scanning mode, octet 72. -/
  | latitudes (ht : sectNumber sect3 13 14 = 0 ∨ sectNumber sect3 13 14 = 40) (hl : sect3.length = 67)
      (ha : ¬ RowsAccepted (sectSigned sect3 47 50) (sectSigned sect3 56 59) (sectNumber sect3 72 72)) :
      RefusedRelease f o sect3 (.invalidValueError
        "Latitudes for first/last grid points are not consistent with scanning mode".toList)
  /-- The scanning mode, octet 72, with one of the last four bits. -/
  | mode (ht : sectNumber sect3 13 14 = 0 ∨ sectNumber sect3 13 14 = 40) (hl : sect3.length = 67)
      (ha : RowsAccepted (sectSigned sect3 47 50) (sectSigned sect3 56 59) (sectNumber sect3 72 72))
      (hm : sectNumber sect3 72 72 % 16 ≠ 0) :
      RefusedRelease f o sect3 (.notSupported ("scanning mode ".toList ++ showNat (sectNumber sect3 72 72)))
  /-- The iteration for Gaussian latitudes did not come to an end. -/
  | roots (ht : sectNumber sect3 13 14 = 40) (hl : sect3.length = 67)
      (ha : RowsAccepted (sectSigned sect3 47 50) (sectSigned sect3 56 59) (sectNumber sect3 72 72))
      (hm : sectNumber sect3 72 72 % 16 = 0) :
      RefusedRelease f o sect3 (.unknown "finding root for Legendre polynomial failed".toList)
  /-- The number of points, octets 7-10, against the shape of the grid, octets 31-34 and 35-38. -/
  | points (hn : sectNumber sect3 7 10 ≠ sectNumber sect3 31 34 * sectNumber sect3 35 38)
      (ht : sectNumber sect3 13 14 = 0 ∨ sectNumber sect3 13 14 = 40) (hl : sect3.length = 67)
      (ha : RowsAccepted (sectSigned sect3 47 50) (sectSigned sect3 56 59) (sectNumber sect3 72 72))
      (hm : sectNumber sect3 72 72 % 16 = 0) :
      RefusedRelease f o sect3 (.invalidValueError
        ("number of grid points does not match: ".toList ++ showNat (sectNumber sect3 7 10) ++ " (defined) vs ".toList ++
          showNat (sectNumber sect3 31 34 * sectNumber sect3 35 38) ++ " (decoded)".toList))

instance (a b : Int) (m : Nat) : Decidable (RowsAccepted a b m) := by unfold RowsAccepted fitsI32; infer_instance

theorem accepted_iff {a b : Int} (mode : Nat) (ha : fitsI32 a) (hb : fitsI32 b) :
    Model.Rel.isConsistentForJ a b mode = true ↔ RowsAccepted a b mode :=
  isConsistentForJ_release mode ha hb

/-- The result of `latlons` of a latitude/longitude grid. -/
theorem rel_latLon_cases (ops : FloatOps F) (g : LatLonGrid) (h1 : fitsI32 g.firstLat) (h2 : fitsI32 g.lastLat) :
    (¬ RowsAccepted g.firstLat g.lastLat g.mode ∧ Rel.latLon ops g = .err (.invalidValueError latitudesText)) ∨
    (RowsAccepted g.firstLat g.lastLat g.mode ∧ g.mode % 16 ≠ 0 ∧
      Rel.latLon ops g = .err (.notSupported ("scanning mode ".toList ++ showNat g.mode))) ∨
    (RowsAccepted g.firstLat g.lastLat g.mode ∧ g.mode % 16 = 0 ∧
      ∃ it, Rel.latLon ops g = .ok it ∧ it.ij = GridIter.new g.ni g.nj g.mode) := by
  unfold Rel.latLon
  by_cases hc : Model.Rel.isConsistentForJ g.firstLat g.lastLat g.mode = true
  swap
  · exact .inl ⟨fun h => hc ((accepted_iff _ h1 h2).2 h), by rw [if_pos hc]⟩
  have hacc := (accepted_iff _ h1 h2).1 hc
  rw [if_neg (by simpa using hc)]
  rcases gridIj_cases g.ni g.nj g.mode with ⟨hm, hg⟩ | ⟨hm, hg⟩
  · exact .inr (.inl ⟨hacc, hm, by rw [hg]; rfl⟩)
  · exact .inr (.inr ⟨hacc, hm, _, by rw [hg]; rfl, rfl⟩)

/-- The result of `latlons` of a Gaussian grid. -/
theorem rel_gaussian_cases (g : GaussOps G F) (ops : FloatOps F) (d : GaussianGrid) (h1 : fitsI32 d.firstLat) (h2 : fitsI32 d.lastLat) :
    (¬ RowsAccepted d.firstLat d.lastLat d.mode ∧ Rel.gaussian g ops d = .err (.invalidValueError latitudesText)) ∨
    (RowsAccepted d.firstLat d.lastLat d.mode ∧ d.mode % 16 ≠ 0 ∧
      Rel.gaussian g ops d = .err (.notSupported ("scanning mode ".toList ++ showNat d.mode))) ∨
    (RowsAccepted d.firstLat d.lastLat d.mode ∧ d.mode % 16 = 0 ∧
      (Rel.gaussian g ops d = .err (.unknown "finding root for Legendre polynomial failed".toList) ∨
        ∃ it, Rel.gaussian g ops d = .ok it ∧ it.ij = GridIter.new d.ni d.nj d.mode)) := by
  unfold Rel.gaussian
  by_cases hc : Model.Rel.isConsistentForJ d.firstLat d.lastLat d.mode = true
  swap
  · exact .inl ⟨fun h => hc ((accepted_iff _ h1 h2).2 h), by rw [if_pos hc]⟩
  have hacc := (accepted_iff _ h1 h2).1 hc
  rw [if_neg (by simpa using hc)]
  rcases gridIj_cases d.ni d.nj d.mode with ⟨hm, hg⟩ | ⟨hm, hg⟩
  · exact .inr (.inl ⟨hacc, hm, by rw [hg]; rfl⟩)
  · refine .inr (.inr ⟨hacc, hm, ?_⟩)
    rw [hg, Outcome.bind_ok]
    unfold Rel.gaussianLatitudes
    cases allSome ((Model.Rel.legendreRoots g d.nj).map fun x => x.map fun i => g.toDegrees (g.asin i)) with
    | none => exact .inl rfl
    | some lats => exact .inr ⟨_, rfl, rfl⟩

theorem rel_template0 (f : Foreign) (o : GridOps G F) (g : LatLonGrid) :
    Rel.templateLatlons f o (.template0 g) = (Rel.latLon o.single g >>= fun x => Outcome.ok (.latLon x)) := rfl

theorem rel_template40 (f : Foreign) (o : GridOps G F) (g : GaussianGrid) :
    Rel.templateLatlons f o (.template40 g) = (Rel.gaussian o.gauss o.single g >>= fun x => Outcome.ok (.latLon x)) := rfl

/-- C98. If a release build refuses coordinates, the error, text and numbers are one of those of `RefusedRelease`. -/
theorem C98_coordinates (f : Foreign) (o : GridOps G F) (ho : Counts o) (d : GridDefinition) (e : Error)
    (h : Rel.subLatlons f o d = .err e) : RefusedRelease f o d.payload e := by
  have h' := h
  unfold Rel.subLatlons at h
  by_cases h5 : 5 ≤ d.payload.length
  swap
  · unfold GridDefinition.numPoints at h
    rw [bind_of_panic (rdAs_panic (by omega))] at h
    cases h
  have hn : (d.numPoints : Outcome Error Nat) = .ok (sectNumber d.payload 7 10) := by
    unfold GridDefinition.numPoints
    rw [rdAs_number (by omega)]
    rfl
  rw [hn, Outcome.bind_ok] at h
  rcases tryFrom_cases d with ht | ⟨n, hn', h1, h2, ht⟩ | ⟨h1, ht⟩ | ⟨t, ht, hm, hk⟩
  · rw [ht] at h; cases h
  · rw [ht] at h
    rw [← Outcome.err.inj h, hn']
    exact .list (hn' ▸ h1) h2
  · rw [ht] at h
    rw [← Outcome.err.inj h]
    exact .other ⟨fun x => h1 (by simp [x]), fun x => h1 (by simp [x])⟩ (.template h1)
  · obtain ⟨hi, hj⟩ := tryFrom_shape_lt hm
    rw [ht, Outcome.bind_ok] at h
    -- the other templates
    have others : (∀ it, Msg.templateLatlons f o t = .ok it → ∃ ps, it = .lambert ps) →
        Rel.templateLatlons f o t = Msg.templateLatlons f o t →
        sectNumber d.payload 13 14 ≠ 0 ∧ sectNumber d.payload 13 14 ≠ 40 → RefusedRelease f o d.payload e := by
      intro hl he hne
      refine .other hne (C96_coordinates f o ho d e ?_)
      unfold subLatlons
      rw [hn, Outcome.bind_ok, ht, Outcome.bind_ok, ← h, he]
      cases hx : Msg.templateLatlons f o t with
      | panic => rfl
      | err e => rfl
      | ok p =>
        obtain ⟨ps, rfl⟩ := hl p hx
        rfl
    -- the number of points of a regular grid
    have count : ∀ ij : GridIter, ij = GridIter.new t.gridShape.1 t.gridShape.2 t.mode →
        Model.Rel.gridSizeHint ij = t.gridShape.1 * t.gridShape.2 := by
      rintro _ rfl; exact Model.Rel.gridSizeHint_new _ hi hj
    have s1 : t.gridShape.1 = sectNumber d.payload 31 34 := by rw [(C63_octets d t hm).1]
    have s2 : t.gridShape.2 = sectNumber d.payload 35 38 := by rw [(C63_octets d t hm).1]
    have regular : ∀ (it : RegularIter F), Rel.templateLatlons f o t = .ok (.latLon it) →
        it.ij = GridIter.new t.gridShape.1 t.gridShape.2 t.mode →
        sectNumber d.payload 7 10 ≠ sectNumber d.payload 31 34 * sectNumber d.payload 35 38 ∧
          e = .invalidValueError (mismatchText (sectNumber d.payload 7 10) (sectNumber d.payload 31 34 * sectNumber d.payload 35 38)) := by
      intro it hx hij
      rw [hx, Outcome.bind_ok] at h
      have hc : Model.Rel.pointsSizeHint (.latLon it) = sectNumber d.payload 31 34 * sectNumber d.payload 35 38 := by
        rw [← s1, ← s2]; exact count _ hij
      rw [hc] at h
      split at h
      · cases h
      · exact ⟨by assumption, (Outcome.err.inj h).symm⟩
    rcases hk with ⟨hk, hl⟩ | ⟨hk, hl⟩ | ⟨hk, hl⟩ | ⟨hk, hl⟩
    · have f1 : fitsI32 (sectSigned d.payload 47 50) := sectSigned_fits (a := 47) (by omega)
      have f2 : fitsI32 (sectSigned d.payload 56 59) := sectSigned_fits (a := 56) (by omega)
      rw [C36_latlon d hl hk] at hm
      obtain rfl := Outcome.ok.inj hm
      rcases rel_latLon_cases o.single { ni := sectNumber d.payload 31 34, nj := sectNumber d.payload 35 38
                                         firstLat := sectSigned d.payload 47 50, firstLon := sectSigned d.payload 51 54
                                         lastLat := sectSigned d.payload 56 59, lastLon := sectSigned d.payload 60 63
                                         mode := sectNumber d.payload 72 72 } f1 f2 with ⟨q, hx⟩ | ⟨q, q', hx⟩ | ⟨q, q', it, hx, hij⟩
      · rw [rel_template0, hx, Outcome.bind_err, Outcome.bind_err] at h
        obtain rfl := Outcome.err.inj h
        exact .latitudes (.inl hk) hl q
      · rw [rel_template0, hx, Outcome.bind_err, Outcome.bind_err] at h
        obtain rfl := Outcome.err.inj h
        exact .mode (.inl hk) hl q q'
      · obtain ⟨r1, rfl⟩ := regular it (by rw [rel_template0, hx]; rfl) hij
        exact .points r1 (.inl hk) hl q q'
    · have f1 : fitsI32 (sectSigned d.payload 47 50) := sectSigned_fits (a := 47) (by omega)
      have f2 : fitsI32 (sectSigned d.payload 56 59) := sectSigned_fits (a := 56) (by omega)
      rw [C36_gaussian d hl hk] at hm
      obtain rfl := Outcome.ok.inj hm
      rcases rel_gaussian_cases o.gauss o.single { ni := sectNumber d.payload 31 34, nj := sectNumber d.payload 35 38
                                                   firstLat := sectSigned d.payload 47 50, firstLon := sectSigned d.payload 51 54
                                                   lastLat := sectSigned d.payload 56 59, lastLon := sectSigned d.payload 60 63
                                                   iInc := sectNumber d.payload 64 67, n := sectNumber d.payload 68 71
                                                   mode := sectNumber d.payload 72 72 } f1 f2 with
        ⟨q, hx⟩ | ⟨q, q', hx⟩ | ⟨q, q', hx | ⟨it, hx, hij⟩⟩
      · rw [rel_template40, hx, Outcome.bind_err, Outcome.bind_err] at h
        obtain rfl := Outcome.err.inj h
        exact .latitudes (.inr hk) hl q
      · rw [rel_template40, hx, Outcome.bind_err, Outcome.bind_err] at h
        obtain rfl := Outcome.err.inj h
        exact .mode (.inr hk) hl q q'
      · rw [rel_template40, hx, Outcome.bind_err, Outcome.bind_err] at h
        obtain rfl := Outcome.err.inj h
        exact .roots hk hl q q'
      · obtain ⟨r1, rfl⟩ := regular it (by rw [rel_template40, hx]; rfl) hij
        exact .points r1 (.inr hk) hl q q'
    · rw [C36_polar d hl hk] at hm
      obtain rfl := Outcome.ok.inj hm
      refine others ?_ rfl (by omega)
      intro it hx
      dsimp only [templateLatlons] at hx
      cases hproj : o.proj with
      | none => rw [hproj] at hx; cases hx
      | some p =>
        rw [hproj] at hx
        obtain ⟨ps, -, hx⟩ := Outcome.bind_eq_ok hx
        exact ⟨ps, (Outcome.ok.inj hx).symm⟩
    · rw [C36_lambert d hl hk] at hm
      obtain rfl := Outcome.ok.inj hm
      refine others ?_ rfl (by omega)
      intro it hx
      dsimp only [templateLatlons] at hx
      cases hproj : o.proj with
      | none => rw [hproj] at hx; cases hx
      | some p =>
        rw [hproj] at hx
        obtain ⟨ps, -, hx⟩ := Outcome.bind_eq_ok hx
        exact ⟨ps, (Outcome.ok.inj hx).symm⟩

/-- C98. What `latlons` of a release build gives for a latitude/longitude or Gaussian grid without a list of numbers of points: the
refusals are those of `RefusedRelease`, in this order; otherwise coordinates, unless the iteration for Gaussian latitudes has not come to
an end. -/
theorem C98_refuses (f : Foreign) (o : GridOps G F) (d : GridDefinition) (hl : d.payload.length = 67)
    (ht : sectNumber d.payload 13 14 = 0 ∨ sectNumber d.payload 13 14 = 40) :
    let accepted := RowsAccepted (sectSigned d.payload 47 50) (sectSigned d.payload 56 59) (sectNumber d.payload 72 72)
    let points := sectNumber d.payload 31 34 * sectNumber d.payload 35 38
    let noRoots := sectNumber d.payload 13 14 = 40 ∧
      Rel.subLatlons f o d = .err (.unknown "finding root for Legendre polynomial failed".toList)
    (¬ accepted → Rel.subLatlons f o d =
      .err (.invalidValueError "Latitudes for first/last grid points are not consistent with scanning mode".toList)) ∧
    (accepted → sectNumber d.payload 72 72 % 16 ≠ 0 → Rel.subLatlons f o d =
      .err (.notSupported ("scanning mode ".toList ++ showNat (sectNumber d.payload 72 72)))) ∧
    (accepted → sectNumber d.payload 72 72 % 16 = 0 → sectNumber d.payload 7 10 ≠ points →
      Rel.subLatlons f o d = .err (.invalidValueError
        ("number of grid points does not match: ".toList ++ showNat (sectNumber d.payload 7 10) ++ " (defined) vs ".toList ++
          showNat points ++ " (decoded)".toList)) ∨ noRoots) ∧
    (accepted → sectNumber d.payload 72 72 % 16 = 0 → sectNumber d.payload 7 10 = points →
      (∃ pts, Rel.subLatlons f o d = .ok pts) ∨ noRoots) := by
  intro accepted points noRoots
  have f1 : fitsI32 (sectSigned d.payload 47 50) := sectSigned_fits (a := 47) (by omega)
  have f2 : fitsI32 (sectSigned d.payload 56 59) := sectSigned_fits (a := 56) (by omega)
  have hn : (d.numPoints : Outcome Error Nat) = .ok (sectNumber d.payload 7 10) := by
    unfold GridDefinition.numPoints
    rw [rdAs_number (by omega)]
    rfl
  have hi : sectNumber d.payload 31 34 < 2 ^ 32 := sectNumber_lt4 _ 31
  have hj : sectNumber d.payload 35 38 < 2 ^ 32 := sectNumber_lt4 _ 35
  have regular : ∀ (t : GridTemplate) (it : RegularIter F), tryFrom d = .ok t → Rel.templateLatlons f o t = .ok (.latLon it) →
      it.ij = GridIter.new (sectNumber d.payload 31 34) (sectNumber d.payload 35 38) (sectNumber d.payload 72 72) →
      Rel.subLatlons f o d = (if sectNumber d.payload 7 10 = points then .ok (.latLon it) else .err (.invalidValueError
        ("number of grid points does not match: ".toList ++ showNat (sectNumber d.payload 7 10) ++ " (defined) vs ".toList ++
          showNat points ++ " (decoded)".toList))) := by
    intro t it h1 h2 hij
    unfold Rel.subLatlons
    rw [hn, Outcome.bind_ok, h1, Outcome.bind_ok, h2, Outcome.bind_ok]
    have hc : Model.Rel.pointsSizeHint (.latLon it) = points := by
      show Model.Rel.gridSizeHint it.ij = points
      rw [hij]
      exact Model.Rel.gridSizeHint_new _ hi hj
    rw [hc]
    rfl
  have fails : ∀ (t : GridTemplate) (e : Error), tryFrom d = .ok t → Rel.templateLatlons f o t = .err e →
      Rel.subLatlons f o d = .err e := by
    intro t e h1 h2
    unfold Rel.subLatlons
    rw [hn, Outcome.bind_ok, h1, Outcome.bind_ok, h2, Outcome.bind_err]
  have of_ok : ∀ t, GridTemplate.tryFrom d = .ok t → tryFrom d = .ok t := by
    intro t h
    have := tryFrom_erase d
    rw [h] at this
    exact of_mapErr_ok this
  rcases ht with hk | hk
  · have h1 := of_ok _ (C36_latlon d hl hk)
    rcases rel_latLon_cases o.single { ni := sectNumber d.payload 31 34, nj := sectNumber d.payload 35 38
                                       firstLat := sectSigned d.payload 47 50, firstLon := sectSigned d.payload 51 54
                                       lastLat := sectSigned d.payload 56 59, lastLon := sectSigned d.payload 60 63
                                       mode := sectNumber d.payload 72 72 } f1 f2 with ⟨q, hx⟩ | ⟨q, q', hx⟩ | ⟨q, q', it, hx, hij⟩
    · have := fails _ _ h1 (by rw [rel_template0, hx]; rfl)
      exact ⟨fun _ => this, fun a => absurd a q, fun a => absurd a q, fun a => absurd a q⟩
    · have := fails _ _ h1 (by rw [rel_template0, hx]; rfl)
      exact ⟨fun a => absurd q a, fun _ _ => this, fun _ a => absurd a q', fun _ a => absurd a q'⟩
    · have := regular _ it h1 (by rw [rel_template0, hx]; rfl) hij
      exact ⟨fun a => absurd q a, fun _ a => absurd q' a, fun _ _ a => .inl (by rw [this, if_neg a]),
        fun _ _ a => .inl ⟨_, by rw [this, if_pos a]⟩⟩
  · have h1 := of_ok _ (C36_gaussian d hl hk)
    rcases rel_gaussian_cases o.gauss o.single { ni := sectNumber d.payload 31 34, nj := sectNumber d.payload 35 38
                                                 firstLat := sectSigned d.payload 47 50, firstLon := sectSigned d.payload 51 54
                                                 lastLat := sectSigned d.payload 56 59, lastLon := sectSigned d.payload 60 63
                                                 iInc := sectNumber d.payload 64 67, n := sectNumber d.payload 68 71
                                                 mode := sectNumber d.payload 72 72 } f1 f2 with
      ⟨q, hx⟩ | ⟨q, q', hx⟩ | ⟨q, q', hx | ⟨it, hx, hij⟩⟩
    · have := fails _ _ h1 (by rw [rel_template40, hx]; rfl)
      exact ⟨fun _ => this, fun a => absurd a q, fun a => absurd a q, fun a => absurd a q⟩
    · have := fails _ _ h1 (by rw [rel_template40, hx]; rfl)
      exact ⟨fun a => absurd q a, fun _ _ => this, fun _ a => absurd a q', fun _ a => absurd a q'⟩
    · have := fails _ _ h1 (by rw [rel_template40, hx]; rfl)
      exact ⟨fun a => absurd q a, fun _ a => absurd q' a, fun _ _ _ => .inr ⟨hk, this⟩, fun _ _ _ => .inr ⟨hk, this⟩⟩
    · have := regular _ it h1 (by rw [rel_template40, hx]; rfl) hij
      exact ⟨fun a => absurd q a, fun _ a => absurd q' a, fun _ _ a => .inl (by rw [this, if_neg a]),
        fun _ _ a => .inl ⟨_, by rw [this, if_pos a]⟩⟩

/-- C96. The same for a debug build where it does not panic, with the direction of rows as it is. -/
theorem C96_refuses (f : Foreign) (o : GridOps G F) (d : GridDefinition) (hl : d.payload.length = 67)
    (ht : sectNumber d.payload 13 14 = 0 ∨ sectNumber d.payload 13 14 = 40) (hp : subLatlons f o d ≠ .panic) :
    let agree := RowsAgree (sectSigned d.payload 47 50) (sectSigned d.payload 56 59) (sectNumber d.payload 72 72)
    let points := sectNumber d.payload 31 34 * sectNumber d.payload 35 38
    let noRoots := sectNumber d.payload 13 14 = 40 ∧
      subLatlons f o d = .err (.unknown "finding root for Legendre polynomial failed".toList)
    (¬ agree → subLatlons f o d =
      .err (.invalidValueError "Latitudes for first/last grid points are not consistent with scanning mode".toList)) ∧
    (agree → sectNumber d.payload 72 72 % 16 ≠ 0 → subLatlons f o d =
      .err (.notSupported ("scanning mode ".toList ++ showNat (sectNumber d.payload 72 72)))) ∧
    (agree → sectNumber d.payload 72 72 % 16 = 0 → sectNumber d.payload 7 10 ≠ points →
      subLatlons f o d = .err (.invalidValueError
        ("number of grid points does not match: ".toList ++ showNat (sectNumber d.payload 7 10) ++ " (defined) vs ".toList ++
          showNat points ++ " (decoded)".toList)) ∨ noRoots) ∧
    (agree → sectNumber d.payload 72 72 % 16 = 0 → sectNumber d.payload 7 10 = points →
      (∃ pts, subLatlons f o d = .ok pts) ∨ noRoots) := by
  intro agree points noRoots
  have hsame : Rel.subLatlons f o d = subLatlons f o d := (Rel.subLatlons_fol f o d).resolve_left hp
  have hfits : fitsI32 (sectSigned d.payload 56 59 - sectSigned d.payload 47 50) := by
    apply Classical.byContradiction
    intro hf
    have hc : ∀ m, (isConsistentForJ (sectSigned d.payload 47 50) (sectSigned d.payload 56 59) m : Outcome Error Bool) = .panic := by
      intro m
      unfold isConsistentForJ checkI32
      rw [if_neg (show ¬ (_ ∧ _) from hf)]
      rfl
    have hn : (d.numPoints : Outcome Error Nat) = .ok (sectNumber d.payload 7 10) := by
      unfold GridDefinition.numPoints
      rw [rdAs_number (by omega)]
      rfl
    have of_ok : ∀ t, GridTemplate.tryFrom d = .ok t → tryFrom d = .ok t := by
      intro t h
      have := tryFrom_erase d
      rw [h] at this
      exact of_mapErr_ok this
    apply hp
    unfold subLatlons
    rw [hn, Outcome.bind_ok]
    rcases ht with hk | hk
    · rw [of_ok _ (C36_latlon d hl hk), Outcome.bind_ok]
      apply bind_of_panic
      dsimp only [templateLatlons]
      apply bind_of_panic
      unfold latLon
      exact bind_of_panic (hc _)
    · rw [of_ok _ (C36_gaussian d hl hk), Outcome.bind_ok]
      apply bind_of_panic
      dsimp only [templateLatlons]
      apply bind_of_panic
      unfold gaussian
      exact bind_of_panic (hc _)
  have hiff : RowsAccepted (sectSigned d.payload 47 50) (sectSigned d.payload 56 59) (sectNumber d.payload 72 72) ↔ agree := by
    unfold RowsAccepted
    exact iff_true_right hfits
  have h := C98_refuses f o d hl ht
  dsimp only at h
  rw [hsame, hiff] at h
  exact h

/-! ## The standard error stream -/

/-- C98. The standard error stream of a release build holds the warnings and, exactly when the exit status is 1, one line that begins
with "error: " and goes on with the text of the failure; warnings come with `decode` only. -/
theorem C98_stderr (f : Foreign) (s : Setting F G) (cmd : Command) (r : Rdr) :
    (exitStatus (Cli.Rel.runCommand s cmd r).2 = 0 → stderr f (Rel.runCommand f s cmd r) = some (Rel.runCommand f s cmd r).2.1) ∧
    (exitStatus (Cli.Rel.runCommand s cmd r).2 = 1 → ∃ e, (Rel.runCommand f s cmd r).2.2 = .err e ∧
      stderr f (Rel.runCommand f s cmd r) =
        some ((Rel.runCommand f s cmd r).2.1 ++ ("error: ".toList ++ e.show f ++ "\n".toList))) ∧
    ((cmd = .info ∨ (∃ x, cmd = .inspect x) ∨ ∃ x, cmd = .list x) → (Rel.runCommand f s cmd r).2.1 = []) := by
  rw [← (C98_same f s cmd r).2]
  refine ⟨?_, ?_, ?_⟩
  · unfold stderr
    cases (Rel.runCommand f s cmd r).2.2 with
    | ok a => intro _; rfl
    | err e => intro h; cases h
    | panic => intro h; cases h
  · unfold stderr
    cases (Rel.runCommand f s cmd r).2.2 with
    | ok a => intro h; cases h
    | err e => intro _; exact ⟨e, rfl, rfl⟩
    | panic => intro h; cases h
  · rintro (rfl | ⟨x, rfl⟩ | ⟨x, rfl⟩) <;> (dsimp only [Rel.runCommand]; cases Rel.openGrib r <;> rfl)

theorem rel_openGrib {r : Rdr} {g : Grib2} (hr : Model.Rel.read r = .ok g) (hne : g.len ≠ 0) : Rel.openGrib r = .ok g := by
  unfold Rel.openGrib; rw [hr]; simp [hne]

/-- C98. `info` of a release build fails with the reference time (six numbers of octets 13 to 19) of the first message whose reference
time is no date and time, and only then. -/
theorem C98_info (f : Foreign) (s : Setting F G) (r : Rdr) (hlen : r.data.length < 2 ^ 63) (g : Grib2) (hr : Model.Rel.read r = .ok g)
    (hne : g.len ≠ 0) :
    ∃ ms : List (Message SectionInfo), (∀ m ∈ ms, m.Ok) ∧ g.sections = ms.flatMap Message.sections ∧
      (Rel.runCommand f s .info r).2 = ([], match ms.find? fun m => !chronoValid (Cli.timeOf r.data m.ident) with
        | none => .ok ()
        | some m => .err (.grib (.invalidValueError (dateText (Cli.timeOf r.data m.ident))))) := by
  obtain ⟨hc, ⟨ms, hok, hs⟩, hf⟩ := rel_opened hlen hr
  have hsub : g.submessages = fileSubs 0 0 0 ((numberMessages 0 ms).map (Message.map Prod.fst)) := by
    have h14 := (C14_listing_by_index ms hok).1
    rw [← hs, hc] at h14
    simpa using h14
  refine ⟨ms, hok, hs, ?_⟩
  have e : SubIter.drain (g.len + 1) g.iter = asLoop (fileSubs (g.sect 0) (g.sect 0) 0 (numberMessages 0 ms)) := by
    rw [Grib2.iter, rel_opened_drain hlen hr _ _ (by simp [Grib2.len]), List.drop_zero, ← opened_resolve hs hsub, asLoop, List.map_map]
    rfl
  have hsnd := numberMessages_snd 0 ms
  dsimp only [Rel.runCommand]
  rw [rel_openGrib hr hne]
  dsimp only
  rw [e, infoLoop_subs s.tables r.data]
  · have hfind : (ms.find? fun m => !chronoValid (Cli.timeOf r.data m.ident)) =
        ((numberMessages 0 ms).find? fun m => !chronoValid (Cli.timeOf r.data m.ident.2)).map (Message.map Prod.snd) := by
      conv => lhs; rw [← hsnd]
      rw [List.find?_map]
      rfl
    rw [hfind]
    generalize (numberMessages 0 ms).find? (fun m => !chronoValid (Cli.timeOf r.data m.ident.2)) = z
    cases z <;> rfl
  · intro m hm
    have hm' : m.map Prod.snd ∈ ms := by rw [← hsnd]; exact List.mem_map_of_mem hm
    have ho := hok _ hm'
    have hi : ∀ s ∈ (m.map Prod.snd).sections, s.num ≠ 7 → Faithful r.data s := fun s hs' h7 =>
      (hf s (by rw [hs]; exact List.mem_flatMap.2 ⟨_, hm', hs'⟩)).resolve_right fun h => h7 h.num
    have e0 : m.indicator.2.num = 0 := ho.indicator
    have e1 : m.ident.2.num = 1 := ho.ident
    exact ⟨hi _ (by simp [Message.sections, Message.map]) (by rw [e0]; decide), e0,
      hi _ (by simp [Message.sections, Message.map]) (by rw [e1]; decide), e1⟩

theorem rel_prepared_chosen (f : Foreign) (o : GridOps G F) {r : Rdr} {g : Grib2} (hlen : r.data.length < 2 ^ 63)
    (hr : Model.Rel.read r = .ok g) (hne : g.len ≠ 0) {index : Str} {m : SubMessage} (hm : Chosen g index m) :
    Rel.prepared f o r index = (match Rel.subLatlons f o ⟨payloadAt r.data m.s3.2.offset m.s3.2.size⟩ with
      | .panic => .panic
      | l => do
        let dec ← (Model.Rel.fromSub m g.reader).1.mapErr fun e => .grib (plain e)
        .ok (l, dec)) := by
  obtain ⟨ix, hix, hx⟩ := hm.parse
  unfold Rel.prepared
  rw [rel_openGrib hr hne]
  simp only [Outcome.bind_ok, hix, Outcome.mapErr]
  rw [(rel_selects hlen hr ix m).2 hx]
  dsimp only
  rw [(facts_reads (rel_facts hlen hr hx)).2.2.2.2.1, Outcome.bind_ok]
  cases Rel.subLatlons f o ⟨payloadAt r.data m.s3.2.offset m.s3.2.size⟩ <;> rfl

/-- What `prepared` of a release build has found when it goes on to the values. -/
theorem rel_prepared_ok {f : Foreign} {o : GridOps G F} {r : Rdr} (hlen : r.data.length < 2 ^ 63) {g : Grib2}
    (hr : Model.Rel.read r = .ok g) (hne : g.len ≠ 0) {index : Str} {l : Outcome Error (GridPoints F)} {dec : Decoder}
    (h : Rel.prepared f o r index = .ok (l, dec)) :
    ∃ m, Chosen g index m ∧ l = Rel.subLatlons f o ⟨payloadAt r.data m.s3.2.offset m.s3.2.size⟩ ∧ l ≠ .panic ∧
      (Model.Rel.fromSub m g.reader).1 = .ok dec := by
  have h0 := h
  unfold Rel.prepared at h
  rw [rel_openGrib hr hne, Outcome.bind_ok] at h
  obtain ⟨ix, hix, h⟩ := Outcome.bind_eq_ok h
  have hix := of_mapErr_ok hix
  cases hf : findIndex ix (g.len + 1) g.iter with
  | none => rw [hf] at h; cases h
  | some x =>
    obtain ⟨ix', m⟩ := x
    have hix' : ix' = ix := by
      have := hf
      rw [findIndex_drain] at this
      simpa using List.find?_some this
    subst hix'
    have hmem := (rel_selects hlen hr ix' m).1 hf
    obtain ⟨a, b, hi, ha, hb, h1, h2⟩ := (C46_accepts index ix'.1 ix'.2).1 hix
    have hc : Chosen g index m := ⟨a, b, ix'.1, ix'.2, hi, ha, hb, h1, h2, hmem⟩
    rw [rel_prepared_chosen f o hlen hr hne hc] at h0
    cases hs : Rel.subLatlons f o ⟨payloadAt r.data m.s3.2.offset m.s3.2.size⟩ with
    | panic => rw [hs] at h0; cases h0
    | ok p =>
      rw [hs] at h0
      obtain ⟨d, hd, h0⟩ := Outcome.bind_eq_ok h0
      obtain ⟨rfl, rfl⟩ := Prod.mk.inj (Outcome.ok.inj h0)
      exact ⟨m, hc, hs.symm, fun h => (by cases h), of_mapErr_ok hd⟩
    | err p =>
      rw [hs] at h0
      obtain ⟨d, hd, h0⟩ := Outcome.bind_eq_ok h0
      obtain ⟨rfl, rfl⟩ := Prod.mk.inj (Outcome.ok.inj h0)
      exact ⟨m, hc, hs.symm, fun h => (by cases h), of_mapErr_ok hd⟩

theorem rel_runCommand_warning (f : Foreign) (s : Setting F G) (r : Rdr) (index : Str) (big : Bool) (cmd : Command)
    (hcmd : cmd = .decode index ∨ cmd = .export big index) :
    (Rel.runCommand f s cmd r).2.1 = (match Rel.prepared f s.grid r index with | .ok x => warning s.codecs x.2 | _ => []) := by
  have e : (Rel.decodePrepare f s.grid s.codecs r index).1 =
      (match Rel.prepared f s.grid r index with | .ok x => warning s.codecs x.2 | _ => []) := by
    unfold Rel.decodePrepare
    cases Rel.prepared f s.grid r index <;> rfl
  rw [← e]
  rcases hcmd with rfl | rfl
  · dsimp only [Rel.runCommand]
    unfold Rel.decodeShown
    generalize Rel.decodePrepare f s.grid s.codecs r index = z
    obtain ⟨w, z⟩ := z
    cases z with
    | err e => rfl
    | panic => rfl
    | ok x =>
      obtain ⟨l, v⟩ := x
      dsimp only
      cases v.toList s.codecs.ops with
      | done vs =>
        dsimp only
        cases textPoints s.codecs.ops vs.length l <;> rfl
      | _ => rfl
  · dsimp only [Rel.runCommand]
    unfold Rel.decodeBinary
    generalize Rel.decodePrepare f s.grid s.codecs r index = z
    obtain ⟨w, z⟩ := z
    cases z with
    | err e => rfl
    | panic => rfl
    | ok x =>
      obtain ⟨l, v⟩ := x
      dsimp only
      generalize writeOutput s.sched _ = q
      obtain ⟨q, q'⟩ := q
      cases q <;> rfl

/-- C98. What `decode` of a release build writes on the standard error stream before its end, for both kinds of output: the warning of
the decoder of the chosen submessage, if there is one and its coordinates could be looked at; nothing otherwise. -/
theorem C98_warnings (f : Foreign) (s : Setting F G) (r : Rdr) (hlen : r.data.length < 2 ^ 63) (g : Grib2)
    (hr : Model.Rel.read r = .ok g) (hne : g.len ≠ 0)
    (index : Str) (big : Bool) (cmd : Command) (hcmd : cmd = .decode index ∨ cmd = .export big index) :
    (∀ m dec, Chosen g index m → Model.Rel.subLatlons s.grid ⟨payloadAt r.data m.s3.2.offset m.s3.2.size⟩ ≠ .panic →
      (Model.Rel.fromSub m g.reader).1 = .ok dec → (Rel.runCommand f s cmd r).2.1 = warning s.codecs dec) ∧
    ((Rel.runCommand f s cmd r).2.1 ≠ [] → ∃ m dec, Chosen g index m ∧ (Model.Rel.fromSub m g.reader).1 = .ok dec ∧
      (Rel.runCommand f s cmd r).2.1 = warning s.codecs dec) := by
  rw [rel_runCommand_warning f s r index big cmd hcmd]
  refine ⟨?_, ?_⟩
  · intro m dec hm hl hd
    rw [rel_prepared_chosen f s.grid hlen hr hne hm]
    have := Rel.subLatlons_erase f s.grid ⟨payloadAt r.data m.s3.2.offset m.s3.2.size⟩
    rw [← this] at hl
    cases hs : Rel.subLatlons f s.grid ⟨payloadAt r.data m.s3.2.offset m.s3.2.size⟩ with
    | panic => rw [hs] at hl; exact absurd rfl hl
    | ok p => dsimp only; rw [hd]; rfl
    | err e => dsimp only; rw [hd]; rfl
  · cases hp : Rel.prepared f s.grid r index with
    | err e => intro h; exact absurd rfl h
    | panic => intro h; exact absurd rfl h
    | ok x =>
      intro _
      obtain ⟨m, hm, -, -, hd⟩ := rel_prepared_ok (l := x.1) (dec := x.2) hlen hr hne hp
      exact ⟨m, x.2, hm, hd, rfl⟩

/-! ## The errors of decoding in a release build -/

/-- Every error is a decoding error. -/
def DecErr (x : Outcome GribError α) : Prop := ∀ e, x = .err e → ∃ k, e = .decodeError k

theorem DecErr.bind {x : Outcome GribError α} {k : α → Outcome GribError β} (h : DecErr x) (hk : ∀ a, DecErr (k a)) :
    DecErr (x >>= k) := by
  intro e he
  rcases bind_err_cases he with he | ⟨a, -, he⟩
  · exact h e he
  · exact hk a e he

theorem DecErr.ok (a : α) : DecErr (.ok a) := fun _ h => by cases h

theorem DecErr.decode (k : DecodeError) : DecErr (.err (.decodeError k) : Outcome GribError α) :=
  fun e h => ⟨k, (Outcome.err.inj h).symm⟩

theorem DecErr.mapErr (x : Outcome ε α) (k : ε → DecodeError) : DecErr (x.mapErr fun e => GribError.decodeError (k e)) := by
  intro e h
  cases x with
  | ok a => cases h
  | panic => cases h
  | err x => exact ⟨_, (Outcome.err.inj h).symm⟩

/-- Functions without errors of their own. -/
theorem no_err {x : Outcome ε α} {y : Outcome Empty α} (h : y.mapErr Empty.elim = x) (e : ε) : x ≠ .err e := by
  subst h
  cases y with
  | ok a => intro h; cases h
  | panic => intro h; cases h
  | err a => exact a.elim

theorem DecErr.none {x : Outcome GribError α} {y : Outcome Empty α} (h : y.mapErr Empty.elim = x) : DecErr x :=
  fun e he => absurd he (no_err h e)

theorem decErr_simpleParam (ops : FloatOps F) (p : List UInt8) : DecErr (SimpleParam.fromSect5 ops p) := by
  unfold SimpleParam.fromSect5
  refine .bind (.none (er_ofOption _ _)) fun buf => ?_
  refine .bind (.none (er_rdAs _ _ _ _)) fun a => ?_
  refine .bind (.none (er_rdAs _ _ _ _)) fun a => ?_
  refine .bind (.none (er_rdAs _ _ _ _)) fun a => ?_
  refine .bind (.none (er_rdAs _ _ _ _)) fun a => ?_
  refine .bind (.none (er_rdAs _ _ _ _)) fun a => ?_
  split
  · exact .decode _
  · exact .ok _

theorem decErr_descriptors (s : List UInt8) (a n : Nat) : DecErr (DiffDescriptors.new s a n) := by
  unfold DiffDescriptors.new
  split <;> first | exact .decode _ | skip
  refine .bind (.none (er_sliceTo _ _ _ _)) fun a => .ok _

theorem decErr_runLength (ops : FloatOps F) (t : Decoder) : DecErr (Model.Rel.runLengthDecode ops t) := by
  unfold Model.Rel.runLengthDecode
  refine .bind (.none (er_rdAs _ _ _ _)) fun a => ?_
  refine .bind (.none (er_rdAs _ _ _ _)) fun a => ?_
  refine .bind (.none (er_rdAs _ _ _ _)) fun a => ?_
  refine .bind (.none (er_rdAs _ _ _ _)) fun a => ?_
  refine .bind ?_ fun levels => .bind (.mapErr _ _) fun _ => .bind (.mapErr _ _) fun _ => .ok _
  have : ∀ (digits n pos : Nat), DecErr (readLevels ops t.sect5 digits n pos) := by
    intro digits n
    induction n with
    | zero => intro pos; unfold readLevels; exact .ok _
    | succ n ih => intro pos; unfold readLevels; exact .bind (.none (er_rdAs _ _ _ _)) fun a => .bind (ih _) fun _ => .ok _
  exact this _ _ _

/-- The templates other than 5.3 have no other errors than decoding errors. -/
theorem decErr_values (c : Codecs F) (t : Decoder) (h3 : t.templateNum ≠ 3) : DecErr (Model.Rel.decodeValues c t) := by
  unfold Model.Rel.decodeValues
  split
  · unfold simpleDecode
    refine .bind (decErr_simpleParam _ _) fun p => ?_
    split <;> exact .ok _
  · unfold Model.Rel.complexDecode2
    refine .bind (decErr_simpleParam _ _) fun p => .bind (.none (er_complexParam _ _)) fun q => ?_
    split
    · exact .decode _
    · exact .bind (.none (Rel.er_decodeComplexPacking _ _ _ _ _ _)) fun _ => .ok _
  · rename_i h; exact absurd h h3
  · unfold jpeg2000Decode
    refine .bind (decErr_simpleParam _ _) fun p => ?_
    split
    · exact .ok _
    · exact .bind (.mapErr _ _) fun _ => .ok _
  · unfold pngDecode
    refine .bind (decErr_simpleParam _ _) fun p => ?_
    split
    · exact .decode _
    · split <;> exact .ok _
  · exact decErr_runLength _ _
  · exact .decode _

theorem DecErr.plain {x : Outcome GribError α} (h : DecErr x) {e : Error} (he : x.mapErr plain = .err e) : ∃ k, e = .decodeError k := by
  cases x with
  | ok a => cases he
  | panic => cases he
  | err a =>
    obtain ⟨k, rfl⟩ := h a rfl
    exact ⟨k, (Outcome.err.inj he).symm⟩

theorem rel_complexDecode3_err {ops : FloatOps F} {t : Decoder} {e : Error} (h : Rel.complexDecode3 ops t = .err e) :
    (∃ x, e = .decodeError x) ∨
    (sectNumber t.sect5 48 48 ∉ [1, 2, 255] ∧ e = .notSupported (orderText (sectNumber t.sect5 48 48))) := by
  unfold Rel.complexDecode3 at h
  rcases bind_err_cases h with h | ⟨simple, -, h⟩
  · exact .inl ((decErr_simpleParam _ _).plain h)
  rcases bind_err_cases h with h | ⟨complex, -, h⟩
  · exact absurd h (no_err (er_complexParam _ _) _)
  rcases bind_err_cases h with h | ⟨order, ho, h⟩
  · exact absurd h (no_err (er_rdAs _ _ _ _) _)
  have hl : 43 ≤ t.sect5.length := by
    apply Classical.byContradiction
    intro hc
    rw [rdAs_panic (by omega)] at ho
    cases ho
  rw [rdAs_number (by omega)] at ho
  obtain rfl := Outcome.ok.inj ho
  dsimp only at h
  split at h
  · rename_i hn
    refine .inr ⟨?_, (Outcome.err.inj h).symm⟩
    show number t.sect5 42 1 ∉ _
    simpa using hn
  left
  rcases bind_err_cases h with h | ⟨octets, -, h⟩
  · exact absurd h (no_err (er_rdAs _ _ _ _) _)
  split at h
  · exact ⟨_, (Outcome.err.inj h).symm⟩
  rcases bind_err_cases h with h | ⟨d, -, h⟩
  · exact (decErr_descriptors _ _ _).plain h
  rcases bind_err_cases h with h | ⟨z, -, h⟩
  · exact absurd h (no_err (y := d.minimum) (by unfold DiffDescriptors.minimum; er) _)
  rcases bind_err_cases h with h | ⟨items, -, h⟩
  · exact absurd h (no_err (Rel.er_decodeComplexPacking _ _ _ _ _ _) _)
  rcases bind_err_cases h with h | ⟨first, -, h⟩
  · exact absurd h (no_err (er_firstValues _ _ _ _) _)
  · cases h

theorem rel_dispatch_err {c : Codecs F} {t : Decoder} {e : Error} (h : Rel.dispatch c t = .err e) :
    (∃ x, e = .decodeError x) ∨
    (t.templateNum = 3 ∧ sectNumber t.sect5 48 48 ∉ [1, 2, 255] ∧ e = .notSupported (orderText (sectNumber t.sect5 48 48))) := by
  unfold Rel.dispatch at h
  rcases bind_err_cases h with h | ⟨v, -, h⟩
  · unfold Rel.decodeValues at h
    by_cases h3 : t.templateNum = 3
    · rw [if_pos h3] at h
      exact (rel_complexDecode3_err h).imp id fun x => ⟨h3, x⟩
    · rw [if_neg h3] at h
      exact .inl ((decErr_values c t h3).plain h)
  · left
    unfold BitmapIter.new at h
    split at h
    · exact ⟨_, (Outcome.err.inj h).symm⟩
    · cases h

theorem rel_openGrib_ok {r : Rdr} {g : Grib2} (hg : Rel.openGrib r = .ok g) : Model.Rel.read r = .ok g ∧ g.len ≠ 0 := by
  unfold Rel.openGrib at hg
  cases hx : Model.Rel.read r with
  | err e => rw [hx] at hg; cases hg
  | panic => rw [hx] at hg; cases hg
  | ok g' =>
    rw [hx] at hg
    dsimp only at hg
    split at hg
    · cases hg
    · obtain rfl := Outcome.ok.inj hg; exact ⟨rfl, by assumption⟩


/-- Section 6 of such a submessage. -/
theorem rel_fact6 {r : Rdr} (hl : r.data.length < 2 ^ 63) {g : Grib2} (h : Model.Rel.read r = .ok g) {ix : Nat × Nat} {m : SubMessage}
    (hm : (ix, m) ∈ SubIter.drain (g.len + 1) g.iter) : Faithful r.data m.s6.2 ∧ m.s6.2.num = 6 := by
  rw [Grib2.iter, rel_opened_drain hl h _ _ (by simp [Grib2.len]), List.drop_zero, List.mem_map] at hm
  obtain ⟨x, hx, he⟩ := hm
  simp only [Prod.mk.injEq] at he
  obtain ⟨-, rfl⟩ := he
  obtain ⟨hb, hk⟩ := rel_opened_kinds hl h hx
  dsimp only at hk
  obtain ⟨-, -, hf⟩ := rel_opened hl h
  obtain ⟨b0, b1, b2, b3, b4, b5, b6, b7, b8⟩ := hb
  obtain ⟨k0, k1, k2, k3, k4, k5, k6, k7, k8⟩ := hk
  simp only [Nine.map]
  refine ⟨?_, k6⟩
  have e : (g.sect x.sects.s6).2 = g.sections[x.sects.s6] := by simp [Grib2.sect, b6]
  rcases hf _ (List.getElem_mem b6) with hf | hs
  · rw [e]; exact hf
  · have := hs.num
    rw [← e] at this
    omega

theorem rel_fromSub_err {data : List UInt8} {m : SubMessage} (hm : Facts data m) (h6 : Faithful data m.s6.2 ∧ m.s6.2.num = 6) {r' : Rdr} {e : GribError}
    (h : (Model.Rel.fromSub m r').1 = .err e) :
    (∃ k, e = .parseError k) ∨ e = .decodeError .bitMapIndicatorUnsupported := by
  have b3 := hm.f3.1.body
  have b5 := hm.f5.1.body
  have b6 := h6.1.body
  rw [hm.f3.2] at b3; rw [hm.f5.2] at b5; rw [h6.2] at b6
  simp only [BodyAt] at b3 b5 b6
  unfold Model.Rel.fromSub at h
  rw [b3, b5, b6] at h
  dsimp only at h
  generalize hn : (GridDefinition.numPoints _ : Outcome GribError Nat) = n at h
  cases n with
  | err e' => exact (rdAs_no_err hn).elim
  | panic => cases h
  | ok total =>
    dsimp only at h
    have rest : ∀ (bm : Outcome GribError (List UInt8) × Rdr),
        (∀ e, bm.1 = .err e → (∃ k, e = .parseError k) ∨ e = .decodeError .bitMapIndicatorUnsupported) →
        (match bm.1 with
          | .err e => ((.err e : Outcome GribError Decoder), bm.2)
          | .panic => (.panic, bm.2)
          | .ok bitmap =>
            match ((do let n ← (ReprDefinition.mk ((data.drop (m.s5.2.offset + 5)).take (m.s5.2.size - 5))).numPoints
                       let t ← (ReprDefinition.mk ((data.drop (m.s5.2.offset + 5)).take (m.s5.2.size - 5))).reprTmplNum
                       .ok (n, t)) : Outcome GribError (Nat × Nat)) with
            | .err e => (.err e, bm.2)
            | .panic => (.panic, bm.2)
            | .ok (encoded, tmpl) =>
              match ((Model.Rel.readSectPayloadAsSlice m.s5.2 bm.2).1.mapErr GribError.parseError, (Model.Rel.readSectPayloadAsSlice m.s5.2 bm.2).2) with
              | (.err e, r2) => (.err e, r2)
              | (.panic, r2) => (.panic, r2)
              | (.ok sect5, r2) =>
                match ((Model.Rel.readSectPayloadAsSlice m.s7.2 r2).1.mapErr GribError.parseError, (Model.Rel.readSectPayloadAsSlice m.s7.2 r2).2) with
                | (.err e, r3) => (.err e, r3)
                | (.panic, r3) => (.panic, r3)
                | (.ok sect7, r3) => (.ok ⟨total, encoded, tmpl, sect5, bitmap, sect7⟩, r3)).1 = .err e →
        (∃ k, e = .parseError k) ∨ e = .decodeError .bitMapIndicatorUnsupported := by
      rintro ⟨b, r1⟩ hb h
      dsimp only at hb h
      cases b with
      | err x => exact hb _ (congrArg Outcome.err (Outcome.err.inj h))
      | panic => cases h
      | ok bitmap =>
        dsimp only at h
        generalize hq : ((do let n ← (ReprDefinition.mk ((data.drop (m.s5.2.offset + 5)).take (m.s5.2.size - 5))).numPoints
                             let t ← (ReprDefinition.mk ((data.drop (m.s5.2.offset + 5)).take (m.s5.2.size - 5))).reprTmplNum
                             .ok (n, t)) : Outcome GribError (Nat × Nat)) = q at h
        cases q with
        | panic => cases h
        | err x =>
          exfalso
          rcases bind_err_cases hq with hq | ⟨_, -, hq⟩
          · exact rdAs_no_err hq
          · rcases bind_err_cases hq with hq | ⟨_, -, hq⟩
            · exact rdAs_no_err hq
            · cases hq
        | ok q =>
          dsimp only at h
          generalize Model.Rel.readSectPayloadAsSlice m.s5.2 r1 = y at h
          obtain ⟨y, r2⟩ := y
          cases y with
          | err x => exact .inl ⟨x, (Outcome.err.inj h).symm⟩
          | panic => cases h
          | ok s5 =>
            dsimp only [Outcome.mapErr] at h
            generalize Model.Rel.readSectPayloadAsSlice m.s7.2 r2 = z at h
            obtain ⟨z, r3⟩ := z
            cases z with
            | err x => exact .inl ⟨x, (Outcome.err.inj h).symm⟩
            | panic => cases h
            | ok s7 => cases h
    refine rest _ ?_ h
    intro e' he
    split at he
    · generalize Model.Rel.readSectPayloadAsSlice m.s6.2 r' = z at he
      obtain ⟨z, r3⟩ := z
      cases z with
      | err x => exact .inl ⟨x, (Outcome.err.inj he).symm⟩
      | panic => cases he
      | ok s7 =>
        dsimp only [Outcome.mapErr] at he
        split at he <;> cases he
    · split at he
      · cases he
      · exact .inr (Outcome.err.inj he).symm

/-- The errors of a release build before decoding. -/
theorem rel_prepared_err {f : Foreign} {o : GridOps G F} {r : Rdr} (hlen : r.data.length < 2 ^ 63) {index : Str} {e : Failure}
    (h : Rel.prepared f o r index = .err e) :
    (∃ p, e = .open_ p) ∨ e = .emptyData ∨ e = .badIndex ∨ (∃ ix, e = .noSuchIndex ix) ∨
    ∃ g m x, Model.Rel.read r = .ok g ∧ Chosen g index m ∧ e = .grib x ∧
      ((∃ k, x = .parseError k) ∨ x = .decodeError .bitMapIndicatorUnsupported) := by
  have h0 := h
  unfold Rel.prepared at h
  rcases bind_err_cases h with h | ⟨g, hg, h⟩
  · unfold Rel.openGrib at h
    cases hx : Model.Rel.read r with
    | err e => rw [hx] at h; exact .inl ⟨_, (Outcome.err.inj h).symm⟩
    | panic => rw [hx] at h; cases h
    | ok g' =>
      rw [hx] at h
      dsimp only at h
      split at h
      · exact .inr (.inl (Outcome.err.inj h).symm)
      · cases h
  have hr := rel_openGrib_ok hg
  rcases bind_err_cases h with h | ⟨ix, hix, h⟩
  · cases hp : parseIndex index with
    | ok a => rw [hp] at h; cases h
    | panic => rw [hp] at h; cases h
    | err a => rw [hp] at h; exact .inr (.inr (.inl (Outcome.err.inj h).symm))
  have hix := of_mapErr_ok hix
  cases hf : findIndex ix (g.len + 1) g.iter with
  | none => rw [hf] at h; exact .inr (.inr (.inr (.inl ⟨ix, (Outcome.err.inj h).symm⟩)))
  | some x =>
    obtain ⟨ix', m⟩ := x
    have hix' : ix' = ix := by
      have := hf
      rw [findIndex_drain] at this
      simpa using List.find?_some this
    subst hix'
    have hmem := (rel_selects hlen hr.1 ix' m).1 hf
    obtain ⟨a, b, hi, ha, hb, h1, h2⟩ := (C46_accepts index ix'.1 ix'.2).1 hix
    have hc : Chosen g index m := ⟨a, b, ix'.1, ix'.2, hi, ha, hb, h1, h2, hmem⟩
    rw [rel_prepared_chosen f o hlen hr.1 hr.2 hc] at h0
    have fin : ∀ l : Outcome Error (GridPoints F), ((Model.Rel.fromSub m g.reader).1.mapErr (fun e => Failure.grib (plain e)) >>= fun dec =>
        (Outcome.ok (l, dec) : Outcome Failure _)) = .err e → ∃ x, e = .grib x ∧
          ((∃ k, x = .parseError k) ∨ x = .decodeError .bitMapIndicatorUnsupported) := by
      intro l hl
      rcases bind_err_cases hl with hl | ⟨_, -, hl⟩
      · cases hd : (Model.Rel.fromSub m g.reader).1 with
        | ok a => rw [hd] at hl; cases hl
        | panic => rw [hd] at hl; cases hl
        | err a =>
          rw [hd] at hl
          refine ⟨_, (Outcome.err.inj hl).symm, ?_⟩
          rcases rel_fromSub_err (rel_facts hlen hr.1 hmem) (rel_fact6 hlen hr.1 hmem) hd with ⟨k, rfl⟩ | rfl
          · exact .inl ⟨k, rfl⟩
          · exact .inr rfl
      · cases hl
    refine .inr (.inr (.inr (.inr ?_)))
    cases hs : Rel.subLatlons f o ⟨payloadAt r.data m.s3.2.offset m.s3.2.size⟩ with
    | panic => rw [hs] at h0; cases h0
    | ok p =>
      rw [hs] at h0
      obtain ⟨x, hx⟩ := fin _ h0
      exact ⟨g, m, x, hr.1, hc, hx⟩
    | err p =>
      rw [hs] at h0
      obtain ⟨x, hx⟩ := fin _ h0
      exact ⟨g, m, x, hr.1, hc, hx⟩

theorem rel_prepared_open {f : Foreign} {o : GridOps G F} {r : Rdr} {index : Str} {x : Outcome Error (GridPoints F) × Decoder}
    (h : Rel.prepared f o r index = .ok x) : ∃ g, Model.Rel.read r = .ok g ∧ g.len ≠ 0 := by
  unfold Rel.prepared at h
  obtain ⟨g, hg, -⟩ := Outcome.bind_eq_ok h
  exact ⟨g, rel_openGrib_ok hg⟩

/-- C98. When `decode` of a release build ends with "something unexpected happened", the rest of the message is one of the reasons of
`RefusedRelease`, by the octets of section 3 of the chosen submessage, other than "not supported". -/
theorem C98_unexpected (f : Foreign) (s : Setting F G) (ho : Counts s.grid) (r : Rdr) (hlen : r.data.length < 2 ^ 63) (index : Str)
    (e : Error) (h : (Rel.runCommand f s (.decode index) r).2.2 = .err (.unexpected e)) :
    ∃ g m, Model.Rel.read r = .ok g ∧ Chosen g index m ∧
      RefusedRelease f s.grid (payloadAt r.data m.s3.2.offset m.s3.2.size) e ∧ ∀ t, e ≠ .notSupported t := by
  dsimp only [Rel.runCommand] at h
  unfold Rel.decodeShown Rel.decodePrepare at h
  cases hp : Rel.prepared f s.grid r index with
  | err e' =>
    rw [hp] at h
    dsimp only at h
    obtain rfl := Outcome.err.inj h
    exfalso
    rcases rel_prepared_err hlen hp with ⟨_, h⟩ | h | h | ⟨_, h⟩ | ⟨_, _, _, -, -, h, -⟩ <;> cases h
  | panic => rw [hp] at h; cases h
  | ok x =>
    obtain ⟨l, dec⟩ := x
    rw [hp] at h
    obtain ⟨g, hr, hne⟩ := rel_prepared_open hp
    obtain ⟨m, hm, hl, -, -⟩ := rel_prepared_ok hlen hr hne hp
    dsimp only at h
    cases hd : Rel.dispatch s.codecs dec with
    | err e' => rw [hd] at h; cases h
    | panic => rw [hd] at h; cases h
    | ok v =>
      rw [hd] at h
      dsimp only [Outcome.mapErr, Outcome.bind_ok] at h
      cases hv : v.toList s.codecs.ops with
      | done vs =>
        rw [hv] at h
        dsimp only at h
        cases ht : textPoints s.codecs.ops vs.length l with
        | panic => rw [ht] at h; cases h
        | ok p =>
          rw [ht] at h
          dsimp only at h
          split at h <;> cases h
        | err e' =>
          rw [ht] at h
          obtain rfl := Outcome.err.inj h
          unfold textPoints at ht
          refine ⟨g, m, hr, hm, ?_⟩
          cases l with
          | ok p => cases ht
          | panic => cases ht
          | err x =>
            have hx : e = x ∧ ∀ t, x ≠ .notSupported t := by
              cases x with
              | notSupported t => cases ht
              | _ => exact ⟨(Failure.unexpected.inj (Outcome.err.inj ht)).symm, fun t h => (by cases h)⟩
            obtain ⟨rfl, hx⟩ := hx
            exact ⟨C98_coordinates f s.grid ho _ _ hl.symm, hx⟩
      | _ => rw [hv] at h; cases h

/-- C98. When `decode` of a release build or its binary output ends with an error of the library, it is an error of reading or parsing,
a decoding error, or the text about Code Table 5.6 with the value of octet 48 of section 5 (template 5.3). -/
theorem C98_decode (f : Foreign) (s : Setting F G) (r : Rdr) (hlen : r.data.length < 2 ^ 63) (index : Str) (big : Bool) (cmd : Command)
    (hcmd : cmd = .decode index ∨ cmd = .export big index) (e : Error) (h : (Rel.runCommand f s cmd r).2.2 = .err (.grib e)) :
    ∃ g m, Model.Rel.read r = .ok g ∧ Chosen g index m ∧
      ((∃ k, e = .parseError k) ∨ (∃ x, e = .decodeError x) ∨
        ∃ dec, (Model.Rel.fromSub m g.reader).1 = .ok dec ∧ dec.templateNum = 3 ∧ sectNumber dec.sect5 48 48 ∉ [1, 2, 255] ∧
          e = .notSupported ("Code Table 5.6 value '".toList ++ showNat (sectNumber dec.sect5 48 48) ++
            "' is not supported".toList)) := by
  have key : (Rel.decodePrepare f s.grid s.codecs r index).2 = .err (.grib e) := by
    rcases hcmd with rfl | rfl
    · dsimp only [Rel.runCommand] at h
      unfold Rel.decodeShown at h
      generalize Rel.decodePrepare f s.grid s.codecs r index = z at h ⊢
      obtain ⟨w, z⟩ := z
      cases z with
      | err e => exact congrArg Outcome.err (Outcome.err.inj h)
      | panic => cases h
      | ok x =>
        exfalso
        obtain ⟨l, v⟩ := x
        dsimp only at h
        cases hv : v.toList s.codecs.ops with
        | done vs =>
          rw [hv] at h
          dsimp only at h
          cases ht : textPoints s.codecs.ops vs.length l with
          | panic => rw [ht] at h; cases h
          | ok p =>
            rw [ht] at h
            dsimp only at h
            split at h <;> cases h
          | err e' =>
            rw [ht] at h
            obtain rfl := Outcome.err.inj h
            unfold textPoints at ht
            cases l with
            | ok p => cases ht
            | panic => cases ht
            | err x => cases x <;> cases ht
        | _ => rw [hv] at h; cases h
    · dsimp only [Rel.runCommand] at h
      unfold Rel.decodeBinary at h
      generalize Rel.decodePrepare f s.grid s.codecs r index = z at h ⊢
      obtain ⟨w, z⟩ := z
      cases z with
      | err e => exact congrArg Outcome.err (Outcome.err.inj h)
      | panic => cases h
      | ok x =>
        exfalso
        obtain ⟨l, v⟩ := x
        dsimp only at h
        generalize writeOutput s.sched _ = q at h
        obtain ⟨q, q'⟩ := q
        cases q with
        | ok u => dsimp only at h; split at h <;> cases h
        | err u => cases h
        | panic => cases h
  unfold Rel.decodePrepare at key
  cases hp : Rel.prepared f s.grid r index with
  | err e' =>
    rw [hp] at key
    obtain rfl := Outcome.err.inj key
    rcases rel_prepared_err hlen hp with ⟨_, h⟩ | h | h | ⟨_, h⟩ | ⟨g, m, x, hr, hm, h, hx⟩
    · cases h
    · cases h
    · cases h
    · cases h
    · obtain rfl := Failure.grib.inj h
      refine ⟨g, m, hr, hm, ?_⟩
      rcases hx with hx | hx
      · exact .inl hx
      · exact .inr (.inl ⟨_, hx⟩)
  | panic => rw [hp] at key; cases key
  | ok x =>
    obtain ⟨l, dec⟩ := x
    rw [hp] at key
    obtain ⟨g, hr, hne⟩ := rel_prepared_open hp
    obtain ⟨m, hm, -, -, hdec⟩ := rel_prepared_ok hlen hr hne hp
    refine ⟨g, m, hr, hm, .inr ?_⟩
    dsimp only at key
    rcases bind_err_cases key with key | ⟨_, -, key⟩
    · cases hd : Rel.dispatch s.codecs dec with
      | ok v => rw [hd] at key; cases key
      | panic => rw [hd] at key; cases key
      | err e' =>
        rw [hd] at key
        obtain rfl := Failure.grib.inj (Outcome.err.inj key)
        rcases rel_dispatch_err hd with h | ⟨h1, h2, h3⟩
        · exact .inl h
        · exact .inr ⟨dec, hdec, h1, h2, h3⟩
    · cases key

/-! ## Examples -/

def releaseStderrOf (cmd : Command) (raw : RawMessage) : Option Str :=
  stderr exampleTexts (Rel.runCommand exampleTexts exampleSetting cmd ⟨messagesBytes [([], raw)], 0, []⟩)

/-- `gridRaw` with latitudes from 2000 to -2000 degrees. -/
def tallRaw : RawMessage :=
  { gridRaw with first := { gridRaw.first with grid := some ([0, 0, 0, 0, 4, 0, 0, 0, 0] ++ List.replicate 16 0 ++
        [0, 0, 0, 2, 0, 0, 0, 2] ++ List.replicate 8 0 ++ [0x77, 0x35, 0x94, 0, 0, 0, 0, 0, 0,
          0xf7, 0x35, 0x94, 0, 0, 0x0f, 0x42, 0x40] ++ List.replicate 8 0 ++ [0]) } }

/-- C98: where a debug build panics, a release build may write a message that is wrong: here the latitudes are in the order that the
scanning mode says. -/
theorem C98_latitudes_fails :
    stderrOf (.decode "0.0".toList) tallRaw = none ∧
    releaseStderrOf (.decode "0.0".toList) tallRaw = some
      ("error: something unexpected happened:: invalid value (Latitudes for first/last grid points are not consistent with " ++
        "scanning mode)\n").toList ∧
    RowsAgree 2000000000 (-2000000000) 0 ∧ ¬ RowsAccepted 2000000000 (-2000000000) 0 := by
  decide +kernel

/-- As in a debug build: numbers of points that differ, a month 13, no such submessage, a warning, nothing for the good file. -/
example : releaseStderrOf (.decode "0.0".toList) fivePointsRaw = some
      "error: something unexpected happened:: invalid value (number of grid points does not match: 5 (defined) vs 4 (decoded))\n".toList ∧
    releaseStderrOf .info { gridRaw with ident := [0, 7, 0, 0, 2, 1, 0, 7, 228, 13, 2, 3, 4, 5, 0, 1] } = some
      "error: invalid value (invalid date time: 2020-13-02 03:04:05)\n".toList ∧
    releaseStderrOf (.export true "12.3".toList) gridRaw = some "error: no such index: 12.3\n".toList ∧
    releaseStderrOf (.decode "0.0".toList) (withRepr [0, 0, 0, 2, 0, 40, 0, 0, 0, 0, 0, 0, 0, 0, 0, 0]) = some
      "WARNING: nbit = 0 for JPEG 2000 code stream format decoder is not tested.\n            Please report your data and help us develop the library.\n".toList ∧
    releaseStderrOf (.decode "0.0".toList) gridRaw = some [] := by
  decide +kernel

/-- The hypotheses of `C98_debug`, `C98_info` and `C98_warnings` hold for a good file. -/
example : (messagesBytes [([], gridRaw)]).length < 2 ^ 63 ∧
    exitStatus (Cli.runCommand exampleSetting (.decode "0.0".toList) ⟨messagesBytes [([], gridRaw)], 0, []⟩).2 = 0 ∧
    (Model.Rel.read ⟨messagesBytes [([], gridRaw)], 0, []⟩).ok?.map Grib2.len = some 1 := by
  decide +kernel

/-- The hypotheses of `C96_refuses` and `C98_refuses` hold for a good grid, and a release build gives its coordinates. -/
example : ∃ p, gridRaw.first.grid = some p ∧ p.length = 67 ∧ sectNumber p 13 14 = 0 ∧
    (subLatlons exampleTexts exampleSetting.grid ⟨p⟩).ok?.isSome = true ∧
    (Rel.subLatlons exampleTexts exampleSetting.grid ⟨p⟩).ok?.isSome = true :=
  ⟨_, rfl, by decide +kernel⟩

end Grib.Msg
