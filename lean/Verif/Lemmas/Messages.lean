import Verif.Model.Messages

/-! # The model with texts and the one without -/

namespace Grib

open Grib.Model Grib.Text Grib.Codes Grib.Cli

namespace Msg

variable {ε ε' F G α β : Type}

theorem er_bind {g : ε → ε'} {x : Outcome ε α} {y : Outcome ε' α} {k : α → Outcome ε β} {k' : α → Outcome ε' β}
    (h : x.mapErr g = y) (hk : ∀ a, (k a).mapErr g = k' a) : (x >>= k).mapErr g = y >>= k' := by
  subst h
  cases x with
  | ok a => exact hk a
  | err e => rfl
  | panic => rfl

theorem er_ofOption (g : ε → ε') (o : Option α) : (Outcome.ofOption o : Outcome ε α).mapErr g = Outcome.ofOption o := by
  cases o <;> rfl

theorem er_rdAs (g : ε → ε') (p : List UInt8) (a n : Nat) : (rdAs p a n : Outcome ε Nat).mapErr g = rdAs p a n := er_ofOption g _
theorem er_rdIdx (g : ε → ε') (p : List UInt8) (a : Nat) : (rdIdx p a : Outcome ε Nat).mapErr g = rdIdx p a := er_ofOption g _

theorem er_ite {g : ε → ε'} {c : Prop} [Decidable c] {x y : Outcome ε α} {x' y' : Outcome ε' α} (h : c → x.mapErr g = x')
    (h' : ¬ c → y.mapErr g = y') : (if c then x else y).mapErr g = if c then x' else y' := by
  by_cases hc : c
  · simp only [if_pos hc]; exact h hc
  · simp only [if_neg hc]; exact h' hc

theorem er_sliceTo (g : ε → ε') (p : List UInt8) (a b : Nat) : (sliceTo p a b : Outcome ε _).mapErr g = sliceTo p a b :=
  er_ite (fun _ => rfl) (fun _ => rfl)

/-- Functions without errors of their own. -/
macro "er" : tactic => `(tactic| repeat' first
  | exact rfl
  | exact er_rdAs _ _ _ _
  | exact er_rdIdx _ _ _
  | exact er_ofOption _ _
  | exact er_sliceTo _ _ _ _
  | (refine er_bind ?_ fun _ => ?_)
  | (refine er_ite (fun _ => ?_) (fun _ => ?_)))

theorem er_checkI32 (g : ε → ε') (x : Int) : (checkI32 x : Outcome ε Int).mapErr g = checkI32 x := by
  unfold checkI32; er

theorem er_consistent (g : ε → ε') (a b : Int) (m : ScanningMode) :
    (isConsistentForJ a b m : Outcome ε Bool).mapErr g = isConsistentForJ a b m := by
  unfold isConsistentForJ
  exact er_bind (er_checkI32 g _) fun _ => rfl

theorem er_sizeHint (g : ε → ε') (it : GridIter) : (it.sizeHint : Outcome ε Nat).mapErr g = it.sizeHint := by
  unfold GridIter.sizeHint; er

theorem er_pointsHint (g : ε → ε') (p : GridPoints F) : (p.sizeHint : Outcome ε Nat).mapErr g = p.sizeHint := by
  cases p with
  | latLon it => exact er_sizeHint g _
  | lambert ps => rfl

theorem er_longitudes (g : ε → ε') (ops : FloatOps F) (a b : Int) (n : Nat) (m : ScanningMode) :
    (evenlySpacedLongitudes ops a b n m : Outcome ε (List F)).mapErr g = evenlySpacedLongitudes ops a b n m := by
  unfold evenlySpacedLongitudes
  refine er_bind (er_checkI32 g _) fun d => ?_
  dsimp only
  er
  all_goals first | exact er_checkI32 _ _ | skip

theorem er_roots (g : ε → ε') (o : GaussOps G F) (n : Nat) :
    (legendreRoots o n : Outcome ε (List (Option G))).mapErr g = legendreRoots o n := by
  unfold legendreRoots; er

theorem er_earth (g : ε → ε') (b : List UInt8) : (EarthShape.fromBuf b : Outcome ε _).mapErr g = EarthShape.fromBuf b := by
  unfold EarthShape.fromBuf; er

theorem er_latLonBuf (g : ε → ε') (b : List UInt8) : (LatLonGrid.fromBuf b : Outcome ε _).mapErr g = LatLonGrid.fromBuf b := by
  unfold LatLonGrid.fromBuf; er

theorem er_gaussBuf (g : ε → ε') (b : List UInt8) : (GaussianGrid.fromBuf b : Outcome ε _).mapErr g = GaussianGrid.fromBuf b := by
  unfold GaussianGrid.fromBuf; er

theorem er_polarBuf (g : ε → ε') (b : List UInt8) : (PolarGrid.fromBuf b : Outcome ε _).mapErr g = PolarGrid.fromBuf b := by
  unfold PolarGrid.fromBuf
  exact er_bind (er_earth g _) fun _ => by er

theorem er_lambertBuf (g : ε → ε') (b : List UInt8) : (LambertGrid.fromBuf b : Outcome ε _).mapErr g = LambertGrid.fromBuf b := by
  unfold LambertGrid.fromBuf
  exact er_bind (er_earth g _) fun _ => by er

/-! ## Erasure -/

theorem gridIj_erase (ni nj : Nat) (m : ScanningMode) : (gridIj ni nj m).mapErr Error.erase = Model.gridIj ni nj m :=
  er_ite (fun _ => rfl) (fun _ => rfl)

theorem latLon_erase (ops : FloatOps F) (g : LatLonGrid) : (latLon ops g).mapErr Error.erase = g.latlons ops := by
  unfold latLon LatLonGrid.latlons
  refine er_bind (er_consistent _ _ _ _) fun c => er_ite (fun _ => rfl) fun _ => er_bind (gridIj_erase _ _ _) fun ij =>
    er_ite (fun _ => rfl) fun _ => ?_
  exact er_ite (fun _ => rfl) fun _ => er_bind (er_longitudes _ _ _ _ _ _) fun _ => rfl

theorem gaussianLatitudes_erase (g : GaussOps G F) (n : Nat) :
    (gaussianLatitudes g n).mapErr Error.erase = Model.gaussianLatitudes g n := by
  unfold gaussianLatitudes Model.gaussianLatitudes
  refine er_bind (er_roots _ _ _) fun roots => ?_
  cases allSome (roots.map fun x => x.map fun i => g.toDegrees (g.asin i)) <;> rfl

theorem gaussian_erase (g : GaussOps G F) (ops : FloatOps F) (d : GaussianGrid) :
    (gaussian g ops d).mapErr Error.erase = d.latlons g ops := by
  unfold gaussian GaussianGrid.latlons
  refine er_bind (er_consistent _ _ _ _) fun c => er_ite (fun _ => rfl) fun _ => er_bind (gridIj_erase _ _ _) fun ij =>
    er_bind (gaussianLatitudes_erase _ _) fun lat => ?_
  exact er_ite (fun _ => rfl) fun _ => er_bind (er_longitudes _ _ _ _ _ _) fun _ => rfl

theorem collectIj_erase (it : GridIter) : (collectIj it).mapErr Error.erase = Model.collectIj it := by
  unfold collectIj Model.collectIj
  cases it.drain (it.majorLen * it.minorLen + 1) <;> rfl

theorem projected_erase (f : Foreign) (p : ProjOps G F) (d : ProjDef G) (first delta : G × G) (ij : GridIter) :
    (projected f p d first delta ij).mapErr Error.erase = latlonsFromProjection p d first delta ij := by
  unfold projected latlonsFromProjection
  refine er_ite (fun _ => rfl) fun _ => ?_
  cases p.forward d (p.toRadians first.2, p.toRadians first.1) with
  | none => rfl
  | some x =>
    refine er_bind (collectIj_erase _) fun ps => ?_
    dsimp only
    cases p.inverseAll d (ps.map fun (i, j) =>
        (p.ops.add x.1 (p.ops.mul delta.1 (p.ops.ofInt i)), p.ops.add x.2 (p.ops.mul delta.2 (p.ops.ofInt j)))) <;> rfl

theorem polar_erase (f : Foreign) (p : ProjOps G F) (d : PolarGrid) : (polar f p d).mapErr Error.erase = d.latlons p := by
  unfold polar PolarGrid.latlons
  cases d.earth.radii p.ops with
  | none => rfl
  | some x => exact er_ite (fun _ => rfl) fun _ => er_bind (gridIj_erase _ _ _) fun ij => projected_erase _ _ _ _ _ _

theorem lambert_erase (f : Foreign) (p : ProjOps G F) (d : LambertGrid) : (lambert f p d).mapErr Error.erase = d.latlons p := by
  unfold lambert LambertGrid.latlons
  cases d.earth.radii p.ops with
  | none => rfl
  | some x => exact er_bind (gridIj_erase _ _ _) fun ij => projected_erase _ _ _ _ _ _

theorem tryFrom_erase (d : GridDefinition) : (tryFrom d).mapErr Error.erase = GridTemplate.tryFrom d := by
  unfold tryFrom GridTemplate.tryFrom
  refine er_bind (er_rdAs _ _ _ _) fun num => ?_
  dsimp only
  split
  · exact er_ite (fun _ => rfl) fun _ => er_bind (er_sliceTo _ _ _ _) fun _ => er_bind (er_latLonBuf _ _) fun _ => rfl
  · exact er_bind (er_sliceTo _ _ _ _) fun _ => er_bind (er_polarBuf _ _) fun _ => rfl
  · exact er_bind (er_sliceTo _ _ _ _) fun _ => er_bind (er_lambertBuf _ _) fun _ => rfl
  · exact er_ite (fun _ => rfl) fun _ => er_bind (er_sliceTo _ _ _ _) fun _ => er_bind (er_gaussBuf _ _) fun _ => rfl
  · split <;> first | rfl | (exfalso; simp_all; done)

theorem templateLatlons_erase (f : Foreign) (o : GridOps G F) (t : GridTemplate) :
    (templateLatlons f o t).mapErr Error.erase = t.latlons o := by
  cases t with
  | template0 g => exact er_bind (latLon_erase _ _) fun _ => rfl
  | template20 g =>
    dsimp only [templateLatlons, GridTemplate.latlons]
    cases o.proj with
    | none => rfl
    | some p => exact er_bind (polar_erase _ _ _) fun _ => rfl
  | template30 g =>
    dsimp only [templateLatlons, GridTemplate.latlons]
    cases o.proj with
    | none => rfl
    | some p => exact er_bind (lambert_erase _ _ _) fun _ => rfl
  | template40 g => exact er_bind (gaussian_erase _ _ _) fun _ => rfl

theorem subIj_erase (d : GridDefinition) : (subIj d).mapErr Error.erase = Model.subIj d := by
  unfold subIj Model.subIj
  exact er_bind (er_rdAs _ _ _ _) fun n => er_bind (tryFrom_erase _) fun t => er_bind (gridIj_erase _ _ _) fun ij =>
    er_bind (er_sizeHint _ _) fun m => er_ite (fun _ => rfl) fun _ => rfl

theorem subLatlons_erase (f : Foreign) (o : GridOps G F) (d : GridDefinition) :
    (subLatlons f o d).mapErr Error.erase = Model.subLatlons o d := by
  unfold subLatlons Model.subLatlons
  exact er_bind (er_rdAs _ _ _ _) fun n => er_bind (tryFrom_erase _) fun t => er_bind (templateLatlons_erase _ _ _) fun ij =>
    er_bind (er_pointsHint _ _) fun m => er_ite (fun _ => rfl) fun _ => rfl

theorem erase_plain (e : GribError) : (plain e).erase = e := by cases e <;> rfl

theorem er_plain (x : Outcome GribError α) : (x.mapErr plain).mapErr Error.erase = x := by
  cases x with
  | ok a => rfl
  | err e => exact congrArg Outcome.err (erase_plain e)
  | panic => rfl

theorem er_octetLength (g : ε → ε') (a b : Nat) : (getOctetLength a b : Outcome ε Nat).mapErr g = getOctetLength a b := by
  unfold getOctetLength; er

theorem er_complexParam (g : ε → ε') (b : List UInt8) : (ComplexParam.fromSect5 b : Outcome ε _).mapErr g = ComplexParam.fromSect5 b := by
  unfold ComplexParam.fromSect5; er

theorem er_decodeComplexPacking (g : ε → ε') (p : ComplexParam) (s : List UInt8) (a n : Nat) (z : Int) :
    (decodeComplexPacking p s a n z : Outcome ε _).mapErr g = decodeComplexPacking p s a n z := by
  unfold decodeComplexPacking
  er
  all_goals first | exact er_octetLength _ _ _ | skip

theorem er_minimum (g : ε → ε') (d : DiffDescriptors) : (d.minimum : Outcome ε Int).mapErr g = d.minimum := er_ofOption _ _

theorem er_firstValues (g : ε → ε') (d : DiffDescriptors) (fuel : Nat) :
    ∀ pos, (d.firstValues fuel pos : Outcome ε _).mapErr g = d.firstValues fuel pos := by
  induction fuel with
  | zero => intro pos; rfl
  | succ n ih =>
    intro pos
    unfold DiffDescriptors.firstValues
    refine er_ite (fun _ => rfl) fun _ => ?_
    er
    all_goals exact ih _

theorem complexDecode3_erase (ops : FloatOps F) (t : Decoder) :
    (complexDecode3 ops t).mapErr Error.erase = Model.complexDecode3 ops t := by
  unfold complexDecode3 Model.complexDecode3
  refine er_bind (er_plain _) fun simple => er_bind (er_complexParam _ _) fun cp => er_bind (er_rdAs _ _ _ _) fun order =>
    er_ite (fun _ => rfl) fun _ => ?_
  refine er_bind (er_rdAs _ _ _ _) fun octets => er_ite (fun _ => rfl) fun _ => ?_
  exact er_bind (er_plain _) fun d => er_bind (er_minimum _ _) fun m => er_bind (er_decodeComplexPacking _ _ _ _ _ _) fun items =>
    er_bind (er_firstValues _ _ _ _) fun first => rfl

theorem dispatch_erase (c : Codecs F) (t : Decoder) : (dispatch c t).mapErr Error.erase = t.dispatch c := by
  unfold dispatch Decoder.dispatch
  refine er_bind ?_ fun vs => er_plain _
  unfold decodeValues
  by_cases h : t.templateNum = 3
  · rw [if_pos h, complexDecode3_erase]
    unfold Decoder.decodeValues
    rw [h]
    rfl
  · rw [if_neg h, er_plain]

theorem openGrib_erase (r : Rdr) : (openGrib r).mapErr Failure.erase = Cli.openGrib r := by
  unfold openGrib Cli.openGrib
  cases Grib2.read r with
  | ok g => dsimp only; split <;> rfl
  | err e => rfl
  | panic => rfl

theorem er_gridDef (g : ε → ε') (m : SubMessage) : (m.gridDef : Outcome ε _).mapErr g = m.gridDef := by
  unfold SubMessage.gridDef; split <;> rfl

theorem mapErr_mapErr {ε'' : Type} (g : ε → ε') (g' : ε' → ε'') (x : Outcome ε α) :
    (x.mapErr g).mapErr g' = x.mapErr (fun e => g' (g e)) := by cases x <;> rfl

/-- The coordinates without the texts. -/
def strip (x : Outcome Error (GridPoints F) × BitmapIter F) : Outcome GribError (GridPoints F) × BitmapIter F :=
  (x.1.mapErr Error.erase, x.2)

/-- `Functor.map`. -/
def mapOk (g : α → β) : Outcome ε α → Outcome ε β
  | .ok a => .ok (g a)
  | .err e => .err e
  | .panic => .panic

theorem mapOk_bind {γ : Type} (g : β → γ) (x : Outcome ε α) (k : α → Outcome ε β) : mapOk g (x >>= k) = x >>= fun a => mapOk g (k a) := by
  cases x <;> rfl

theorem decodePrepare_erase (f : Foreign) (o : GridOps G F) (c : Codecs F) (r : Rdr) (index : Str) :
    (mapOk strip (decodePrepare f o c r index).2).mapErr Failure.erase = Cli.decodePrepare o c r index := by
  have h1 : (decodePrepare f o c r index).2 = (do
      let x ← prepared f o r index
      let values ← (dispatch c x.2).mapErr .grib
      .ok (x.1, values)) := by
    unfold decodePrepare
    cases prepared f o r index <;> rfl
  rw [h1, mapOk_bind]
  unfold prepared Cli.decodePrepare
  have assoc : ∀ {α β γ : Type} (x : Outcome Failure α) (k : α → Outcome Failure β) (k' : β → Outcome Failure γ),
      ((x >>= k) >>= k') = x >>= fun a => k a >>= k' := by intro _ _ _ x k k'; cases x <;> rfl
  rw [assoc]
  refine er_bind (openGrib_erase r) fun g => ?_
  rw [assoc]
  refine er_bind (mapErr_mapErr _ _ _) fun ix => ?_
  cases findIndex ix (g.len + 1) g.iter with
  | none => rfl
  | some x =>
    dsimp only
    rw [assoc]
    refine er_bind (er_gridDef _ _) fun d => ?_
    have hs := subLatlons_erase f o d
    have rest : ∀ (l : Outcome Error (GridPoints F)) (l' : Outcome GribError (GridPoints F)), l.mapErr Error.erase = l' →
        ((Outcome.require (match l with | .panic => false | _ => true) >>= fun _ =>
          ((Decoder.fromSub x.2 g.reader).1.mapErr fun e => Failure.grib (plain e)) >>= fun dec =>
            (Outcome.ok (l, dec) : Outcome Failure _)) >>= fun a =>
          mapOk strip (((dispatch c a.2).mapErr Failure.grib) >>= fun values => Outcome.ok (a.1, values))).mapErr Failure.erase =
        (Outcome.require (match l' with | .panic => false | _ => true) >>= fun _ =>
          ((Decoder.fromSub x.2 g.reader).1.mapErr CliError.grib) >>= fun dec =>
          ((dec.dispatch c).mapErr CliError.grib) >>= fun values => Outcome.ok (l', values)) := by
      intro l l' hl
      rw [assoc]
      refine er_bind ?_ fun _ => ?_
      · subst hl; cases l <;> rfl
      rw [assoc]
      refine er_bind ?_ fun dec => ?_
      · rw [mapErr_mapErr]
        congr 1
        funext e
        exact congrArg CliError.grib (erase_plain e)
      · rw [← dispatch_erase]
        change (mapOk strip (((dispatch c dec).mapErr Failure.grib) >>= fun values => Outcome.ok (l, values))).mapErr Failure.erase = _
        subst hl
        cases dispatch c dec <;> rfl
    exact rest _ _ hs

theorem textPoints_erase (ops : FloatOps F) (n : Nat) (x : Outcome Error (GridPoints F)) :
    (textPoints ops n x).mapErr Failure.erase = Cli.textPoints ops n (x.mapErr Error.erase) := by
  cases x with
  | ok p => rfl
  | panic => rfl
  | err e => cases e <;> rfl

/-- The refined result and the original one. -/
theorem prepare_cases (f : Foreign) (o : GridOps G F) (c : Codecs F) (r : Rdr) (index : Str) :
    (∃ w e, decodePrepare f o c r index = (w, .err e) ∧ Cli.decodePrepare o c r index = .err e.erase) ∨
    (∃ w, decodePrepare f o c r index = (w, .panic) ∧ Cli.decodePrepare o c r index = .panic) ∨
    ∃ w l v, decodePrepare f o c r index = (w, .ok (l, v)) ∧ Cli.decodePrepare o c r index = .ok (l.mapErr Error.erase, v) := by
  have h := decodePrepare_erase f o c r index
  cases hd : decodePrepare f o c r index with
  | mk w x =>
    rw [hd] at h
    cases x with
    | ok a => exact .inr (.inr ⟨w, a.1, a.2, rfl, h.symm⟩)
    | err e => exact .inl ⟨w, e, rfl, h.symm⟩
    | panic => exact .inr (.inl ⟨w, rfl, h.symm⟩)

theorem decodeShown_erase (f : Foreign) (s : Setting F G) (r : Rdr) (index : Str) :
    (decodeShown f s r index).1 = (Cli.decodeShown s r index).1 ∧
    (decodeShown f s r index).2.2.mapErr Failure.erase = (Cli.decodeShown s r index).2 := by
  unfold decodeShown Cli.decodeShown
  rcases prepare_cases f s.grid s.codecs r index with ⟨w, e, h1, h2⟩ | ⟨w, h1, h2⟩ | ⟨w, l, v, h1, h2⟩
  · rw [h1, h2]; exact ⟨rfl, rfl⟩
  · rw [h1, h2]; exact ⟨rfl, rfl⟩
  · rw [h1, h2]
    dsimp only
    cases v.toList s.codecs.ops with
    | done vs =>
      dsimp only
      rw [← textPoints_erase]
      cases textPoints s.codecs.ops vs.length l with
      | err e => exact ⟨rfl, rfl⟩
      | panic => exact ⟨rfl, rfl⟩
      | ok p =>
        dsimp only [Outcome.mapErr, Cli.display]
        cases (p.sizeHint : Outcome Empty Nat) with
        | ok n => dsimp only [Cli.display]; cases (zipShow (rowLine s.fix6 s.showF) vs p).2 <;> exact ⟨rfl, rfl⟩
        | err e => exact ⟨rfl, rfl⟩
        | panic => exact ⟨rfl, rfl⟩
    | panic => exact ⟨rfl, rfl⟩
    | more l => exact ⟨rfl, rfl⟩

theorem decodeBinary_erase (f : Foreign) (s : Setting F G) (big : Bool) (r : Rdr) (index : Str) :
    (decodeBinary f s big r index).2.mapErr Failure.erase =
      (Cli.decodeBinary s.grid s.codecs s.bits big s.sched r index).1 := by
  unfold decodeBinary Cli.decodeBinary
  rcases prepare_cases f s.grid s.codecs r index with ⟨w, e, h1, h2⟩ | ⟨w, h1, h2⟩ | ⟨w, l, v, h1, h2⟩
  · rw [h1, h2]; rfl
  · rw [h1, h2]; rfl
  · rw [h1, h2]
    dsimp only
    split <;> rename_i h
    · rw [h]; dsimp only; split <;> rfl
    · rw [h]; rfl
    · rw [h]; rfl

theorem infoLoop_erase (k : Constants) (l : List ((Nat × Nat) × SubMessage)) :
    (infoLoop k l).1 = (Cli.infoLoop k chronoValid l).1.flatMap InfoBlock.text ∧
    (infoLoop k l).2.mapErr Failure.erase = (Cli.infoLoop k chronoValid l).2.mapErr fun _ => .grib .invalidValueError := by
  induction l with
  | nil => exact ⟨rfl, rfl⟩
  | cons x xs ih =>
    unfold infoLoop Cli.infoLoop
    by_cases h : x.1.2 = 0
    · simp only [if_pos h]
      cases infoBlock k chronoValid x.1 x.2 with
      | ok b =>
        dsimp only
        refine ⟨?_, ih.2⟩
        rw [ih.1, List.flatMap_append]
        cases b <;> simp
      | err e => exact ⟨rfl, rfl⟩
      | panic => exact ⟨rfl, rfl⟩
    · simp only [if_neg h]
      exact ih

theorem display_cases (a : Outcome Empty Nat) (t : Str × Bool) :
    (runCommand.shown (Cli.display a t)).1 = (Cli.display a t).1 ∧
    (runCommand.shown (Cli.display a t)).2.2.mapErr Failure.erase = (Cli.display a t).2 := by
  unfold Cli.display
  cases a with
  | ok n => dsimp only; cases t.2 <;> exact ⟨rfl, rfl⟩
  | err e => exact ⟨rfl, rfl⟩
  | panic => exact ⟨rfl, rfl⟩

theorem opened_erase (r : Rdr) : (∃ e, openGrib r = .err e ∧ Cli.openGrib r = .err e.erase) ∨
    (openGrib r = .panic ∧ Cli.openGrib r = .panic) ∨ ∃ g, openGrib r = .ok g ∧ Cli.openGrib r = .ok g := by
  have h := openGrib_erase r
  cases ho : openGrib r with
  | ok g => rw [ho] at h; exact .inr (.inr ⟨g, rfl, h.symm⟩)
  | err e => rw [ho] at h; exact .inl ⟨e, rfl, h.symm⟩
  | panic => rw [ho] at h; exact .inr (.inl ⟨rfl, h.symm⟩)

end Msg
end Grib
