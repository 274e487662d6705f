import Verif.Model.ReleaseMessages
import Verif.Lemmas.Messages
import Verif.Props.ReleaseCli

/-! # Messages of a release build: the model with texts, the one without, and the one of a debug build -/

namespace Grib.Msg.Rel

open Grib Grib.Model Grib.Text Grib.Codes Grib.Cli Grib.Msg

variable {ε ε' F G α β : Type}

/-! ## Erasure -/

theorem latLon_erase (ops : FloatOps F) (g : LatLonGrid) : (latLon ops g).mapErr Error.erase = Model.Rel.latLonLatlons ops g := by
  unfold latLon Model.Rel.latLonLatlons
  exact er_ite (fun _ => rfl) fun _ => er_bind (gridIj_erase _ _ _) fun ij => rfl

theorem gaussianLatitudes_erase (g : GaussOps G F) (n : Nat) :
    (gaussianLatitudes g n).mapErr Error.erase = Model.Rel.gaussianLatitudes g n := by
  unfold gaussianLatitudes Model.Rel.gaussianLatitudes
  cases allSome ((Model.Rel.legendreRoots g n).map fun x => x.map fun i => g.toDegrees (g.asin i)) <;> rfl

theorem gaussian_erase (g : GaussOps G F) (ops : FloatOps F) (d : GaussianGrid) :
    (gaussian g ops d).mapErr Error.erase = Model.Rel.gaussianLatlons g ops d := by
  unfold gaussian Model.Rel.gaussianLatlons
  exact er_ite (fun _ => rfl) fun _ => er_bind (gridIj_erase _ _ _) fun ij =>
    er_bind (gaussianLatitudes_erase _ _) fun lat => rfl

theorem templateLatlons_erase (f : Foreign) (o : GridOps G F) (t : GridTemplate) :
    (templateLatlons f o t).mapErr Error.erase = Model.Rel.templateLatlons o t := by
  cases t with
  | template0 g => exact er_bind (latLon_erase _ _) fun _ => rfl
  | template20 g =>
    dsimp only [templateLatlons, Model.Rel.templateLatlons]
    cases o.proj with
    | none => rfl
    | some p => exact er_bind (polar_erase _ _ _) fun _ => rfl
  | template30 g =>
    dsimp only [templateLatlons, Model.Rel.templateLatlons]
    cases o.proj with
    | none => rfl
    | some p => exact er_bind (lambert_erase _ _ _) fun _ => rfl
  | template40 g => exact er_bind (gaussian_erase _ _ _) fun _ => rfl

theorem subLatlons_erase (f : Foreign) (o : GridOps G F) (d : GridDefinition) :
    (subLatlons f o d).mapErr Error.erase = Model.Rel.subLatlons o d := by
  unfold subLatlons Model.Rel.subLatlons
  exact er_bind (er_rdAs _ _ _ _) fun n => er_bind (tryFrom_erase _) fun t => er_bind (templateLatlons_erase _ _ _) fun ij =>
    er_ite (fun _ => rfl) fun _ => rfl

theorem er_decodeComplexPacking (g : ε → ε') (p : ComplexParam) (s : List UInt8) (a n : Nat) (z : Int) :
    (Model.Rel.decodeComplexPacking p s a n z : Outcome ε _).mapErr g = Model.Rel.decodeComplexPacking p s a n z := by
  unfold Model.Rel.decodeComplexPacking
  er

theorem complexDecode3_erase (ops : FloatOps F) (t : Decoder) :
    (complexDecode3 ops t).mapErr Error.erase = Model.Rel.complexDecode3 ops t := by
  unfold complexDecode3 Model.Rel.complexDecode3
  refine er_bind (er_plain _) fun simple => er_bind (er_complexParam _ _) fun cp => er_bind (er_rdAs _ _ _ _) fun order =>
    er_ite (fun _ => rfl) fun _ => ?_
  refine er_bind (er_rdAs _ _ _ _) fun octets => er_ite (fun _ => rfl) fun _ => ?_
  exact er_bind (er_plain _) fun d => er_bind (er_minimum _ _) fun m => er_bind (er_decodeComplexPacking _ _ _ _ _ _) fun items =>
    er_bind (er_firstValues _ _ _ _) fun first => rfl

theorem dispatch_erase (c : Codecs F) (t : Decoder) : (dispatch c t).mapErr Error.erase = Model.Rel.dispatch c t := by
  unfold dispatch Model.Rel.dispatch
  refine er_bind ?_ fun vs => er_plain _
  unfold decodeValues
  by_cases h : t.templateNum = 3
  · rw [if_pos h, complexDecode3_erase]
    unfold Model.Rel.decodeValues
    rw [h]
    rfl
  · rw [if_neg h, er_plain]

theorem openGrib_erase (r : Rdr) : (openGrib r).mapErr Failure.erase = Cli.Rel.openGrib r := by
  unfold openGrib Cli.Rel.openGrib
  cases Model.Rel.read r with
  | ok g => dsimp only; split <;> rfl
  | err e => rfl
  | panic => rfl

theorem decodePrepare_erase (f : Foreign) (o : GridOps G F) (c : Codecs F) (r : Rdr) (index : Str) :
    (mapOk strip (decodePrepare f o c r index).2).mapErr Failure.erase = Cli.Rel.decodePrepare o c r index := by
  have h1 : (decodePrepare f o c r index).2 = (do
      let x ← prepared f o r index
      let values ← (dispatch c x.2).mapErr .grib
      .ok (x.1, values)) := by
    unfold decodePrepare
    cases prepared f o r index <;> rfl
  rw [h1, mapOk_bind]
  unfold prepared Cli.Rel.decodePrepare
  have assoc : ∀ {α β γ : Type} (x : Outcome Failure α) (k : α → Outcome Failure β) (k' : β → Outcome Failure γ),
      ((x >>= k) >>= k') = x >>= fun a => k a >>= k' := by intro _ _ _ x k k'; cases x <;> rfl
  rw [assoc]
  refine er_bind (openGrib_erase r) fun g => ?_
  rw [assoc]
  refine er_bind (mapErr_mapErr _ _ _) fun ix => ?_
  cases findIndex ix (g.len + 1) g.iter with
  | none => rfl
  | some x =>
    dsimp only
    rw [assoc]
    refine er_bind (er_gridDef _ _) fun d => ?_
    have hs := subLatlons_erase f o d
    have rest : ∀ (l : Outcome Error (GridPoints F)) (l' : Outcome GribError (GridPoints F)), l.mapErr Error.erase = l' →
        ((Outcome.require (match l with | .panic => false | _ => true) >>= fun _ =>
          ((Model.Rel.fromSub x.2 g.reader).1.mapErr fun e => Failure.grib (plain e)) >>= fun dec =>
            (Outcome.ok (l, dec) : Outcome Failure _)) >>= fun a =>
          mapOk strip (((dispatch c a.2).mapErr Failure.grib) >>= fun values => Outcome.ok (a.1, values))).mapErr Failure.erase =
        (Outcome.require (match l' with | .panic => false | _ => true) >>= fun _ =>
          ((Model.Rel.fromSub x.2 g.reader).1.mapErr CliError.grib) >>= fun dec =>
          ((Model.Rel.dispatch c dec).mapErr CliError.grib) >>= fun values => Outcome.ok (l', values)) := by
      intro l l' hl
      rw [assoc]
      refine er_bind ?_ fun _ => ?_
      · subst hl; cases l <;> rfl
      rw [assoc]
      refine er_bind ?_ fun dec => ?_
      · rw [mapErr_mapErr]
        congr 1
        funext e
        exact congrArg CliError.grib (erase_plain e)
      · rw [← dispatch_erase]
        change (mapOk strip (((dispatch c dec).mapErr Failure.grib) >>= fun values => Outcome.ok (l, values))).mapErr Failure.erase = _
        subst hl
        cases dispatch c dec <;> rfl
    exact rest _ _ hs

/-- The refined result and the original one. -/
theorem prepare_cases (f : Foreign) (o : GridOps G F) (c : Codecs F) (r : Rdr) (index : Str) :
    (∃ w e, decodePrepare f o c r index = (w, .err e) ∧ Cli.Rel.decodePrepare o c r index = .err e.erase) ∨
    (∃ w, decodePrepare f o c r index = (w, .panic) ∧ Cli.Rel.decodePrepare o c r index = .panic) ∨
    ∃ w l v, decodePrepare f o c r index = (w, .ok (l, v)) ∧ Cli.Rel.decodePrepare o c r index = .ok (l.mapErr Error.erase, v) := by
  have h := decodePrepare_erase f o c r index
  cases hd : decodePrepare f o c r index with
  | mk w x =>
    rw [hd] at h
    cases x with
    | ok a => exact .inr (.inr ⟨w, a.1, a.2, rfl, h.symm⟩)
    | err e => exact .inl ⟨w, e, rfl, h.symm⟩
    | panic => exact .inr (.inl ⟨w, rfl, h.symm⟩)

theorem decodeShown_erase (f : Foreign) (s : Setting F G) (r : Rdr) (index : Str) :
    (decodeShown f s r index).1 = (Cli.Rel.decodeShown s r index).1 ∧
    (decodeShown f s r index).2.2.mapErr Failure.erase = (Cli.Rel.decodeShown s r index).2 := by
  unfold decodeShown Cli.Rel.decodeShown
  rcases prepare_cases f s.grid s.codecs r index with ⟨w, e, h1, h2⟩ | ⟨w, h1, h2⟩ | ⟨w, l, v, h1, h2⟩
  · rw [h1, h2]; exact ⟨rfl, rfl⟩
  · rw [h1, h2]; exact ⟨rfl, rfl⟩
  · rw [h1, h2]
    dsimp only
    cases v.toList s.codecs.ops with
    | done vs =>
      dsimp only
      rw [← textPoints_erase]
      cases textPoints s.codecs.ops vs.length l with
      | err e => exact ⟨rfl, rfl⟩
      | panic => exact ⟨rfl, rfl⟩
      | ok p =>
        dsimp only [Outcome.mapErr]
        cases (Cli.Rel.zipShow (rowLine s.fix6 s.showF) vs p).2 <;> exact ⟨rfl, rfl⟩
    | panic => exact ⟨rfl, rfl⟩
    | more l => exact ⟨rfl, rfl⟩

theorem decodeBinary_erase (f : Foreign) (s : Setting F G) (big : Bool) (r : Rdr) (index : Str) :
    (decodeBinary f s big r index).2.mapErr Failure.erase =
      (Cli.Rel.decodeBinary s.grid s.codecs s.bits big s.sched r index).1 := by
  unfold decodeBinary Cli.Rel.decodeBinary
  rcases prepare_cases f s.grid s.codecs r index with ⟨w, e, h1, h2⟩ | ⟨w, h1, h2⟩ | ⟨w, l, v, h1, h2⟩
  · rw [h1, h2]; rfl
  · rw [h1, h2]; rfl
  · rw [h1, h2]
    dsimp only
    split <;> rename_i h
    · rw [h]; dsimp only; split <;> rfl
    · rw [h]; rfl
    · rw [h]; rfl

theorem opened_erase (r : Rdr) : (∃ e, openGrib r = .err e ∧ Cli.Rel.openGrib r = .err e.erase) ∨
    (openGrib r = .panic ∧ Cli.Rel.openGrib r = .panic) ∨ ∃ g, openGrib r = .ok g ∧ Cli.Rel.openGrib r = .ok g := by
  have h := openGrib_erase r
  cases ho : openGrib r with
  | ok g => rw [ho] at h; exact .inr (.inr ⟨g, rfl, h.symm⟩)
  | err e => rw [ho] at h; exact .inl ⟨e, rfl, h.symm⟩
  | panic => rw [ho] at h; exact .inr (.inl ⟨rfl, h.symm⟩)

/-! ## Where a debug build does not panic -/

open Grib.Model.Rel (Fol)

theorem latLon_fol (ops : FloatOps F) (g : LatLonGrid) (hi : g.ni < 2 ^ 32) (hj : g.nj < 2 ^ 32) :
    Fol (Msg.latLon ops g) (latLon ops g) := by
  unfold Msg.latLon latLon
  refine Fol.bind_ok (a := Model.Rel.isConsistentForJ g.firstLat g.lastLat g.mode) (Model.Rel.isConsistentForJ_fol _ _ _) ?_
  dsimp only
  by_cases hc : Model.Rel.isConsistentForJ g.firstLat g.lastLat g.mode = true
  · rw [if_neg (by simpa using hc), if_neg (by simpa using hc)]
    refine Fol.bind (.refl _) (fun ij => ?_)
    by_cases h0 : g.nj = 0
    · rw [if_pos h0]; exact .inl rfl
    by_cases h1 : g.ni = 0
    · rw [if_neg h0, if_pos h1]; exact .inl rfl
    rw [if_neg h0, if_neg h1, Model.Rel.pred32_pos (by omega) hj, Model.Rel.pred32_pos (by omega) hi]
    exact Fol.bind_ok (Model.Rel.evenlySpacedLongitudes_fol _ _ _ _ _) (.refl _)
  · rw [if_pos hc, if_pos hc]; exact .refl _

theorem gaussianLatitudes_fol (g : GaussOps G F) (n : Nat) : Fol (Msg.gaussianLatitudes g n) (gaussianLatitudes g n) := by
  unfold Msg.gaussianLatitudes gaussianLatitudes Model.legendreRoots
  split
  · exact .inl rfl
  · rename_i h
    have h3 : 8 * n * n * n < USIZE := by omega
    have h2 : 8 * n * n < USIZE := by
      rcases Nat.eq_zero_or_pos n with h0 | h0
      · subst h0; decide
      · exact Nat.lt_of_le_of_lt (Nat.le_mul_of_pos_right _ h0) h3
    unfold Model.Rel.legendreRoots
    rw [Nat.mod_eq_of_lt h3, Nat.mod_eq_of_lt h2]
    exact .refl _

theorem gaussian_fol (g : GaussOps G F) (ops : FloatOps F) (d : GaussianGrid) (hi : d.ni < 2 ^ 32) :
    Fol (Msg.gaussian g ops d) (gaussian g ops d) := by
  unfold Msg.gaussian gaussian
  refine Fol.bind_ok (a := Model.Rel.isConsistentForJ d.firstLat d.lastLat d.mode) (Model.Rel.isConsistentForJ_fol _ _ _) ?_
  dsimp only
  by_cases hc : Model.Rel.isConsistentForJ d.firstLat d.lastLat d.mode = true
  · rw [if_neg (by simpa using hc), if_neg (by simpa using hc)]
    refine Fol.bind (.refl _) (fun ij => ?_)
    refine Fol.bind (gaussianLatitudes_fol _ _) (fun lat => ?_)
    by_cases h1 : d.ni = 0
    · rw [if_pos h1]; exact .inl rfl
    rw [if_neg h1, Model.Rel.pred32_pos (by omega) hi]
    exact Fol.bind_ok (Model.Rel.evenlySpacedLongitudes_fol _ _ _ _ _) (.refl _)
  · rw [if_pos hc, if_pos hc]; exact .refl _

theorem templateLatlons_fol (f : Foreign) (o : GridOps G F) (t : GridTemplate) (hi : t.gridShape.1 < 2 ^ 32)
    (hj : t.gridShape.2 < 2 ^ 32) : Fol (Msg.templateLatlons f o t) (templateLatlons f o t) := by
  cases t with
  | template0 g => exact Fol.bind (latLon_fol _ g hi hj) (fun _ => .refl _)
  | template20 g => exact .refl _
  | template30 g => exact .refl _
  | template40 g => exact Fol.bind (gaussian_fol _ _ g hi) (fun _ => .refl _)

theorem subLatlons_fol (f : Foreign) (o : GridOps G F) (d : GridDefinition) : Fol (Msg.subLatlons f o d) (subLatlons f o d) := by
  unfold Msg.subLatlons subLatlons
  refine Fol.bind (.refl _) (fun n => ?_)
  cases ht : tryFrom d with
  | panic => exact .inl rfl
  | err e => exact .refl _
  | ok t =>
    have ht' : GridTemplate.tryFrom d = .ok t := by rw [← tryFrom_erase, ht]; rfl
    obtain ⟨hi, hj⟩ := Props.tryFrom_shape_lt ht'
    simp only [Outcome.bind_ok]
    rcases templateLatlons_fol f o t hi hj with h | h
    · rw [h]; exact .inl rfl
    · rw [h]
      cases hl : Msg.templateLatlons f o t with
      | panic => exact .inl rfl
      | err e => exact .refl _
      | ok pts =>
        simp only [Outcome.bind_ok]
        cases pts with
        | lambert ps => exact .refl _
        | latLon it =>
          have hl' : t.latlons o = .ok (.latLon it) := by rw [← Msg.templateLatlons_erase f, hl]; rfl
          obtain ⟨hij, -, -⟩ := latlons_regular o t it hl'
          have h1 : (GridPoints.latLon it).sizeHint = (.ok (t.gridShape.1 * t.gridShape.2) : Outcome Error _) := by
            show it.ij.sizeHint = _
            rw [hij, GridIter.sizeHint_new]
          have h2 : Model.Rel.pointsSizeHint (.latLon it) = t.gridShape.1 * t.gridShape.2 := by
            show Model.Rel.gridSizeHint it.ij = _
            rw [hij, Model.Rel.gridSizeHint_new _ hi hj]
          rw [h1, h2]
          exact .refl _

open Grib.Model.Rel (OExt Ext BExt)

theorem complexDecode3_ext (ops : FloatOps F) (t : Decoder) : OExt (Msg.complexDecode3 ops t) (complexDecode3 ops t) := by
  unfold Msg.complexDecode3 complexDecode3
  refine OExt.bind_eq fun simple _ => ?_
  refine OExt.bind_eq fun complex hc => ?_
  refine OExt.bind_eq fun order _ => ?_
  split
  · exact OExt.refl _
  · refine OExt.bind_eq fun octets _ => ?_
    split
    · exact OExt.refl _
    · refine OExt.bind_eq fun d _ => ?_
      refine OExt.bind_eq fun m _ => ?_
      refine OExt.bind_items (Model.Rel.decodeComplexPacking_ext _ _ _ _ _ (Model.Rel.fromSect5_ngroup hc)) fun xs ys h => ?_
      refine OExt.bind_eq fun first _ => ?_
      refine Or.inr (Or.inr ⟨_, _, rfl, rfl, Model.Rel.unpackAll_ext _ _ _ ?_⟩)
      by_cases ho : order = 1
      · rw [if_pos ho, if_pos ho]; exact Model.Rel.stepItems_ext Model.Rel.diff1Step_fol h _
      · rw [if_neg ho, if_neg ho]; exact Model.Rel.stepItems_ext Model.Rel.diff2Step_fol h _

theorem decodeValues_ext (c : Codecs F) (t : Decoder) : OExt (Msg.decodeValues c t) (decodeValues c t) := by
  unfold Msg.decodeValues decodeValues
  by_cases h3 : t.templateNum = 3
  · rw [if_pos h3, if_pos h3]; exact complexDecode3_ext _ _
  · rw [if_neg h3, if_neg h3]
    rcases Model.Rel.decodeValues_ext c t with h | ⟨e, h, h'⟩ | ⟨xs, ys, h, h', hx⟩
    · left; rw [h]; rfl
    · exact .inr (.inl ⟨plain e, by rw [h]; rfl, by rw [h']; rfl⟩)
    · exact .inr (.inr ⟨xs, ys, by rw [h]; rfl, by rw [h']; rfl, hx⟩)

theorem dispatch_bext (c : Codecs F) (t : Decoder) :
    Msg.dispatch c t = .panic ∨ (∃ e, Msg.dispatch c t = .err e ∧ dispatch c t = .err e) ∨
      ∃ a b, Msg.dispatch c t = .ok a ∧ dispatch c t = .ok b ∧ BExt a b := by
  have h := decodeValues_ext c t
  have e1 : Msg.dispatch c t = (Msg.decodeValues c t).bind fun v => (BitmapIter.new t.bitmap v t.numPointsTotal).mapErr plain := rfl
  have e2 : dispatch c t = (decodeValues c t).bind fun v => (BitmapIter.new t.bitmap v t.numPointsTotal).mapErr plain := rfl
  rw [e1, e2]
  rcases h with h | ⟨e, h, h'⟩ | ⟨xs, ys, h, h', hx⟩
  · exact Or.inl (by rw [h]; rfl)
  · exact Or.inr (Or.inl ⟨e, by rw [h]; rfl, by rw [h']; rfl⟩)
  · rw [h, h']
    show (BitmapIter.new _ _ _).mapErr plain = _ ∨ _
    simp only [Outcome.bind]
    unfold BitmapIter.new
    split
    · exact Or.inr (Or.inl ⟨_, rfl, rfl⟩)
    · exact Or.inr (Or.inr ⟨_, _, rfl, rfl, rfl, hx⟩)

theorem openGrib_same (r : Rdr) (hl : r.data.length < 2 ^ 63) (h : Msg.openGrib r ≠ .panic) : openGrib r = Msg.openGrib r := by
  unfold Msg.openGrib at h ⊢
  unfold openGrib
  rw [Props.C82_same r hl (fun hp => h (by rw [hp]))]
  rfl

/-- The beginnings of `decode`. -/
theorem prepared_fol (f : Foreign) (o : GridOps G F) (r : Rdr) (hl : r.data.length < 2 ^ 63) (index : Str) :
    Fol (Msg.prepared f o r index) (prepared f o r index) := by
  by_cases hp : Msg.openGrib r = .panic
  · left; unfold Msg.prepared; rw [hp]; rfl
  unfold Msg.prepared prepared
  rw [openGrib_same r hl hp]
  cases ho : Msg.openGrib r with
  | panic => exact absurd ho hp
  | err e => exact .refl _
  | ok g =>
    have hg : Grib2.read r = .ok g := by
      unfold Msg.openGrib at ho
      cases hr : Grib2.read r with
      | panic => rw [hr] at ho; cases ho
      | err e => rw [hr] at ho; cases ho
      | ok g' =>
        rw [hr] at ho
        dsimp only at ho
        split at ho
        · cases ho
        · rw [Outcome.ok.inj ho]
    rw [Outcome.bind_ok, Outcome.bind_ok]
    refine Fol.bind (.refl _) fun ix => ?_
    cases hf : findIndex ix (g.len + 1) g.iter with
    | none => exact .refl _
    | some x =>
      obtain ⟨ix', m⟩ := x
      dsimp only
      have hm : (ix', m) ∈ SubIter.drain (g.len + 1) g.iter := by
        rw [findIndex_drain] at hf
        exact List.mem_of_find?_eq_some hf
      refine Fol.bind (.refl _) fun d => ?_
      rcases subLatlons_fol f o d with h | h
      · rw [h]; exact .inl rfl
      · rw [h, Props.opened_fromSub hg hl hm]; exact .refl _

theorem decodePrepare_fol (f : Foreign) (o : GridOps G F) (c : Codecs F) (r : Rdr) (hl : r.data.length < 2 ^ 63) (index : Str) :
    (Msg.decodePrepare f o c r index).2 = .panic ∨
    (∃ w e, Msg.decodePrepare f o c r index = (w, .err e) ∧ decodePrepare f o c r index = (w, .err e)) ∨
    ∃ w l a b, Msg.decodePrepare f o c r index = (w, .ok (l, a)) ∧ decodePrepare f o c r index = (w, .ok (l, b)) ∧ BExt a b := by
  unfold Msg.decodePrepare decodePrepare
  rcases prepared_fol f o r hl index with h | h
  · left; rw [h]
  · rw [h]
    cases Msg.prepared f o r index with
    | panic => exact .inl rfl
    | err e => exact .inr (.inl ⟨_, _, rfl, rfl⟩)
    | ok x =>
      obtain ⟨l, dec⟩ := x
      dsimp only
      rcases dispatch_bext c dec with h | ⟨e, h, h'⟩ | ⟨a, b, h, h', hb⟩
      · left; rw [h]; rfl
      · right; left; exact ⟨_, .grib e, by rw [h]; rfl, by rw [h']; rfl⟩
      · right; right; exact ⟨_, l, a, b, by rw [h]; rfl, by rw [h']; rfl, hb⟩

end Grib.Msg.Rel
