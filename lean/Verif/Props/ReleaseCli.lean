import Verif.Model.ReleaseCli
import Verif.Props.ReleaseDecode
import Verif.Props.ReleaseGrid
import Verif.Props.Output
import Verif.Props.DecodeCmd

/-! # C86: the commands of a release build

`Grib.Cli.Rel` are the commands when integer arithmetic wraps around (`Model/ReleaseCli.lean`), `Grib.Cli` the commands of a
debug build. -/

namespace Grib.Cli

open Grib.Text Grib.Codes Grib.Model Grib.Spec Grib.Props

variable {F G : Type}

/-! ## Opening -/

/-- C86. If opening does not panic in a debug build, it has the same result in a release build. -/
theorem C86_open (r : Rdr) (hl : r.data.length < 2 ^ 63) (h : openGrib r ≠ .panic) : Rel.openGrib r = openGrib r := by
  unfold openGrib at h ⊢
  unfold Rel.openGrib
  rw [C82_same r hl (fun hp => h (by rw [hp]))]
  rfl

/-! ## `list` -/

theorem fol_bind_eq {α β : Type} {ε : Type} {d : Outcome ε α} {f g : α → Outcome ε β}
    (h : ∀ a, d = .ok a → Model.Rel.Fol (f a) (g a)) : Model.Rel.Fol (d.bind f) (d.bind g) := by
  cases d with
  | ok a => exact h a rfl
  | err e => exact .refl _
  | panic => exact .refl _

theorem numPoints_lt {d : GridDefinition} {n : Nat} {ε : Type} (h : (d.numPoints : Outcome ε Nat) = .ok n) : n < 2 ^ 32 := by
  unfold GridDefinition.numPoints at h
  by_cases hp : 1 + 4 ≤ d.payload.length
  · rw [rdAs_number hp] at h
    obtain rfl := Outcome.ok.inj h
    exact number_lt _ _ 4
  · rw [rdAs_panic (by omega)] at h; cases h

/-- A row of `list` in both builds. -/
theorem listRow_fol (k : Constants) (ops : FloatOps G) (showF : G → Str) (ix : Nat × Nat) (m : SubMessage) :
    Model.Rel.Fol (listRow k ops showF ix m) (Rel.listRow k ops showF ix m) := by
  unfold listRow Rel.listRow
  refine fol_bind_eq fun prod _ => fol_bind_eq fun c _ => fol_bind_eq fun n _ => fol_bind_eq fun ind _ =>
    fol_bind_eq fun process _ => fol_bind_eq fun time _ => fol_bind_eq fun surfaces _ => fol_bind_eq fun grid _ =>
    fol_bind_eq fun total ht => fol_bind_eq fun repr _ => fol_bind_eq fun represented _ => fol_bind_eq fun gt _ => ?_
  unfold Outcome.require
  by_cases hle : represented ≤ total
  · right
    have ht32 : total < 2 ^ 32 := numPoints_lt ht
    have e : Model.Rel.sub32 total represented = total - represented := by
      unfold Model.Rel.sub32
      rw [show total + 2 ^ 32 - represented = total - represented + 2 ^ 32 by omega, Nat.add_mod_right,
        Nat.mod_eq_of_lt (by omega)]
    rw [e]
    simp only [hle, decide_true, if_true]
    rfl
  · left
    simp only [hle, decide_false]
    rfl

theorem printEach_fol {α : Type} {f f' : α → Outcome Empty Str} (h : ∀ x, Model.Rel.Fol (f x) (f' x)) (xs : List α) :
    (printEach f xs).1 <+: (printEach f' xs).1 ∧ ((printEach f xs).2 = true → printEach f' xs = printEach f xs) := by
  induction xs with
  | nil => exact ⟨List.prefix_refl _, fun _ => rfl⟩
  | cons x xs ih =>
    unfold printEach
    rcases h x with hx | hx
    · rw [hx]
      exact ⟨List.nil_prefix, fun h => by cases h⟩
    · rw [hx]
      cases f x with
      | panic => exact ⟨List.prefix_refl _, fun h => by cases h⟩
      | err e => exact e.elim
      | ok s =>
        dsimp only
        exact ⟨(List.prefix_append_right_inj s).2 ih.1, fun h => by rw [ih.2 h]⟩

/-- C86. What `list` prints in a debug build is what it prints first in a release build; and all of it, if the debug build
comes to the end. -/
theorem C86_list (dump : Bool) (k : Constants) (ops : FloatOps G) (showF : G → Str) (g : Grib2) :
    (listText dump k ops showF g).1 <+: (Rel.listText dump k ops showF g).1 ∧
    ((listText dump k ops showF g).2 = true → Rel.listText dump k ops showF g = listText dump k ops showF g) := by
  unfold listText Rel.listText
  dsimp only
  cases dump with
  | true => exact printEach_fol (fun _ => .refl _) _
  | false =>
    have h := printEach_fol (f := fun x : (Nat × Nat) × SubMessage => do
      let row ← listRow k ops showF x.1 x.2
      .ok (row.line ++ ['\n'])) (f' := fun x => do
      let row ← Rel.listRow k ops showF x.1 x.2
      .ok (row.line ++ ['\n'])) (fun x => Model.Rel.Fol.bind (listRow_fol k ops showF x.1 x.2) fun _ => .refl _)
      (SubIter.drain (g.len + 1) g.iter)
    simp only [Bool.false_eq_true, if_false]
    exact ⟨(List.prefix_append_right_inj _).2 h.1, fun ht => by rw [h.2 ht]⟩

/-- C86. The number of missing points in a line of `list`, when the representation states more values than the grid has
points: a debug build panics, a release build shows the difference modulo 2^32. -/
theorem C86_list_missing_fails (k : Constants) (ops : FloatOps G) (showF : G → Str) (r : Rdr) (g : Grib2)
    (h : Grib2.read r = .ok g) (ix : Nat × Nat) (m : SubMessage) (hm : (ix, m) ∈ SubIter.drain (g.len + 1) g.iter)
    (hlt : field r.data m.s3.2.offset 7 10 < field r.data m.s5.2.offset 6 9) :
    listRow k ops showF ix m = .panic ∧
    ∀ row, Rel.listRow k ops showF ix m = .ok row →
      row.id = showIndex ix ∧ row.total = field r.data m.s3.2.offset 7 10 ∧
      row.missing = 2 ^ 32 - (field r.data m.s5.2.offset 6 9 - field r.data m.s3.2.offset 7 10) := by
  refine ⟨C54_list_fails k ops showF r g h ix m hm hlt, fun row hr => ?_⟩
  obtain ⟨v1, v2, v3, v4, v5, v6, v7, v8⟩ := view_reads (ε := Empty) h hm
  unfold Rel.listRow at hr
  simp only [v1, v2, v3, v4, v5, v6, v7, v8, Outcome.bind_ok] at hr
  obtain ⟨p, hp, hr⟩ := Outcome.bind_eq_ok hr
  obtain ⟨t, ht, hr⟩ := Outcome.bind_eq_ok hr
  obtain ⟨s, hs, hr⟩ := Outcome.bind_eq_ok hr
  obtain ⟨gt, hgt, hr⟩ := Outcome.bind_eq_ok hr
  cases hr
  refine ⟨rfl, rfl, ?_⟩
  have h5 : field r.data m.s5.2.offset 6 9 < 2 ^ 32 := number_lt _ _ 4
  unfold Model.Rel.sub32
  dsimp only
  rw [Nat.mod_eq_of_lt (by omega)]
  omega

/-! ## `decode` -/

theorem pointsNext_fol (ps : GridPoints F) : Model.Rel.Fol (pointsNext ps) (Rel.pointsNext ps) := by
  cases ps with
  | latLon it => exact Model.Rel.Fol.bind (Model.Rel.regularNext_fol it) fun _ => .refl _
  | lambert ps => cases ps <;> exact .refl _

theorem zipRows_fol (vs : List F) (ps : GridPoints F) : Model.Rel.Fol (zipRows vs ps) (Rel.zipRows vs ps) := by
  induction vs generalizing ps with
  | nil => exact Model.Rel.Fol.bind (pointsNext_fol ps) fun _ => .refl _
  | cons v vs ih =>
    refine Model.Rel.Fol.bind (pointsNext_fol ps) fun x => ?_
    cases x.1 with
    | none => exact .refl _
    | some p => exact Model.Rel.Fol.bind (ih x.2) fun _ => .refl _

/-- The beginnings of `decode`: a debug build panics, or both have the same error, or both have the same coordinates and
values that agree up to the first panic of the debug build. -/
theorem decodePrepare_fol (o : GridOps G F) (c : Codecs F) (r : Rdr) (hl : r.data.length < 2 ^ 63) (index : Str) :
    decodePrepare o c r index = .panic ∨
    (∃ e, decodePrepare o c r index = .err e ∧ Rel.decodePrepare o c r index = .err e) ∨
    ∃ l a b, decodePrepare o c r index = .ok (l, a) ∧ Rel.decodePrepare o c r index = .ok (l, b) ∧ Model.Rel.BExt a b := by
  by_cases hp : openGrib r = .panic
  · left; unfold decodePrepare; rw [hp]; rfl
  unfold decodePrepare Rel.decodePrepare
  rw [C86_open r hl hp]
  cases ho : openGrib r with
  | panic => exact absurd ho hp
  | err e => exact .inr (.inl ⟨e, rfl, rfl⟩)
  | ok g =>
    have hg : Grib2.read r = .ok g := by
      unfold openGrib at ho
      cases hr : Grib2.read r with
      | panic => rw [hr] at ho; cases ho
      | err e => rw [hr] at ho; cases ho
      | ok g' =>
        rw [hr] at ho
        dsimp only at ho
        split at ho
        · cases ho
        · rw [Outcome.ok.inj ho]
    rw [Outcome.bind_ok, Outcome.bind_ok]
    cases hi : (parseIndex index).mapErr (fun _ => CliError.badIndex) with
    | panic => exact .inl rfl
    | err e => exact .inr (.inl ⟨e, rfl, rfl⟩)
    | ok ix =>
      rw [Outcome.bind_ok, Outcome.bind_ok]
      cases hf : findIndex ix (g.len + 1) g.iter with
      | none => exact .inr (.inl ⟨_, rfl, rfl⟩)
      | some x =>
        obtain ⟨ix', m⟩ := x
        dsimp only
        have hm : (ix', m) ∈ SubIter.drain (g.len + 1) g.iter := by
          rw [findIndex_drain] at hf
          exact List.mem_of_find?_eq_some hf
        cases hd : (m.gridDef : Outcome CliError _) with
        | panic => exact .inl rfl
        | err e => exact .inr (.inl ⟨e, rfl, rfl⟩)
        | ok d =>
          rw [Outcome.bind_ok, Outcome.bind_ok]
          by_cases hs : subLatlons o d = .panic
          · left; rw [hs]; rfl
          rw [((C84_same o d).2.1 hs)]
          rw [opened_fromSub hg hl hm]
          cases hq : (Outcome.require (match subLatlons o d with | .panic => false | _ => true) : Outcome CliError Unit) with
          | panic => exact .inl rfl
          | err e => exact .inr (.inl ⟨e, rfl, rfl⟩)
          | ok u =>
            rw [Outcome.bind_ok, Outcome.bind_ok]
            cases hdec : (Decoder.fromSub m g.reader).1 with
            | panic => exact .inl rfl
            | err e => exact .inr (.inl ⟨_, rfl, rfl⟩)
            | ok t =>
              show ((t.dispatch c).mapErr _).bind _ = _ ∨ (∃ e, ((t.dispatch c).mapErr _).bind _ = _ ∧
                ((Model.Rel.dispatch c t).mapErr _).bind _ = _) ∨ ∃ l a b, ((t.dispatch c).mapErr _).bind _ = _ ∧
                ((Model.Rel.dispatch c t).mapErr _).bind _ = _ ∧ _
              rcases Model.Rel.dispatch_bext c t with h | ⟨e, h, h'⟩ | ⟨a, b, h, h', hb⟩
              · left; rw [h]; rfl
              · right; left; exact ⟨.grib e, by rw [h]; rfl, by rw [h']; rfl⟩
              · right; right; exact ⟨_, a, b, by rw [h]; rfl, by rw [h']; rfl, hb⟩

/-- C86. `decode` with text output: if a debug build does not panic, a release build prints the same rows, or has the same
error. -/
theorem C86_text (o : GridOps G F) (c : Codecs F) (r : Rdr) (hl : r.data.length < 2 ^ 63) (index : Str)
    (h : decodeText o c r index ≠ .panic) : Rel.decodeText o c r index = decodeText o c r index := by
  unfold decodeText at h ⊢
  unfold Rel.decodeText
  rcases decodePrepare_fol o c r hl index with h1 | ⟨e, h1, h2⟩ | ⟨l, a, b, h1, h2, hb⟩
  · rw [h1] at h; exact absurd rfl h
  · rw [h1, h2]; rfl
  · rw [h1, Outcome.bind_ok] at h ⊢
    rw [h2, Outcome.bind_ok]
    dsimp only at h ⊢
    rcases Model.Rel.toList_bext c.ops hb with ht | ht
    · rw [ht] at h; exact absurd rfl h
    · rw [ht]
      cases hv : a.toList c.ops with
      | more vs => rfl
      | panic => rfl
      | done vs =>
        rw [hv] at h
        dsimp only at h ⊢
        cases hp : textPoints c.ops vs.length l with
        | panic => rfl
        | err e => rfl
        | ok points =>
          rw [hp, Outcome.bind_ok] at h
          rw [Outcome.bind_ok, Outcome.bind_ok]
          cases hs : (points.sizeHint : Outcome CliError Nat) with
          | panic => rw [hs] at h; exact absurd rfl h
          | err e =>
            cases points with
            | lambert ps => cases hs
            | latLon it =>
              have : (it.ij.sizeHint : Outcome CliError Nat) = .err e := hs
              unfold GridIter.sizeHint at this
              split at this
              · cases this
              · split at this <;> cases this
          | ok n =>
            rw [hs, Outcome.bind_ok] at h
            rw [Outcome.bind_ok]
            rcases zipRows_fol vs points with hz | hz
            · rw [hz] at h; exact absurd rfl h
            · rw [hz]; rfl

theorem pulledValues_bext (ops : FloatOps F) (fuel : Nat) {a b : BitmapIter F} (h : Model.Rel.BExt a b) :
    ((pulledValues ops fuel a).2 = true ∧ (pulledValues ops fuel a).1 <+: (pulledValues ops fuel b).1) ∨
      pulledValues ops fuel b = pulledValues ops fuel a := by
  induction fuel generalizing a b with
  | zero => exact Or.inr rfl
  | succ fuel ih =>
    have hn := Model.Rel.next_bext ops h
    unfold pulledValues
    rcases ha : a.next ops with ⟨p, a'⟩
    rcases hb : b.next ops with ⟨q, b'⟩
    rw [ha, hb] at hn
    rcases hn with hn | ⟨e, hx⟩
    · dsimp only at hn; subst hn; exact Or.inl ⟨rfl, List.nil_prefix⟩
    · dsimp only at e hx
      subst e
      match q with
      | .ok none => exact Or.inr rfl
      | .panic => exact Or.inr rfl
      | .ok (some v) =>
        dsimp only
        rcases ih hx with ⟨h1, h2⟩ | h1
        · exact Or.inl ⟨h1, List.cons_prefix_cons.2 ⟨rfl, h2⟩⟩
        · exact Or.inr (by rw [h1])

theorem writeEach_err (a b : List (List UInt8)) (w w' : BufWriter) (h : writeEach a w = (.err (), w')) :
    writeEach (a ++ b) w = (.err (), w') := by
  induction a generalizing w with
  | nil => cases h
  | cons d a ih =>
    rw [List.cons_append]
    unfold writeEach at h
    rw [show writeEach (d :: (a ++ b)) w = match w.writeAll d with
      | (.ok (), w) => writeEach (a ++ b) w
      | (.err e, w) => (.err e, w)
      | (.panic, w) => (.panic, w) from rfl]
    rcases hr : w.writeAll d with ⟨o, w1⟩
    rw [hr] at h
    cases o with
    | ok u => exact ih _ h
    | err e => exact h
    | panic => cases h

/-- C86. `decode` with binary output: if a debug build does not panic, a release build writes the same file and has the same
result, whatever the writes do. -/
theorem C86_binary (o : GridOps G F) (c : Codecs F) (bits : F → BitVec 32) (big : Bool) (sched : List (Option Nat)) (r : Rdr)
    (hl : r.data.length < 2 ^ 63) (index : Str) (h : (decodeBinary o c bits big sched r index).1 ≠ .panic) :
    Rel.decodeBinary o c bits big sched r index = decodeBinary o c bits big sched r index := by
  unfold decodeBinary at h ⊢
  unfold Rel.decodeBinary
  rcases decodePrepare_fol o c r hl index with h1 | ⟨e, h1, h2⟩ | ⟨l, a, b, h1, h2, hb⟩
  · rw [h1] at h; exact absurd rfl h
  · rw [h1, h2]
  · rw [h1] at h ⊢
    rw [h2]
    dsimp only at h ⊢
    have e : b.bitmap = a.bitmap := by rw [hb.1]
    rw [e]
    rcases pulledValues_bext c.ops (8 * a.bitmap.length + 1) hb with ⟨hp, t, ht⟩ | ht
    · rw [hp] at h ⊢
      rw [← ht, List.map_append]
      unfold writeOutput at h ⊢
      generalize (List.map _ (pulledValues c.ops (8 * a.bitmap.length + 1) a).1) = xs at h ⊢
      generalize List.map _ t = ys
      rcases hw : writeEach xs ⟨[], ⟨[], sched⟩⟩ with ⟨o, w⟩
      rw [hw] at h
      cases o with
      | ok u => exact absurd rfl h
      | panic => exact absurd rfl h
      | err e => rw [writeEach_err xs ys _ w hw]
    · rw [ht]; rfl

theorem zipShow_fol (line : (F × F) × F → Str) (vs : List F) (ps : GridPoints F) :
    (zipShow line vs ps).1 <+: (Rel.zipShow line vs ps).1 ∧
    ((zipShow line vs ps).2 = true → Rel.zipShow line vs ps = zipShow line vs ps) := by
  induction vs generalizing ps with
  | nil =>
    unfold zipShow Rel.zipShow
    rcases pointsNext_fol ps with h | h
    · rw [h]; exact ⟨List.nil_prefix, fun h => by cases h⟩
    · rw [h]; exact ⟨List.prefix_rfl, fun _ => rfl⟩
  | cons v vs ih =>
    unfold zipShow Rel.zipShow
    rcases pointsNext_fol ps with h | h
    · rw [h]; exact ⟨List.nil_prefix, fun h => by cases h⟩
    · rw [h]
      cases pointsNext ps with
      | err e => exact e.elim
      | panic => exact ⟨List.prefix_rfl, fun _ => rfl⟩
      | ok x =>
        obtain ⟨p, q⟩ := x
        cases p with
        | none => exact ⟨List.prefix_rfl, fun _ => rfl⟩
        | some p =>
          dsimp only
          exact ⟨(List.prefix_append_right_inj _).2 (ih q).1, fun h => by rw [(ih q).2 h]⟩

/-- C86. The program as a whole: what a debug build prints is what a release build prints first; and if the debug build does not
panic, the release build prints the same and ends in the same way. -/
theorem C86_program (s : Setting F G) (cmd : Command) (r : Rdr) (hl : r.data.length < 2 ^ 63) :
    (runCommand s cmd r).1 <+: (Rel.runCommand s cmd r).1 ∧
    (exitStatus (runCommand s cmd r).2 ≠ 101 → Rel.runCommand s cmd r = runCommand s cmd r) := by
  have shown : ∀ (a : Outcome Empty Nat) (t t' : Str × Bool), t.1 <+: t'.1 → (t.2 = true → t' = t) →
      (display a t).1 <+: t'.1 ∧ (exitStatus (display a t).2 ≠ 101 → (t'.1, if t'.2 then .ok () else .panic) = display a t) := by
    intro a t t' h1 h2
    cases a with
    | err e => exact e.elim
    | panic => exact ⟨List.nil_prefix, fun h => absurd rfl h⟩
    | ok n =>
      refine ⟨h1, fun h => ?_⟩
      cases ht : t.2 with
      | true => rw [h2 ht]; rfl
      | false =>
        refine absurd ?_ h
        unfold display
        dsimp only
        rw [ht]; rfl
  have opened : ∀ f f' : Grib2 → Str × Outcome CliError Unit, (∀ g, (f g).1 <+: (f' g).1 ∧ (exitStatus (f g).2 ≠ 101 → f' g = f g)) →
      (match openGrib r with
        | .ok g => f g
        | .err e => ([], .err e)
        | .panic => ([], .panic)).1 <+: (match Rel.openGrib r with
        | .ok g => f' g
        | .err e => ([], .err e)
        | .panic => ([], .panic)).1 ∧
      (exitStatus (match openGrib r with
        | .ok g => f g
        | .err e => ([], .err e)
        | .panic => ([], .panic)).2 ≠ 101 → (match Rel.openGrib r with
        | .ok g => f' g
        | .err e => ([], .err e)
        | .panic => ([], .panic)) = (match openGrib r with
        | .ok g => f g
        | .err e => ([], .err e)
        | .panic => ([], .panic))) := by
    intro f f' hf
    by_cases hp : openGrib r = .panic
    · rw [hp]; exact ⟨List.nil_prefix, fun h => absurd rfl h⟩
    · rw [C86_open r hl hp]
      cases openGrib r with
      | panic => exact ⟨List.nil_prefix, fun h => absurd rfl h⟩
      | err e => exact ⟨List.prefix_rfl, fun _ => rfl⟩
      | ok g => exact hf g
  cases cmd with
  | info => exact opened _ _ fun g => ⟨List.prefix_rfl, fun _ => rfl⟩
  | inspect flags => exact opened _ _ fun g => shown _ _ _ List.prefix_rfl fun _ => rfl
  | list dump =>
    exact opened _ _ fun g => shown _ _ _ (C86_list dump s.tables s.wide s.showG g).1 (C86_list dump s.tables s.wide s.showG g).2
  | «export» big index =>
    refine ⟨List.prefix_rfl, fun h => ?_⟩
    unfold runCommand at h ⊢
    unfold Rel.runCommand
    dsimp only at h ⊢
    rw [C86_binary s.grid s.codecs s.bits big s.sched r hl index (fun hp => h (by rw [hp]; rfl))]
  | decode index =>
    show (decodeShown s r index).1 <+: (Rel.decodeShown s r index).1 ∧
      (exitStatus (decodeShown s r index).2 ≠ 101 → Rel.decodeShown s r index = decodeShown s r index)
    unfold decodeShown Rel.decodeShown
    rcases decodePrepare_fol s.grid s.codecs r hl index with h1 | ⟨e, h1, h2⟩ | ⟨l, a, b, h1, h2, hb⟩
    · rw [h1]; exact ⟨List.nil_prefix, fun h => absurd rfl h⟩
    · rw [h1, h2]; exact ⟨List.prefix_rfl, fun _ => rfl⟩
    · rw [h1, h2]
      dsimp only
      rcases Model.Rel.toList_bext s.codecs.ops hb with ht | ht
      · rw [ht]; exact ⟨List.nil_prefix, fun h => absurd rfl h⟩
      · rw [ht]
        cases a.toList s.codecs.ops with
        | more vs => exact ⟨List.prefix_rfl, fun _ => rfl⟩
        | panic => exact ⟨List.prefix_rfl, fun _ => rfl⟩
        | done vs =>
          dsimp only
          cases textPoints s.codecs.ops vs.length l with
          | panic => exact ⟨List.prefix_rfl, fun _ => rfl⟩
          | err e => exact ⟨List.prefix_rfl, fun _ => rfl⟩
          | ok points =>
            dsimp only
            obtain ⟨z1, z2⟩ := zipShow_fol (rowLine s.fix6 s.showF) vs points
            exact shown _ (_, _) (_, _) ((List.prefix_append_right_inj _).2 z1) fun h => by rw [z2 h]

/-! ## Concrete files -/

/-- The hypothesis of `C86_text` and `C86_binary`, and what a release build prints. -/
example : Rel.decodeText exactOps exactCodecs ⟨gridFile, 0, []⟩ "0.0".toList =
    .ok [((some 45, some 10), none), ((some 45, some 11), some 9), ((some 44, some 10), none), ((some 44, some 11), some 4)] := by
  rw [C86_text _ _ _ (by decide +kernel) _ (by decide +kernel)]
  decide +kernel

example : Rel.decodeBinary exactOps exactCodecs (fun x => if x = none then 0x7fc00000#32 else 1#32) true [some 3, some 99]
    ⟨gridFile, 0, []⟩ "0.0".toList =
      (.ok (), some [0x7f, 0xc0, 0, 0, 0, 0, 0, 1, 0x7f, 0xc0, 0, 0, 0, 0, 0, 1]) := by
  rw [C86_binary _ _ _ _ _ _ (by decide +kernel) _ (by decide +kernel)]
  decide +kernel

/-- `gridRaw` with longitudes from -2000 to 2000 degrees. -/
def farRaw : RawMessage :=
  { gridRaw with first := { gridRaw.first with grid := some ([0, 0, 0, 0, 4, 0, 0, 0, 0] ++ List.replicate 16 0 ++
        [0, 0, 0, 2, 0, 0, 0, 2] ++ List.replicate 8 0 ++ [2, 0xae, 0xa5, 0x40, 0xf7, 0x35, 0x94, 0, 0,
          2, 0x9f, 0x63, 0, 0x77, 0x35, 0x94, 0] ++ List.replicate 8 0 ++ [0]) } }

/-- C86: where a debug build panics, a release build may print coordinates that the file does not have: here the longitudes
-1640 and 1640 instead of -2000 and 2000. -/
theorem C86_text_fails :
    decodeText exactOps exactCodecs ⟨messagesBytes [([], farRaw)], 0, []⟩ "0.0".toList = .panic ∧
    Rel.decodeText exactOps exactCodecs ⟨messagesBytes [([], farRaw)], 0, []⟩ "0.0".toList =
      .ok [((some 45, some (-1640)), none), ((some 45, some 1640), some 9), ((some 44, some (-1640)), none),
        ((some 44, some 1640), some 4)] := by
  decide +kernel

/-- `fullRaw` with a representation that states five values for the four points of its grid. -/
def fiveRaw : RawMessage :=
  { fullRaw with first := { fullRaw.first with repr := [0, 0, 0, 5, 0, 0, 0, 0, 0, 0, 0, 0, 0, 0, 8, 0] } }

/-- C86: `list` of a debug build panics after the header line; a release build shows 4294967295 missing points of 4. -/
theorem C86_list_example : ∃ g, Grib2.read ⟨messagesBytes [([], fiveRaw)], 0, []⟩ = .ok g ∧
    ((listText false noTables FloatOps.exact showOpt g).2, (Rel.listText false noTables FloatOps.exact showOpt g).2,
      (SubIter.drain (g.len + 1) g.iter).map fun x => (Rel.listRow noTables FloatOps.exact showOpt x.1 x.2).ok?.map fun row =>
        (row.missing, row.total)) =
    (false, true, [some (4294967295, 4)]) :=
  Outcome.exists_of_ok? (f := fun g : Grib2 => ((listText false noTables FloatOps.exact showOpt g).2,
      (Rel.listText false noTables FloatOps.exact showOpt g).2,
      (SubIter.drain (g.len + 1) g.iter).map fun x => (Rel.listRow noTables FloatOps.exact showOpt x.1 x.2).ok?.map fun row =>
        (row.missing, row.total))) (by decide +kernel)

end Grib.Cli
