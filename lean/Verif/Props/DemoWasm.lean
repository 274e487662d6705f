import Verif.Model.DemoWasm
import Verif.Props.Demo
import Verif.Props.NarrowReleaseDecode
import Verif.Props.ReleaseCli

/-! # C95: the demo application in the browser -/

namespace Grib.Demo

open Grib Grib.Text Grib.Model Grib.Spec Grib.Props Grib.Codes Grib.Cli

variable {F G : Type}

/-- C95. Dropping a file of less than `2^31` octets: every file that opens on a 64-bit platform is shown; and if no message
states a total length of `2^32` octets or more, nothing else is shown.  The demo ends exactly if opening panics. -/
theorem C95_dropped (data : List UInt8) (hl : data.length < 2 ^ 31) :
    (∀ g, Grib2.read ⟨data, 0, []⟩ = .ok g → R32.dropped data = .ok (some g)) ∧
    ((∀ q, MagicAt data q → octet data (q + 7) = 2 → number data (q + 8) 8 < 2 ^ 32) →
      ∀ g, R32.dropped data = .ok (some g) → Grib2.read ⟨data, 0, []⟩ = .ok g) ∧
    (R32.dropped data = .panic ↔ Model.R32.read ⟨data, 0, []⟩ = .panic) := by
  have hs : ∀ g, R32.dropped data = .ok (some g) ↔ Model.R32.read ⟨data, 0, []⟩ = .ok g := by
    intro g
    unfold R32.dropped
    cases Model.R32.read ⟨data, 0, []⟩ with
    | ok g => simp
    | err e => simp
    | panic => simp
  have h0 : (⟨data, 0, []⟩ : Rdr).pos < 2 ^ 32 := by show 0 < 2 ^ 32; decide
  refine ⟨fun g h => (hs g).2 ?_, fun ht g h => ?_, ?_⟩
  · exact (C93_opens_iff _ hl h0 g).2 (C88_opens _ hl h0 g h)
  · exact (C93_opens_64 _ hl h0 ht g).1 ((hs g).1 h)
  · unfold R32.dropped
    cases Model.R32.read ⟨data, 0, []⟩ with
    | ok g => simp
    | err e => simp
    | panic => simp

/-- C95. A row of the listing: the number of points without a value is taken modulo `2^32`, and the row fails only for product
and grid definitions that are shorter than their templates. -/
theorem C95_row (k : Constants) (ops : FloatOps G) (showF : G → Str) (r : Rdr) (g : Grib2) (h : Grib2.read r = .ok g)
    (ix : Nat × Nat) (m : SubMessage) (hm : (ix, m) ∈ SubIter.drain (g.len + 1) g.iter) :
    (Cli.Rel.listRow k ops showF ix m = .panic ↔
      TimeCut r.data m.s4.2 ∨ SurfacesCut r.data m.s4.2 ∨ GridCut r.data m.s3.2) ∧
    ∀ row, Cli.Rel.listRow k ops showF ix m = .ok row →
      row.id = showIndex ix ∧
      row.total = field r.data m.s3.2.offset 7 10 ∧
      row.missing < 2 ^ 32 ∧
      (row.missing + field r.data m.s5.2.offset 6 9) % 2 ^ 32 = row.total ∧
      row.category = ((categoryOf r.data m).bind fun c => (numberOf r.data m).map fun n =>
        tableText k (.t4_2 (field r.data m.s0.2.offset 7 7) c) n).getD [] ∧
      (∀ p, ((prodOf r.data m).generatingProcess : Outcome Empty _) = .ok p →
        row.process = (p.map (tableText k .t4_3)).getD []) ∧
      (∀ t, ((prodOf r.data m).forecastTime : Outcome Empty _) = .ok t →
        row.time = (t.map fun t => (ForecastTime.fromNumbers t.1 t.2).show).getD []) ∧
      (∀ s, ((prodOf r.data m).fixedSurfaces : Outcome Empty _) = .ok s →
        row.surface1 = (s.map fun s => formatSurface ops showF s.1).getD [] ∧
        row.surface2 = (s.map fun s => formatSurface ops showF s.2).getD []) := by
  have hf := facts h hm
  obtain ⟨v1, v2, v3, v4, v5, v6, v7, v8⟩ := view_reads (ε := Empty) h hm
  obtain ⟨-, -, p, hp⟩ := C64_others (ε := Empty) _ _ _ (sect4 (r := r) hf)
  have ht := C64_time (ε := Empty) _ _ _ (sect4 (r := r) hf)
  have hs := C64_surfaces (ε := Empty) _ _ _ (sect4 (r := r) hf)
  have hg := C64_grid_type _ _ hf.f3.1 hf.f3.2
  rw [← ht, ← hs, ← hg]
  unfold Cli.Rel.listRow
  simp only [v1, v2, v3, v4, v5, v6, v7, v8, hp, Outcome.bind_ok]
  have b3 : field r.data m.s3.2.offset 7 10 < 2 ^ 32 := number_lt _ _ 4
  have b5 : field r.data m.s5.2.offset 6 9 < 2 ^ 32 := number_lt _ _ 4
  cases ((prodOf r.data m).forecastTime : Outcome Empty _) with
  | err e => exact e.elim
  | panic => simp
  | ok t =>
    cases ((prodOf r.data m).fixedSurfaces : Outcome Empty _) with
    | err e => exact e.elim
    | panic => simp
    | ok s =>
      cases gridType ⟨payloadAt r.data m.s3.2.offset m.s3.2.size⟩ with
      | err e => exact e.elim
      | panic => simp
      | ok gt =>
        refine ⟨by simp, fun row hr => ?_⟩
        simp only [Outcome.bind_ok] at hr
        have hr := Outcome.ok.inj hr
        subst hr
        refine ⟨rfl, rfl, Nat.mod_lt _ (by decide), ?_, rfl, ?_, ?_, ?_⟩
        · unfold Model.Rel.sub32
          dsimp only
          rw [Nat.mod_add_mod, show field r.data m.s3.2.offset 7 10 + 2 ^ 32 - field r.data m.s5.2.offset 6 9 +
            field r.data m.s5.2.offset 6 9 = field r.data m.s3.2.offset 7 10 + 2 ^ 32 by omega, Nat.add_mod_right,
            Nat.mod_eq_of_lt b3]
        · intro p' hp'; cases hp'; rfl
        · intro t' ht'; cases ht'; rfl
        · intro s' hs'; cases hs'; cases s <;> exact ⟨rfl, rfl⟩

/-- Rows that come in both builds. -/
theorem mapSubs_fol {α : Type} {f f' : Nat × Nat → SubMessage → Outcome Empty α}
    (h : ∀ ix m, Model.Rel.Fol (f ix m) (f' ix m)) (l : List ((Nat × Nat) × SubMessage)) (as : List α)
    (hl : mapSubs f l = .ok as) : mapSubs f' l = .ok as := by
  induction l generalizing as with
  | nil => exact hl
  | cons x xs ih =>
    unfold mapSubs at hl
    obtain ⟨a, ha, hl⟩ := Outcome.bind_eq_ok hl
    obtain ⟨bs, hb, hl⟩ := Outcome.bind_eq_ok hl
    unfold mapSubs
    have : f' x.1 x.2 = .ok a := by
      rcases h x.1 x.2 with hp | hp
      · rw [hp] at ha; cases ha
      · rw [hp, ha]
    rw [this, Outcome.bind_ok, ih bs hb, Outcome.bind_ok]
    exact hl

/-- C95. The listing has a row for each submessage, in order, and fails exactly if one of them does; where the listing of
`C89_rows` comes, this one is the same. -/
theorem C95_listing (k : Constants) (ops : FloatOps G) (showF : G → Str) (r0 : Rdr) (g : Grib2)
    (h : Grib2.read r0 = .ok g) :
    (∀ title rows, R32.listing k ops showF g = .ok (title, rows) →
      (∃ n, IsDecimal n g.len ∧ title = n ++ " submessage(s)".toList) ∧
      rows.length = (SubIter.drain (g.len + 1) g.iter).length ∧
      ∀ (index : Nat) (row : ListRow), rows[index]? = some row →
        ∃ ix m, (SubIter.drain (g.len + 1) g.iter)[index]? = some (ix, m) ∧ Cli.Rel.listRow k ops showF ix m = .ok row) ∧
    (R32.listing k ops showF g = .panic ↔ ∃ ix m, (ix, m) ∈ SubIter.drain (g.len + 1) g.iter ∧
      (TimeCut r0.data m.s4.2 ∨ SurfacesCut r0.data m.s4.2 ∨ GridCut r0.data m.s3.2)) ∧
    ∀ x, listing k ops showF g = .ok x → R32.listing k ops showF g = .ok x := by
  refine ⟨?_, ?_, ?_⟩
  · intro title rows hl
    unfold R32.listing at hl
    rw [sizeHint_iter, Outcome.bind_ok] at hl
    obtain ⟨rows', hr, hl⟩ := Outcome.bind_eq_ok hl
    cases hl
    refine ⟨⟨showNat g.len, showNat_decimal _, rfl⟩, mapSubs_length hr, ?_⟩
    intro index row hrow
    obtain ⟨x, hx, hf⟩ := mapSubs_at hr index row hrow
    exact ⟨x.1, x.2, hx, hf⟩
  · have e : R32.listing k ops showF g = .panic ↔
        mapSubs (Cli.Rel.listRow k ops showF) (SubIter.drain (g.len + 1) g.iter) = .panic := by
      unfold R32.listing
      rw [sizeHint_iter, Outcome.bind_ok]
      cases mapSubs (Cli.Rel.listRow k ops showF) (SubIter.drain (g.len + 1) g.iter) with
      | panic => simp
      | err e => exact e.elim
      | ok rows => simp
    rw [e, mapSubs_panic]
    constructor
    · rintro ⟨x, hx, hp⟩
      exact ⟨x.1, x.2, hx, (C95_row k ops showF r0 g h x.1 x.2 hx).1.1 hp⟩
    · rintro ⟨ix, m, hm, hp⟩
      exact ⟨(ix, m), hm, (C95_row k ops showF r0 g h ix m hm).1.2 hp⟩
  · intro x hx
    unfold listing at hx
    unfold R32.listing
    rw [sizeHint_iter, Outcome.bind_ok] at hx ⊢
    obtain ⟨rows, hr, hx⟩ := Outcome.bind_eq_ok hx
    unfold listRows at hr
    rw [mapSubs_fol (listRow_fol k ops showF) _ _ hr, Outcome.bind_ok]
    exact hx

/-- The picture of a submessage, given its grid definition. -/
theorem R32.picture_eq (grow : Nat → Bool) (c : Codecs Fl) {r0 : Rdr} {g : Grib2} (h : Grib2.read r0 = .ok g) (r : Rdr)
    (index : Nat) (ix : Nat × Nat) (m : SubMessage) (hm : (SubIter.drain (g.len + 1) g.iter)[index]? = some (ix, m)) :
    R32.picture grow c g r index =
      match gridShape ⟨payloadAt r0.data m.s3.2.offset m.s3.2.size⟩ with
      | .panic => .panic
      | .err _ => .ok none
      | .ok (w, h) =>
        match (Model.R32.fromSub m r).1 with
        | .ok d =>
          match R32.dispatch grow c d with
          | .ok it =>
            match it.toList c.ops with
            | .done vs =>
              if grow (4 * it.len) && grow (4 * vs.length) then
                match imageData (vs.flatMap palette) w h with
                | some i => .ok (some i)
                | none => .panic
              else .panic
            | _ => .panic
          | _ => .panic
        | _ => .panic := by
  obtain ⟨-, -, -, -, v5, -⟩ := view_reads (ε := Empty) h (List.mem_of_getElem? hm)
  unfold R32.picture
  rw [nth_row h, hm, Outcome.bind_ok]
  dsimp only
  rw [v5, Outcome.bind_ok]
  cases gridShape ⟨payloadAt r0.data m.s3.2.offset m.s3.2.size⟩ with
  | panic => rfl
  | err e => rfl
  | ok wh =>
    dsimp only
    cases (Model.R32.fromSub m r).1 with
    | panic => rfl
    | err e => rfl
    | ok d =>
      simp only [unwrap, Outcome.bind_ok]
      cases R32.dispatch grow c d with
      | panic => rfl
      | err e => rfl
      | ok it =>
        simp only [Outcome.bind_ok]
        cases it.toList c.ops <;> rfl

/-- The octets of a picture, row after row. -/
theorem shows_octets (vs : List Fl) (w h : Nat) (b : vs.length = w * h) : Shows ⟨w, h, vs.flatMap palette⟩ w h vs := by
  refine ⟨rfl, rfl, by rw [octets_length, b], ?_⟩
  intro x hx y hy
  have hlt : y * w + x < vs.length := by
    rw [b]
    calc y * w + x < y * w + w := by omega
      _ = (y + 1) * w := by rw [Nat.succ_mul]
      _ ≤ h * w := Nat.mul_le_mul_right _ hy
      _ = w * h := Nat.mul_comm _ _
  exact ⟨vs[y * w + x], List.getElem?_eq_getElem hlt, octets_at vs _ _ (List.getElem?_eq_getElem hlt)⟩

/-- The number of points is that of the decoder. -/
theorem R32.dispatch_len {grow : Nat → Bool} {c : Codecs F} {t : Decoder} {it : BitmapIter F}
    (h : Model.R32.dispatch grow c t = .ok it) : it.len = t.numPointsTotal := by
  unfold Model.R32.dispatch at h
  obtain ⟨xs, -, h⟩ := Outcome.bind_eq_ok h
  unfold Model.R32.bitmapNew at h
  split at h
  · cases h
  · rw [← Outcome.ok.inj h]

/-- C95. Clicking on a row: when there is a picture, and what it shows. -/
theorem C95_picture (grow : Nat → Bool) (c : Codecs Fl) (r0 : Rdr) (g : Grib2) (h : Grib2.read r0 = .ok g) (r : Rdr)
    (index : Nat) (ix : Nat × Nat) (m : SubMessage) (hm : (SubIter.drain (g.len + 1) g.iter)[index]? = some (ix, m))
    (d : GridDefinition) (hd : d = ⟨payloadAt r0.data m.s3.2.offset m.s3.2.size⟩) :
    ((∃ i, R32.picture grow c g r index = .ok (some i)) ↔
      ∃ w h t vs, gridShape d = .ok (w, h) ∧ (Model.R32.fromSub m r).1 = .ok t ∧ t.templateNum ≠ 40 ∧
        r32DecodeAll grow c t = .ok (.done vs) ∧ vs ≠ [] ∧ vs.length = w * h ∧
        grow (4 * t.numPointsTotal) = true ∧ grow (4 * vs.length) = true) ∧
    (∀ i, R32.picture grow c g r index = .ok (some i) →
      ∃ w h vs, gridShape d = .ok (w, h) ∧ r32DecodeSub grow c m r = .ok (.done vs) ∧ Shows i w h vs) ∧
    (R32.picture grow c g r index = .ok none ↔ ∃ e, gridShape d = .err e) := by
  have hp := R32.picture_eq grow c h r index ix m hm
  rw [← hd] at hp
  have key : ∀ i, R32.picture grow c g r index = .ok (some i) →
      ∃ w h t vs, gridShape d = .ok (w, h) ∧ (Model.R32.fromSub m r).1 = .ok t ∧ t.templateNum ≠ 40 ∧
        r32DecodeAll grow c t = .ok (.done vs) ∧ imageData (vs.flatMap palette) w h = some i ∧
        grow (4 * t.numPointsTotal) = true ∧ grow (4 * vs.length) = true := by
    intro i hi
    rw [hp] at hi
    split at hi
    · cases hi
    · cases hi
    · rename_i w h hs
      split at hi
      · rename_i t ht
        split at hi
        · rename_i it hit
          split at hi
          · rename_i vs hv
            split at hi
            · rename_i hg
              simp only [Bool.and_eq_true] at hg
              split at hi
              · rename_i j hj
                cases hi
                unfold R32.dispatch at hit
                split at hit
                · cases hit
                · rename_i h40
                  refine ⟨w, h, t, vs, hs, ht, h40, ?_, hj, ?_, hg.2⟩
                  · unfold r32DecodeAll; rw [hit, Outcome.bind_ok, hv]
                  · rw [← R32.dispatch_len hit]; exact hg.1
              · cases hi
            · cases hi
          · cases hi
        · cases hi
      · cases hi
  refine ⟨⟨?_, ?_⟩, ?_, ?_⟩
  · rintro ⟨i, hi⟩
    obtain ⟨w, h, t, vs, h1, h2, h3, h4, h5, h6⟩ := key i hi
    obtain ⟨a, b, -⟩ := (imageData_iff vs w h i).mp h5
    exact ⟨w, h, t, vs, h1, h2, h3, h4, a, b, h6⟩
  · rintro ⟨w, h, t, vs, h1, h2, h3, h4, a, b, h5, h6⟩
    refine ⟨⟨w, h, vs.flatMap palette⟩, ?_⟩
    unfold r32DecodeAll at h4
    obtain ⟨it, hit, h4⟩ := Outcome.bind_eq_ok h4
    have h4 := Outcome.ok.inj h4
    rw [hp, h1, h2]
    dsimp only
    unfold R32.dispatch
    rw [if_neg h3, hit]
    dsimp only
    rw [h4]
    dsimp only
    rw [R32.dispatch_len hit, h5, h6, (imageData_iff vs w h _).mpr ⟨a, b, rfl⟩]
    rfl
  · intro i hi
    obtain ⟨w, h, t, vs, h1, h2, -, h4, h5, -⟩ := key i hi
    obtain ⟨a, b, rfl⟩ := (imageData_iff vs w h i).mp h5
    refine ⟨w, h, vs, h1, ?_, shows_octets vs w h b⟩
    unfold r32DecodeSub
    rw [h2, Outcome.bind_ok, h4]
  · rw [hp]
    constructor
    · intro hi
      split at hi
      · cases hi
      · rename_i e he; exact ⟨e, he⟩
      · split at hi
        · split at hi
          · split at hi
            · split at hi
              · split at hi <;> cases hi
              · cases hi
            · cases hi
          · cases hi
        · cases hi
    · rintro ⟨e, he⟩
      rw [he]

/-- C95. A click on a submessage packed as JPEG 2000 code stream ends the application. -/
theorem C95_jpeg (grow : Nat → Bool) (c : Codecs Fl) (r0 : Rdr) (g : Grib2) (h : Grib2.read r0 = .ok g) (r : Rdr)
    (index : Nat) (ix : Nat × Nat) (m : SubMessage) (hm : (SubIter.drain (g.len + 1) g.iter)[index]? = some (ix, m))
    (w k : Nat) (hs : gridShape ⟨payloadAt r0.data m.s3.2.offset m.s3.2.size⟩ = .ok (w, k)) (t : Decoder)
    (ht : (Model.R32.fromSub m r).1 = .ok t) (h40 : t.templateNum = 40) : R32.picture grow c g r index = .panic := by
  rw [R32.picture_eq grow c h r index ix m hm, hs, ht]
  dsimp only
  unfold R32.dispatch
  rw [if_pos h40]

/-- C95, the whole way: a file of less than `2^29` octets that opens on a 64-bit platform, with a submessage in another
packing than JPEG 2000 and of at most `2^27` points, whose picture `C89_picture` describes: the demo shows the same one.  (Run-length packing as in
`C90_submessage`.) -/
theorem C95_same {grow : Nat → Bool} (hg : Growth grow) (c : Codecs Fl) (r0 : Rdr) (hl : r0.data.length < 2 ^ 29)
    (hp : r0.pos < 2 ^ 32) (g : Grib2) (h : Grib2.read r0 = .ok g) (r : Rdr) (index : Nat) (ix : Nat × Nat)
    (m : SubMessage) (hm : (SubIter.drain (g.len + 1) g.iter)[index]? = some (ix, m)) (i : Image)
    (hi : picture c g r index = .ok (some i)) (t : Decoder) (ht : (Decoder.fromSub m r).1 = .ok t)
    (h40 : t.templateNum ≠ 40) (hn : t.numPointsTotal ≤ 2 ^ 27) (hw : i.width * i.height ≤ 2 ^ 28)
    (hr : t.templateNum = 200 → PowersFit t) (xs : Items Fl) (hx : t.decodeValues c = .ok xs) (hnp : .panic ∉ xs)
    (hxl : xs.length ≤ 2 ^ 27) : R32.picture grow c g r index = .ok (some i) := by
  have hm' := List.mem_of_getElem? hm
  obtain ⟨hs, hk⟩ := C94_submessage (grow := grow) hl hp h
  obtain ⟨e, hk⟩ := hk ix m hm' r
  obtain ⟨-, hk2⟩ := C90_submessage (grow := grow) (F := Fl) hg hl hp h
  obtain ⟨-, hk2⟩ := hk2 ix m hm' r
  have e2 := hk2 c t xs ht (by omega) hr hx hnp hxl
  have hp := picture_eq c h r index ix m hm
  rw [hi] at hp
  split at hp
  · cases hp
  · cases hp
  · rename_i w k hs
    split at hp
    · rename_i vs hv
      have e3 : r32DecodeSub grow c m r = .ok (.done vs) := by
        rw [hk c (by rw [e2, hv]; intro h; cases h) (by rw [e2, hv]; intro h; cases h), e2, hv]
      split at hp
      · rename_i j hj
        cases hp
        obtain ⟨a, b, hi⟩ := (imageData_iff vs w k i).mp hj
        subst hi
        dsimp only at hw
        have e4 : r32DecodeAll grow c t = .ok (.done vs) := by
          unfold r32DecodeSub at e3
          rw [e, ht, Outcome.bind_ok] at e3
          exact e3
        unfold r32DecodeAll at e4
        obtain ⟨it, hit, e4⟩ := Outcome.bind_eq_ok e4
        have e4 := Outcome.ok.inj e4
        rw [R32.picture_eq grow c h r index ix m hm, hs, e, ht]
        dsimp only
        unfold R32.dispatch
        rw [if_neg h40, hit]
        dsimp only
        rw [e4]
        dsimp only
        rw [R32.dispatch_len hit, hg.small _ (by omega), hg.small _ (by omega), hj]
        rfl
      · cases hp
    · cases hp

/-! ### Concrete files -/

def halfGrow (n : Nat) : Bool := decide (n < 2 ^ 31)

/-- The packing, the number of points, whether all values come without a panic, and their number. -/
def decodedFacts (m : SubMessage) (r : Rdr) : List Nat :=
  match (Decoder.fromSub m r).1 with
  | .ok t =>
    match t.decodeValues demoCodecs with
    | .ok xs => if xs.all (fun x => x.ok?.isSome) then [t.templateNum, t.numPointsTotal, xs.length] else []
    | _ => []
  | _ => []

/-- The picture of `C89` for the sample of the demo, also in the browser: the hypotheses of `C95_same`. -/
example : ∃ g i, Grib2.read ⟨demoFile, 0, []⟩ = .ok g ∧ picture demoCodecs g ⟨demoFile, 0, []⟩ 0 = .ok (some i) ∧
    i.width = 2 ∧ i.height = 2 ∧ R32.picture halfGrow demoCodecs g ⟨demoFile, 0, []⟩ 0 = .ok (some i) := by
  obtain ⟨g, h1, h3⟩ := Outcome.exists_of_ok? (x := Grib2.read ⟨demoFile, 0, []⟩) (f := fun g : Grib2 =>
    (SubIter.drain (g.len + 1) g.iter).map (fun x => decodedFacts x.2 ⟨demoFile, 0, []⟩))
    (b := [[0, 4, 2]]) (by decide +kernel)
  obtain ⟨g', h1', h4⟩ := Outcome.exists_of_ok? (x := Grib2.read ⟨demoFile, 0, []⟩) (f := fun g : Grib2 =>
    picture demoCodecs g ⟨demoFile, 0, []⟩ 0)
    (b := .ok (some ⟨2, 2, [0, 32, 128, 255, 185, 235, 255, 255, 0, 32, 128, 255, 0, 150, 255, 255]⟩)) (by decide +kernel)
  obtain rfl := Outcome.ok.inj (h1.symm.trans h1')
  cases hd : SubIter.drain (g.len + 1) g.iter with
  | nil => rw [hd] at h3; cases h3
  | cons x l =>
    rw [hd] at h3
    have h3 := (List.cons.inj h3).1
    unfold decodedFacts at h3
    dsimp only at h3
    cases ht : (Decoder.fromSub x.2 ⟨demoFile, 0, []⟩).1 with
    | panic => rw [ht] at h3; cases h3
    | err e => rw [ht] at h3; cases h3
    | ok t =>
      rw [ht] at h3
      dsimp only at h3
      cases hx : t.decodeValues demoCodecs with
      | panic => rw [hx] at h3; cases h3
      | err e => rw [hx] at h3; cases h3
      | ok xs =>
        rw [hx] at h3
        dsimp only at h3
        by_cases hall : xs.all (fun x => x.ok?.isSome) = true
        case neg => rw [if_neg hall] at h3; cases h3
        rw [if_pos hall] at h3
        simp only [List.cons.injEq, and_true] at h3
        obtain ⟨a1, a2, a3⟩ := h3
        have hn : Outcome.panic ∉ xs := fun hp => by
          have := List.all_eq_true.1 hall _ hp
          cases this
        exact ⟨g, _, h1, h4, rfl, rfl, C95_same growth_half demoCodecs _ (by decide +kernel) (by decide) g h1 _ 0 x.1 x.2
          (by rw [hd]; rfl) _ h4 t ht (by omega) (by omega) (by decide) (fun h => by omega) xs hx hn (by omega)⟩

/-- `demoFile` packed as JPEG 2000 code stream, all values the same (no code stream is needed for that). -/
def constantFile : List UInt8 := messagesBytes [([], { gridRaw with first := { gridRaw.first with repr :=
  [0, 0, 0, 2, 0, 40, 0x43, 0x87, 0, 0, 0, 0, 0, 0, 0, 0] } })]

/-- C95, failure: `C89_picture` gives a picture, the demo in the browser ends. -/
theorem C95_jpeg_fails : ∃ g, Grib2.read ⟨constantFile, 0, []⟩ = .ok g ∧
    (∃ i, picture demoCodecs g ⟨constantFile, 0, []⟩ 0 = .ok (some i)) ∧
    R32.picture halfGrow demoCodecs g ⟨constantFile, 0, []⟩ 0 = .panic := by
  obtain ⟨g, h1, h2⟩ := Outcome.exists_of_ok? (x := Grib2.read ⟨constantFile, 0, []⟩) (f := fun g : Grib2 =>
    (picture demoCodecs g ⟨constantFile, 0, []⟩ 0, R32.picture halfGrow demoCodecs g ⟨constantFile, 0, []⟩ 0))
    (b := (.ok (some ⟨2, 2, [0, 32, 128, 255, 0, 65, 255, 255, 0, 32, 128, 255, 0, 65, 255, 255]⟩), .panic)) (by decide +kernel)
  exact ⟨g, h1, ⟨_, congrArg Prod.fst h2⟩, congrArg Prod.snd h2⟩

/-- C95, failure: the listing of a file with five values for four points shows 4294967295 points without a value. -/
theorem C95_missing_fails : ∃ g, Grib2.read ⟨messagesBytes [([], fiveRaw)], 0, []⟩ = .ok g ∧
    (R32.listing noTables FloatOps.exact showOpt g).ok?.map (fun x => x.2.map fun row => (row.missing, row.total)) =
      some [(4294967295, 4)] :=
  Outcome.exists_of_ok? (f := fun g : Grib2 => (R32.listing noTables FloatOps.exact showOpt g).ok?.map (fun x => x.2.map fun row => (row.missing, row.total)))
    (by decide +kernel)

/-- The hypotheses of `C95_dropped`: the sample file. -/
example : ∃ g, R32.dropped sampleFile = .ok (some g) ∧ g.submessages.length = 1 := by
  obtain ⟨g, h1, h2⟩ := sampleFile_opens
  exact ⟨g, (C95_dropped sampleFile (by decide +kernel)).1 g h1, h2⟩

end Grib.Demo
