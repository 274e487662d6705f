import Verif.Lemmas.ReaderAny
import Verif.Props.Opening
import Verif.Props.DecodeOutcome

/-! # C70: whatever the reader does, what is reported is right -/

namespace Grib.Props

open Grib.Model Grib.Spec

/-- The items of a cursor begin with the sections of any walk. -/
theorem itemsR_walk_prefix {data : List UInt8} {p p' t' : Nat} {sects : List SectionInfo} (hw : Walk data p p sects p' t')
    (hf : ∀ s ∈ sects, Faithful data s ∧ Addressable data s) :
    ∃ rest, (itemsR ⟨data, p, []⟩).1 = sects.map .ok ++ rest := by
  obtain ⟨w', rest', h1, h2⟩ := steps_walk (inv_start p) hw hf
  have hc := h1.collect (data.length + 2)
  rw [collectR_fuel (fuel := data.length + 2) (r := ⟨data, p, []⟩) (inv_start p) (by simp only; omega)
    (Nat.le_add_left _ _)] at hc
  refine ⟨(collectR (data.length + 2) w' rest' ⟨data, p', []⟩).1, ?_⟩
  show (collectR (data.length + 2) 0 0 ⟨data, p, []⟩).1 = _
  rw [hc]

/-- C70: whatever the reader does while data are being opened (fail, deliver less than asked for, at any call): if opening
succeeds, the sections are those met when walking through the data from where the reader stood, each is what the octets say,
they are in an allowed order and the last message is complete.  Only what follows it may be missing. -/
theorem C70_opened (r : Rdr) (g : Grib2) (h : Grib2.read r = .ok g) :
    Accepted g.sections ∧ (∀ s ∈ g.sections, Faithful r.data s ∧ Addressable r.data s) ∧
    ∃ p, Walk r.data r.pos r.pos g.sections p p := by
  obtain ⟨e, ha⟩ := (read_result r).1 g h
  obtain ⟨sects, tail, p', t', h1, h2, h3, h4⟩ := itemsR_any r
  rw [h1] at e
  have hnil : tail = [] := by
    cases tail with
    | nil => rfl
    | cons x xs =>
      exfalso
      have hx : x ∈ g.sections.map Outcome.ok := by rw [e]; simp
      obtain ⟨y, -, rfl⟩ := List.mem_map.1 hx
      rcases h4 with h | ⟨e, h⟩ | ⟨h, -⟩ <;> simp at h
  subst hnil
  rw [List.append_nil] at e
  have hs : g.sections = sects := (List.map_inj_right (by intro x y; simp)).1 e
  rw [hs] at ha ⊢
  have hpt := walk_closed h2 (fun s hs => (h3 s hs).1) ha
  subst hpt
  exact ⟨ha, h3, p', h2⟩

/-- C70: nothing more can be said: every such list of sections is what some reader of these data makes of them. -/
theorem C70_reachable (data : List UInt8) (pos : Nat) (sects : List SectionInfo) :
    (∃ evs g, Grib2.read ⟨data, pos, evs⟩ = .ok g ∧ g.sections = sects) ↔
      Accepted sects ∧ (∀ s ∈ sects, Faithful data s ∧ Addressable data s) ∧ ∃ p, Walk data pos pos sects p p := by
  constructor
  · rintro ⟨evs, g, h, rfl⟩
    exact C70_opened ⟨data, pos, evs⟩ g h
  · rintro ⟨ha, hf, p, hw⟩
    obtain ⟨evs, he⟩ := collectR_stops (fuel := sects.length + 1 + (data.length + 2)) (inv_start pos) hw hf (by omega)
    have hi : (itemsR ⟨data, pos, evs⟩).1 = sects.map .ok := by
      show (collectR (data.length + 2) 0 0 ⟨data, pos, evs⟩).1 = _
      rw [← collectR_fuel (fuel := data.length + 2) (fuel' := sects.length + 1 + (data.length + 2))
        (r := ⟨data, pos, evs⟩) (inv_start pos) (by simp only; omega) (by omega)]
      exact he
    obtain ⟨g, h1, h2⟩ := (read_result _).2.1 sects hi ha
    exact ⟨evs, g, h1, h2⟩

/-- C70: in particular, if the data open at all when read without disturbances, then under any disturbance opening gives an
error, or the first sections and the first submessages of the undisturbed result; it does not panic. -/
theorem C70_prefix (r : Rdr) (g0 : Grib2) (h0 : Grib2.read ⟨r.data, r.pos, []⟩ = .ok g0) :
    (∃ e, Grib2.read r = .err e) ∨
    ∃ g, Grib2.read r = .ok g ∧ g.sections <+: g0.sections ∧ g.submessages <+: g0.submessages := by
  obtain ⟨e0, -⟩ := (read_result _).1 g0 h0
  have hsubs : ∀ {r : Rdr} {g : Grib2}, Grib2.read r = .ok g →
      collectResult (idxStreamItems (g.sections.map .ok)).1 = .ok g.submessages := by
    intro r g h
    have e := ((read_result r).1 g h).1
    rw [Grib2.read_eq, ← e] at h
    cases hc : collectResult (idxStreamItems (g.sections.map .ok)).1 with
    | ok subs => rw [hc] at h; simp only [Outcome.ok.injEq] at h; rw [← h]
    | err e => rw [hc] at h; simp at h
    | panic => rw [hc] at h; simp at h
  cases hr : Grib2.read r with
  | err e => exact Or.inl ⟨e, rfl⟩
  | panic =>
    exfalso
    have hp := (read_result r).2.2.1 hr
    obtain ⟨sects, tail, p', t', h1, h2, h3, h4⟩ := itemsR_any r
    rw [h1] at hp
    rcases h4 with rfl | ⟨e, rfl⟩ | ⟨rfl, h4⟩
    · exact absurd (collectResult_mem.2 hp) (pItems_noPanic (by simp))
    · refine absurd (collectResult_mem.2 hp) (pItems_noPanic ?_)
      simp only [List.mem_append, List.mem_map, List.mem_singleton]
      rintro x (⟨a, -, rfl⟩ | rfl) <;> simp
    · have := (itemsR_of_walk h2 h3).2 h4
      rw [this] at e0
      have hx : Outcome.panic ∈ g0.sections.map (Outcome.ok : _ → Item) := by rw [e0]; simp
      simp at hx
  | ok g =>
    right
    obtain ⟨ha, hf, p, hw⟩ := C70_opened r g hr
    obtain ⟨rest, hrest⟩ := itemsR_walk_prefix hw hf
    rw [hrest] at e0
    have hrest' : ∃ b : List SectionInfo, rest = b.map .ok := by
      refine ⟨g0.sections.drop g.sections.length, ?_⟩
      rw [List.map_drop, e0, ← List.length_map (Outcome.ok : SectionInfo → Item), List.drop_left]
    obtain ⟨b, rfl⟩ := hrest'
    rw [← List.map_append] at e0
    have e1 : g0.sections = g.sections ++ b := (List.map_inj_right (by intro x y; simp)).1 e0
    refine ⟨g, rfl, ⟨b, e1.symm⟩, ?_⟩
    obtain ⟨ms, hm, hms⟩ := ha
    have h1 := hsubs hr
    rw [hms, (C14_listing_by_index ms hm).1, Outcome.ok.injEq] at h1
    have h2 := hsubs h0
    rw [e1, List.map_append, hms] at h2
    obtain ⟨k, hk⟩ := (C15_prefix_unaffected ms hm (b.map .ok)).2
    rw [h1] at hk
    rw [collectResult_ok_iff] at h2
    rw [← hk] at h2
    refine ⟨g0.submessages.drop g.submessages.length, ?_⟩
    have h3 : (g0.submessages.map Outcome.ok : List (Outcome ParseError _)).take g.submessages.length =
        g.submessages.map .ok := by
      rw [← h2, List.take_left' (by simp)]
    rw [← List.map_take] at h3
    have h4 := (List.map_inj_right (by intro x y; simp)).1 h3
    calc g.submessages ++ g0.submessages.drop g.submessages.length
        = g0.submessages.take g.submessages.length ++ g0.submessages.drop g.submessages.length := by rw [h4]
      _ = g0.submessages := List.take_append_drop _ _

/-- C70: disturbances do not cause panics: if opening panics under some behaviour of the reader, the data make it panic when
they are read without disturbances. -/
theorem C70_panics (r : Rdr) (h : Grib2.read r = .panic) : Grib2.read ⟨r.data, r.pos, []⟩ = .panic := by
  have hp := (read_result r).2.2.1 h
  obtain ⟨sects, tail, p', t', h1, h2, h3, h4⟩ := itemsR_any r
  rw [h1] at hp
  rcases h4 with rfl | ⟨e, rfl⟩ | ⟨rfl, h4⟩
  · exact absurd (collectResult_mem.2 hp) (pItems_noPanic (by simp))
  · refine absurd (collectResult_mem.2 hp) (pItems_noPanic ?_)
    simp only [List.mem_append, List.mem_map, List.mem_singleton]
    rintro x (⟨a, -, rfl⟩ | rfl) <;> simp
  · refine (C59_panics_iff ⟨r.data, r.pos, []⟩ Benign.nil).2 ⟨sects, p', t', ?_, h3, h2, h4⟩
    apply Classical.byContradiction
    intro hv
    obtain ⟨e, k, he, -⟩ := pItems_not_viable (tail := [.panic]) (by simp [NoOk]) hv
    rw [he] at hp
    simp at hp

/-! ## Decoding -/

theorem rdReadExactLoop_robust (fuel n : Nat) (r : Rdr) :
    (rdReadExactLoop fuel n r).1 = .err (.readError .io) ∨ n ≤ fuel →
    (rdReadExactLoop fuel n r).1 = .err (.readError .io) ∨
      (rdReadExactLoop fuel n r).1 = (rdReadExactLoop fuel n ⟨r.data, r.pos, []⟩).1 := by
  rintro (h | hf)
  · exact Or.inl h
  have hcur : (rdReadExactLoop fuel n ⟨r.data, r.pos, []⟩).1 =
      if r.data.length - r.pos < n then .err (.readError .unexpectedEof) else .ok ((r.data.drop r.pos).take n) := by
    obtain ⟨es, -, h2⟩ := rdReadExactLoop_char fuel n ⟨r.data, r.pos, []⟩ hf (by simp)
    rw [h2]
    by_cases hn : n = 0
    · subst hn; simp
    · split
      · rw [if_neg (by simp only at *; omega)]
      · rw [if_pos (by simp only at *; omega)]
  rw [hcur]
  clear hcur
  induction fuel generalizing n r with
  | zero =>
    obtain rfl : n = 0 := by omega
    right
    simp [rdReadExactLoop, RM.pure_apply]
  | succ f ih =>
    rw [rdReadExactLoop]
    by_cases h0 : n = 0
    · subst h0; right; rw [if_pos rfl]; simp [RM.pure_apply]
    · rw [if_neg h0, RM.bind_apply]
      rcases hrd : rdRead n r with ⟨o, r1⟩
      cases o with
      | err e =>
        left
        unfold rdRead at hrd
        split at hrd <;> simp [Rdr.deliver] at hrd
        rw [← hrd.1]
      | panic => exact absurd hrd (rdRead_noPanic _ _ _)
      | ok chunk =>
        have hk : ∃ k, 1 ≤ k ∧ k ≤ n ∧ chunk = (r.data.drop r.pos).take k ∧ r1.pos = r.pos + chunk.length ∧
            r1.data = r.data := by
          unfold rdRead Rdr.deliver at hrd
          split at hrd <;> simp only [Prod.mk.injEq, Outcome.ok.injEq, reduceCtorEq, false_and] at hrd
          · obtain ⟨rfl, rfl⟩ := hrd; exact ⟨n, by omega, by omega, rfl, rfl, rfl⟩
          · obtain ⟨rfl, rfl⟩ := hrd; exact ⟨n, by omega, by omega, rfl, rfl, rfl⟩
          · obtain ⟨rfl, rfl⟩ := hrd; exact ⟨_, by omega, by omega, rfl, rfl, rfl⟩
        obtain ⟨k, hk1, hk2, hk3, hk4, hk5⟩ := hk
        have hlen : chunk.length = min k (r.data.length - r.pos) := by rw [hk3]; simp
        simp only
        by_cases hz : chunk.length = 0
        · rw [if_pos hz]
          right
          rw [if_pos (by omega)]
          rfl
        · rw [if_neg hz, RM.bind_apply]
          have := ih (n - chunk.length) r1 (by omega)
          rw [hk5, hk4] at this
          rcases hr : rdReadExactLoop f (n - chunk.length) r1 with ⟨o2, r2⟩
          rw [hr] at this
          simp only at this
          rcases this with rfl | rfl
          · left; rfl
          · right
            by_cases hsh : r.data.length - r.pos < n
            · rw [if_pos hsh, if_pos (by omega)]
            · rw [if_neg hsh, if_neg (by omega)]
              simp only [RM.pure_apply, Outcome.ok.injEq]
              have hck : chunk.length = k := by omega
              rw [hck]
              rw [hk3, show n = k + (n - k) by omega, List.take_add, List.drop_drop]
              rw [show k + (n - k) - k = n - k by omega]

theorem readSlice_robust (s : SectionInfo) (r : Rdr) :
    (readSectPayloadAsSlice s r).2.data = r.data ∧
    ((readSectPayloadAsSlice s r).1 = .err (.readError .io) ∨
      ∀ pos, (readSectPayloadAsSlice s r).1 = (readSectPayloadAsSlice s ⟨r.data, pos, []⟩).1) := by
  refine ⟨(readSectPayloadAsSlice_honest s r).1, ?_⟩
  unfold readSectPayloadAsSlice
  rw [RM.bind_apply]
  rcases hs : rdSeekStart (s.offset + 5) r with ⟨o, r1⟩
  cases o with
  | err e =>
    left
    unfold rdSeekStart rdSeekTo at hs
    split at hs
    · simp only [Prod.mk.injEq, Outcome.err.injEq] at hs; rw [← hs.1]
    · split at hs
      · simp only [Prod.mk.injEq, Outcome.err.injEq] at hs; rw [← hs.1]
      · simp at hs
  | panic => exact absurd hs (rdSeekTo_noPanic _ _ _)
  | ok u =>
    obtain ⟨a1, a2⟩ := rdSeekTo_ok hs
    have hcur : ∀ pos, rdSeekStart (s.offset + 5) ⟨r.data, pos, []⟩ = (.ok (), ⟨r.data, s.offset + 5, []⟩) := by
      intro pos
      unfold rdSeekStart rdSeekTo
      simp only
      rw [if_neg (by omega)]
      rfl
    simp only
    split
    · right; intro pos; rw [RM.bind_apply, hcur]; rfl
    · rcases rdReadExactLoop_robust (s.size - 5) (s.size - 5) r1 (Or.inr (Nat.le_refl _)) with h | h
      · left; exact h
      · right
        intro pos
        rw [RM.bind_apply, hcur]
        simp only
        show (rdReadExactLoop (s.size - 5) (s.size - 5) r1).1 = (rdReadExactLoop (s.size - 5) (s.size - 5) _).1
        have hp1 : r1.pos = s.offset + 5 := by omega
        rw [h, a1, hp1]

/-- Sequencing of reads that may fail. -/
def seqG {α β : Type} (x : Rdr → Outcome GribError α × Rdr) (f : α → Rdr → Outcome GribError β × Rdr) :
    Rdr → Outcome GribError β × Rdr := fun r =>
  match x r with
  | (.ok a, r') => f a r'
  | (.err e, r') => (.err e, r')
  | (.panic, r') => (.panic, r')

/-- Keeps the data, and gives what it gives on a cursor at any position, or an I/O error. -/
def Robust {α : Type} (x : Rdr → Outcome GribError α × Rdr) : Prop :=
  ∀ r, (x r).2.data = r.data ∧ (r.evs = [] → (x r).2.evs = []) ∧ ((x r).1 = .err (.parseError (.readError .io)) ∨ ∀ pos, (x r).1 = (x ⟨r.data, pos, []⟩).1)

theorem Robust.const {α : Type} (o : Outcome GribError α) : Robust fun r => (o, r) :=
  fun _ => ⟨rfl, id, Or.inr fun _ => rfl⟩

theorem Robust.seq {α β : Type} {x : Rdr → Outcome GribError α × Rdr} {f : α → Rdr → Outcome GribError β × Rdr}
    (hx : Robust x) (hf : ∀ a, Robust (f a)) : Robust (seqG x f) := by
  intro r
  obtain ⟨h1, he, h2⟩ := hx r
  unfold seqG
  rcases hr : x r with ⟨o, r1⟩
  rw [hr] at h1 h2 he
  simp only at h1 h2 he
  have cur : ∀ pos, o = (x ⟨r.data, pos, []⟩).1 → ∃ p2, x ⟨r.data, pos, []⟩ = (o, ⟨r.data, p2, []⟩) := by
    intro pos hp
    rcases hc : x ⟨r.data, pos, []⟩ with ⟨o', d2, p2, e2⟩
    obtain ⟨hd, he2, -⟩ := hx ⟨r.data, pos, []⟩
    rw [hc] at hp hd he2
    simp only at hp hd he2
    rw [hp, hd, he2 trivial]
    exact ⟨p2, rfl⟩
  cases o with
  | ok a =>
    obtain ⟨k1, k2, k3⟩ := hf a r1
    refine ⟨k1.trans h1, fun h => k2 (he h), ?_⟩
    rcases h2 with h2 | h2
    · simp at h2
    · rcases k3 with k3 | k3
      · exact Or.inl k3
      · right
        intro pos
        obtain ⟨p2, hc⟩ := cur pos (h2 pos)
        rw [hc]
        simp only
        rw [k3 p2, h1]
  | err e =>
    refine ⟨h1, he, ?_⟩
    rcases h2 with h2 | h2
    · simp at h2 ⊢; exact Or.inl h2
    · right
      intro pos
      obtain ⟨p2, hc⟩ := cur pos (h2 pos)
      rw [hc]
  | panic =>
    refine ⟨h1, he, ?_⟩
    rcases h2 with h2 | h2
    · simp at h2
    · right
      intro pos
      obtain ⟨p2, hc⟩ := cur pos (h2 pos)
      rw [hc]

/-- A slice of the file, with the error wrapped. -/
def sliceG (s : SectionInfo) (r : Rdr) : Outcome GribError (List UInt8) × Rdr :=
  ((readSectPayloadAsSlice s r).1.mapErr .parseError, (readSectPayloadAsSlice s r).2)

theorem sliceG_robust (s : SectionInfo) : Robust (sliceG s) := by
  intro r
  obtain ⟨h1, h2⟩ := readSlice_robust s r
  refine ⟨h1, fun he => ?_, ?_⟩
  · obtain ⟨d, p, es⟩ := r
    simp only at he
    subst he
    exact ((readSectPayloadAsSlice_honest s).cursor d p).2
  · rcases h2 with h2 | h2
    · left; unfold sliceG; rw [h2]; rfl
    · right; intro pos; unfold sliceG; rw [h2 pos]

/-- The bitmap as `fromSub` takes it from the file. -/
def bitmapG (m : SubMessage) (indicator total : Nat) : Rdr → Outcome GribError (List UInt8) × Rdr :=
  if indicator = 0 then
    seqG (sliceG m.s6.2) (fun data r => (if data.length < 1 then .panic else .ok (data.drop 1), r))
  else if indicator = 255 then fun r => (.ok (createBitmap total), r)
  else fun r => (.err (.decodeError .bitMapIndicatorUnsupported), r)

def restG (m : SubMessage) (b5 : List UInt8) (total : Nat) (bitmap : List UInt8) : Rdr → Outcome GribError Decoder × Rdr :=
  seqG (fun r => (((do let n ← (ReprDefinition.mk b5).numPoints; let t ← (ReprDefinition.mk b5).reprTmplNum; .ok (n, t)) :
    Outcome GribError (Nat × Nat)), r)) (fun x =>
  seqG (sliceG m.s5.2) (fun sect5 =>
  seqG (sliceG m.s7.2) (fun sect7 r => (.ok ⟨total, x.1, x.2, sect5, bitmap, sect7⟩, r))))

set_option linter.unusedSimpArgs false in
theorem fromSub_seq {m : SubMessage} {b3 b5 : List UInt8} {indicator : Nat} (h3 : m.s3.2.body = some (.section3 b3))
    (h5 : m.s5.2.body = some (.section5 b5)) (h6 : m.s6.2.body = some (.section6 indicator)) :
    Decoder.fromSub m = seqG (fun r => (((GridDefinition.mk b3).numPoints : Outcome GribError Nat), r)) (fun total =>
      seqG (bitmapG m indicator total) (restG m b5 total)) := by
  funext r
  unfold Decoder.fromSub
  rw [h3, h5, h6]
  simp only [seqG]
  cases ((GridDefinition.mk b3).numPoints : Outcome GribError Nat) with
  | err e => rfl
  | panic => rfl
  | ok total =>
    simp only
    have fin : ∀ (bitmap : List UInt8) (r1 : Rdr) (G : Outcome GribError Decoder × Rdr),
        (∀ e, ((do let n ← (ReprDefinition.mk b5).numPoints; let t ← (ReprDefinition.mk b5).reprTmplNum; .ok (n, t)) :
          Outcome GribError (Nat × Nat)) = .err e → G = (.err e, r1)) →
        (((do let n ← (ReprDefinition.mk b5).numPoints; let t ← (ReprDefinition.mk b5).reprTmplNum; .ok (n, t)) :
          Outcome GribError (Nat × Nat)) = .panic → G = (.panic, r1)) →
        (∀ x, ((do let n ← (ReprDefinition.mk b5).numPoints; let t ← (ReprDefinition.mk b5).reprTmplNum; .ok (n, t)) :
          Outcome GribError (Nat × Nat)) = .ok x →
            (∀ e r2, readSectPayloadAsSlice m.s5.2 r1 = (.err e, r2) → G = (.err (.parseError e), r2)) ∧
            (∀ r2, readSectPayloadAsSlice m.s5.2 r1 = (.panic, r2) → G = (.panic, r2)) ∧
            (∀ sect5 r2, readSectPayloadAsSlice m.s5.2 r1 = (.ok sect5, r2) →
              (∀ e r3, readSectPayloadAsSlice m.s7.2 r2 = (.err e, r3) → G = (.err (.parseError e), r3)) ∧
              (∀ r3, readSectPayloadAsSlice m.s7.2 r2 = (.panic, r3) → G = (.panic, r3)) ∧
              (∀ sect7 r3, readSectPayloadAsSlice m.s7.2 r2 = (.ok sect7, r3) →
                G = (.ok ⟨total, x.1, x.2, sect5, bitmap, sect7⟩, r3)))) →
        G = restG m b5 total bitmap r1 := by
      intro bitmap r1 G g1 g2 g3
      unfold restG
      simp only [seqG]
      cases hx : ((do let n ← (ReprDefinition.mk b5).numPoints; let t ← (ReprDefinition.mk b5).reprTmplNum; .ok (n, t)) :
          Outcome GribError (Nat × Nat)) with
      | err e => exact g1 e hx
      | panic => exact g2 hx
      | ok x =>
        obtain ⟨k1, k2, k3⟩ := g3 x hx
        unfold sliceG
        rcases h : readSectPayloadAsSlice m.s5.2 r1 with ⟨o, r2⟩
        cases o with
        | err e => simp only [h, Outcome.mapErr]; exact k1 e r2 h
        | panic => simp only [h, Outcome.mapErr]; exact k2 r2 h
        | ok sect5 =>
          obtain ⟨l1, l2, l3⟩ := k3 sect5 r2 h
          simp only [h, Outcome.mapErr]
          rcases h' : readSectPayloadAsSlice m.s7.2 r2 with ⟨o, r3⟩
          cases o with
          | err e => simp only [h']; exact l1 e r3 h'
          | panic => simp only [h']; exact l2 r3 h'
          | ok sect7 => simp only [h']; exact l3 sect7 r3 h'
    unfold bitmapG
    by_cases hi : indicator = 0
    · simp only [if_pos hi]
      unfold seqG sliceG
      rcases readSectPayloadAsSlice m.s6.2 r with ⟨o, r1⟩
      cases o with
      | err e => rfl
      | panic => rfl
      | ok data =>
        simp only [Outcome.mapErr]
        by_cases hd : data.length < 1
        · simp only [if_pos hd]
        · simp only [if_neg hd]
          apply fin
          · intro e he; rw [he]
          · intro he; rw [he]
          · intro x he
            rw [he]
            refine ⟨fun e r2 h => by simp only [h, Outcome.mapErr], fun r2 h => by simp only [h, Outcome.mapErr], fun s5 r2 h => ?_⟩
            simp only [h, Outcome.mapErr]
            exact ⟨fun e r2 h => by simp only [h, Outcome.mapErr], fun r2 h => by simp only [h, Outcome.mapErr],
              fun s7 r2 h => by simp only [h, Outcome.mapErr]⟩
    · simp only [if_neg hi]
      by_cases h255 : indicator = 255
      · simp only [if_pos h255]
        apply fin
        · intro e he; rw [he]
        · intro he; rw [he]
        · intro x he
          rw [he]
          refine ⟨fun e r2 h => by simp only [h, Outcome.mapErr], fun r2 h => by simp only [h, Outcome.mapErr], fun s5 r2 h => ?_⟩
          simp only [h, Outcome.mapErr]
          exact ⟨fun e r2 h => by simp only [h, Outcome.mapErr], fun r2 h => by simp only [h, Outcome.mapErr],
            fun s7 r2 h => by simp only [h, Outcome.mapErr]⟩
      · simp only [if_neg h255]

theorem fromSub_robust (m : SubMessage) : Robust (Decoder.fromSub m) := by
  by_cases h : ∃ b3 b5 i, m.s3.2.body = some (.section3 b3) ∧ m.s5.2.body = some (.section5 b5) ∧
      m.s6.2.body = some (.section6 i)
  · obtain ⟨b3, b5, i, h3, h5, h6⟩ := h
    rw [fromSub_seq h3 h5 h6]
    refine (Robust.const _).seq fun total => ?_
    refine Robust.seq ?_ fun bitmap => (Robust.const _).seq fun x => (sliceG_robust _).seq fun _ =>
      (sliceG_robust _).seq fun _ => Robust.const _
    unfold bitmapG
    split
    · exact (sliceG_robust _).seq fun _ => Robust.const _
    · split
      · exact Robust.const _
      · exact Robust.const _
  · have e : Decoder.fromSub m = fun r => (.err .internalDataError, r) := by
      funext r
      unfold Decoder.fromSub
      split
      · rename_i b3 b5 i h3 h5 h6
        exact absurd ⟨b3, b5, i, h3, h5, h6⟩ h
      · rfl
    rw [e]
    exact Robust.const _

variable {F : Type}

/-- C70: decoding a submessage and collecting its values, whatever the reader does meanwhile, gives what it gives on a reader
without disturbances (wherever that one stands), or an I/O error. -/
theorem C70_decoded (c : Codecs F) (m : SubMessage) (r : Rdr) :
    decodeSub c m r = .err (.parseError (.readError .io)) ∨
    ∀ pos, decodeSub c m r = decodeSub c m ⟨r.data, pos, []⟩ := by
  obtain ⟨-, -, h | h⟩ := fromSub_robust m r
  · left; unfold decodeSub; rw [h]; rfl
  · right; intro pos; unfold decodeSub; rw [h pos]

/-- A reader that fails at the third call makes opening fail; without disturbances the same data open. -/
example : (∃ e, Grib2.read ⟨sampleFile, 0, [.full, .full, .fail]⟩ = .err e) ∧
    (∃ g0, Grib2.read ⟨sampleFile, 0, []⟩ = .ok g0 ∧ g0.submessages.length = 1) := by
  refine ⟨⟨.readError .io, by decide +kernel⟩, ?_⟩
  exact Outcome.exists_of_ok? (f := fun g : Grib2 => g.submessages.length) (by decide +kernel)

/-- The same message twice, the reader delivering only eight octets of the block it is asked for after the first message. -/
example : ∃ g, Grib2.read ⟨sampleFile ++ sampleFile, 0, List.replicate 16 .full ++ [.short 7]⟩ = .ok g ∧
    g.submessages.length = 1 :=
  Outcome.exists_of_ok? (f := fun g : Grib2 => g.submessages.length) (by decide +kernel)

end Grib.Props
