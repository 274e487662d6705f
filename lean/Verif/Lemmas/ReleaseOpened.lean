import Verif.Props.ReleaseOpen
import Verif.Props.Views
import Verif.Props.Cli
import Verif.Props.InfoInspect

/-! # What a file opened by a release build looks like

The lemmas of `Lemmas/Opened.lean`, and what `C17`, `C18`, `C46` and the views need of them, for opening with a release build, which
opens more files than a debug build (`C82_overlap`). -/

namespace Grib.Cli

open Grib.Model Grib.Spec Grib.Props Grib.Codes Grib.Text

theorem rel_opened {r : Rdr} (hl : r.data.length < 2 ^ 63) {g : Grib2} (h : Model.Rel.read r = .ok g) :
    collectResult (idxStreamItems (g.sections.map .ok)).1 = .ok g.submessages ∧ Accepted g.sections ∧
      (∀ s ∈ g.sections, Faithful r.data s ∨ Model.Rel.Short r.data s) := by
  obtain ⟨ha, hf⟩ := C82_faithful r hl g h
  refine ⟨?_, ha, hf⟩
  change Model.Rel.readN _ r = _ at h
  rw [Model.Rel.readN_eq] at h
  obtain ⟨h1, -⟩ := rel_finish_ok h
  unfold Model.Rel.finish at h
  rw [← h1]
  cases hc : collectResult (idxStreamItems (Model.Rel.collectQ (r.data.length + 2) 0 0 r).1).1 with
  | err e => rw [hc] at h; simp at h
  | panic => rw [hc] at h; simp at h
  | ok subs => rw [hc] at h; simp only [Outcome.ok.injEq] at h; rw [← h]

theorem rel_opened_kinds {r : Rdr} (hl : r.data.length < 2 ^ 63) {g : Grib2} (h : Model.Rel.read r = .ok g) {x : Submsg Nat}
    (hx : x ∈ g.submessages) : x.sects.Below g.sections.length ∧
    (let k := fun i => (g.sect i).2.num
     k x.sects.s0 = 0 ∧ k x.sects.s1 = 1 ∧ (∀ i, x.sects.s2 = some i → k i = 2) ∧ k x.sects.s3 = 3 ∧ k x.sects.s4 = 4 ∧
      k x.sects.s5 = 5 ∧ k x.sects.s6 = 6 ∧ k x.sects.s7 = 7 ∧ (k x.sects.s8 = 8 ∨ x.sects.s8 = 0)) := by
  have hc := (rel_opened hl h).1
  rw [collectResult_ok_iff] at hc
  have hmem : Outcome.ok x ∈ (idxStreamItems (g.sections.map .ok)).1 := by rw [hc]; exact List.mem_map_of_mem hx
  have h12 := C12_kinds _ x hmem
  have key : ∀ n i, (∃ s, (g.sections.map (Outcome.ok (ε := ParseError)))[i]? = some (.ok s) ∧ s.num = n) →
      i < g.sections.length ∧ (g.sect i).2.num = n := by
    rintro n i ⟨s, h1, h2⟩
    rw [List.getElem?_map, Option.map_eq_some_iff] at h1
    obtain ⟨s', h1, h3⟩ := h1
    cases h3
    refine ⟨(List.getElem?_eq_some_iff.1 h1).1, ?_⟩
    simp [Grib2.sect, List.getD_eq_getElem?_getD, h1, h2]
  obtain ⟨h0, h1, h2, h3, h4, h5, h6, h7, h8⟩ := h12
  have k0 := key _ _ h0
  refine ⟨⟨k0.1, (key _ _ h1).1, fun i hi => (key _ _ (h2 i hi)).1, (key _ _ h3).1, (key _ _ h4).1, (key _ _ h5).1,
    (key _ _ h6).1, (key _ _ h7).1, ?_⟩, k0.2, (key _ _ h1).2, fun i hi => (key _ _ (h2 i hi)).2, (key _ _ h3).2,
    (key _ _ h4).2, (key _ _ h5).2, (key _ _ h6).2, (key _ _ h7).2, ?_⟩
  · rcases h8 with h8 | h8
    · exact (key _ _ h8).1
    · rw [h8]; have := k0.1; omega
  · rcases h8 with h8 | h8
    · exact Or.inl (key _ _ h8).2
    · exact Or.inr h8

theorem rel_opened_drain {r : Rdr} (hl : r.data.length < 2 ^ 63) {g : Grib2} (h : Model.Rel.read r = .ok g) (pos fuel : Nat)
    (hf : g.submessages.length - pos < fuel) :
    SubIter.drain fuel ⟨g, pos⟩ =
      (g.submessages.drop pos).map fun x => ((x.msg, x.sub), x.sects.map g.sect) := by
  induction fuel generalizing pos with
  | zero => omega
  | succ f ih =>
    have hn : SubIter.next false ⟨g, pos⟩ =
      match g.submessages[pos]? with
      | none => (.ok none, ⟨g, pos⟩)
      | some x => (.ok (some ((x.msg, x.sub), x.sects.map g.sect)), ⟨g, pos + 1⟩) := by
      unfold SubIter.next
      simp only
      cases hx : g.submessages[pos]? with
      | none => rfl
      | some x =>
        simp only
        rw [Grib2.newSubmessage_eq (rel_opened_kinds hl h (List.mem_of_getElem? hx)).1]
        rfl
    rw [SubIter.drain, hn]
    cases hx : g.submessages[pos]? with
    | none =>
      rw [List.getElem?_eq_none_iff] at hx
      rw [List.drop_of_length_le hx]; rfl
    | some x =>
      obtain ⟨hl, hx'⟩ := List.getElem?_eq_some_iff.1 hx
      simp only
      rw [ih (pos + 1) (by omega), List.drop_eq_getElem_cons hl, hx']
      rfl

/-- The sections of a submessage of such a file. -/
theorem rel_facts {r : Rdr} (hl : r.data.length < 2 ^ 63) {g : Grib2} (h : Model.Rel.read r = .ok g) {ix : Nat × Nat} {m : SubMessage}
    (hm : (ix, m) ∈ SubIter.drain (g.len + 1) g.iter) : Facts r.data m := by
  rw [Grib2.iter, rel_opened_drain hl h _ _ (by simp [Grib2.len]), List.drop_zero, List.mem_map] at hm
  obtain ⟨x, hx, he⟩ := hm
  simp only [Prod.mk.injEq] at he
  obtain ⟨-, rfl⟩ := he
  obtain ⟨hb, hk⟩ := rel_opened_kinds hl h hx
  dsimp only at hk
  obtain ⟨-, -, hf⟩ := rel_opened hl h
  have key : ∀ i n, i < g.sections.length → (g.sect i).2.num = n → n ≠ 7 → Faithful r.data (g.sect i).2 ∧ (g.sect i).2.num = n := by
    intro i n hi hn h7
    refine ⟨?_, hn⟩
    have e : (g.sect i).2 = g.sections[i] := by simp [Grib2.sect, hi]
    rcases hf _ (List.getElem_mem hi) with hf | hs
    · rw [e]; exact hf
    · have := hs.num
      rw [← e] at this
      omega
  obtain ⟨b0, b1, b2, b3, b4, b5, b6, b7, b8⟩ := hb
  obtain ⟨k0, k1, k2, k3, k4, k5, k6, k7, k8⟩ := hk
  simp only [Nine.map]
  exact ⟨key _ _ b0 k0 (by decide), key _ _ b1 k1 (by decide), key _ _ b3 k3 (by decide), key _ _ b4 k4 (by decide),
    key _ _ b5 k5 (by decide)⟩

/-- The accessors of such a submessage. -/
theorem facts_reads {ε : Type} {data : List UInt8} {m : SubMessage} (hf : Facts data m) :
    (m.prodDef : Outcome ε _) = .ok (prodOf data m) ∧
    ((prodOf data m).parameterCategory : Outcome ε _) = .ok (categoryOf data m) ∧
    ((prodOf data m).parameterNumber : Outcome ε _) = .ok (numberOf data m) ∧
    (m.indicator : Outcome ε _) = .ok ⟨field data m.s0.2.offset 7 7, field data m.s0.2.offset 9 16⟩ ∧
    (m.gridDef : Outcome ε _) = .ok ⟨payloadAt data m.s3.2.offset m.s3.2.size⟩ ∧
    ((GridDefinition.mk (payloadAt data m.s3.2.offset m.s3.2.size)).numPoints : Outcome ε _) =
      .ok (field data m.s3.2.offset 7 10) ∧
    (m.reprDef : Outcome ε _) = .ok ⟨payloadAt data m.s5.2.offset m.s5.2.size⟩ ∧
    ((ReprDefinition.mk (payloadAt data m.s5.2.offset m.s5.2.size)).numPoints : Outcome ε _) =
      .ok (field data m.s5.2.offset 6 9) := by
  have b0 := hf.f0.1.body
  have b3 := hf.f3.1.body
  have b4 := hf.f4.1.body
  have b5 := hf.f5.1.body
  rw [hf.f0.2] at b0
  rw [hf.f3.2] at b3
  rw [hf.f4.2] at b4
  rw [hf.f5.2] at b5
  simp only [BodyAt] at b0 b3 b4 b5
  have hp := C39_parameter (ε := ε) _ _ _ (sect4 (r := ⟨data, 0, []⟩) hf)
  obtain ⟨i3, c3, n3, -⟩ := C38_grid_definition (ε := ε) _ _ hf.f3.1 hf.f3.2
  obtain ⟨i5, c5, n5, -⟩ := C38_representation (ε := ε) _ _ hf.f5.1 hf.f5.2
  refine ⟨?_, hp.1, hp.2, ?_, ?_, ?_, ?_, ?_⟩
  · simp only [SubMessage.prodDef, b4, prodOf, payloadAt]
  · simp only [SubMessage.indicator, b0, field, number, octet]
    simp [List.range_succ]
  · simp only [SubMessage.gridDef, b3, payloadAt]
  · rw [c3] at b3
    simp only [Option.some.injEq, SectionBody.section3.injEq] at b3
    rw [← n3]; unfold payloadAt; rw [← b3]
  · simp only [SubMessage.reprDef, b5, payloadAt]
  · rw [c5] at b5
    simp only [Option.some.injEq, SectionBody.section5.injEq] at b5
    rw [← n5]; unfold payloadAt; rw [← b5]

/-- The numbering of such a file. -/
theorem rel_numbering {r : Rdr} (hl : r.data.length < 2 ^ 63) {g : Grib2} (h : Model.Rel.read r = .ok g) :
    (g.submessages.map fun x => (x.msg, x.sub)).Pairwise LexLt := by
  obtain ⟨counts, -, -, h2⟩ := C13_numbering _ _ (rel_opened hl h).1
  rw [h2]
  have : ∀ (cs : List Nat) (k : Nat), ((cs.zipIdx k).flatMap fun p => (List.range p.1).map fun j => (p.2, j)).Pairwise LexLt ∧
      ∀ x ∈ ((cs.zipIdx k).flatMap fun p => (List.range p.1).map fun j => (p.2, j)), k ≤ x.1 := by
    intro cs
    induction cs with
    | nil => intro k; simp
    | cons c cs ih =>
      intro k
      obtain ⟨i1, i2⟩ := ih (k + 1)
      simp only [List.zipIdx_cons, List.flatMap_cons]
      refine ⟨List.pairwise_append.2 ⟨?_, i1, ?_⟩, ?_⟩
      · rw [List.pairwise_map]
        exact List.pairwise_lt_range.imp fun hab => Or.inr ⟨rfl, hab⟩
      · intro a ha b hb
        obtain ⟨j, -, rfl⟩ := List.mem_map.1 ha
        have := i2 b hb
        exact Or.inl (by simp only; omega)
      · intro x hx
        rcases List.mem_append.1 hx with hx | hx
        · obtain ⟨j, -, rfl⟩ := List.mem_map.1 hx; exact Nat.le_refl _
        · have := i2 x hx; omega
  exact (this counts 0).1

theorem rel_selects {r : Rdr} (hl : r.data.length < 2 ^ 63) {g : Grib2} (h : Model.Rel.read r = .ok g) (ix : Nat × Nat)
    (m : SubMessage) :
    findIndex ix (g.len + 1) g.iter = some (ix, m) ↔ (ix, m) ∈ SubIter.drain (g.len + 1) g.iter := by
  rw [findIndex_drain]
  constructor
  · intro hf; exact List.mem_of_find?_eq_some hf
  · intro hm
    have hp : ((SubIter.drain (g.len + 1) g.iter).map Prod.fst).Pairwise LexLt := by
      rw [Grib2.iter, rel_opened_drain hl h _ _ (by simp [Grib2.len]), List.drop_zero, List.map_map]
      exact rel_numbering hl h
    generalize SubIter.drain (g.len + 1) g.iter = l at hm hp
    induction l with
    | nil => cases hm
    | cons x l ih =>
      rw [List.map_cons, List.pairwise_cons] at hp
      rw [List.find?_cons]
      rcases List.mem_cons.1 hm with rfl | hm
      · simp
      · have hlt := hp.1 ix (List.mem_map.2 ⟨_, hm, rfl⟩)
        have : x.1 ≠ ix := by rintro rfl; unfold LexLt at hlt; omega
        simp only [this, decide_false]
        exact ih hm hp.2

theorem find_absent {g : Grib2} (ix : Nat × Nat) :
    findIndex ix (g.len + 1) g.iter = none ↔ ∀ x ∈ SubIter.drain (g.len + 1) g.iter, x.1 ≠ ix := by
  rw [findIndex_drain, List.find?_eq_none]
  simp

theorem rel_getTmplCode {ε : Type} {data : List UInt8} {s : SectionInfo} (h : Faithful data s ∨ Model.Rel.Short data s) :
    ∃ o, (s.getTmplCode : Outcome ε (Option (Nat × Nat))) = .ok o ∧ ∀ c, o = some c ↔ TemplateOf data s c := by
  rcases h with h | h
  · exact getTmplCode_spec h
  · refine ⟨none, ?_, ?_⟩
    · simp [SectionInfo.getTmplCode, h.body, SectionBody.getTmplNum]
    · intro c
      have := h.num
      simp [TemplateOf, this]

theorem rel_tmplCodes {ε : Type} {data : List UInt8} {ss : List SectionInfo} (h : ∀ s ∈ ss, Faithful data s ∨ Model.Rel.Short data s) :
    ∃ l, (tmplCodes ss : Outcome ε (List (Nat × Nat))) = .ok l ∧ ∀ c, c ∈ l ↔ ∃ s ∈ ss, TemplateOf data s c := by
  induction ss with
  | nil => exact ⟨[], rfl, by simp⟩
  | cons s ss ih =>
    obtain ⟨l, h1, h2⟩ := ih fun x hx => h x (List.mem_cons_of_mem _ hx)
    obtain ⟨o, h3, h4⟩ := rel_getTmplCode (ε := ε) (h s (by simp))
    cases o with
    | none =>
      refine ⟨l, ?_, ?_⟩
      · rw [tmplCodes, h3]; exact h1
      · intro c
        rw [h2]
        constructor
        · rintro ⟨x, hx, hc⟩; exact ⟨x, List.mem_cons_of_mem _ hx, hc⟩
        · rintro ⟨x, hx, hc⟩
          rcases List.mem_cons.1 hx with rfl | hx
          · have := (h4 c).2 hc; simp at this
          · exact ⟨x, hx, hc⟩
    | some d =>
      refine ⟨d :: l, ?_, ?_⟩
      · rw [tmplCodes, h3]
        simp only [Outcome.bind_ok]
        rw [h1]; rfl
      · intro c
        rw [List.mem_cons, h2]
        constructor
        · rintro (rfl | ⟨x, hx, hc⟩)
          · exact ⟨s, by simp, (h4 _).1 rfl⟩
          · exact ⟨x, List.mem_cons_of_mem _ hx, hc⟩
        · rintro ⟨x, hx, hc⟩
          rcases List.mem_cons.1 hx with rfl | hx
          · have := (h4 c).2 hc
            simp only [Option.some.injEq] at this
            exact Or.inl this.symm
          · exact Or.inr ⟨x, hx, hc⟩

/-- The templates of such a file: `list_templates` returns a strictly increasing list of exactly the pairs (section number, template
number) that occur, whatever the iteration order of the hash set (`perm`). -/
theorem rel_templates (r : Rdr) (hl : r.data.length < 2 ^ 63) (g : Grib2) (h : Model.Rel.read r = .ok g) (perm : List (Nat × Nat) → List (Nat × Nat))
    (hp : ∀ l, (perm l).Perm l) {ε : Type} :
    ∃ l, (g.listTemplates perm : Outcome ε (List (Nat × Nat))) = .ok l ∧ l.Pairwise LexLt ∧
      ∀ c, c ∈ l ↔ ∃ s ∈ g.sections, TemplateOf r.data s c := by
  obtain ⟨-, -, hf⟩ := rel_opened hl h
  obtain ⟨l, h1, h2⟩ := rel_tmplCodes (ε := ε) hf
  refine ⟨(perm l.eraseDups).mergeSort TemplateInfo.le, ?_, ?_, ?_⟩
  · simp only [Grib2.listTemplates, getTemplates, h1, Outcome.bind_ok]
  · have hnd : ((perm l.eraseDups).mergeSort TemplateInfo.le).Nodup :=
      ((List.mergeSort_perm _ _).trans (hp _)).nodup_iff.2 (pairwise_eraseDups l)
    have hs : ((perm l.eraseDups).mergeSort TemplateInfo.le).Pairwise (fun a b => TemplateInfo.le a b = true) := by
      apply List.pairwise_mergeSort
      · intro a b c h1 h2
        simp only [TemplateInfo.le, decide_eq_true_eq] at *
        omega
      · intro a b
        simp only [TemplateInfo.le, Bool.or_eq_true, decide_eq_true_eq]
        omega
    refine (hs.and hnd).imp ?_
    rintro ⟨a1, a2⟩ ⟨b1, b2⟩ ⟨h1, h2⟩
    simp only [TemplateInfo.le, decide_eq_true_eq] at h1
    simp only [ne_eq, Prod.mk.injEq] at h2
    simp only [LexLt]
    omega
  · intro c
    rw [List.mem_mergeSort, (hp _).mem_iff, List.mem_eraseDups, h2]

/-- `C55_blocks` for such a file, which is a sequence `ms` of well-ordered messages too: `info` prints for every message, in order and
numbered from 0, one block with the values of its own sections 0 and 1 (however many submessages it has), up to the first
message whose reference time is not valid; if there is one, `info` fails, otherwise it succeeds. -/
theorem rel_info (k : Constants) (validTime : List Nat → Bool) (r : Rdr) (hl : r.data.length < 2 ^ 63) (g : Grib2)
    (h : Model.Rel.read r = .ok g) :
    ∃ ms : List (Message SectionInfo), (∀ m ∈ ms, m.Ok) ∧ g.sections = ms.flatMap Message.sections ∧
      info k validTime g =
        ((ms.zipIdx.takeWhile fun p => validTime (timeOf r.data p.1.ident)).map fun p =>
            blockOf k r.data p.2 p.1.indicator p.1.ident,
          if ms.all fun m => validTime (timeOf r.data m.ident) then .ok () else .err ()) := by
  obtain ⟨hc, ⟨ms, hok, hs⟩, hf⟩ := rel_opened hl h
  have hsub : g.submessages = fileSubs 0 0 0 ((numberMessages 0 ms).map (Message.map Prod.fst)) := by
    have h14 := (C14_listing_by_index ms hok).1
    rw [← hs, hc] at h14
    simpa using h14
  refine ⟨ms, hok, hs, ?_⟩
  have e : SubIter.drain (g.len + 1) g.iter = asLoop (fileSubs (g.sect 0) (g.sect 0) 0 (numberMessages 0 ms)) := by
    rw [Grib2.iter, rel_opened_drain hl h _ _ (by simp [Grib2.len]), List.drop_zero, ← opened_resolve hs hsub, asLoop, List.map_map]
    rfl
  have hsnd := numberMessages_snd 0 ms
  unfold info
  rw [e, infoLoop_fileSubs k validTime r.data]
  · conv => rhs; rw [← hsnd]
    rw [List.zipIdx_map, List.takeWhile_map, List.map_map, List.all_map]
    rfl
  · intro m hm
    have hm' : m.map Prod.snd ∈ ms := by rw [← hsnd]; exact List.mem_map_of_mem hm
    have ho := hok _ hm'
    have hi : ∀ s ∈ (m.map Prod.snd).sections, s.num ≠ 7 → Faithful r.data s := fun s hs' h7 =>
      (hf s (by rw [hs]; exact List.mem_flatMap.2 ⟨_, hm', hs'⟩)).resolve_right fun h => h7 h.num
    have e0 : m.indicator.2.num = 0 := ho.indicator
    have e1 : m.ident.2.num = 1 := ho.ident
    exact ⟨hi _ (by simp [Message.sections, Message.map]) (by rw [e0]; decide), e0,
      hi _ (by simp [Message.sections, Message.map]) (by rw [e1]; decide), e1⟩

/-- The values of `describe()`, as in `C54_values`. -/
theorem facts_describeValues {ε : Type} (k : Constants) {r : Rdr} {m : SubMessage} (hf : Facts r.data m)
    (p : Option Nat) (t : Option (Nat × Nat))
    (s : Option (FixedSurface × FixedSurface))
    (hp : ((prodOf r.data m).generatingProcess : Outcome ε _) = .ok p)
    (ht : ((prodOf r.data m).forecastTime : Outcome ε _) = .ok t)
    (hs : ((prodOf r.data m).fixedSurfaces : Outcome ε _) = .ok s) :
    (m.describeValues k : Outcome ε _) = .ok
      [tableText k .t3_1 (field r.data m.s3.2.offset 13 14),
       showNat (field r.data m.s3.2.offset 7 10),
       tableText k .t4_0 (field r.data m.s4.2.offset 8 9),
       ((categoryOf r.data m).map (tableText k (.t4_1 (field r.data m.s0.2.offset 7 7)))).getD [],
       ((numberOf r.data m).bind fun n => (categoryOf r.data m).map fun c =>
          tableText k (.t4_2 (field r.data m.s0.2.offset 7 7) c) n).getD [],
       (p.map (tableText k .t4_3)).getD [],
       (t.map fun t => showNat t.2).getD [],
       (t.map fun t => (ForecastTime.fromNumbers t.1 t.2).describe.1).getD [],
       (s.map fun s => (s.1.describe k).1).getD [],
       (s.map fun s => (s.1.describe k).2.1).getD [],
       (s.map fun s => (s.1.describe k).2.2).getD [],
       (s.map fun s => (s.2.describe k).1).getD [],
       (s.map fun s => (s.2.describe k).2.1).getD [],
       (s.map fun s => (s.2.describe k).2.2).getD [],
       tableText k .t5_0 (field r.data m.s5.2.offset 10 11),
       showNat (field r.data m.s5.2.offset 6 9)] := by
  obtain ⟨v1, v2, v3, v4, v5, v6, v7, v8⟩ := facts_reads (ε := ε) hf
  unfold SubMessage.describeValues SubMessageSection.describe
  simp only [v1, v2, v3, v4, v5, v6, v7, v8, hp, ht, hs, getTmplCode_3 hf.f3.1 hf.f3.2, getTmplCode_4 hf.f4.1 hf.f4.2,
    getTmplCode_5 hf.f5.1 hf.f5.2, Outcome.bind_ok]
  cases t <;> cases s <;> rfl

/-- `describe()` of such a submessage panics exactly when its section 4 is too short for the time or the surfaces of
its template. -/
theorem facts_describe (k : Constants) {r : Rdr} {m : SubMessage} (hf : Facts r.data m) :
    (m.describe k : Outcome Empty _) = .panic ↔
      ((prodOf r.data m).forecastTime : Outcome Empty _) = .panic ∨
      ((prodOf r.data m).fixedSurfaces : Outcome Empty _) = .panic := by
  obtain ⟨v1, v2, v3, v4, v5, v6, v7, v8⟩ := facts_reads (ε := Empty) hf
  have hgp : ∃ p, ((prodOf r.data m).generatingProcess : Outcome Empty _) = .ok p := by
    unfold ProdDefinition.generatingProcess
    simp only [(sect4 (r := r) hf).supported, (sect4 (r := r) hf).tmpl, Outcome.bind_ok]
    split
    · exact ⟨_, rfl⟩
    · exact ⟨_, rfl⟩
  obtain ⟨p, hp⟩ := hgp
  cases ht : ((prodOf r.data m).forecastTime : Outcome Empty _) with
  | err e => exact e.elim
  | panic =>
    simp only [true_or, iff_true]
    unfold SubMessage.describe SubMessage.describeValues
    simp only [v1, v2, ht, Outcome.bind_ok, Outcome.bind_panic]
  | ok t =>
    cases hs : ((prodOf r.data m).fixedSurfaces : Outcome Empty _) with
    | err e => exact e.elim
    | panic =>
      simp only [or_true, iff_true]
      unfold SubMessage.describe SubMessage.describeValues
      simp only [v1, v2, ht, hs, Outcome.bind_ok, Outcome.bind_panic]
    | ok s =>
      have := facts_describeValues (ε := Empty) k hf p t s hp ht hs
      unfold SubMessage.describe
      rw [this]
      simp

end Grib.Cli
