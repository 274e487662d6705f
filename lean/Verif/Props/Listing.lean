import Verif.Lemmas.Headers
import Verif.Props.File

/-! # C17, C18, C19: the listings and accessors of opened data -/

namespace Grib.Props

open Grib.Model Grib.Spec

/-! ## C17 -/

/-- C17: on any successfully opened data, every submessage that a loop yields has accessors that succeed and return what
the octets of the file say at the place of the corresponding sections, which have numbers 0, 1, 3, 4, 5. -/
theorem C17_accessors (r : Rdr) (g : Grib2) (h : Grib2.read r = .ok g) (ix : Nat × Nat) (m : SubMessage)
    (hm : (ix, m) ∈ SubIter.drain (g.len + 1) g.iter) {ε : Type} :
    (m.indicator : Outcome ε Indicator) =
      .ok ⟨field r.data m.s0.2.offset 7 7, field r.data m.s0.2.offset 9 16⟩ ∧
    (m.identification : Outcome ε Identification) = .ok ⟨payloadAt r.data m.s1.2.offset m.s1.2.size⟩ ∧
    (m.gridDef : Outcome ε GridDefinition) = .ok ⟨payloadAt r.data m.s3.2.offset m.s3.2.size⟩ ∧
    (m.prodDef : Outcome ε ProdDefinition) = .ok ⟨payloadAt r.data m.s4.2.offset m.s4.2.size⟩ ∧
    (m.reprDef : Outcome ε ReprDefinition) = .ok ⟨payloadAt r.data m.s5.2.offset m.s5.2.size⟩ ∧
    (∀ s ∈ [(m.s0, 0), (m.s1, 1), (m.s3, 3), (m.s4, 4), (m.s5, 5), (m.s6, 6), (m.s7, 7)],
      s.1.2.num = s.2 ∧ g.sections[s.1.1]? = some s.1.2 ∧ Faithful r.data s.1.2) := by
  rw [Grib2.iter, opened_drain h _ _ (by simp [Grib2.len]), List.drop_zero, List.mem_map] at hm
  obtain ⟨x, hx, he⟩ := hm
  simp only [Prod.mk.injEq] at he
  obtain ⟨-, rfl⟩ := he
  obtain ⟨hb, hk⟩ := opened_kinds h hx
  dsimp only at hk
  obtain ⟨ms, -, -, -, hf⟩ := opened_messages h
  have key : ∀ i, i < g.sections.length →
      g.sections[(g.sect i).1]? = some (g.sect i).2 ∧ Faithful r.data (g.sect i).2 := by
    intro i hi
    have e : (g.sect i).2 = g.sections[i] := by simp [Grib2.sect, hi]
    refine ⟨?_, ?_⟩
    · rw [e]; simp [Grib2.sect, hi]
    · rw [e]; exact hf _ (List.getElem_mem hi)
  obtain ⟨b0, b1, b2, b3, b4, b5, b6, b7, b8⟩ := hb
  obtain ⟨k0, k1, k2, k3, k4, k5, k6, k7, k8⟩ := hk
  simp only [Nine.map]
  refine ⟨?_, ?_, ?_, ?_, ?_, ?_⟩
  · have := (key _ b0).2.body
    rw [k0] at this
    simp only [BodyAt] at this
    simp only [SubMessage.indicator, this, field, number, octet]
    simp [List.range_succ]
  · have := (key _ b1).2.body
    rw [k1] at this
    simp only [BodyAt] at this
    simp only [SubMessage.identification, this, payloadAt]
  · have := (key _ b3).2.body
    rw [k3] at this
    simp only [BodyAt] at this
    simp only [SubMessage.gridDef, this, payloadAt]
  · have := (key _ b4).2.body
    rw [k4] at this
    simp only [BodyAt] at this
    simp only [SubMessage.prodDef, this, payloadAt]
  · have := (key _ b5).2.body
    rw [k5] at this
    simp only [BodyAt] at this
    simp only [SubMessage.reprDef, this, payloadAt]
  · intro s hs
    simp only [List.mem_cons, List.not_mem_nil, or_false] at hs
    rcases hs with rfl | rfl | rfl | rfl | rfl | rfl | rfl
    · exact ⟨k0, key _ b0⟩
    · exact ⟨k1, key _ b1⟩
    · exact ⟨k3, key _ b3⟩
    · exact ⟨k4, key _ b4⟩
    · exact ⟨k5, key _ b5⟩
    · exact ⟨k6, key _ b6⟩
    · exact ⟨k7, key _ b7⟩

/-- The opened sample: two messages of two submessages. -/
theorem sampleMessagesFile_opens : ∃ g, Grib2.read ⟨messagesBytes sampleMessagesFile, 0, []⟩ = .ok g ∧ g.len = 4 :=
  Outcome.exists_of_ok? (f := Grib2.len) (by decide +kernel)

/-! ## C18 -/

/-- Lexicographic order on pairs of numbers. -/
def LexLt (a b : Nat × Nat) : Prop := a.1 < b.1 ∨ (a.1 = b.1 ∧ a.2 < b.2)

theorem opened_numbering {r : Rdr} {g : Grib2} (h : Grib2.read r = .ok g) :
    (g.submessages.map fun x => (x.msg, x.sub)).Pairwise LexLt := by
  obtain ⟨ms, hm, hs, hsub, -⟩ := opened_messages h
  obtain ⟨h1, -⟩ := C14_listing_by_index ms hm
  obtain ⟨counts, -, -, h2⟩ := C13_numbering _ _ h1
  rw [hsub, h2]
  have : ∀ (cs : List Nat) (k : Nat), ((cs.zipIdx k).flatMap fun p => (List.range p.1).map fun j => (p.2, j)).Pairwise LexLt ∧
      ∀ x ∈ ((cs.zipIdx k).flatMap fun p => (List.range p.1).map fun j => (p.2, j)), k ≤ x.1 := by
    intro cs
    induction cs with
    | nil => intro k; simp
    | cons c cs ih =>
      intro k
      obtain ⟨i1, i2⟩ := ih (k + 1)
      simp only [List.zipIdx_cons, List.flatMap_cons]
      refine ⟨List.pairwise_append.2 ⟨?_, i1, ?_⟩, ?_⟩
      · rw [List.pairwise_map]
        exact List.pairwise_lt_range.imp fun hab => Or.inr ⟨rfl, hab⟩
      · intro a ha b hb
        obtain ⟨j, -, rfl⟩ := List.mem_map.1 ha
        have := i2 b hb
        exact Or.inl (by simp only; omega)
      · intro x hx
        rcases List.mem_append.1 hx with hx | hx
        · obtain ⟨j, -, rfl⟩ := List.mem_map.1 hx; exact Nat.le_refl _
        · have := i2 x hx; omega
  exact (this counts 0).1

/-- C18: a loop over opened data yields exactly `len()` submessages, in lexicographic order of their indices (so each index
once), and then the iterator stays exhausted. -/
theorem C18_loop (r : Rdr) (g : Grib2) (h : Grib2.read r = .ok g) :
    (SubIter.drain (g.len + 1) g.iter).length = g.len ∧
    ((SubIter.drain (g.len + 1) g.iter).map Prod.fst).Pairwise LexLt ∧
    (∀ fuel, g.len < fuel → SubIter.drain fuel g.iter = SubIter.drain (g.len + 1) g.iter) ∧
    SubIter.next false ⟨g, g.len⟩ = (.ok none, ⟨g, g.len⟩) := by
  have hd := opened_drain h 0 (g.len + 1) (by simp [Grib2.len])
  refine ⟨?_, ?_, ?_, ?_⟩
  · rw [Grib2.iter, hd]; simp [Grib2.len]
  · rw [Grib2.iter, hd, List.drop_zero, List.map_map]
    exact opened_numbering h
  · intro fuel hf
    rw [Grib2.iter, hd, opened_drain h 0 fuel (by simpa [Grib2.len] using hf)]
  · rw [opened_next h, List.getElem?_eq_none (by simp [Grib2.len])]

/-- The iterator after `k` calls of `next` (each submessage dropped before the next call). -/
def SubIter.after (it : SubIter) : Nat → SubIter
  | 0 => it
  | k + 1 => (SubIter.next false (SubIter.after it k)).2

theorem after_eq {r : Rdr} {g : Grib2} (h : Grib2.read r = .ok g) (k : Nat) :
    SubIter.after g.iter k = ⟨g, min k g.len⟩ := by
  induction k with
  | zero => simp [SubIter.after, Grib2.iter]
  | succ k ih =>
    rw [SubIter.after, ih, opened_next h]
    by_cases hk : k < g.len
    · rw [Nat.min_eq_left (by omega), Nat.min_eq_left (by omega), List.getElem?_eq_getElem (by simpa [Grib2.len] using hk)]
    · rw [Nat.min_eq_right (by omega), Nat.min_eq_right (by omega), List.getElem?_eq_none (by simp [Grib2.len])]

/-- C18: while looping with `next`, `size_hint` is always the exact number of submessages still to come. -/
theorem C18_size_hint (r : Rdr) (g : Grib2) (h : Grib2.read r = .ok g) (k : Nat) :
    (SubIter.after g.iter k).sizeHint = .ok (SubIter.drain (g.len + 1) (SubIter.after g.iter k)).length := by
  rw [after_eq h, opened_drain h _ _ (by have : g.len = g.submessages.length := rfl; omega)]
  unfold SubIter.sizeHint
  have : g.len = g.submessages.length := rfl
  rw [if_neg (by simp only; omega)]
  simp only [List.length_map, List.length_drop]

/-- C18: `nth(n)` on a fresh iterator gives what the call of `next` after `n` calls gives. -/
theorem C18_nth_fresh_partial (r : Rdr) (g : Grib2) (h : Grib2.read r = .ok g) (n : Nat) :
    (SubIter.nth false g.iter n).1 = (SubIter.next false (SubIter.after g.iter n)).1 := by
  rw [after_eq h, SubIter.nth, Grib2.iter]
  simp only
  rw [opened_next h, opened_next h]
  by_cases hn : n < g.len
  · rw [Nat.min_eq_left (by omega)]
  · have e : g.len = g.submessages.length := rfl
    rw [Nat.min_eq_right (by omega), List.getElem?_eq_none (by omega), List.getElem?_eq_none (by omega)]

/-- What `nth` does in general: it counts from the first submessage, not from the current position. -/
theorem C18_nth_is_absolute (g : Grib2) (pos n : Nat) (live : Bool) :
    SubIter.nth live ⟨g, pos⟩ n = SubIter.nth live ⟨g, 0⟩ n := rfl

/-- C18 fails: `nth(n)` should skip `n` elements from the current position.  On every opened file with at least two
submessages, after one `next` (which yields index 0), `nth(0)` yields the same submessage again. -/
theorem C18_nth_fails (r : Rdr) (g : Grib2) (h : Grib2.read r = .ok g) (h2 : 2 ≤ g.len) :
    (SubIter.nth false (SubIter.after g.iter 1) 0).1 = (SubIter.next false g.iter).1 ∧
    (SubIter.nth false (SubIter.after g.iter 1) 0).1 ≠ (SubIter.next false (SubIter.after g.iter 1)).1 := by
  have e : g.len = g.submessages.length := rfl
  have hp := opened_numbering h
  refine ⟨?_, ?_⟩
  · rw [after_eq h, SubIter.nth, Grib2.iter]
  · rw [after_eq h, SubIter.nth]
    simp only
    rw [opened_next h, opened_next h, Nat.min_eq_left (by omega)]
    rw [List.getElem?_eq_getElem (by omega), List.getElem?_eq_getElem (by omega)]
    intro hc
    simp only [Outcome.ok.injEq, Option.some.injEq, Prod.mk.injEq] at hc
    obtain ⟨⟨a, b⟩, -⟩ := hc
    have := List.pairwise_iff_getElem.1 hp 0 1 (by simp; omega) (by simp; omega) (by omega)
    simp only [List.getElem_map, LexLt] at this
    omega

/-- C18 fails: after `nth` beyond the end, `size_hint` panics. -/
theorem C18_size_hint_fails (g : Grib2) (n : Nat) (h : g.len < n) :
    (SubIter.nth false g.iter n).1 = .ok none ∧ (SubIter.nth false g.iter n).2.sizeHint = .panic := by
  have e : g.len = g.submessages.length := rfl
  have : SubIter.nth false g.iter n = (.ok none, ⟨g, n⟩) := by
    simp only [SubIter.nth, Grib2.iter, SubIter.next]
    rw [List.getElem?_eq_none (by omega)]
  rw [this]
  refine ⟨rfl, ?_⟩
  simp only [SubIter.sizeHint]
  rw [if_pos (by omega)]

/-- C18 fails: keeping a submessage while asking for another one (as `collect()` does) panics, on every opened file with
at least two submessages. -/
theorem C18_collect_fails (r : Rdr) (g : Grib2) (h : Grib2.read r = .ok g) (h2 : 2 ≤ g.len) :
    (∃ x, (SubIter.next false g.iter).1 = .ok (some x)) ∧ (SubIter.next true (SubIter.after g.iter 1)).1 = .panic := by
  have e : g.len = g.submessages.length := rfl
  refine ⟨?_, ?_⟩
  · rw [Grib2.iter, opened_next h, List.getElem?_eq_getElem (by omega)]
    exact ⟨_, rfl⟩
  · rw [after_eq h, Nat.min_eq_left (by omega)]
    obtain ⟨x, hx⟩ : ∃ x, g.submessages[1]? = some x := ⟨_, List.getElem?_eq_getElem (by omega)⟩
    simp only [SubIter.next, hx]
    rw [Grib2.newSubmessage_eq (opened_kinds h (List.mem_of_getElem? hx)).1]
    rfl

-- the sample file meets the hypotheses of C17 and C18
example : ∃ r g, Grib2.read r = .ok g ∧ 2 ≤ g.len ∧ (SubIter.drain (g.len + 1) g.iter).length = 4 := by
  obtain ⟨g, h1, h2⟩ := sampleMessagesFile_opens
  exact ⟨_, g, h1, by omega, by rw [(C18_loop _ _ h1).1, h2]⟩

/-! ## C19 -/

theorem pairwise_eraseDups (l : List (Nat × Nat)) : l.eraseDups.Nodup := by
  induction hn : l.length using Nat.strongRecOn generalizing l with
  | _ n ih =>
    cases l with
    | nil => simp
    | cons a as =>
      rw [List.eraseDups_cons, List.nodup_cons]
      refine ⟨?_, ih _ ?_ _ rfl⟩
      · rw [List.mem_eraseDups]; simp
      · have := List.length_filter_le (fun b => !b == a) as
        simp only [List.length_cons] at hn
        omega

/-- The template of a section as its octets say: octets 13-14 of section 3, 8-9 of section 4, 10-11 of section 5. -/
def TemplateOf (data : List UInt8) (s : SectionInfo) (c : Nat × Nat) : Prop :=
  c.1 = s.num ∧ ((s.num = 3 ∧ c.2 = field data s.offset 13 14) ∨ (s.num = 4 ∧ c.2 = field data s.offset 8 9) ∨
    (s.num = 5 ∧ c.2 = field data s.offset 10 11))

theorem getTmplCode_spec {ε : Type} {data : List UInt8} {s : SectionInfo} (h : Faithful data s) :
    ∃ o, (s.getTmplCode : Outcome ε (Option (Nat × Nat))) = .ok o ∧ ∀ c, o = some c ↔ TemplateOf data s c := by
  have hb := h.body
  have hn := h.num
  have hp := faithful_payload h
  generalize hk : s.num = k at *
  match k with
  | 0 => refine ⟨none, ?_, ?_⟩ <;> simp_all [SectionInfo.getTmplCode, SectionBody.getTmplNum, BodyAt, TemplateOf]
  | 1 => refine ⟨none, ?_, ?_⟩ <;> simp_all [SectionInfo.getTmplCode, SectionBody.getTmplNum, BodyAt, TemplateOf]
  | 2 => refine ⟨none, ?_, ?_⟩ <;> simp_all [SectionInfo.getTmplCode, SectionBody.getTmplNum, BodyAt, TemplateOf]
  | 3 =>
    obtain ⟨h1, h2, h3⟩ := hp (by omega) (by omega)
    simp only [minPayload] at h3
    simp only [BodyAt] at hb
    refine ⟨some (3, field data s.offset 13 14), ?_, ?_⟩
    · have := rdAs_payload (ε := ε) (start := 7) (len := 2) h1 h2 (by omega)
      rw [if_pos (by omega)] at this
      simp only [SectionInfo.getTmplCode, hb, SectionBody.getTmplNum, GridDefinition.gridTmplNum]
      rw [← payloadAt, this, hk]; rfl
    · rintro ⟨a, b⟩; simp [TemplateOf, hk, eq_comm]
  | 4 =>
    obtain ⟨h1, h2, h3⟩ := hp (by omega) (by omega)
    simp only [minPayload] at h3
    simp only [BodyAt] at hb
    refine ⟨some (4, field data s.offset 8 9), ?_, ?_⟩
    · have := rdAs_payload (ε := ε) (start := 2) (len := 2) h1 h2 (by omega)
      rw [if_pos (by omega)] at this
      simp only [SectionInfo.getTmplCode, hb, SectionBody.getTmplNum, ProdDefinition.prodTmplNum]
      rw [← payloadAt, this, hk]; rfl
    · rintro ⟨a, b⟩; simp [TemplateOf, hk, eq_comm]
  | 5 =>
    obtain ⟨h1, h2, h3⟩ := hp (by omega) (by omega)
    simp only [minPayload] at h3
    simp only [BodyAt] at hb
    refine ⟨some (5, field data s.offset 10 11), ?_, ?_⟩
    · have := rdAs_payload (ε := ε) (start := 4) (len := 2) h1 h2 (by omega)
      rw [if_pos (by omega)] at this
      simp only [SectionInfo.getTmplCode, hb, SectionBody.getTmplNum, ReprDefinition.reprTmplNum]
      rw [← payloadAt, this, hk]; rfl
    · rintro ⟨a, b⟩; simp [TemplateOf, hk, eq_comm]
  | 6 => refine ⟨none, ?_, ?_⟩ <;> simp_all [SectionInfo.getTmplCode, SectionBody.getTmplNum, BodyAt, TemplateOf]
  | 7 => refine ⟨none, ?_, ?_⟩ <;> simp_all [SectionInfo.getTmplCode, SectionBody.getTmplNum, BodyAt, TemplateOf]
  | n + 8 => refine ⟨none, ?_, ?_⟩ <;> simp_all [SectionInfo.getTmplCode, BodyAt, TemplateOf]

theorem tmplCodes_spec {ε : Type} {data : List UInt8} {ss : List SectionInfo} (h : ∀ s ∈ ss, Faithful data s) :
    ∃ l, (tmplCodes ss : Outcome ε (List (Nat × Nat))) = .ok l ∧ ∀ c, c ∈ l ↔ ∃ s ∈ ss, TemplateOf data s c := by
  induction ss with
  | nil => exact ⟨[], rfl, by simp⟩
  | cons s ss ih =>
    obtain ⟨l, h1, h2⟩ := ih fun x hx => h x (List.mem_cons_of_mem _ hx)
    obtain ⟨o, h3, h4⟩ := getTmplCode_spec (ε := ε) (h s (by simp))
    cases o with
    | none =>
      refine ⟨l, ?_, ?_⟩
      · rw [tmplCodes, h3]; exact h1
      · intro c
        rw [h2]
        constructor
        · rintro ⟨x, hx, hc⟩; exact ⟨x, List.mem_cons_of_mem _ hx, hc⟩
        · rintro ⟨x, hx, hc⟩
          rcases List.mem_cons.1 hx with rfl | hx
          · have := (h4 c).2 hc; simp at this
          · exact ⟨x, hx, hc⟩
    | some d =>
      refine ⟨d :: l, ?_, ?_⟩
      · rw [tmplCodes, h3]
        simp only [Outcome.bind_ok]
        rw [h1]; rfl
      · intro c
        rw [List.mem_cons, h2]
        constructor
        · rintro (rfl | ⟨x, hx, hc⟩)
          · exact ⟨s, by simp, (h4 _).1 rfl⟩
          · exact ⟨x, List.mem_cons_of_mem _ hx, hc⟩
        · rintro ⟨x, hx, hc⟩
          rcases List.mem_cons.1 hx with rfl | hx
          · have := (h4 c).2 hc
            simp only [Option.some.injEq] at this
            exact Or.inl this.symm
          · exact Or.inr ⟨x, hx, hc⟩

/-- C19: on opened data, `list_templates` returns a strictly increasing list of exactly the pairs (section number, template
number) that occur, whatever the iteration order of the hash set (`perm`). -/
theorem C19_templates (r : Rdr) (g : Grib2) (h : Grib2.read r = .ok g) (perm : List (Nat × Nat) → List (Nat × Nat))
    (hp : ∀ l, (perm l).Perm l) {ε : Type} :
    ∃ l, (g.listTemplates perm : Outcome ε (List (Nat × Nat))) = .ok l ∧ l.Pairwise LexLt ∧
      ∀ c, c ∈ l ↔ ∃ s ∈ g.sections, TemplateOf r.data s c := by
  obtain ⟨ms, -, -, -, hf⟩ := opened_messages h
  obtain ⟨l, h1, h2⟩ := tmplCodes_spec (ε := ε) hf
  refine ⟨(perm l.eraseDups).mergeSort TemplateInfo.le, ?_, ?_, ?_⟩
  · simp only [Grib2.listTemplates, getTemplates, h1, Outcome.bind_ok]
  · have hnd : ((perm l.eraseDups).mergeSort TemplateInfo.le).Nodup :=
      ((List.mergeSort_perm _ _).trans (hp _)).nodup_iff.2 (pairwise_eraseDups l)
    have hs : ((perm l.eraseDups).mergeSort TemplateInfo.le).Pairwise (fun a b => TemplateInfo.le a b = true) := by
      apply List.pairwise_mergeSort
      · intro a b c h1 h2
        simp only [TemplateInfo.le, decide_eq_true_eq] at *
        omega
      · intro a b
        simp only [TemplateInfo.le, Bool.or_eq_true, decide_eq_true_eq]
        omega
    refine (hs.and hnd).imp ?_
    rintro ⟨a1, a2⟩ ⟨b1, b2⟩ ⟨h1, h2⟩
    simp only [TemplateInfo.le, decide_eq_true_eq] at h1
    simp only [ne_eq, Prod.mk.injEq] at h2
    simp only [LexLt]
    omega
  · intro c
    rw [List.mem_mergeSort, (hp _).mem_iff, List.mem_eraseDups, h2]

-- the sample file opens, and its sections 3, 4, 5 have these templates, some of them repeatedly
example : ∃ g, Grib2.read ⟨messagesBytes sampleMessagesFile, 0, []⟩ = .ok g ∧
    (tmplCodes g.sections : Outcome Empty _) = .ok [(3, 0), (4, 0), (5, 0), (3, 30), (4, 8), (5, 0),
      (3, 0), (4, 0), (5, 0), (3, 30), (4, 8), (5, 0)] :=
  Outcome.exists_of_ok? (f := fun (g : Grib2) => (tmplCodes g.sections : Outcome Empty _)) (by decide +kernel)

end Grib.Props
