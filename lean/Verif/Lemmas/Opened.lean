import Verif.Props.Reader
import Verif.Lemmas.Truncate

/-! # What an opened file looks like -/

namespace Grib.Model

open Grib.Spec Grib.Props

variable {α β γ : Type}

/-- Opened data come from well-ordered messages. -/
theorem opened_messages {r : Rdr} {g : Grib2} (h : Grib2.read r = .ok g) :
    ∃ ms : List (Message SectionInfo), (∀ m ∈ ms, m.Ok) ∧ g.sections = ms.flatMap Message.sections ∧
      g.submessages = fileSubs 0 0 0 ((numberMessages 0 ms).map (Message.map Prod.fst)) ∧
      (∀ s ∈ g.sections, Faithful r.data s) := by
  have h4 := C04_opened r g h
  rw [Grib2.read_eq] at h
  cases hc : collectResult (idxStreamItems (itemsR r).1).1 with
  | err e => rw [hc] at h; simp at h
  | panic => rw [hc] at h; simp at h
  | ok subs =>
    rw [hc] at h
    simp only [Outcome.ok.injEq] at h
    have h16 := (C16_recorded (itemsR r).1).2 ⟨subs, hc⟩
    have hacc : Accepted g.sections := by
      rw [← C11_by_index, ← h, ← h16]
      exact ⟨subs, hc⟩
    obtain ⟨ms, hm, hs⟩ := hacc
    refine ⟨ms, hm, hs, ?_, h4⟩
    have h14 := (C14_listing_by_index ms hm).1
    rw [← hs] at h14
    have : g.sections.map Outcome.ok = (itemsR r).1 := by rw [← h]; exact h16.symm
    rw [this, hc] at h14
    rw [← h]
    simpa using h14

/-- A section of opened data by its index. -/
def Grib2.sect (g : Grib2) (i : Nat) : Nat × SectionInfo := (i, g.sections.getD i SectionInfo.default)

theorem Grib2.newSubmessageSection_eq {g : Grib2} {i : Nat} (h : i < g.sections.length) :
    g.newSubmessageSection i = some (g.sect i) := by
  simp [Grib2.newSubmessageSection, Grib2.sect, List.getElem?_eq_getElem h]

/-- All indices of a submessage index are in range. -/
def Nine.Below (n : Nat) (x : Nine Nat) : Prop :=
  x.s0 < n ∧ x.s1 < n ∧ (∀ i, x.s2 = some i → i < n) ∧ x.s3 < n ∧ x.s4 < n ∧ x.s5 < n ∧ x.s6 < n ∧ x.s7 < n ∧ x.s8 < n

theorem Grib2.newSubmessage_eq {g : Grib2} {x : Nine Nat} (h : x.Below g.sections.length) :
    g.newSubmessage x = some (x.map g.sect) := by
  obtain ⟨h0, h1, h2, h3, h4, h5, h6, h7, h8⟩ := h
  unfold Grib2.newSubmessage
  simp only [newSubmessageSection_eq h0, newSubmessageSection_eq h1, newSubmessageSection_eq h3,
    newSubmessageSection_eq h4, newSubmessageSection_eq h5, newSubmessageSection_eq h6, newSubmessageSection_eq h7,
    newSubmessageSection_eq h8]
  have e2 : x.s2.bind g.newSubmessageSection = x.s2.map g.sect := by
    cases hx : x.s2 with
    | none => rfl
    | some i => simp [newSubmessageSection_eq (h2 i hx)]
  rw [e2]
  rfl

/-- The indices of opened data are in range and of the right kind. -/
theorem opened_kinds {r : Rdr} {g : Grib2} (h : Grib2.read r = .ok g) {x : Submsg Nat} (hx : x ∈ g.submessages) :
    x.sects.Below g.sections.length ∧
    (let k := fun i => (g.sect i).2.num
     k x.sects.s0 = 0 ∧ k x.sects.s1 = 1 ∧ (∀ i, x.sects.s2 = some i → k i = 2) ∧ k x.sects.s3 = 3 ∧ k x.sects.s4 = 4 ∧
      k x.sects.s5 = 5 ∧ k x.sects.s6 = 6 ∧ k x.sects.s7 = 7 ∧ (k x.sects.s8 = 8 ∨ x.sects.s8 = 0)) := by
  rw [Grib2.read_eq] at h
  cases hc : collectResult (idxStreamItems (itemsR r).1).1 with
  | err e => rw [hc] at h; simp at h
  | panic => rw [hc] at h; simp at h
  | ok subs =>
    rw [hc] at h
    simp only [Outcome.ok.injEq] at h
    have h16 := (C16_recorded (itemsR r).1).2 ⟨subs, hc⟩
    have hsec : (itemsR r).1 = g.sections.map .ok := by rw [← h]; exact h16
    have hsub : g.submessages = subs := by rw [← h]
    rw [hsub] at hx
    rw [collectResult_ok_iff] at hc
    have hmem : Outcome.ok x ∈ (idxStreamItems (itemsR r).1).1 := by rw [hc]; exact List.mem_map_of_mem hx
    have h12 := C12_kinds (itemsR r).1 x hmem
    rw [hsec] at h12
    have key : ∀ n i, (∃ s, (g.sections.map (Outcome.ok (ε := ParseError)))[i]? = some (.ok s) ∧ s.num = n) →
        i < g.sections.length ∧ (g.sect i).2.num = n := by
      rintro n i ⟨s, h1, h2⟩
      rw [List.getElem?_map, Option.map_eq_some_iff] at h1
      obtain ⟨s', h1, h3⟩ := h1
      cases h3
      refine ⟨(List.getElem?_eq_some_iff.1 h1).1, ?_⟩
      simp [Grib2.sect, List.getD_eq_getElem?_getD, h1, h2]
    obtain ⟨h0, h1, h2, h3, h4, h5, h6, h7, h8⟩ := h12
    have k0 := key _ _ h0
    refine ⟨⟨k0.1, (key _ _ h1).1, fun i hi => (key _ _ (h2 i hi)).1, (key _ _ h3).1, (key _ _ h4).1, (key _ _ h5).1,
      (key _ _ h6).1, (key _ _ h7).1, ?_⟩, k0.2, (key _ _ h1).2, fun i hi => (key _ _ (h2 i hi)).2, (key _ _ h3).2,
      (key _ _ h4).2, (key _ _ h5).2, (key _ _ h6).2, (key _ _ h7).2, ?_⟩
    · rcases h8 with h8 | h8
      · exact (key _ _ h8).1
      · rw [h8]; have := k0.1; omega
    · rcases h8 with h8 | h8
      · exact Or.inl (key _ _ h8).2
      · exact Or.inr h8

/-- The next submessage of opened data. -/
theorem opened_next {r : Rdr} {g : Grib2} (h : Grib2.read r = .ok g) (pos : Nat) :
    SubIter.next false ⟨g, pos⟩ =
      match g.submessages[pos]? with
      | none => (.ok none, ⟨g, pos⟩)
      | some x => (.ok (some ((x.msg, x.sub), x.sects.map g.sect)), ⟨g, pos + 1⟩) := by
  unfold SubIter.next
  simp only
  cases hx : g.submessages[pos]? with
  | none => rfl
  | some x =>
    simp only
    rw [Grib2.newSubmessage_eq (opened_kinds h (List.mem_of_getElem? hx)).1]
    rfl

theorem opened_drain {r : Rdr} {g : Grib2} (h : Grib2.read r = .ok g) (pos fuel : Nat)
    (hf : g.submessages.length - pos < fuel) :
    SubIter.drain fuel ⟨g, pos⟩ =
      (g.submessages.drop pos).map fun x => ((x.msg, x.sub), x.sects.map g.sect) := by
  induction fuel generalizing pos with
  | zero => omega
  | succ f ih =>
    rw [SubIter.drain, opened_next h]
    cases hx : g.submessages[pos]? with
    | none =>
      rw [List.getElem?_eq_none_iff] at hx
      rw [List.drop_of_length_le hx]; rfl
    | some x =>
      obtain ⟨hl, hx'⟩ := List.getElem?_eq_some_iff.1 hx
      simp only
      rw [ih (pos + 1) (by omega), List.drop_eq_getElem_cons hl, hx']
      rfl

/-- Numbering then looking up is the identity. -/
theorem Group.map_map (f : α → β) (h : β → γ) (g : Group α) : (g.map f).map h = g.map (h ∘ f) := by
  obtain ⟨loc, grid, a, b, c, d⟩ := g
  cases loc <;> cases grid <;> rfl

theorem Message.map_map (f : α → β) (h : β → γ) (m : Message α) : (m.map f).map h = m.map (h ∘ f) := by
  obtain ⟨a, b, g, gs, c⟩ := m
  simp [Message.map, Group.map_map, List.map_map]

theorem Group.map_congr {f : α → α} {g : Group α} (h : ∀ x ∈ g.sections, f x = x) : g.map f = g := by
  obtain ⟨loc, grid, a, b, c, d⟩ := g
  cases loc <;> cases grid <;> simp_all [Group.map, Group.sections]

theorem Message.map_congr {f : α → α} {m : Message α} (h : ∀ x ∈ m.sections, f x = x) : m.map f = m := by
  obtain ⟨a, b, g, gs, c⟩ := m
  simp only [Message.sections, Message.groups, List.mem_cons, List.mem_append, List.mem_flatMap, List.not_mem_nil,
    or_false] at h
  simp only [Message.map, Message.mk.injEq]
  refine ⟨h a (Or.inl rfl), h b (Or.inr (Or.inl rfl)), Group.map_congr fun x hx => ?_, ?_, h c (by simp)⟩
  · exact h x (Or.inr (Or.inr (Or.inl ⟨g, Or.inl rfl, hx⟩)))
  · have : ∀ y ∈ gs, Group.map f y = y := fun y hy => Group.map_congr fun x hx =>
      h x (Or.inr (Or.inr (Or.inl ⟨y, Or.inr hy, hx⟩)))
    rw [List.map_congr_left this, List.map_id']

theorem opened_resolve {g : Grib2} {ms : List (Message SectionInfo)} (hs : g.sections = ms.flatMap Message.sections)
    (hsub : g.submessages = fileSubs 0 0 0 ((numberMessages 0 ms).map (Message.map Prod.fst))) :
    g.submessages.map (Submsg.map g.sect) = fileSubs (g.sect 0) (g.sect 0) 0 (numberMessages 0 ms) := by
  rw [hsub, ← fileSubs_map, List.map_map]
  congr 1
  conv => rhs; rw [← List.map_id (numberMessages 0 ms)]
  apply List.map_congr_left
  intro m hm
  simp only [Function.comp_apply, Message.map_map, id]
  apply Message.map_congr
  intro x hx
  have hx' : x ∈ (numberMessages 0 ms).flatMap Message.sections := List.mem_flatMap.2 ⟨m, hm, hx⟩
  obtain ⟨k, hk⟩ := List.getElem?_of_mem hx'
  obtain ⟨hkl, hkx⟩ := List.getElem?_eq_some_iff.1 hk
  have hn := Numbered.getElem (numberMessages_numbered 0 ms) hkl
  rw [hkx] at hn
  have hv : (ms.flatMap Message.sections)[k]? = some x.2 := by
    have := flatMap_messages_map Prod.snd (numberMessages 0 ms)
    rw [numberMessages_snd] at this
    rw [this, List.getElem?_map, hk]; rfl
  have hk' : x.1 = k := by omega
  simp only [Function.comp_apply, Grib2.sect, hs, List.getD_eq_getElem?_getD, hk', hv]
  rw [← hk']
  rfl

theorem opened_resolve_snd {g : Grib2} {ms : List (Message SectionInfo)} (hs : g.sections = ms.flatMap Message.sections)
    (hsub : g.submessages = fileSubs 0 0 0 ((numberMessages 0 ms).map (Message.map Prod.fst))) :
    (g.submessages.map (Submsg.map g.sect)).map (Submsg.map Prod.snd) = fileSubs (g.sect 0).2 (g.sect 0).2 0 ms := by
  rw [opened_resolve hs hsub, ← fileSubs_map, numberMessages_snd]

end Grib.Model
