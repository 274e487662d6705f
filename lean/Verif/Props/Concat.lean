import Verif.Lemmas.Concat
import Verif.Spec.Concat

/-! # C77: files put one behind the other -/

namespace Grib.Props

open Grib.Model Grib.Spec

variable {A B : List UInt8}

theorem walk_lastEnd {data : List UInt8} {p p' t' : Nat} {sects : List SectionInfo} (h : Walk data p p sects p' t') :
    lastEnd p sects = p' := by
  rcases List.eq_nil_or_concat sects with rfl | ⟨init, s, rfl⟩
  · exact (walk_nil h).symm
  · rw [List.concat_eq_append] at *
    rw [walk_last h]
    simp [lastEnd]

/-- The facts about the first of two files. -/
structure First (A B : List UInt8) (p : Nat) (sects : List SectionInfo) : Prop where
  pos : p ≤ A.length
  acc : Accepted sects
  faith : ∀ s ∈ sects, Faithful (A ++ B) s ∧ Addressable (A ++ B) s
  walk : Walk (A ++ B) p p sects (lastEnd p sects) (lastEnd p sects)
  le : lastEnd p sects ≤ A.length
  gap : ∀ q, lastEnd p sects ≤ q → q < A.length → ¬ MagicAt (A ++ B) q

theorem first_of_opened {p : Nat} {ev : List IoEv} {g : Grib2} (hb : Benign ev) (hp : p ≤ A.length)
    (h : Grib2.read ⟨A, p, ev⟩ = .ok g) (hj : NoMagicAcross A B (lastEnd p g.sections)) : First A B p g.sections := by
  obtain ⟨h1, h2, p', h3, h4⟩ := (C59_opens_iff ⟨A, p, ev⟩ hb g.sections).1 ⟨g, h, rfl⟩
  have e := walk_lastEnd h3
  subst e
  refine ⟨hp, h1, fun s hs => ⟨faithful_left (h2 s hs).1, ?_⟩, walk_left h3, ?_, fun q a b c => hj q a b c.1⟩
  · intro h0
    have k := ((h2 s hs).1.sect0 h0).2.1.2
    simp only at k
    rw [number_left (by omega)]
    exact (h2 s hs).2 h0
  · have hw := opened_whole h
    unfold lastEnd
    split
    · exact hp
    · next s hs => exact hw s (List.mem_of_getLast? hs)

theorem addressable_later {d : Nat} {ev : List IoEv} {g : Grib2} (hb : Benign ev) (h : Grib2.read ⟨B, 0, ev⟩ = .ok g)
    (h64 : (A ++ B).length < 2 ^ 64) (hd : d = A.length) :
    ∀ s ∈ g.sections, Addressable (A ++ B) (s.later d) := by
  subst hd
  intro s hs h0
  obtain ⟨h1, h2, p', h3, h4⟩ := (C59_opens_iff ⟨B, 0, ev⟩ hb g.sections).1 ⟨g, h, rfl⟩
  simp only at h3
  have hle : p' ≤ B.length := by
    rw [← walk_lastEnd h3]
    unfold lastEnd
    split
    · exact Nat.zero_le _
    · next s hs => exact opened_whole h s (List.mem_of_getLast? hs)
  obtain ⟨a, b, hab⟩ := List.append_of_mem hs
  rw [hab] at h3
  obtain ⟨p1, t1, -, w2⟩ := Walk.append_inv h3
  simp only [SectionInfo.later] at h0 ⊢
  rw [show s.offset + A.length + 8 = s.offset + 8 + A.length by omega, number_right]
  rw [List.length_append] at h64
  cases w2 with
  | message k1 k2 k3 k4 =>
    have := walk_stop_le k4 (by omega)
    omega
  | sect k1 k2 => exact absurd h0 k2

/-- C77: when a file opens and does not end in the middle of a message start that the other completes, the two files put one
behind the other open if the second opens by itself, with the sections of the first followed by those of the second, whose
places are counted from the end of the first. -/
theorem C77_sections (A B : List UInt8) (p : Nat) (evA evB ev : List IoEv) (hA : Benign evA) (hB : Benign evB)
    (hev : Benign ev) (hp : p ≤ A.length) (h64 : (A ++ B).length < 2 ^ 64) (gA gB : Grib2)
    (ha : Grib2.read ⟨A, p, evA⟩ = .ok gA) (hj : NoMagicAcross A B (lastEnd p gA.sections))
    (hb : Grib2.read ⟨B, 0, evB⟩ = .ok gB) :
    ∃ g, Grib2.read ⟨A ++ B, p, ev⟩ = .ok g ∧
      g.sections = gA.sections ++ gB.sections.map fun s => { s with offset := s.offset + A.length } := by
  have f := first_of_opened hA hp ha hj
  obtain ⟨h1, h2, p', h3, h4⟩ := (C59_opens_iff ⟨B, 0, evB⟩ hB gB.sections).1 ⟨gB, hb, rfl⟩
  show ∃ g : Grib2, _ ∧ g.sections = gA.sections ++ gB.sections.map (SectionInfo.later A.length)
  refine (C59_opens_iff ⟨A ++ B, p, ev⟩ hev _).2 ⟨(accepted_append f.acc).2 ((accepted_later _ _).2 h1), ?_, ?_⟩
  · intro s hs
    rcases List.mem_append.1 hs with hs | hs
    · exact f.faith s hs
    · obtain ⟨s, hs', rfl⟩ := List.mem_map.1 hs
      exact ⟨faithful_later.2 (h2 s hs').1, addressable_later hB hb h64 rfl s hs'⟩
  · by_cases hne : gB.sections = []
    · rw [hne, List.map_nil, List.append_nil]
      refine ⟨_, f.walk, fun q hq hm => ?_⟩
      by_cases hqa : q < A.length
      · exact f.gap q hq hqa hm
      · rw [hne] at h3
        have := walk_nil h3
        refine h4 (q - A.length) (by simp only at this; omega) ?_
        rw [← magicAt_right (A := A), show q - A.length + A.length = q by omega]
        exact hm
    · have w := walk_later (A := A) h3
      simp only [Nat.zero_add] at w
      refine ⟨_, walk_append f.walk ((walk_gap f.le f.gap (by simpa using hne)).2 w), fun q hq hm => ?_⟩
      refine h4 (q - A.length) (by omega) ?_
      rw [← magicAt_right (A := A), show q - A.length + A.length = q by omega]
      exact hm

/-- C77: and only if. -/
theorem C77_opens_iff (A B : List UInt8) (p : Nat) (evA evB ev : List IoEv) (hA : Benign evA) (hB : Benign evB)
    (hev : Benign ev) (hp : p ≤ A.length) (h64 : (A ++ B).length < 2 ^ 64) (gA : Grib2)
    (ha : Grib2.read ⟨A, p, evA⟩ = .ok gA) (hj : NoMagicAcross A B (lastEnd p gA.sections)) :
    (∃ g, Grib2.read ⟨A ++ B, p, ev⟩ = .ok g) ↔ ∃ gB, Grib2.read ⟨B, 0, evB⟩ = .ok gB := by
  constructor
  · rintro ⟨g, hg⟩
    have f := first_of_opened hA hp ha hj
    obtain ⟨h1, h2, p', h3, h4⟩ := (C59_opens_iff ⟨A ++ B, p, ev⟩ hev g.sections).1 ⟨g, hg, rfl⟩
    simp only at h2 h3 h4
    obtain ⟨c, hc, wc⟩ : ∃ c, g.sections = gA.sections ++ c ∧
        Walk (A ++ B) (lastEnd p gA.sections) (lastEnd p gA.sections) c p' p' := by
      rcases walk_comparable f.walk h3 (fun s hs => (f.faith s hs).1) (fun s hs => (h2 s hs).1) with h | ⟨c, e1, e2⟩
      · exact h
      · cases c with
        | nil =>
          rw [List.append_nil] at e1
          refine ⟨[], by rw [List.append_nil, e1], ?_⟩
          have := walk_nil e2
          rw [this]
          exact Walk.nil _ _
        | cons x xs =>
          exfalso
          cases e2 with
          | message k1 k2 => exact h4 _ k2.1 k2.2.1
          | sect k1 => exact absurd rfl k1
    rw [hc] at h1 h2
    have hacc := (accepted_append f.acc).1 h1
    obtain ⟨ss0, p1, t1, k1, k2, k3, k4⟩ : ∃ ss0 p1 t1, c = ss0.map (SectionInfo.later A.length) ∧
        max p' A.length = p1 + A.length ∧ max p' A.length = t1 + A.length ∧ Walk B 0 0 ss0 p1 t1 := by
      by_cases hne : c = []
      · subst hne
        have := walk_nil wc
        have := f.le
        exact ⟨[], 0, 0, rfl, by omega, by omega, Walk.nil _ _⟩
      · have w := (walk_gap f.le f.gap hne).1 wc
        have := walk_stop_le w (Nat.le_refl _)
        obtain ⟨ss0, p1, t1, k⟩ := walk_earlier w 0 0 (by omega) (by omega)
        refine ⟨ss0, p1, t1, ?_⟩
        rw [Nat.max_eq_left this.1]
        exact k
    have e : t1 = p1 := by omega
    subst e
    suffices hs : ∃ g, Grib2.read ⟨B, 0, evB⟩ = .ok g ∧ g.sections = ss0 by
      obtain ⟨gB, hgB, -⟩ := hs
      exact ⟨gB, hgB⟩
    refine (C59_opens_iff ⟨B, 0, evB⟩ hB ss0).2 ⟨by rw [k1] at hacc; exact (accepted_later _ _).1 hacc, ?_, t1, k4, ?_⟩
    · intro s hs
      have hm : s.later A.length ∈ gA.sections ++ c := by rw [k1]; simp; exact Or.inr ⟨s, hs, rfl⟩
      have := h2 _ hm
      refine ⟨faithful_later.1 this.1, fun h0 => ?_⟩
      have := this.2 h0
      simp only [SectionInfo.later] at this
      rw [show s.offset + A.length + 8 = s.offset + 8 + A.length by omega, number_right] at this
      show s.offset + number B (s.offset + 8) 8 < 2 ^ 64
      omega
    · intro q hq hm
      exact h4 (q + A.length) (by omega) ((magicAt_right q).2 hm)
  · rintro ⟨gB, hb⟩
    obtain ⟨g, hg, -⟩ := C77_sections A B p evA evB ev hA hB hev hp h64 gA gB ha hj hb
    exact ⟨g, hg⟩

/-! ## The listing -/

/-- The listing of opened data for any reading of its sections as messages. -/
theorem opened_submessages {r : Rdr} {g : Grib2} (h : Grib2.read r = .ok g) {ms : List (Message SectionInfo)}
    (hm : ∀ m ∈ ms, m.Ok) (hs : g.sections = ms.flatMap Message.sections) :
    g.submessages = fileSubs 0 0 0 ((numberMessages 0 ms).map (Message.map Prod.fst)) := by
  rw [Grib2.read_eq] at h
  cases hc : collectResult (idxStreamItems (itemsR r).1).1 with
  | err e => rw [hc] at h; simp at h
  | panic => rw [hc] at h; simp at h
  | ok subs =>
    rw [hc] at h
    simp only [Outcome.ok.injEq] at h
    have h16 := (C16_recorded (itemsR r).1).2 ⟨subs, hc⟩
    have h14 := (C14_listing_by_index ms hm).1
    rw [← hs] at h14
    have : g.sections.map Outcome.ok = (itemsR r).1 := by rw [← h]; exact h16.symm
    rw [this, hc] at h14
    rw [← h]
    simpa using h14

/-- A submessage moved, for a mapping of sections. -/
def moveSub {α β : Type} (f : α → β) (n : Nat) (P : α → Prop) [DecidablePred P] (dummy : β) (x : Submsg α) : Submsg β :=
  ⟨x.msg + n, x.sub, { x.sects.map f with s8 := if P x.sects.s8 then dummy else f x.sects.s8 }⟩

theorem subsRec_move {α β : Type} (f : α → β) (n : Nat) (P : α → Prop) [DecidablePred P] (dummy' : β)
    (s0 s1 fin dummy : α) (msg : Nat) (hd : P dummy) (hf : ¬ P fin) (s2 : Option α) (s3 : α) (k : Nat)
    (gs : List (Group α)) (s3' : β) (hs : s3' = f s3 ∨ ∃ g gs', gs = g :: gs' ∧ g.grid.isSome) :
    subsRec (f s0) (f s1) (f fin) dummy' (msg + n) (s2.map f) s3' k (gs.map (Group.map f)) =
      (subsRec s0 s1 fin dummy msg s2 s3 k gs).map (moveSub f n P dummy') := by
  induction gs generalizing s2 s3 k s3' with
  | nil => rfl
  | cons g gs ih =>
    rw [List.map_cons, subsRec, subsRec, List.map_cons]
    obtain ⟨loc, grid, a, b, c, d⟩ := g
    have e1 : (Group.map f ⟨loc, grid, a, b, c, d⟩).loc.or (s2.map f) = (loc.or s2).map f := by
      cases loc <;> rfl
    have e2 : (Group.map f ⟨loc, grid, a, b, c, d⟩).grid.getD s3' = f (grid.getD s3) := by
      rcases hs with rfl | ⟨g, gs', h1, h2⟩
      · cases grid <;> rfl
      · simp only [List.cons.injEq] at h1
        obtain ⟨rfl, -⟩ := h1
        cases grid with
        | none => simp at h2
        | some x => rfl
    rw [e1, e2, ih _ _ _ _ (Or.inl rfl)]
    congr 1
    cases gs with
    | nil => simp [moveSub, Nine.map, Group.map, hf]
    | cons x xs => simp [moveSub, Nine.map, Group.map, hd]

theorem fileSubs_move {α β : Type} (f : α → β) (n : Nat) (P : α → Prop) [DecidablePred P] (dummy' d' : β) (dummy d : α)
    (start : Nat) (ms : List (Message α)) (hd : P dummy) (hf : ∀ m ∈ ms, ¬ P m.fin ∧ m.first.grid.isSome) :
    fileSubs dummy' d' (start + n) (ms.map (Message.map f)) =
      (fileSubs dummy d start ms).map (moveSub f n P dummy') := by
  induction ms generalizing start with
  | nil => rfl
  | cons m ms ih =>
    have h := hf m (by simp)
    have ih := ih (start + 1) (fun m hm => hf m (by simp [hm]))
    rw [show start + 1 + n = start + n + 1 by omega] at ih
    simp only [List.map_cons, fileSubs, List.map_append, ih]
    congr 1
    rw [Message.subs_eq, Message.subs_eq]
    exact subsRec_move f n P dummy' m.indicator m.ident m.fin dummy start hd h.1 none d 0 m.groups d'
      (Or.inr ⟨m.first, m.rest, rfl, h.2⟩)

theorem fileSubs_append {α : Type} (dummy d : α) (start : Nat) (a b : List (Message α)) :
    fileSubs dummy d start (a ++ b) = fileSubs dummy d start a ++ fileSubs dummy d (start + a.length) b := by
  induction a generalizing start with
  | nil => rfl
  | cons m ms ih =>
    rw [List.cons_append, fileSubs, fileSubs, ih, List.append_assoc, List.length_cons]
    rw [show start + 1 + ms.length = start + (ms.length + 1) by omega]

theorem numberMessages_append {α : Type} (i : Nat) (a b : List (Message α)) :
    numberMessages i (a ++ b) = numberMessages i a ++ numberMessages (i + (a.flatMap Message.sections).length) b := by
  induction a generalizing i with
  | nil => rfl
  | cons m ms ih =>
    rw [List.cons_append, numberMessages, numberMessages, ih, List.flatMap_cons, List.length_append, List.cons_append,
      Nat.add_assoc]

theorem numberMessages_count {α : Type} (i : Nat) (a : List (Message α)) : (numberMessages i a).length = a.length := by
  induction a generalizing i with
  | nil => rfl
  | cons m ms ih => simp [numberMessages, ih]

/-- Numbering from further on. -/
theorem Group.number_move {α β : Type} (f : α → β) (k i : Nat) (g : Group α) :
    (g.map f).number (i + k) = (g.number i).map fun x => (x.1 + k, f x.2) := by
  obtain ⟨loc, grid, a, b, c, d⟩ := g
  cases loc <;> cases grid <;>
    simp only [Group.map, Group.number, Option.map, Option.toList, List.length_nil, List.length_cons, Group.mk.injEq,
      Prod.mk.injEq, Option.some.injEq, and_true, true_and] <;> omega

theorem numberGroups_move {α β : Type} (f : α → β) (k i : Nat) (gs : List (Group α)) :
    numberGroups (i + k) (gs.map (Group.map f)) = (numberGroups i gs).map (Group.map fun x => (x.1 + k, f x.2)) := by
  induction gs generalizing i with
  | nil => rfl
  | cons g gs ih =>
    rw [List.map_cons, numberGroups, numberGroups, List.map_cons, Group.number_move, Group.map_sections, List.length_map,
      show i + k + g.sections.length = i + g.sections.length + k by omega, ih]

theorem Message.number_move {α β : Type} (f : α → β) (k i : Nat) (m : Message α) :
    (m.map f).number (i + k) = (m.number i).map fun x => (x.1 + k, f x.2) := by
  obtain ⟨a, b, g, gs, c⟩ := m
  have h1 := Group.number_move f k (i + 2) g
  have h2 := numberGroups_move f k (i + 2 + g.sections.length) gs
  have h3 := flatMap_groups_map f (g :: gs)
  rw [List.map_cons] at h3
  simp only [Message.number, Message.map, Message.groups, Group.map_sections, List.length_map, h3] at *
  rw [show i + k + 2 = i + 2 + k by omega, show i + 2 + k + g.sections.length = i + 2 + g.sections.length + k by omega, h1, h2,
    show i + k + 1 = i + 1 + k by omega,
    show i + 2 + k + ((g :: gs).flatMap Group.sections).length = i + 2 + ((g :: gs).flatMap Group.sections).length + k by omega]

theorem numberMessages_move {α β : Type} (f : α → β) (k i : Nat) (ms : List (Message α)) :
    numberMessages (i + k) (ms.map (Message.map f)) = (numberMessages i ms).map (Message.map fun x => (x.1 + k, f x.2)) := by
  induction ms generalizing i with
  | nil => rfl
  | cons m ms ih =>
    rw [List.map_cons, numberMessages, numberMessages, List.map_cons, Message.number_move, Message.map_sections, List.length_map,
      show i + k + m.sections.length = i + m.sections.length + k by omega, ih]

theorem numberMessages_ok {i : Nat} {ms : List (Message SectionInfo)} (hm : ∀ m ∈ ms, m.Ok) :
    ∀ m ∈ numberMessages i ms, m.fin.1 ≠ 0 ∧ m.first.grid.isSome := by
  induction ms generalizing i with
  | nil => intro m h; simp [numberMessages] at h
  | cons x xs ih =>
    intro m h
    rw [numberMessages, List.mem_cons] at h
    rcases h with rfl | h
    · refine ⟨by simp [Message.number], ?_⟩
      have := (hm x (by simp)).firstGrid
      simpa [Message.number, Group.number] using this
    · exact ih (fun m hm' => hm m (by simp [hm'])) m h

/-- Each message has one section 0. -/
theorem count_messages {ms : List (Message SectionInfo)} (hm : ∀ m ∈ ms, m.Ok) :
    ((ms.flatMap Message.sections).filter fun s => s.num = 0).length = ms.length := by
  induction ms with
  | nil => rfl
  | cons m ms ih =>
    have h := hm m (by simp)
    rw [List.flatMap_cons, List.filter_append, List.length_append, ih (fun m hm' => hm m (by simp [hm'])), List.length_cons]
    have : (m.sections.filter fun s => s.num = 0) = [m.indicator] := by
      unfold Message.sections
      rw [List.filter_cons_of_pos (by simpa using h.indicator)]
      congr 1
      rw [List.filter_eq_nil_iff]
      intro s hs
      simp only [decide_eq_true_eq]
      rcases List.mem_cons.1 hs with rfl | hs
      · rw [h.ident]; decide
      rcases List.mem_append.1 hs with hs | hs
      · obtain ⟨g, hg, hsg⟩ := List.mem_flatMap.1 hs
        have gok := h.groups g hg
        unfold Group.sections at hsg
        simp only [List.mem_append, List.mem_cons, List.not_mem_nil, or_false] at hsg
        rcases hsg with (hsg | hsg) | hsg
        · have := gok.loc s (by simpa using hsg); omega
        · have := gok.grid s (by simpa using hsg); omega
        · rcases hsg with rfl | rfl | rfl | rfl
          · have := gok.prod; omega
          · have := gok.repr; omega
          · have := gok.bitmap; omega
          · have := gok.data; omega
      · simp only [List.mem_singleton] at hs
        rw [hs, h.fin]; decide
    rw [this]
    simp; omega

/-- The listing as pairs. -/
def pairs (x : Submsg (Nat × SectionInfo)) : (Nat × Nat) × Nine (Nat × SectionInfo) := ((x.msg, x.sub), x.sects)

theorem opened_listing {r : Rdr} {g : Grib2} (h : Grib2.read r = .ok g) {ms : List (Message SectionInfo)}
    (hm : ∀ m ∈ ms, m.Ok) (hs : g.sections = ms.flatMap Message.sections) :
    SubIter.drain (g.len + 1) g.iter = (fileSubs (g.sect 0) (g.sect 0) 0 (numberMessages 0 ms)).map pairs := by
  rw [Grib2.iter, opened_drain h _ _ (by simp [Grib2.len]), List.drop_zero,
    ← opened_resolve hs (opened_submessages h hm hs), List.map_map]
  rfl

theorem message_ok_later (n : Nat) {m : Message SectionInfo} (h : m.Ok) : (m.map (SectionInfo.later n)).Ok := by
  obtain ⟨h1, h2, h3, h4, h5⟩ := h
  have key : ∀ g : Group SectionInfo, g.Ok → (g.map (SectionInfo.later n)).Ok := by
    rintro ⟨loc, grid, a, b, c, d⟩ ⟨k1, k2, k3, k4, k5, k6, k7⟩
    constructor <;> cases loc <;> cases grid <;> simp_all [Group.map, SectionInfo.later]
  refine ⟨h1, h2, ?_, ?_, h5⟩
  · intro g hg
    simp only [Message.groups, Message.map, List.mem_cons, List.mem_map] at hg
    rcases hg with rfl | ⟨g, hg, rfl⟩
    · exact key _ (h3 _ (by simp [Message.groups]))
    · exact key _ (h3 _ (by simp [Message.groups, hg]))
  · simpa [Message.map, Group.map] using h4

/-- C77: the listing of the two files put one behind the other is that of the first, followed by that of the second with the
message numbers counted on, the section indices and places moved by the number of sections and octets of the first. -/
theorem C77_listing (A B : List UInt8) (p : Nat) (evA evB ev : List IoEv) (hA : Benign evA) (hB : Benign evB)
    (hev : Benign ev) (hp : p ≤ A.length) (h64 : (A ++ B).length < 2 ^ 64) (gA gB g : Grib2)
    (ha : Grib2.read ⟨A, p, evA⟩ = .ok gA) (hj : NoMagicAcross A B (lastEnd p gA.sections))
    (hb : Grib2.read ⟨B, 0, evB⟩ = .ok gB) (hg : Grib2.read ⟨A ++ B, p, ev⟩ = .ok g) :
    SubIter.drain (g.len + 1) g.iter = SubIter.drain (gA.len + 1) gA.iter ++
      (SubIter.drain (gB.len + 1) gB.iter).map
        (movedSubmessage (gA.sections.filter fun s => s.num = 0).length gA.sections.length A.length
          (0, (g.sections.head?).getD SectionInfo.default)) := by
  obtain ⟨g', hg', hsec⟩ := C77_sections A B p evA evB ev hA hB hev hp h64 gA gB ha hj hb
  rw [hg] at hg'
  cases hg'
  have e0 : (0, (g.sections.head?).getD SectionInfo.default) = g.sect 0 := by
    simp [Grib2.sect, List.getD_eq_getElem?_getD, List.head?_eq_getElem?]
  rw [e0]
  obtain ⟨msA, mA, sA, -, -⟩ := opened_messages ha
  obtain ⟨msB, mB, sB, -, -⟩ := opened_messages hb
  have hs : g.sections = (msA ++ msB.map (Message.map (SectionInfo.later A.length))).flatMap Message.sections := by
    rw [List.flatMap_append, flatMap_messages_map, ← sA, ← sB, hsec]
    rfl
  have hm : ∀ m ∈ msA ++ msB.map (Message.map (SectionInfo.later A.length)), m.Ok := by
    intro m h
    rcases List.mem_append.1 h with h | h
    · exact mA m h
    · obtain ⟨m, h', rfl⟩ := List.mem_map.1 h
      exact message_ok_later _ (mB m h')
  rw [opened_listing hg hm hs, opened_listing ha mA sA, opened_listing hb mB sB, numberMessages_append, fileSubs_append,
    List.map_append, numberMessages_move, numberMessages_count, ← sA]
  congr 1
  · cases msA with
    | nil => rfl
    | cons m ms =>
      congr 1
      have : g.sect 0 = gA.sect 0 := by
        have hne : 0 < gA.sections.length := by rw [sA]; simp [Message.sections]
        simp [Grib2.sect, hsec, List.getD_eq_getElem?_getD, List.getElem?_append_left hne]
      rw [this]
  · rw [fileSubs_move (fun x : Nat × SectionInfo => (x.1 + gA.sections.length, SectionInfo.later A.length x.2)) msA.length
      (fun x => x.1 = 0) (g.sect 0) (g.sect 0) (gB.sect 0) (gB.sect 0) 0 (numberMessages 0 msB) rfl
      (fun m h => numberMessages_ok mB m h), List.map_map, List.map_map, sA, count_messages mA]
    rfl

/-! ## Decoding -/

theorem field_right (p a b : Nat) : field (A ++ B) (p + A.length) a b = field B p a b := by
  unfold field
  rw [show p + A.length + (a - 1) = p + (a - 1) + A.length by omega, number_right]

theorem field_left {p a b : Nat} (ha : 1 ≤ a) (hab : a ≤ b) (h : p + b ≤ A.length) : field (A ++ B) p a b = field A p a b := by
  unfold field
  rw [number_left (by omega)]

theorem payloadAt_right (p n : Nat) : payloadAt (A ++ B) (p + A.length) n = payloadAt B p n := by
  unfold payloadAt
  rw [show p + A.length + 5 = p + 5 + A.length by omega, drop_right]

theorem payloadAt_left {p n : Nat} (h5 : 5 ≤ n) (h : p + n ≤ A.length) : payloadAt (A ++ B) p n = payloadAt A p n := by
  unfold payloadAt
  rw [piece_left (by omega)]

/-- C77: a submessage of either file is set up for decoding from the joined file exactly as from its own file. -/
theorem C77_decoding (A B : List UInt8) (p : Nat) (evA evB ev : List IoEv) (hA : Benign evA) (hB : Benign evB)
    (hev : Benign ev) (hp : p ≤ A.length) (h64 : (A ++ B).length < 2 ^ 64) (gA gB g : Grib2)
    (ha : Grib2.read ⟨A, p, evA⟩ = .ok gA) (hj : NoMagicAcross A B (lastEnd p gA.sections))
    (hb : Grib2.read ⟨B, 0, evB⟩ = .ok gB) (hg : Grib2.read ⟨A ++ B, p, ev⟩ = .ok g)
    (r rA rB : Rdr) (dr : r.data = A ++ B) (drA : rA.data = A) (drB : rB.data = B)
    (nr : IoEv.fail ∉ r.evs) (nrA : IoEv.fail ∉ rA.evs) (nrB : IoEv.fail ∉ rB.evs) :
    (SubIter.drain (g.len + 1) g.iter).map (fun x => (Decoder.fromSub x.2 r).1) =
      (SubIter.drain (gA.len + 1) gA.iter).map (fun x => (Decoder.fromSub x.2 rA).1) ++
      (SubIter.drain (gB.len + 1) gB.iter).map (fun x => (Decoder.fromSub x.2 rB).1) := by
  have hl := C77_listing A B p evA evB ev hA hB hev hp h64 gA gB g ha hj hb hg
  rw [hl, List.map_append, List.map_map]
  congr 1
  · apply List.map_congr_left
    rintro ⟨ix, m⟩ hm
    have hm' : (ix, m) ∈ SubIter.drain (g.len + 1) g.iter := by rw [hl]; exact List.mem_append_left _ hm
    simp only
    rw [(fromSub_opened hg hm' r dr nr).2.2, (fromSub_opened ha hm rA drA nrA).2.2]
    obtain ⟨-, -, -, -, -, hk⟩ := C17_accessors _ gA ha ix m hm (ε := Unit)
    have k3 := hk (m.s3, 3) (by simp)
    have k5 := hk (m.s5, 5) (by simp)
    have k6 := hk (m.s6, 6) (by simp)
    have k7 := hk (m.s7, 7) (by simp)
    have w7 := opened_whole ha _ (List.mem_of_getElem? k7.2.1)
    simp only at k3 k5 k6 k7 w7
    have q3 := k3.2.2.whole (by omega)
    have q5 := k5.2.2.whole (by omega)
    have q6 := k6.2.2.whole (by omega)
    have r3 := q3.2 (by omega)
    have r5 := q5.2 (by omega)
    have r6 := q6.2 (by omega)
    rw [k3.1] at r3
    rw [k5.1] at r5
    rw [k6.1] at r6
    simp only [minPayload] at r3 r5 r6
    have z7 := (k7.2.2.header (by omega) (by omega)).1
    have e : decoderAt (A ++ B) (m.s3.2.offset, m.s3.2.size) (m.s5.2.offset, m.s5.2.size) (m.s6.2.offset, m.s6.2.size)
        (m.s7.2.offset, m.s7.2.size) = decoderAt A (m.s3.2.offset, m.s3.2.size) (m.s5.2.offset, m.s5.2.size)
        (m.s6.2.offset, m.s6.2.size) (m.s7.2.offset, m.s7.2.size) := by
      unfold decoderAt
      rw [field_left (by omega) (by omega) (by simp only; omega), field_left (by omega) (by omega) (by simp only; omega),
        field_left (by omega) (by omega) (by simp only; omega), payloadAt_left (by simp only; omega) (by simp only; omega),
        payloadAt_left (by simp only; omega) (by simp only; omega), payloadAt_left (by simp only; omega) (by simp only; omega)]
    simp only
    rw [e, field_left (by omega) (by omega) (by omega)]
  · apply List.map_congr_left
    rintro ⟨ix, m⟩ hm
    simp only [Function.comp_apply]
    have hm' := List.mem_append_right (SubIter.drain (gA.len + 1) gA.iter) (List.mem_map_of_mem (f := movedSubmessage
      (gA.sections.filter fun s => s.num = 0).length gA.sections.length A.length
          (0, (g.sections.head?).getD SectionInfo.default)) hm)
    rw [← hl] at hm'
    refine (fromSub_opened hg hm' r dr nr).2.2.trans ?_
    rw [(fromSub_opened hb hm rB drB nrB).2.2]
    simp only [movedSubmessage, movedSection, decoderAt, field_right, payloadAt_right]

/-! ## Panics -/

theorem crash_later {p t : Nat} (h : Crash B p t) : Crash (A ++ B) (p + A.length) (t + A.length) := by
  have e : ∀ q k, q + A.length + k = q + k + A.length := fun q k => by omega
  unfold Crash at h ⊢
  split at h
  · next hpt =>
    subst hpt
    rw [if_pos rfl]
    obtain ⟨q, h1, h2, h3⟩ := h
    refine ⟨q + A.length, firstMagic_right.2 h1, ?_⟩
    rw [e, e, octet_right, number_right]
    exact ⟨h2, by omega⟩
  · next hpt =>
    rw [if_neg (by omega)]
    rw [e, number_right, octet_right, List.length_append]
    obtain ⟨h1, h2, h3⟩ := h
    refine ⟨by omega, by omega, ?_⟩
    rcases h3 with h3 | h3 | ⟨h3, h4⟩
    · exact Or.inl h3
    · exact Or.inr (Or.inl ⟨h3.1, h3.2.1, by omega⟩)
    · refine Or.inr (Or.inr ⟨by omega, ?_⟩)
      rcases h4 with h4 | ⟨h4, h5, h6, h7⟩
      · exact Or.inl h4
      · exact Or.inr ⟨h4, h5, by omega, h7⟩

/-- C77: and opening the two files panics if opening the second does. -/
theorem C77_panics (A B : List UInt8) (p : Nat) (evA evB ev : List IoEv) (hA : Benign evA) (hB : Benign evB)
    (hev : Benign ev) (hp : p ≤ A.length) (gA : Grib2)
    (ha : Grib2.read ⟨A, p, evA⟩ = .ok gA) (hj : NoMagicAcross A B (lastEnd p gA.sections))
    (hb : Grib2.read ⟨B, 0, evB⟩ = .panic) : Grib2.read ⟨A ++ B, p, ev⟩ = .panic := by
  have f := first_of_opened hA hp ha hj
  obtain ⟨ss, a, b, h1, h2, h3, h4⟩ := (C59_panics_iff ⟨B, 0, evB⟩ hB).1 hb
  simp only at h2 h3 h4
  rw [C59_panics_iff _ hev]
  -- the part of the second file that is walked in the joined file: up to a total length that is too large there
  obtain ⟨ss, a, b, h1, h2, h3, h4, h5⟩ : ∃ ss a b, Viable ss ∧ (∀ s ∈ ss, Faithful B s) ∧ Walk B 0 0 ss a b ∧
      Crash (A ++ B) (a + A.length) (b + A.length) ∧ ∀ s ∈ ss, Addressable (A ++ B) (s.later A.length) := by
    clear hb
    induction hn : ss.length using Nat.strongRecOn generalizing ss a b with
    | ind n ih =>
      by_cases hall : ∀ s ∈ ss, Addressable (A ++ B) (s.later A.length)
      · exact ⟨ss, a, b, h1, fun s hs => (h2 s hs).1, h3, crash_later h4, hall⟩
      · obtain ⟨s, hs, hna⟩ : ∃ s ∈ ss, ¬ Addressable (A ++ B) (s.later A.length) := by
          apply Classical.byContradiction
          intro hc
          exact hall fun s hs => Classical.byContradiction fun hna => hc ⟨s, hs, hna⟩
        -- cut before the first such section
        have hfind : ∀ l : List SectionInfo, (∃ s ∈ l, ¬ Addressable (A ++ B) (s.later A.length)) →
            ∃ x s y, l = x ++ s :: y ∧ (∀ z ∈ x, Addressable (A ++ B) (z.later A.length)) ∧
              ¬ Addressable (A ++ B) (s.later A.length) := by
          intro l
          induction l with
          | nil => rintro ⟨s, hs, -⟩; simp at hs
          | cons z zs ihl =>
            rintro ⟨s, hs, hna⟩
            by_cases hz : Addressable (A ++ B) (z.later A.length)
            · have : s ∈ zs := by
                rcases List.mem_cons.1 hs with rfl | hs
                · exact absurd hz hna
                · exact hs
              obtain ⟨x, s', y, e1, e2, e3⟩ := ihl ⟨s, this, hna⟩
              refine ⟨z :: x, s', y, by rw [e1]; rfl, ?_, e3⟩
              intro w hw
              rcases List.mem_cons.1 hw with rfl | hw
              · exact hz
              · exact e2 w hw
            · exact ⟨[], z, zs, rfl, by simp, hz⟩
        obtain ⟨x, s, y, rfl, e2, e3⟩ := hfind ss ⟨s, hs, hna⟩
        obtain ⟨p1, t1, w1, w2⟩ := Walk.append_inv h3
        have h0 : s.num = 0 := Classical.byContradiction fun hc => e3 fun h => absurd h hc
        have hfs := (h2 s (by simp)).1.sect0 h0
        refine ⟨x, p1, t1, ?_, fun z hz => (h2 z (by simp [hz])).1, w1, ?_, e2⟩
        · obtain ⟨ext, he⟩ := h1
          exact ⟨s :: y ++ ext, by rw [← List.append_assoc]; exact he⟩
        · cases w2 with
          | message k1 k2 k3 k4 =>
            unfold Crash
            rw [if_pos rfl]
            refine ⟨s.offset + A.length, firstMagic_right.2 k2, ?_, ?_⟩
            · rw [show s.offset + A.length + 7 = s.offset + 7 + A.length by omega, octet_right]
              exact hfs.2.2
            · unfold Addressable at e3
              simp only [SectionInfo.later] at e3
              right
              apply Classical.byContradiction
              intro hc
              exact e3 fun _ => by omega
          | sect k1 k2 => exact absurd h0 k2
  by_cases hne : ss = []
  · subst hne
    have e1 := walk_nil h3
    have e2 : b = 0 := by cases h3; rfl
    subst e1 e2
    refine ⟨gA.sections, lastEnd p gA.sections, lastEnd p gA.sections, ⟨[], by rw [List.append_nil]; exact f.acc⟩, f.faith,
      f.walk, ?_⟩
    unfold Crash at h4 ⊢
    rw [if_pos rfl] at h4 ⊢
    obtain ⟨q, k1, k2⟩ := h4
    rw [Nat.zero_add] at k1
    exact ⟨q, (firstMagic_skip f.le f.gap).2 k1, k2⟩
  · have w := walk_later (A := A) h3
    rw [Nat.zero_add] at w
    refine ⟨gA.sections ++ ss.map (SectionInfo.later A.length), a + A.length, b + A.length,
      (viable_append f.acc).2 ((viable_later _ _).2 h1), ?_,
      walk_append f.walk ((walk_gap f.le f.gap (by simpa using hne)).2 w), h4⟩
    intro s hs
    rcases List.mem_append.1 hs with hs | hs
    · exact f.faith s hs
    · obtain ⟨s, hs', rfl⟩ := List.mem_map.1 hs
      exact ⟨faithful_later.2 (h2 s hs'), h5 s hs'⟩

/-- C77: a file that ends with its last message can be followed by anything. -/
theorem C77_junction (A B : List UInt8) (p : Nat) (sects : List SectionInfo) (h : lastEnd p sects = A.length) :
    NoMagicAcross A B (lastEnd p sects) := by
  intro q h1 h2
  omega

/-- The sample file behind itself: it ends with its message, opens, and lists two messages. -/
example : ∃ gA g, Grib2.read ⟨sampleFile, 0, []⟩ = .ok gA ∧ NoMagicAcross sampleFile sampleFile (lastEnd 0 gA.sections) ∧
    Grib2.read ⟨sampleFile ++ sampleFile, 0, []⟩ = .ok g ∧
    (SubIter.drain (g.len + 1) g.iter).map Prod.fst = [(0, 0), (1, 0)] := by
  obtain ⟨gA, h1, h2⟩ := Outcome.exists_of_ok? (x := Grib2.read ⟨sampleFile, 0, []⟩)
    (f := fun g : Grib2 => (lastEnd 0 g.sections, (SubIter.drain (g.len + 1) g.iter).map Prod.fst,
      (g.sections.filter fun s => s.num = 0).length))
    (b := (sampleFile.length, [(0, 0)], 1)) (by decide +kernel)
  simp only [Prod.mk.injEq] at h2
  have hj := C77_junction sampleFile sampleFile 0 gA.sections h2.1
  obtain ⟨g, hg, -⟩ := C77_sections sampleFile sampleFile 0 [] [] [] Benign.nil Benign.nil Benign.nil (by decide) (by decide)
    gA gA h1 hj h1
  refine ⟨gA, g, h1, hj, hg, ?_⟩
  rw [C77_listing sampleFile sampleFile 0 [] [] [] Benign.nil Benign.nil Benign.nil (by decide) (by decide) gA gA g h1 hj h1 hg,
    List.map_append, List.map_map, h2.2.1, h2.2.2]
  have : ∀ l : List ((Nat × Nat) × SubMessage), l.map Prod.fst = [(0, 0)] →
      ∀ k d x, l.map (Prod.fst ∘ movedSubmessage 1 k d x) = [(1, 0)] := by
    intro l hl k d x
    have e : l.map (Prod.fst ∘ movedSubmessage 1 k d x) = (l.map Prod.fst).map fun y => (y.1 + 1, y.2) := by
      rw [List.map_map]; rfl
    rw [e, hl]
    rfl
  rw [this _ h2.2.1]
  rfl

end Grib.Props
