import Verif.Lemmas.Parser

/-! # Runs of the submessage stream over well-ordered sections (completeness) -/

namespace Grib.Model

open Grib.Spec

/-- Positions count up from `i`. -/
def Numbered : Nat → List P → Prop
  | _, [] => True
  | i, p :: ps => p.1 = i ∧ Numbered (i + 1) ps

theorem Numbered.append {i : Nat} {xs ys : List P} :
    Numbered i (xs ++ ys) ↔ Numbered i xs ∧ Numbered (i + xs.length) ys := by
  induction xs generalizing i with
  | nil => simp [Numbered]
  | cons x xs ih =>
    simp only [List.cons_append, Numbered, ih, List.length_cons]
    rw [show i + 1 + xs.length = i + (xs.length + 1) by omega]
    exact and_assoc.symm

/-- The items of a section stream yielding these sections. -/
def itemsOf (l : List P) : List Item := l.map fun p => .ok p.2

@[simp] theorem itemsOf_append (a b : List P) : itemsOf (a ++ b) = itemsOf a ++ itemsOf b := by
  simp [itemsOf]

/-- The four mandatory sections of a group, after its grid section. -/
theorem loop_body {fuel i pos mc sc : Nat} {has : Bool} {st : PStream} {a4 a5 a6 a7 : SectionInfo}
    {tail : List Item} {s4 s5 s6 s7 : P}
    (h4 : a4.num = 4) (h5 : a5.num = 5) (h6 : a6.num = 6) (h7 : a7.num = 7) :
    PStream.loop (fuel + 4)
      { st with iter := ⟨.ok a4 :: .ok a5 :: .ok a6 :: .ok a7 :: tail, i, pos, mc, sc, .endOfSect 3, has⟩ } s4 s5 s6 s7 =
    PStream.loop fuel { st with iter := ⟨tail, i + 4, i + 3, mc, sc, .endOfSect 7, has⟩ }
      (i, a4) (i + 1, a5) (i + 2, a6) (i + 3, a7) := by
  rw [PStream.loop]
  simp only [Validator.next, Validator.ensureSectNum, Validator.advance, List.tail_cons, h4, if_true, Validator.yield]
  rw [PStream.loop]
  simp only [Validator.next, Validator.ensureSectNum, Validator.advance, List.tail_cons, h5, if_true, Validator.yield]
  rw [PStream.loop]
  simp only [Validator.next, Validator.ensureSectNum, Validator.advance, List.tail_cons, h6, if_true, Validator.yield]
  rw [PStream.loop]
  simp only [Validator.next, Validator.ensureSectNum, Validator.advance, List.tail_cons, h7, if_true, Validator.yield]

theorem loop_body4 {fuel i pos mc sc : Nat} {st : PStream} {a4 a5 a6 a7 : SectionInfo}
    {tail : List Item} {s4 s5 s6 s7 : P}
    (h4 : a4.num = 4) (h5 : a5.num = 5) (h6 : a6.num = 6) (h7 : a7.num = 7) :
    PStream.loop (fuel + 4)
      { st with iter := ⟨.ok a4 :: .ok a5 :: .ok a6 :: .ok a7 :: tail, i, pos, mc, sc, .startOfSubmessage, true⟩ }
        s4 s5 s6 s7 =
    PStream.loop fuel { st with iter := ⟨tail, i + 4, i + 3, mc, sc, .endOfSect 7, true⟩ }
      (i, a4) (i + 1, a5) (i + 2, a6) (i + 3, a7) := by
  rw [PStream.loop]
  simp (decide := true) only [Validator.next, Validator.ensureSect234, Validator.advance, List.tail_cons, h4, if_true,
    if_false, Validator.yield]
  rw [PStream.loop]
  simp only [Validator.next, Validator.ensureSectNum, Validator.advance, List.tail_cons, h5, if_true, Validator.yield]
  rw [PStream.loop]
  simp only [Validator.next, Validator.ensureSectNum, Validator.advance, List.tail_cons, h6, if_true, Validator.yield]
  rw [PStream.loop]
  simp only [Validator.next, Validator.ensureSectNum, Validator.advance, List.tail_cons, h7, if_true, Validator.yield]

theorem loop_end8 {fuel i pos mc sc : Nat} {has : Bool} {st : PStream} {a : SectionInfo}
    {tail : List Item} {s4 s5 s6 s7 : P} (ha : a.num = 8) (hi : i ≠ 0) :
    PStream.loop (fuel + 1) { st with iter := ⟨.ok a :: tail, i, pos, mc, sc, .endOfSect 7, has⟩ } s4 s5 s6 s7 =
    (.ok (some ⟨mc, sc, ⟨st.sect0, st.sect1, st.sect2, st.sect3, s4, s5, s6, s7, (i, a)⟩⟩),
      ({ iter := ⟨tail, i + 1, i, mc + 1, 0, .startOfMessage, false⟩ } : PStream)) := by
  rw [PStream.loop]
  simp [Validator.next, Validator.ensureSect8, Validator.advance, ha, hi, PStream.clear]

theorem loop_endD {fuel i pos mc sc : Nat} {has : Bool} {st : PStream} {a : SectionInfo}
    {tail : List Item} {s4 s5 s6 s7 : P} (ha : a.num ≠ 8) :
    PStream.loop (fuel + 1) { st with iter := ⟨.ok a :: tail, i, pos, mc, sc, .endOfSect 7, has⟩ } s4 s5 s6 s7 =
    (.ok (some ⟨mc, sc, ⟨st.sect0, st.sect1, st.sect2, st.sect3, s4, s5, s6, s7, P.dummy8⟩⟩),
      { st with iter := ⟨.ok a :: tail, i, pos, mc, sc + 1, .startOfSubmessage, has⟩ }) := by
  rw [PStream.loop]
  simp [Validator.next, Validator.ensureSect8, ha, P.dummy8, SectionInfo.new8]

/-- Well-formedness of a group of numbered sections. -/
def GOk (g : Group P) : Prop := (g.map Prod.snd).Ok

/-- A group read from the start of a submessage; the grid section is inherited if there is none. -/
theorem loop_group {fuel i pos mc sc : Nat} {has : Bool} {st : PStream} {g : Group P} {state : VState}
    {tail : List Item} {s4 s5 s6 s7 : P}
    (hg : GOk g) (hn : Numbered i g.sections)
    (hs : state = .startOfSubmessage ∨ (state = .endOfSect 1 ∧ g.grid.isSome))
    (hh : g.grid.isSome ∨ has = true) :
    ∃ pos', PStream.loop (fuel + g.sections.length)
      { st with iter := ⟨itemsOf g.sections ++ tail, i, pos, mc, sc, state, has⟩ } s4 s5 s6 s7 =
    PStream.loop fuel { st with iter := ⟨tail, i + g.sections.length, pos', mc, sc, .endOfSect 7, true⟩
                                sect2 := g.loc.or st.sect2, sect3 := g.grid.getD st.sect3 }
      g.prod g.repr g.bitmap g.data := by
  obtain ⟨loc, grid, ⟨i4, a4⟩, ⟨i5, a5⟩, ⟨i6, a6⟩, ⟨i7, a7⟩⟩ := g
  obtain ⟨h2, h3, h4, h5, h6, h7, hl⟩ := hg
  simp only [Group.map] at h2 h3 h4 h5 h6 h7 hl
  match loc, grid with
  | none, none =>
    simp only [Option.isSome_none, Bool.false_eq_true, and_false, or_false] at hs
    simp only [Option.isSome_none, Bool.false_eq_true, false_or] at hh
    subst hs hh
    simp only [Group.sections, Option.toList_none, List.nil_append, Numbered] at hn
    obtain ⟨rfl, rfl, rfl, rfl, -⟩ := hn
    exact ⟨_, loop_body4 h4 h5 h6 h7⟩
  | none, some (i3, a3) =>
    simp only [Group.sections, Option.toList_none, Option.toList_some, List.nil_append, List.cons_append,
      Numbered] at hn
    obtain ⟨rfl, rfl, rfl, rfl, rfl, -⟩ := hn
    have h3' : a3.num = 3 := h3 _ rfl
    refine ⟨i3 + 4, ?_⟩
    have : state = .startOfSubmessage ∨ state = .endOfSect 1 := hs.imp id And.left
    simp only [Group.sections, Option.toList_none, Option.toList_some, List.nil_append, List.cons_append,
      itemsOf, List.map_cons, List.map_nil, List.length_cons, List.length_nil]
    rw [show fuel + (0 + 1 + 1 + 1 + 1 + 1) = fuel + 4 + 1 by omega, PStream.loop]
    have hb := fun st => loop_body (fuel := fuel) (i := i3 + 1) (pos := i3) (mc := mc) (sc := sc) (has := true)
      (st := st) (tail := tail) (s4 := s4) (s5 := s5) (s6 := s6) (s7 := s7) h4 h5 h6 h7
    rcases this with rfl | rfl
    · simp (decide := true) only [Validator.next, Validator.ensureSect234, Validator.advance, List.tail_cons, h3',
        if_true, if_false, Validator.yield]
      exact hb { st with sect3 := (i3, a3) }
    · simp (decide := true) only [Validator.next, Validator.ensureSect234, Validator.advance, List.tail_cons, h3',
        if_true, if_false, Validator.yield]
      exact hb { st with sect3 := (i3, a3) }
  | some (i2, a2), none => simp at hl
  | some (i2, a2), some (i3, a3) =>
    simp only [Group.sections, Option.toList_some, List.nil_append, List.cons_append, Numbered] at hn
    obtain ⟨rfl, rfl, rfl, rfl, rfl, rfl, -⟩ := hn
    have h2' : a2.num = 2 := h2 _ rfl
    have h3' : a3.num = 3 := h3 _ rfl
    refine ⟨i2 + 1 + 4, ?_⟩
    have : state = .startOfSubmessage ∨ state = .endOfSect 1 := hs.imp id And.left
    simp only [Group.sections, Option.toList_some, List.nil_append, List.cons_append,
      itemsOf, List.map_cons, List.map_nil, List.length_cons, List.length_nil]
    rw [show fuel + (0 + 1 + 1 + 1 + 1 + 1 + 1) = fuel + 4 + 1 + 1 by omega, PStream.loop]
    have hb := fun st => loop_body (fuel := fuel) (i := i2 + 1 + 1) (pos := i2 + 1) (mc := mc) (sc := sc) (has := true)
      (st := st) (tail := tail) (s4 := s4) (s5 := s5) (s6 := s6) (s7 := s7) h4 h5 h6 h7
    rcases this with rfl | rfl
    all_goals
      simp (decide := true) only [Validator.next, Validator.ensureSect234, Validator.advance, List.tail_cons, h2',
        if_true, if_false, Validator.yield]
      rw [PStream.loop]
      simp (decide := true) only [Validator.next, Validator.ensureSectNum, Validator.advance, List.tail_cons, h3',
        if_true, Validator.yield]
      exact hb { st with sect2 := some (i2, a2), sect3 := (i2 + 1, a3) }

/-- Recursive form of `Message.subs`. -/
def subsRec {α : Type} (s0 s1 fin dummy : α) (msg : Nat) : Option α → α → Nat → List (Group α) → List (Submsg α)
  | _, _, _, [] => []
  | s2, s3, k, g :: gs =>
    ⟨msg, k, ⟨s0, s1, g.loc.or s2, g.grid.getD s3, g.prod, g.repr, g.bitmap, g.data,
      if gs.isEmpty then fin else dummy⟩⟩ ::
      subsRec s0 s1 fin dummy msg (g.loc.or s2) (g.grid.getD s3) (k + 1) gs

theorem mostRecent_snoc {α : Type} (xs : List (Option α)) (x : Option α) :
    mostRecent (xs ++ [x]) = x.or (mostRecent xs) := by
  cases x <;> simp [mostRecent, List.filterMap_append]

theorem subsRec_eq {α : Type} (s0 s1 fin dummy d dg : α) (msg : Nat) (g0 : Group α) (gs pre : List (Group α)) :
    subsRec s0 s1 fin dummy msg (mostRecent (pre.map Group.loc)) ((mostRecent (pre.map Group.grid)).getD d)
      pre.length gs =
    (List.range gs.length).map fun j =>
      let k := pre.length + j
      let upto := (pre ++ gs).take (k + 1)
      let g := (pre ++ gs).getD k g0
      { msg := msg, sub := k,
        sects :=
          { s0 := s0, s1 := s1,
            s2 := mostRecent (upto.map Group.loc),
            s3 := (mostRecent (upto.map Group.grid)).getD d,
            s4 := g.prod, s5 := g.repr, s6 := g.bitmap, s7 := g.data,
            s8 := if k + 1 = (pre ++ gs).length then fin else dummy } } := by
  induction gs generalizing pre with
  | nil => simp [subsRec]
  | cons g gs ih =>
    rw [subsRec, List.length_cons, List.range_succ_eq_map, List.map_cons, List.map_map]
    have e1 : g.loc.or (mostRecent (pre.map Group.loc)) = mostRecent ((pre ++ [g]).map Group.loc) := by
      rw [List.map_append, List.map_singleton, mostRecent_snoc]
    have e2 : g.grid.getD ((mostRecent (pre.map Group.grid)).getD d) =
        (mostRecent ((pre ++ [g]).map Group.grid)).getD d := by
      rw [List.map_append, List.map_singleton, mostRecent_snoc]
      cases g.grid <;> simp
    have := ih (pre ++ [g])
    rw [List.length_append, List.length_singleton] at this
    rw [e1, e2, this]
    have e3 : (pre ++ g :: gs).take (pre.length + 1) = pre ++ [g] := by
      rw [List.take_append, List.take_of_length_le (by omega)]
      simp
    congr 1
    · simp only [Nat.add_zero, e3]
      simp [List.isEmpty_iff]
    · apply List.map_congr_left
      intro j _
      simp [Function.comp, Nat.add_assoc, Nat.add_comm 1 j, Nat.add_left_comm]

theorem Message.subs_eq {α : Type} (m : Message α) (dummy d : α) (msg : Nat) :
    m.subs dummy d msg = subsRec m.indicator m.ident m.fin dummy msg none d 0 m.groups := by
  have := subsRec_eq m.indicator m.ident m.fin dummy d d msg m.first m.groups []
  simp only [List.map_nil, List.length_nil, List.nil_append, Nat.zero_add] at this
  rw [show mostRecent ([] : List (Option α)) = none from rfl] at this
  simp only [Option.getD_none] at this
  rw [this, Message.subs]

theorem GOk.length_pos {g : Group P} : 4 ≤ g.sections.length := by
  simp [Group.sections]; omega

theorem GOk.head {g : Group P} (hg : GOk g) : ∃ a rest, itemsOf g.sections = .ok a :: rest ∧ a.num ≠ 8 := by
  obtain ⟨loc, grid, a4, a5, a6, a7⟩ := g
  obtain ⟨h2, h3, h4, h5, h6, h7, hl⟩ := hg
  simp only [Group.map] at h2 h3 h4 h5 h6 h7 hl
  match loc, grid with
  | none, none => exact ⟨a4.2, _, rfl, by omega⟩
  | none, some a3 => exact ⟨a3.2, _, rfl, by have := h3 _ rfl; omega⟩
  | some a2, _ => exact ⟨a2.2, _, rfl, by have := h2 _ rfl; omega⟩

/-- A group followed by the end section. -/
theorem next_group_last {i pos mc sc : Nat} {has : Bool} {st : PStream} {g : Group P} {state : VState}
    {tail : List Item} {fin : P} (hg : GOk g) (hn : Numbered i (g.sections ++ [fin]))
    (hs : state = .startOfSubmessage ∨ (state = .endOfSect 1 ∧ g.grid.isSome))
    (hh : g.grid.isSome ∨ has = true) (hf : fin.2.num = 8) :
    PStream.next
      { st with iter := ⟨itemsOf (g.sections ++ [fin]) ++ tail, i, pos, mc, sc, state, has⟩ } =
    (.ok (some ⟨mc, sc, ⟨st.sect0, st.sect1, g.loc.or st.sect2, g.grid.getD st.sect3,
        g.prod, g.repr, g.bitmap, g.data, fin⟩⟩),
      ({ iter := ⟨tail, i + g.sections.length + 1, i + g.sections.length, mc + 1, 0, .startOfMessage, false⟩ } :
        PStream)) := by
  rw [Numbered.append] at hn
  obtain ⟨hn, hn2, -⟩ := hn
  rw [PStream.next, itemsOf_append, List.append_assoc]
  simp only [List.length_append]
  obtain ⟨pos', h⟩ := loop_group (fuel := tail.length + 2 + 1) (i := i) (pos := pos) (mc := mc) (sc := sc)
    (has := has) (st := st)
    (tail := itemsOf [fin] ++ tail) (s4 := .default) (s5 := .default) (s6 := .default) (s7 := .default) hg hn hs hh
  rw [show (itemsOf g.sections).length + ((itemsOf [fin]).length + tail.length) + 2 =
    tail.length + 2 + 1 + g.sections.length by simp [itemsOf]; omega, h]
  have := loop_end8 (fuel := tail.length + 2) (i := i + g.sections.length) (pos := pos') (mc := mc) (sc := sc)
    (has := true) (st := { st with sect2 := g.loc.or st.sect2, sect3 := g.grid.getD st.sect3 }) (a := fin.2)
    (tail := tail) (s4 := g.prod) (s5 := g.repr) (s6 := g.bitmap) (s7 := g.data) hf
    (by have := @GOk.length_pos g; omega)
  obtain ⟨fi, fs⟩ := fin
  simp only at hn2
  subst hn2
  exact this

/-- A group followed by something else than the end section. -/
theorem next_group_more {i pos mc sc : Nat} {has : Bool} {st : PStream} {g : Group P} {state : VState}
    {tail : List Item} {a : SectionInfo} (hg : GOk g) (hn : Numbered i g.sections)
    (hs : state = .startOfSubmessage ∨ (state = .endOfSect 1 ∧ g.grid.isSome))
    (hh : g.grid.isSome ∨ has = true) (hf : a.num ≠ 8) :
    ∃ pos', PStream.next
      { st with iter := ⟨itemsOf g.sections ++ .ok a :: tail, i, pos, mc, sc, state, has⟩ } =
    (.ok (some ⟨mc, sc, ⟨st.sect0, st.sect1, g.loc.or st.sect2, g.grid.getD st.sect3,
        g.prod, g.repr, g.bitmap, g.data, P.dummy8⟩⟩),
      { st with iter := ⟨.ok a :: tail, i + g.sections.length, pos', mc, sc + 1, .startOfSubmessage, true⟩
                sect2 := g.loc.or st.sect2, sect3 := g.grid.getD st.sect3 }) := by
  obtain ⟨pos', h⟩ := loop_group (fuel := tail.length + 2 + 1) (i := i) (pos := pos) (mc := mc) (sc := sc)
    (has := has) (st := st)
    (tail := .ok a :: tail) (s4 := .default) (s5 := .default) (s6 := .default) (s7 := .default) hg hn hs hh
  refine ⟨pos', ?_⟩
  rw [PStream.next]
  simp only [List.length_append]
  rw [show (itemsOf g.sections).length + (Outcome.ok a :: tail : List Item).length + 2 =
    tail.length + 2 + 1 + g.sections.length by simp [itemsOf]; omega, h]
  exact loop_endD (st := { st with sect2 := g.loc.or st.sect2, sect3 := g.grid.getD st.sect3 }) hf

theorem collect_groups {fuel i pos mc sc : Nat} {has : Bool} {st : PStream} {g : Group P} {gs : List (Group P)}
    {state : VState} {tail : List Item} {fin : P}
    (hg : ∀ x ∈ g :: gs, GOk x) (hn : Numbered i ((g :: gs).flatMap Group.sections ++ [fin]))
    (hs : state = .startOfSubmessage ∨ (state = .endOfSect 1 ∧ g.grid.isSome))
    (hh : g.grid.isSome ∨ has = true) (hf : fin.2.num = 8) :
    PStream.collectN (fuel + (g :: gs).length)
      { st with iter := ⟨itemsOf ((g :: gs).flatMap Group.sections ++ [fin]) ++ tail, i, pos, mc, sc, state, has⟩ } =
    (((subsRec st.sect0 st.sect1 fin P.dummy8 mc st.sect2 st.sect3 sc (g :: gs)).map .ok) ++
      (PStream.collectN fuel { iter := ⟨tail, i + ((g :: gs).flatMap Group.sections ++ [fin]).length,
        i + ((g :: gs).flatMap Group.sections).length, mc + 1, 0, .startOfMessage, false⟩ }).1,
     (PStream.collectN fuel { iter := ⟨tail, i + ((g :: gs).flatMap Group.sections ++ [fin]).length,
        i + ((g :: gs).flatMap Group.sections).length, mc + 1, 0, .startOfMessage, false⟩ }).2) := by
  induction gs generalizing i pos sc has st g state with
  | nil =>
    rw [List.length_singleton, PStream.collectN]
    simp only [List.flatMap_cons, List.flatMap_nil, List.append_nil] at hn ⊢
    rw [next_group_last (hg g (by simp)) hn hs hh hf]
    simp [subsRec, Nat.add_assoc]
  | cons g' gs ih =>
    obtain ⟨a, rest, ha, ha8⟩ := (hg g' (by simp)).head
    rw [List.flatMap_cons, List.append_assoc] at hn
    rw [Numbered.append] at hn
    have e : itemsOf ((g :: g' :: gs).flatMap Group.sections ++ [fin]) ++ tail =
        itemsOf g.sections ++ (itemsOf ((g' :: gs).flatMap Group.sections ++ [fin]) ++ tail) := by
      simp [List.flatMap_cons]
    have e2 : ∃ t, itemsOf ((g' :: gs).flatMap Group.sections ++ [fin]) ++ tail = .ok a :: t := by
      simp [List.flatMap_cons, ha]
    obtain ⟨t, ht⟩ := e2
    obtain ⟨pos', h⟩ := next_group_more (pos := pos) (mc := mc) (sc := sc) (st := st) (tail := t)
      (hg g (by simp)) hn.1 hs hh ha8
    rw [List.length_cons, ← Nat.add_assoc, PStream.collectN, e, ht, h]
    rw [← ht]
    simp only
    rw [ih (st := { st with sect2 := g.loc.or st.sect2, sect3 := g.grid.getD st.sect3 })
      (fun x hx => hg x (List.mem_cons_of_mem _ hx)) hn.2 (Or.inl rfl) (Or.inr rfl)]
    have e3 : i + g.sections.length + ((g' :: gs).flatMap Group.sections ++ [fin]).length =
      i + ((g :: g' :: gs).flatMap Group.sections ++ [fin]).length := by
      simp only [List.flatMap_cons, List.length_append]; omega
    have e4 : i + g.sections.length + ((g' :: gs).flatMap Group.sections).length =
      i + ((g :: g' :: gs).flatMap Group.sections).length := by
      simp only [List.flatMap_cons, List.length_append]; omega
    rw [e3, e4]
    simp [subsRec]

def MOk (m : Message P) : Prop := (m.map Prod.snd).Ok

theorem MOk.groupsOk {m : Message P} (h : MOk m) : ∀ g ∈ m.groups, GOk g := by
  intro g hg
  apply Message.Ok.groups h
  simp only [Message.groups, Message.map, List.mem_cons] at hg ⊢
  rcases hg with rfl | hg
  · exact Or.inl rfl
  · exact Or.inr (List.mem_map_of_mem hg)

theorem loop_head {fuel i pos mc sc : Nat} {has : Bool} {a0 a1 : P} {tail : List Item}
    (h0 : a0.2.num = 0) (h1 : a1.2.num = 1) (hi0 : a0.1 = i) (hi1 : a1.1 = i + 1) {s4 s5 s6 s7 : P} :
    PStream.loop (fuel + 2) { iter := ⟨.ok a0.2 :: .ok a1.2 :: tail, i, pos, mc, sc, .startOfMessage, has⟩ }
      s4 s5 s6 s7 =
    PStream.loop fuel { iter := ⟨tail, i + 2, i + 1, mc, sc, .endOfSect 1, has⟩, sect0 := a0, sect1 := a1 }
      s4 s5 s6 s7 := by
  obtain ⟨i0, a0⟩ := a0
  obtain ⟨i1, a1⟩ := a1
  simp only at h0 h1 hi0 hi1
  subst hi0 hi1
  rw [PStream.loop]
  simp only [Validator.next, Validator.ensureSect0, Validator.advance, List.tail_cons, h0, if_true, Validator.yield]
  rw [PStream.loop]
  simp only [Validator.next, Validator.ensureSectNum, Validator.advance, List.tail_cons, h1, if_true, Validator.yield]

theorem collectN_head {fuel i pos mc sc : Nat} {has : Bool} {a0 a1 : P} {tail : List Item}
    (h0 : a0.2.num = 0) (h1 : a1.2.num = 1) (hi0 : a0.1 = i) (hi1 : a1.1 = i + 1) :
    PStream.collectN (fuel + 1) { iter := ⟨.ok a0.2 :: .ok a1.2 :: tail, i, pos, mc, sc, .startOfMessage, has⟩ } =
    PStream.collectN (fuel + 1)
      { iter := ⟨tail, i + 2, i + 1, mc, sc, .endOfSect 1, has⟩, sect0 := a0, sect1 := a1 } := by
  rw [PStream.collectN, PStream.collectN]
  have : PStream.next { iter := ⟨.ok a0.2 :: .ok a1.2 :: tail, i, pos, mc, sc, .startOfMessage, has⟩ } =
      PStream.next { iter := ⟨tail, i + 2, i + 1, mc, sc, .endOfSect 1, has⟩, sect0 := a0, sect1 := a1 } := by
    rw [PStream.next, PStream.next]
    exact loop_head h0 h1 hi0 hi1
  rw [this]

/-- A whole message, read from between messages. -/
theorem collect_message {fuel i pos mc : Nat} {m : Message P} {tail : List Item} (hm : MOk m)
    (hn : Numbered i m.sections) :
    ∃ pos', PStream.collectN (fuel + m.groups.length)
      { iter := ⟨itemsOf m.sections ++ tail, i, pos, mc, 0, .startOfMessage, false⟩ } =
    (((m.subs P.dummy8 P.default mc).map .ok) ++
      (PStream.collectN fuel { iter := ⟨tail, i + m.sections.length, pos', mc + 1, 0, .startOfMessage, false⟩ }).1,
     (PStream.collectN fuel { iter := ⟨tail, i + m.sections.length, pos', mc + 1, 0, .startOfMessage, false⟩ }).2) := by
  have hg := hm.groupsOk
  obtain ⟨h0, h1, -, hfg, hf⟩ := hm
  rw [Message.subs_eq]
  obtain ⟨a0, a1, g, gs, fin⟩ := m
  simp only [Message.map] at h0 h1 hf hfg
  have hfg' : g.grid.isSome := by simpa [Group.map] using hfg
  simp only [Message.sections, Message.groups, Numbered] at hn hg ⊢
  refine ⟨i + 1 + 1 + ((g :: gs).flatMap Group.sections).length, ?_⟩
  rw [List.length_cons, ← Nat.add_assoc]
  have e : itemsOf (a0 :: a1 :: ((g :: gs).flatMap Group.sections ++ [fin])) ++ tail =
    .ok a0.2 :: .ok a1.2 :: (itemsOf ((g :: gs).flatMap Group.sections ++ [fin]) ++ tail) := rfl
  rw [e, collectN_head h0 h1 hn.1 hn.2.1]
  have := collect_groups (fuel := fuel) (i := i + 1 + 1) (pos := i + 1) (mc := mc) (sc := 0) (has := false)
    (st := { iter := Validator.new [], sect0 := a0, sect1 := a1 }) (g := g) (gs := gs) (state := .endOfSect 1)
    (tail := tail) (fin := fin) hg hn.2.2 (Or.inr ⟨rfl, hfg'⟩) (Or.inl hfg') hf
  rw [List.length_cons, ← Nat.add_assoc] at this
  rw [this]
  simp only [List.length_cons]
  rw [show i + 1 + 1 + ((g :: gs).flatMap Group.sections ++ [fin]).length =
    i + (((g :: gs).flatMap Group.sections ++ [fin]).length + 1 + 1) by omega]

/-- A sequence of messages. -/
theorem collect_messages {fuel i pos mc : Nat} {ms : List (Message P)} {tail : List Item} (hm : ∀ m ∈ ms, MOk m)
    (hn : Numbered i (ms.flatMap Message.sections)) :
    ∃ pos', PStream.collectN (fuel + (ms.flatMap Message.groups).length)
      { iter := ⟨itemsOf (ms.flatMap Message.sections) ++ tail, i, pos, mc, 0, .startOfMessage, false⟩ } =
    (((fileSubs P.dummy8 P.default mc ms).map .ok) ++
      (PStream.collectN fuel { iter := ⟨tail, i + (ms.flatMap Message.sections).length, pos', mc + ms.length, 0,
        .startOfMessage, false⟩ }).1,
     (PStream.collectN fuel { iter := ⟨tail, i + (ms.flatMap Message.sections).length, pos', mc + ms.length, 0,
        .startOfMessage, false⟩ }).2) := by
  induction ms generalizing i pos mc with
  | nil => exact ⟨pos, by simp [itemsOf, fileSubs]⟩
  | cons m ms ih =>
    rw [List.flatMap_cons, Numbered.append] at hn
    obtain ⟨p1, h1⟩ := collect_message (fuel := fuel + (ms.flatMap Message.groups).length) (i := i) (pos := pos)
      (mc := mc) (m := m) (tail := itemsOf (ms.flatMap Message.sections) ++ tail) (hm m (by simp)) hn.1
    obtain ⟨p2, h2⟩ := ih (i := i + m.sections.length) (pos := p1) (mc := mc + 1)
      (fun x hx => hm x (List.mem_cons_of_mem _ hx)) hn.2
    refine ⟨p2, ?_⟩
    have e : itemsOf ((m :: ms).flatMap Message.sections) ++ tail =
      itemsOf m.sections ++ (itemsOf (ms.flatMap Message.sections) ++ tail) := by simp [List.flatMap_cons]
    have e1 : fuel + ((m :: ms).flatMap Message.groups).length =
      fuel + (ms.flatMap Message.groups).length + m.groups.length := by
      simp [List.flatMap_cons]; omega
    rw [e, e1, h1, h2]
    have e2 : i + ((m :: ms).flatMap Message.sections).length =
      i + m.sections.length + (ms.flatMap Message.sections).length := by
      simp [List.flatMap_cons]; omega
    have e3 : mc + (m :: ms).length = mc + 1 + ms.length := by simp; omega
    rw [e2, e3]
    simp [fileSubs]

end Grib.Model
