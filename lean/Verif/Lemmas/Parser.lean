import Verif.Spec.Grammar

/-! # The parser streams: both are images of one stream of (position, section) pairs -/

namespace Grib.Model

open Grib.Spec

/-- A section with its index in the section stream. -/
abbrev P := Nat × SectionInfo

def P.default : P := (0, SectionInfo.default)

def P.dummy8 : P := (0, SectionInfo.new8 0)

/-- Common refinement of the two submessage streams (proof device). -/
structure PStream where
  iter : Validator
  sect0 : P := .default
  sect1 : P := .default
  sect2 : Option P := none
  sect3 : P := .default

def PStream.clear (s : PStream) : PStream :=
  { s with sect0 := .default, sect1 := .default, sect2 := none, sect3 := .default }

def PStream.loop : (fuel : Nat) → PStream → (s4 s5 s6 s7 : P) →
    Outcome ParseError (Option (Submsg P)) × PStream
  | 0, st, _, _, _, _ => (.panic, st)
  | fuel + 1, st, s4, s5, s6, s7 =>
    match st.iter.next with
    | (.ok none, v) => (.ok none, { st with iter := v })
    | (.err e, v) => (.err e, { st with iter := v })
    | (.panic, v) => (.panic, { st with iter := v })
    | (.ok (some x), v) =>
      let st := { st with iter := v }
      match x.sect.num with
      | 0 => PStream.loop fuel { st with sect0 := (x.pos, x.sect) } s4 s5 s6 s7
      | 1 => PStream.loop fuel { st with sect1 := (x.pos, x.sect) } s4 s5 s6 s7
      | 2 => PStream.loop fuel { st with sect2 := some (x.pos, x.sect) } s4 s5 s6 s7
      | 3 => PStream.loop fuel { st with sect3 := (x.pos, x.sect) } s4 s5 s6 s7
      | 4 => PStream.loop fuel st (x.pos, x.sect) s5 s6 s7
      | 5 => PStream.loop fuel st s4 (x.pos, x.sect) s6 s7
      | 6 => PStream.loop fuel st s4 s5 (x.pos, x.sect) s7
      | 7 => PStream.loop fuel st s4 s5 s6 (x.pos, x.sect)
      | 8 =>
        (.ok (some ⟨x.msg, x.sub, ⟨st.sect0, st.sect1, st.sect2, st.sect3, s4, s5, s6, s7, (x.pos, x.sect)⟩⟩),
          if x.pos ≠ 0 then st.clear else st)
      | _ => (.panic, st)

def PStream.next (st : PStream) : Outcome ParseError (Option (Submsg P)) × PStream :=
  PStream.loop (st.iter.items.length + 2) st .default .default .default .default

def PStream.collectN : (fuel : Nat) → PStream → List (Outcome ParseError (Submsg P)) × PStream
  | 0, s => ([.panic], s)
  | fuel + 1, s =>
    match s.next with
    | (.ok none, s') => ([], s')
    | (.ok (some x), s') =>
      let (xs, s'') := PStream.collectN fuel s'
      (.ok x :: xs, s'')
    | (.err e, s') => ([.err e], s')
    | (.panic, s') => ([.panic], s')

def Nine.map {α β : Type} (f : α → β) (n : Nine α) : Nine β :=
  ⟨f n.s0, f n.s1, n.s2.map f, f n.s3, f n.s4, f n.s5, f n.s6, f n.s7, f n.s8⟩

def Submsg.map {α β : Type} (f : α → β) (s : Submsg α) : Submsg β := ⟨s.msg, s.sub, s.sects.map f⟩

/-- Image of an outcome. -/
def mapOut {ε α β : Type} (f : α → β) : Outcome ε α → Outcome ε β
  | .ok a => .ok (f a)
  | .err e => .err e
  | .panic => .panic

def PStream.toSub (s : PStream) : SubStream :=
  ⟨s.iter, s.sect0.2, s.sect1.2, s.sect2.map (·.2), s.sect3.2⟩

theorem SubStream.loop_eq (fuel : Nat) (st : PStream) (s4 s5 s6 s7 : P) :
    SubStream.loop fuel st.toSub s4.2 s5.2 s6.2 s7.2 =
      ((mapOut (Option.map (Submsg.map (·.2))) (PStream.loop fuel st s4 s5 s6 s7).1),
        (PStream.loop fuel st s4 s5 s6 s7).2.toSub) := by
  induction fuel generalizing st s4 s5 s6 s7 with
  | zero => simp [SubStream.loop, PStream.loop, mapOut]
  | succ fuel ih =>
    rw [SubStream.loop, PStream.loop]
    simp only [PStream.toSub]
    rcases hx : st.iter.next with ⟨o, v⟩
    rcases o with o | e | _
    · cases o with
      | none => simp [mapOut]
      | some x =>
        obtain ⟨pos, msg, sub, ⟨num, off, size, body⟩⟩ := x
        match num with
        | 0 => exact ih { st with iter := v, sect0 := (pos, _) } s4 s5 s6 s7
        | 1 => exact ih { st with iter := v, sect1 := (pos, _) } s4 s5 s6 s7
        | 2 => exact ih { st with iter := v, sect2 := some (pos, _) } s4 s5 s6 s7
        | 3 => exact ih { st with iter := v, sect3 := (pos, _) } s4 s5 s6 s7
        | 4 => exact ih { st with iter := v } (pos, _) s5 s6 s7
        | 5 => exact ih { st with iter := v } s4 (pos, _) s6 s7
        | 6 => exact ih { st with iter := v } s4 s5 (pos, _) s7
        | 7 => exact ih { st with iter := v } s4 s5 s6 (pos, _)
        | 8 =>
          by_cases hp : pos = 0
          · simp [mapOut, hp, Submsg.map, Nine.map]
          · simp [mapOut, hp, Submsg.map, Nine.map, PStream.clear, SubStream.clear, P.default]
        | n + 9 => simp [mapOut]
    · simp [mapOut]
    · simp [mapOut]

theorem SubStream.next_eq (st : PStream) :
    st.toSub.next = (mapOut (Option.map (Submsg.map (·.2))) st.next.1, st.next.2.toSub) := by
  exact SubStream.loop_eq _ st .default .default .default .default

theorem SubStream.collectN_eq (fuel : Nat) (st : PStream) :
    (SubStream.collectN fuel st.toSub).1 = (PStream.collectN fuel st).1.map (mapOut (Submsg.map (·.2))) := by
  induction fuel generalizing st with
  | zero => simp [SubStream.collectN, PStream.collectN, mapOut]
  | succ fuel ih =>
    rw [SubStream.collectN, PStream.collectN, SubStream.next_eq]
    rcases hx : st.next with ⟨o, v⟩
    rcases o with o | e | _
    · cases o with
      | none => simp [mapOut]
      | some x => simp [mapOut, ih]
    · simp [mapOut]
    · simp [mapOut]

/-- Image of a `PStream` with a cache in the index stream. -/
def PStream.toIdx (s : PStream) (cache : List SectionInfo) : IdxStream :=
  ⟨s.iter, cache, s.sect0.1, s.sect1.1, s.sect2.map (·.1), s.sect3.1⟩

theorem IdxStream.loop_eq (fuel : Nat) (st : PStream) (cache : List SectionInfo) (s4 s5 s6 s7 : P) :
    ∃ cache', IdxStream.loop fuel (st.toIdx cache) s4.1 s5.1 s6.1 s7.1 =
      ((mapOut (Option.map (Submsg.map (·.1))) (PStream.loop fuel st s4 s5 s6 s7).1),
        (PStream.loop fuel st s4 s5 s6 s7).2.toIdx cache') := by
  induction fuel generalizing st cache s4 s5 s6 s7 with
  | zero => exact ⟨cache, by simp [IdxStream.loop, PStream.loop, mapOut]⟩
  | succ fuel ih =>
    rw [IdxStream.loop, PStream.loop]
    simp only [PStream.toIdx]
    rcases hx : st.iter.next with ⟨o, v⟩
    rcases o with o | e | _
    · cases o with
      | none => exact ⟨cache, by simp [mapOut]⟩
      | some x =>
        have ih' := fun st s4 s5 s6 s7 => ih st (cache ++ [x.sect]) s4 s5 s6 s7
        obtain ⟨pos, msg, sub, ⟨num, off, size, body⟩⟩ := x
        match num with
        | 0 => exact ih' { st with iter := v, sect0 := (pos, _) } s4 s5 s6 s7
        | 1 => exact ih' { st with iter := v, sect1 := (pos, _) } s4 s5 s6 s7
        | 2 => exact ih' { st with iter := v, sect2 := some (pos, _) } s4 s5 s6 s7
        | 3 => exact ih' { st with iter := v, sect3 := (pos, _) } s4 s5 s6 s7
        | 4 => exact ih' { st with iter := v } (pos, _) s5 s6 s7
        | 5 => exact ih' { st with iter := v } s4 (pos, _) s6 s7
        | 6 => exact ih' { st with iter := v } s4 s5 (pos, _) s7
        | 7 => exact ih' { st with iter := v } s4 s5 s6 (pos, _)
        | 8 =>
          by_cases hp : pos = 0
          · exact ⟨cache, by simp [mapOut, hp, Submsg.map, Nine.map]⟩
          · exact ⟨cache ++ [⟨8, off, size, body⟩], by
              simp [mapOut, hp, Submsg.map, Nine.map, PStream.clear, IdxStream.clear, IdxStream.push, P.default]⟩
        | n + 9 => exact ⟨cache, by simp [mapOut]⟩
    · exact ⟨cache, by simp [mapOut]⟩
    · exact ⟨cache, by simp [mapOut]⟩

end Grib.Model

namespace Grib.Model

open Grib.Spec

/-- What a successful validator step is: either the next section of the input, or the dummy end section. -/
def Validator.RealStep (v : Validator) (x : VItem) (v' : Validator) : Prop :=
  v.items = .ok x.sect :: v'.items ∧ x.pos = v.idx ∧ v'.idx = v.idx + 1 ∧
    (x.sect.num = 8 → v.state = .endOfSect 7) ∧ (v.state = .endOfSect 7 → x.sect.num = 8) ∧ x.sect.num ≤ 8

def Validator.DummyStep (v : Validator) (x : VItem) (v' : Validator) : Prop :=
  v.state = .endOfSect 7 ∧ x.pos = 0 ∧ x.sect = SectionInfo.new8 0 ∧ v'.items = v.items ∧ v'.idx = v.idx ∧
    ∃ s rest, v.items = .ok s :: rest ∧ s.num ≠ 8

theorem ensureSectNum_some {v v' : Validator} {n : Nat} {x : VItem}
    (h : v.ensureSectNum n = (.ok (some x), v')) :
    ∃ rest, v.items = .ok x.sect :: rest ∧ x.sect.num = n ∧
      x = ⟨v.idx, v.messageCount, v.submessageCount, x.sect⟩ ∧
      v' = { v with items := rest, idx := v.idx + 1, pos := v.idx, state := .endOfSect n } := by
  obtain ⟨items, idx, pos, mc, sc, state, has⟩ := v
  match items with
  | [] => simp [Validator.ensureSectNum, Validator.unexpectedEnd] at h
  | .panic :: _ => simp [Validator.ensureSectNum] at h
  | .err e :: _ => simp [Validator.ensureSectNum, Validator.wrapErr] at h
  | .ok s :: rest =>
    simp only [Validator.ensureSectNum, Validator.advance, List.tail_cons] at h
    by_cases hn : s.num = n
    · simp only [hn, if_true, Validator.yield, Prod.mk.injEq, Outcome.ok.injEq, Option.some.injEq] at h
      obtain ⟨rfl, rfl⟩ := h
      exact ⟨rest, rfl, hn, rfl, rfl⟩
    · simp [hn, Validator.invalidOrder] at h

theorem ensureSect0_some {v v' : Validator} {x : VItem} (h : v.ensureSect0 = (.ok (some x), v')) :
    ∃ rest, v.items = .ok x.sect :: rest ∧ x.sect.num = 0 ∧
      x = ⟨v.idx, v.messageCount, v.submessageCount, x.sect⟩ ∧
      v' = { v with items := rest, idx := v.idx + 1, pos := v.idx, state := .endOfSect 0 } := by
  obtain ⟨items, idx, pos, mc, sc, state, has⟩ := v
  match items with
  | [] => simp [Validator.ensureSect0] at h
  | .panic :: _ => simp [Validator.ensureSect0] at h
  | .err e :: _ => simp [Validator.ensureSect0, Validator.wrapErr] at h
  | .ok s :: rest =>
    simp only [Validator.ensureSect0, Validator.advance, List.tail_cons] at h
    by_cases hn : s.num = 0
    · simp only [hn, if_true, Validator.yield, Prod.mk.injEq, Outcome.ok.injEq, Option.some.injEq] at h
      obtain ⟨rfl, rfl⟩ := h
      exact ⟨rest, rfl, hn, rfl, rfl⟩
    · simp [hn, Validator.invalidOrder] at h

theorem ensureSect234_some {v v' : Validator} {x : VItem} (h : v.ensureSect234 = (.ok (some x), v')) :
    ∃ rest has', v.items = .ok x.sect :: rest ∧
      ((x.sect.num = 2 ∧ has' = v.hasSect3) ∨ (x.sect.num = 3 ∧ has' = true) ∨
        (x.sect.num = 4 ∧ has' = true ∧ v.hasSect3 = true)) ∧
      x = ⟨v.idx, v.messageCount, v.submessageCount, x.sect⟩ ∧
      v' = { v with items := rest, idx := v.idx + 1, pos := v.idx, state := .endOfSect x.sect.num,
                    hasSect3 := has' } := by
  obtain ⟨items, idx, pos, mc, sc, state, has⟩ := v
  match items with
  | [] => simp [Validator.ensureSect234, Validator.unexpectedEnd] at h
  | .panic :: _ => simp [Validator.ensureSect234] at h
  | .err e :: _ => simp [Validator.ensureSect234, Validator.wrapErr] at h
  | .ok s :: rest =>
    simp only [Validator.ensureSect234, Validator.advance, List.tail_cons] at h
    by_cases h2 : s.num = 2
    · simp only [h2, if_true, Validator.yield, Prod.mk.injEq, Outcome.ok.injEq, Option.some.injEq] at h
      obtain ⟨rfl, rfl⟩ := h
      exact ⟨rest, has, rfl, Or.inl ⟨h2, rfl⟩, rfl, by simp [h2]⟩
    · by_cases h3 : s.num = 3
      · simp only [h3, if_true, Validator.yield, Prod.mk.injEq, Outcome.ok.injEq, Option.some.injEq] at h
        obtain ⟨rfl, rfl⟩ := h
        exact ⟨rest, true, rfl, Or.inr (Or.inl ⟨h3, rfl⟩), rfl, by simp [h3]⟩
      · by_cases h4 : s.num = 4
        · cases has with
          | false => simp [h4, Validator.noGrid] at h
          | true =>
            simp only [h4, if_true, Validator.yield, Prod.mk.injEq, Outcome.ok.injEq, Option.some.injEq] at h
            obtain ⟨rfl, rfl⟩ := h
            exact ⟨rest, true, rfl, Or.inr (Or.inr ⟨h4, rfl, rfl⟩), rfl, by simp [h4]⟩
        · simp [h2, h3, h4, Validator.invalidOrder] at h

theorem ensureSect8_some {v v' : Validator} {x : VItem} (h : v.ensureSect8 = (.ok (some x), v')) :
    ∃ s rest, v.items = .ok s :: rest ∧
      ((s.num = 8 ∧ x = ⟨v.idx, v.messageCount, v.submessageCount, s⟩ ∧
          v' = { v with items := rest, idx := v.idx + 1, pos := v.idx, messageCount := v.messageCount + 1,
                        submessageCount := 0, state := .startOfMessage, hasSect3 := false }) ∨
        (s.num ≠ 8 ∧ x = ⟨0, v.messageCount, v.submessageCount, SectionInfo.new8 0⟩ ∧
          v' = { v with submessageCount := v.submessageCount + 1, state := .startOfSubmessage })) := by
  obtain ⟨items, idx, pos, mc, sc, state, has⟩ := v
  match items with
  | [] => simp [Validator.ensureSect8, Validator.unexpectedEnd] at h
  | .panic :: _ => simp [Validator.ensureSect8] at h
  | .err e :: _ => simp [Validator.ensureSect8, Validator.wrapErr] at h
  | .ok s :: rest =>
    simp only [Validator.ensureSect8, Validator.advance, List.tail_cons] at h
    by_cases hn : s.num = 8
    · simp only [hn, if_true, Prod.mk.injEq, Outcome.ok.injEq, Option.some.injEq] at h
      obtain ⟨rfl, rfl⟩ := h
      exact ⟨s, rest, rfl, Or.inl ⟨hn, rfl, rfl⟩⟩
    · simp only [hn, if_false, Prod.mk.injEq, Outcome.ok.injEq, Option.some.injEq] at h
      obtain ⟨rfl, rfl⟩ := h
      exact ⟨s, rest, rfl, Or.inr ⟨hn, rfl, rfl⟩⟩

theorem Validator.next_some {v v' : Validator} {x : VItem} (h : v.next = (.ok (some x), v')) :
    v.RealStep x v' ∨ v.DummyStep x v' := by
  unfold Validator.next at h
  split at h
  · simp at h
  · rename_i hst
    obtain ⟨rest, h1, h2, h3, rfl⟩ := ensureSect0_some h
    left
    refine ⟨h1, by rw [h3], rfl, by omega, by simp [hst], by omega⟩
  · rename_i hst
    obtain ⟨rest, h1, h2, h3, rfl⟩ := ensureSectNum_some h
    left
    refine ⟨h1, by rw [h3], rfl, by omega, by simp [hst], by omega⟩
  iterate 2
    rename_i hst
    obtain ⟨rest, has', h1, h2, h3, rfl⟩ := ensureSect234_some h
    left
    exact ⟨h1, by rw [h3], rfl, by omega, by simp [hst], by omega⟩
  iterate 5
    rename_i hst
    obtain ⟨rest, h1, h2, h3, rfl⟩ := ensureSectNum_some h
    left
    exact ⟨h1, by rw [h3], rfl, by omega, by simp [hst], by omega⟩
  · rename_i hst
    obtain ⟨s, rest, h1, ⟨h2, rfl, rfl⟩ | ⟨h2, rfl, rfl⟩⟩ := ensureSect8_some h
    · left
      exact ⟨h1, rfl, rfl, fun _ => hst, fun _ => h2, by simp only; omega⟩
    · right
      exact ⟨hst, rfl, rfl, rfl, rfl, s, rest, h1, h2⟩
  · simp at h

end Grib.Model

namespace Grib.Model

open Grib.Spec

theorem ensureSectNum_ok_none {v v' : Validator} {n : Nat} : v.ensureSectNum n ≠ (.ok none, v') := by
  obtain ⟨items, idx, pos, mc, sc, state, has⟩ := v
  match items with
  | [] => simp [Validator.ensureSectNum, Validator.unexpectedEnd]
  | .panic :: _ => simp [Validator.ensureSectNum]
  | .err e :: _ => simp [Validator.ensureSectNum, Validator.wrapErr]
  | .ok s :: rest =>
    simp only [Validator.ensureSectNum]
    split <;> simp [Validator.yield, Validator.invalidOrder]

theorem ensureSect234_ok_none {v v' : Validator} : v.ensureSect234 ≠ (.ok none, v') := by
  obtain ⟨items, idx, pos, mc, sc, state, has⟩ := v
  match items with
  | [] => simp [Validator.ensureSect234, Validator.unexpectedEnd]
  | .panic :: _ => simp [Validator.ensureSect234]
  | .err e :: _ => simp [Validator.ensureSect234, Validator.wrapErr]
  | .ok s :: rest =>
    simp only [Validator.ensureSect234]
    split
    · simp [Validator.yield]
    · split
      · simp [Validator.yield]
      · split
        · cases has <;> simp [Validator.advance, Validator.yield, Validator.noGrid]
        · simp [Validator.invalidOrder]

theorem ensureSect8_ok_none {v v' : Validator} : v.ensureSect8 ≠ (.ok none, v') := by
  obtain ⟨items, idx, pos, mc, sc, state, has⟩ := v
  match items with
  | [] => simp [Validator.ensureSect8, Validator.unexpectedEnd]
  | .panic :: _ => simp [Validator.ensureSect8]
  | .err e :: _ => simp [Validator.ensureSect8, Validator.wrapErr]
  | .ok s :: rest =>
    simp only [Validator.ensureSect8]
    split <;> simp

/-- The validator ends regularly only between messages, at the end of the input. -/
theorem Validator.next_none {v v' : Validator} (h : v.next = (.ok none, v')) :
    v' = v ∧ (v.state = .endOfStream ∨ (v.state = .startOfMessage ∧ v.items = [])) := by
  unfold Validator.next at h
  split at h
  · rename_i hst
    simp only [Prod.mk.injEq, true_and] at h
    exact ⟨h.symm, Or.inl hst⟩
  · rename_i hst
    obtain ⟨items, idx, pos, mc, sc, state, has⟩ := v
    match items with
    | [] =>
      simp only [Validator.ensureSect0, Prod.mk.injEq, true_and] at h
      exact ⟨h.symm, Or.inr ⟨hst, rfl⟩⟩
    | .panic :: _ => simp [Validator.ensureSect0] at h
    | .err e :: _ => simp [Validator.ensureSect0, Validator.wrapErr] at h
    | .ok s :: rest =>
      simp only [Validator.ensureSect0] at h
      split at h <;> simp [Validator.yield, Validator.invalidOrder] at h
  all_goals first
    | exact absurd h ensureSectNum_ok_none
    | exact absurd h ensureSect234_ok_none
    | exact absurd h ensureSect8_ok_none
    | simp at h

theorem Validator.state_of_some {v v' : Validator} {x : VItem} (h : v.next = (.ok (some x), v')) :
    v'.state ≠ .endOfStream := by
  unfold Validator.next at h
  split at h
  · simp at h
  · obtain ⟨rest, h1, h2, h3, rfl⟩ := ensureSect0_some h; simp
  · obtain ⟨rest, h1, h2, h3, rfl⟩ := ensureSectNum_some h; simp
  iterate 2 (obtain ⟨rest, has', h1, h2, h3, rfl⟩ := ensureSect234_some h; simp)
  iterate 5 (obtain ⟨rest, h1, h2, h3, rfl⟩ := ensureSectNum_some h; simp)
  · obtain ⟨s, rest, h1, ⟨h2, rfl, rfl⟩ | ⟨h2, rfl, rfl⟩⟩ := ensureSect8_some h <;> simp
  · simp at h

/-- The recorded sections are exactly the consumed part of the input. -/
structure CInv (all : List Item) (cache : List SectionInfo) (v : Validator) : Prop where
  items : v.items = all.drop v.idx
  cache : all.take v.idx = cache.map .ok
  start : v.idx = 0 → v.state = .startOfMessage
  live : v.state ≠ .endOfStream

theorem CInv.real {all : List Item} {cache : List SectionInfo} {v v' : Validator} {x : VItem}
    (hv : CInv all cache v) (h : v.next = (.ok (some x), v')) (hr : v.RealStep x v') :
    CInv all (cache ++ [x.sect]) v' := by
  obtain ⟨h1, h2, h3, _⟩ := hr
  have hd := hv.items
  rw [h1] at hd
  constructor
  · rw [h3, ← List.drop_drop, ← hd]; rfl
  · rw [h3, List.map_append, ← hv.cache, List.take_add, ← hd]; rfl
  · rw [h3]; omega
  · exact Validator.state_of_some h

theorem CInv.dummy {all : List Item} {cache : List SectionInfo} {v v' : Validator} {x : VItem}
    (hv : CInv all cache v) (h : v.next = (.ok (some x), v')) (hr : v.DummyStep x v') :
    CInv all cache v' := by
  obtain ⟨h0, h1, h2, h3, h4, _⟩ := hr
  constructor
  · rw [h3, h4]; exact hv.items
  · rw [h4]; exact hv.cache
  · rw [h4]; intro hz; have := hv.start hz; simp [this] at h0
  · exact Validator.state_of_some h

theorem IdxStream.loop_inv (all : List Item) (fuel : Nat) (st : IdxStream) (s4 s5 s6 s7 : Nat)
    (hv : CInv all st.cache st.iter) :
    (∀ r st', IdxStream.loop fuel st s4 s5 s6 s7 = (.ok r, st') →
      CInv all st'.cache st'.iter ∧ (r = none → st'.iter.state = .startOfMessage ∧ st'.iter.items = [])) ∧
    (∃ k, all.take k = (IdxStream.loop fuel st s4 s5 s6 s7).2.cache.map .ok) := by
  induction fuel generalizing st s4 s5 s6 s7 with
  | zero => exact ⟨by simp [IdxStream.loop], st.iter.idx, by simp [IdxStream.loop, hv.cache]⟩
  | succ fuel ih =>
    rw [IdxStream.loop]
    rcases hx : st.iter.next with ⟨o, v⟩
    rcases o with o | e | _
    · cases o with
      | none =>
        obtain ⟨rfl, h2⟩ := Validator.next_none hx
        simp only [Prod.mk.injEq, Outcome.ok.injEq]
        refine ⟨?_, st.iter.idx, hv.cache⟩
        rintro r st' ⟨rfl, rfl⟩
        exact ⟨hv, fun _ => h2.resolve_left hv.live⟩
      | some x =>
        rcases Validator.next_some hx with hr | hd
        · have hv' := hv.real hx hr
          have h8 := hr.2.2.2.1
          have hpos := hr.2.1
          have hstart := hv.start
          obtain ⟨pos, msg, sub, ⟨num, off, size, body⟩⟩ := x
          match num with
          | 0 => exact ih _ s4 s5 s6 s7 hv'
          | 1 => exact ih _ s4 s5 s6 s7 hv'
          | 2 => exact ih _ s4 s5 s6 s7 hv'
          | 3 => exact ih _ s4 s5 s6 s7 hv'
          | 4 => exact ih _ _ s5 s6 s7 hv'
          | 5 => exact ih _ s4 _ s6 s7 hv'
          | 6 => exact ih _ s4 s5 _ s7 hv'
          | 7 => exact ih _ s4 s5 s6 _ hv'
          | 8 =>
            have hp : pos ≠ 0 := by
              intro hz
              simp only at hpos h8
              rw [hz] at hpos
              have := hstart hpos.symm
              simp [h8] at this
            simp only [ne_eq, hp, not_false_eq_true, if_true, Prod.mk.injEq, Outcome.ok.injEq]
            refine ⟨?_, v.idx, hv'.cache⟩
            rintro r st' ⟨rfl, rfl⟩
            exact ⟨hv', by simp⟩
          | n + 9 => have := hr.2.2.2.2.2; simp at this
        · have hv' := hv.dummy hx hd
          obtain ⟨h0, h1, h2, h3, h4, _⟩ := hd
          obtain ⟨pos, msg, sub, sect⟩ := x
          simp only at h1 h2
          subst h1 h2
          simp only [SectionInfo.new8]
          refine ⟨?_, v.idx, hv'.cache⟩
          intro r st' hst'
          simp only [ne_eq, not_true_eq_false, if_false, Prod.mk.injEq, Outcome.ok.injEq] at hst'
          obtain ⟨rfl, rfl⟩ := hst'
          exact ⟨hv', by simp⟩
    · exact ⟨by simp, st.iter.idx, hv.cache⟩
    · exact ⟨by simp, st.iter.idx, hv.cache⟩

end Grib.Model
