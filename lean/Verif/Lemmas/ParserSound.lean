import Verif.Lemmas.ParserRun

/-! # Soundness: whatever is read without error is a sequence of well-ordered messages -/

namespace Grib.Model

open Grib.Spec

theorem next_endOfSect {v : Validator} {n : Nat} (h : v.state = .endOfSect n) (h3 : 3 ≤ n) (h7 : n ≤ 6) :
    v.next = v.ensureSectNum (n + 1) := by
  obtain ⟨items, idx, pos, mc, sc, state, has⟩ := v
  simp only at h
  subst h
  match n with
  | 3 | 4 | 5 | 6 => rfl
  | 0 | 1 | 2 => omega
  | n + 7 => omega

theorem next_endOfSect2 {v : Validator} (h : v.state = .endOfSect 2) :
    v.next = { v with hasSect3 := true }.ensureSectNum 3 := by
  obtain ⟨items, idx, pos, mc, sc, state, has⟩ := v
  simp only at h
  subst h
  rfl

theorem next_endOfSect7 {v : Validator} (h : v.state = .endOfSect 7) : v.next = v.ensureSect8 := by
  obtain ⟨items, idx, pos, mc, sc, state, has⟩ := v
  simp only at h
  subst h
  rfl

theorem next_start {v : Validator} (h : v.state = .startOfSubmessage ∨ v.state = .endOfSect 1) :
    v.next = v.ensureSect234 := by
  obtain ⟨items, idx, pos, mc, sc, state, has⟩ := v
  simp only at h
  rcases h with rfl | rfl <;> rfl

theorem loop_ok_inv {fuel : Nat} {st st' : PStream} {s4 s5 s6 s7 : P} {r : Option (Submsg P)}
    (h : PStream.loop fuel st s4 s5 s6 s7 = (.ok r, st')) :
    ∃ f, fuel = f + 1 ∧ ((∃ v, st.iter.next = (.ok none, v) ∧ r = none) ∨ ∃ x v', st.iter.next = (.ok (some x), v') ∧
      (x.sect.num ≠ 8 → ∃ st2 t4 t5 t6 t7, st2.iter = v' ∧ PStream.loop f st2 t4 t5 t6 t7 = (.ok r, st'))) := by
  cases fuel with
  | zero => simp [PStream.loop] at h
  | succ f =>
    refine ⟨f, rfl, ?_⟩
    rw [PStream.loop] at h
    rcases hx : st.iter.next with ⟨o, v⟩
    rw [hx] at h
    rcases o with o | e | _
    · cases o with
      | none =>
        simp only [Prod.mk.injEq, Outcome.ok.injEq] at h
        exact Or.inl ⟨v, rfl, h.1.symm⟩
      | some x =>
        refine Or.inr ⟨x, v, rfl, fun h8 => ?_⟩
        obtain ⟨pos, msg, sub, ⟨num, off, size, body⟩⟩ := x
        simp only at h h8
        match num, h, h8 with
        | 0, h, _ => exact ⟨_, _, _, _, _, rfl, h⟩
        | 1, h, _ => exact ⟨_, _, _, _, _, rfl, h⟩
        | 2, h, _ => exact ⟨_, _, _, _, _, rfl, h⟩
        | 3, h, _ => exact ⟨_, _, _, _, _, rfl, h⟩
        | 4, h, _ => exact ⟨_, _, _, _, _, rfl, h⟩
        | 5, h, _ => exact ⟨_, _, _, _, _, rfl, h⟩
        | 6, h, _ => exact ⟨_, _, _, _, _, rfl, h⟩
        | 7, h, _ => exact ⟨_, _, _, _, _, rfl, h⟩
        | 8, h, h8 => exact absurd rfl h8
        | n + 9, h, _ => simp at h
    · simp at h
    · simp at h

/-- One step through a state that wants section `n` (not 8). -/
theorem loop_num_inv {fuel n : Nat} {st st' : PStream} {s4 s5 s6 s7 : P} {r : Option (Submsg P)} {v0 : Validator}
    (h : PStream.loop fuel st s4 s5 s6 s7 = (.ok r, st')) (hv : st.iter.next = v0.ensureSectNum n) (hn : n ≠ 8) :
    ∃ f a rest st2 t4 t5 t6 t7, fuel = f + 1 ∧ v0.items = .ok a :: rest ∧ a.num = n ∧
      st2.iter = { v0 with items := rest, idx := v0.idx + 1, pos := v0.idx, state := .endOfSect n } ∧
      PStream.loop f st2 t4 t5 t6 t7 = (.ok r, st') := by
  obtain ⟨f, rfl, ⟨v, hv', -⟩ | ⟨x, v', hx, h2⟩⟩ := loop_ok_inv h
  · rw [hv] at hv'; exact absurd hv' ensureSectNum_ok_none
  · rw [hv] at hx
    obtain ⟨rest, h1, h3, h4, rfl⟩ := ensureSectNum_some hx
    obtain ⟨st2, t4, t5, t6, t7, e, h5⟩ := h2 (by omega)
    exact ⟨f, x.sect, rest, st2, t4, t5, t6, t7, rfl, h1, h3, e, h5⟩

/-- After the grid section: 4 5 6 7 and one more section. -/
theorem body_inv4 {fuel : Nat} {st st' : PStream} {s4 s5 s6 s7 : P} {r : Option (Submsg P)}
    (h : PStream.loop fuel st s4 s5 s6 s7 = (.ok r, st')) (hv : st.iter.state = .endOfSect 4) :
    ∃ a5 a6 a7 a tail, st.iter.items = .ok a5 :: .ok a6 :: .ok a7 :: .ok a :: tail ∧
      a5.num = 5 ∧ a6.num = 6 ∧ a7.num = 7 := by
  obtain ⟨f, a5, rest, st2, t4, t5, t6, t7, rfl, h1, h2, h3, h⟩ :=
    loop_num_inv (v0 := st.iter) (n := 5) h (next_endOfSect hv (by omega) (by omega)) (by omega)
  obtain ⟨f, a6, rest, st3, t4, t5, t6, t7, rfl, h4, h5, h6, h⟩ :=
    loop_num_inv (v0 := st2.iter) (n := 6) h (next_endOfSect (by rw [h3]) (by omega) (by omega)) (by omega)
  obtain ⟨f, a7, rest, st4, t4, t5, t6, t7, rfl, h7, h8, h9, h⟩ :=
    loop_num_inv (v0 := st3.iter) (n := 7) h (next_endOfSect (by rw [h6]) (by omega) (by omega)) (by omega)
  rw [h3] at h4
  simp only at h4
  rw [h6] at h7
  simp only at h7
  subst h4 h7
  obtain ⟨f, rfl, ⟨v, hv', -⟩ | ⟨x, v', hx, -⟩⟩ := loop_ok_inv h
  · rw [next_endOfSect7 (by rw [h9])] at hv'; exact absurd hv' ensureSect8_ok_none
  · rw [next_endOfSect7 (by rw [h9])] at hx
    obtain ⟨s, rest', h10, -⟩ := ensureSect8_some hx
    rw [h9] at h10
    simp only at h10
    subst h10
    exact ⟨a5, a6, a7, s, rest', h1, h2, h5, h8⟩

theorem body_inv3 {fuel : Nat} {st st' : PStream} {s4 s5 s6 s7 : P} {r : Option (Submsg P)}
    (h : PStream.loop fuel st s4 s5 s6 s7 = (.ok r, st')) (hv : st.iter.state = .endOfSect 3) :
    ∃ a4 a5 a6 a7 a tail, st.iter.items = .ok a4 :: .ok a5 :: .ok a6 :: .ok a7 :: .ok a :: tail ∧
      a4.num = 4 ∧ a5.num = 5 ∧ a6.num = 6 ∧ a7.num = 7 := by
  obtain ⟨f, a4, rest, st2, t4, t5, t6, t7, rfl, h1, h2, h3, h⟩ :=
    loop_num_inv (v0 := st.iter) (n := 4) h (next_endOfSect hv (by omega) (by omega)) (by omega)
  obtain ⟨a5, a6, a7, a, tail, h4, h5, h6, h7⟩ := body_inv4 h (by rw [h3])
  rw [h3] at h4
  simp only at h4
  subst h4
  exact ⟨a4, a5, a6, a7, a, tail, h1, h2, h5, h6, h7⟩

theorem group_inv {fuel : Nat} {st st' : PStream} {s4 s5 s6 s7 : P} {r : Option (Submsg P)}
    (h : PStream.loop fuel st s4 s5 s6 s7 = (.ok r, st'))
    (hv : st.iter.state = .startOfSubmessage ∨ st.iter.state = .endOfSect 1) :
    ∃ g : Group P, ∃ a tail, GOk g ∧ Numbered st.iter.idx g.sections ∧ (g.grid.isSome ∨ st.iter.hasSect3 = true) ∧
      st.iter.items = itemsOf g.sections ++ .ok a :: tail := by
  have hne : st.iter.next = st.iter.ensureSect234 := next_start hv
  obtain ⟨f, rfl, ⟨v, hv', -⟩ | ⟨x, v', hx, h2⟩⟩ := loop_ok_inv h
  · rw [hne] at hv'; exact absurd hv' ensureSect234_ok_none
  · rw [hne] at hx
    obtain ⟨rest, has', h1, h3, h4, rfl⟩ := ensureSect234_some hx
    obtain ⟨st2, t4, t5, t6, t7, e, h5⟩ := h2 (by omega)
    rcases h3 with ⟨h3, rfl⟩ | ⟨h3, rfl⟩ | ⟨h3, rfl, h3'⟩
    · obtain ⟨f, a3, rest', st3, t4, t5, t6, t7, rfl, h6, h7, h8, h9⟩ :=
        loop_num_inv (v0 := { st2.iter with hasSect3 := true }) (n := 3) h5
          (next_endOfSect2 (by rw [e]; simp only [h3])) (by omega)
      obtain ⟨a4, a5, a6, a7, a, tail, h10, n4, n5, n6, n7⟩ := body_inv3 h9 (by rw [h8])
      rw [h8] at h10
      simp only at h10
      subst h10
      rw [e] at h6
      simp only at h6
      subst h6
      refine ⟨⟨some (st.iter.idx, x.sect), some (st.iter.idx + 1, a3), (st.iter.idx + 2, a4), (st.iter.idx + 3, a5),
        (st.iter.idx + 4, a6), (st.iter.idx + 5, a7)⟩, a, tail, ?_, ?_, Or.inl rfl, h1⟩
      · constructor <;> simp [Group.map, h3, h7, n4, n5, n6, n7]
      · simp [Group.sections, Numbered]
    · obtain ⟨a4, a5, a6, a7, a, tail, h10, n4, n5, n6, n7⟩ := body_inv3 h5 (by rw [e]; simp only [h3])
      rw [e] at h10
      simp only at h10
      subst h10
      refine ⟨⟨none, some (st.iter.idx, x.sect), (st.iter.idx + 1, a4), (st.iter.idx + 2, a5),
        (st.iter.idx + 3, a6), (st.iter.idx + 4, a7)⟩, a, tail, ?_, ?_, Or.inl rfl, h1⟩
      · constructor <;> simp [Group.map, h3, n4, n5, n6, n7]
      · simp [Group.sections, Numbered]
    · obtain ⟨a5, a6, a7, a, tail, h10, n5, n6, n7⟩ := body_inv4 h5 (by rw [e]; simp only [h3])
      rw [e] at h10
      simp only at h10
      subst h10
      refine ⟨⟨none, none, (st.iter.idx, x.sect), (st.iter.idx + 1, a5),
        (st.iter.idx + 2, a6), (st.iter.idx + 3, a7)⟩, a, tail, ?_, ?_, Or.inr h3', h1⟩
      · constructor <;> simp [Group.map, h3, n5, n6, n7]
      · simp [Group.sections, Numbered]

/-- No error and no panic among the items. -/
def Clean {α : Type} (xs : List (Outcome ParseError α)) : Prop := ∀ x ∈ xs, ∃ a, x = .ok a

theorem collect_ok_inv {fuel : Nat} {st : PStream} (h : Clean (PStream.collectN fuel st).1) :
    ∃ f r st', fuel = f + 1 ∧ st.next = (.ok r, st') ∧
      (r.isSome → Clean (PStream.collectN f st').1) := by
  cases fuel with
  | zero => obtain ⟨a, ha⟩ := h .panic (by simp [PStream.collectN]); simp at ha
  | succ f =>
    rw [PStream.collectN] at h
    rcases hx : st.next with ⟨o, st'⟩
    rw [hx] at h
    rcases o with o | e | _
    · refine ⟨f, o, st', rfl, rfl, fun ho => ?_⟩
      cases o with
      | none => simp at ho
      | some x => exact fun y hy => h y (by simp [hy])
    · obtain ⟨a, ha⟩ := h (.err e) (by simp); simp at ha
    · obtain ⟨a, ha⟩ := h .panic (by simp); simp at ha

/-- The groups of a message up to its end section. -/
theorem groups_inv (n : Nat) : ∀ {fuel : Nat} {st : PStream}, st.iter.items.length ≤ n →
    Clean (PStream.collectN fuel st).1 →
    (st.iter.state = .startOfSubmessage ∨ (st.iter.state = .endOfSect 1 ∧ st.iter.hasSect3 = false)) →
    ∃ g : Group P, ∃ gs : List (Group P), ∃ fin : P, ∃ tail f pos',
      (∀ x ∈ g :: gs, GOk x) ∧ Numbered st.iter.idx ((g :: gs).flatMap Group.sections ++ [fin]) ∧
      (g.grid.isSome ∨ st.iter.hasSect3 = true) ∧
      fin.2.num = 8 ∧ st.iter.items = itemsOf ((g :: gs).flatMap Group.sections ++ [fin]) ++ tail ∧
      Clean (PStream.collectN f { iter := ⟨tail,
        st.iter.idx + ((g :: gs).flatMap Group.sections ++ [fin]).length, pos',
        st.iter.messageCount + 1, 0, .startOfMessage, false⟩ }).1 := by
  induction n with
  | zero =>
    intro fuel st hl hc hs
    obtain ⟨f, r, st', rfl, hx, -⟩ := collect_ok_inv hc
    obtain ⟨g, a, tail, -, -, -, h4⟩ := group_inv hx (hs.imp id And.left)
    rw [h4] at hl
    simp at hl
  | succ n ih =>
    intro fuel st hl hc hs
    obtain ⟨f, r, st', rfl, hx, hc'⟩ := collect_ok_inv hc
    obtain ⟨g, a, tail, h1, h2, h3, h4⟩ := group_inv hx (hs.imp id And.left)
    obtain ⟨⟨items, i, pos, mc, sc, state, has⟩, c0, c1, c2, c3⟩ := st
    simp only at h2 h3 h4 hs hl ⊢
    subst h4
    have hg1 : state = .startOfSubmessage ∨ (state = .endOfSect 1 ∧ g.grid.isSome) := by
      rcases hs with hs | ⟨hs, rfl⟩
      · exact Or.inl hs
      · exact Or.inr ⟨hs, by simpa using h3⟩
    · by_cases h8 : a.num = 8
      · have hn := next_group_last (pos := pos) (mc := mc) (sc := sc) (has := has)
          (st := ⟨Validator.new [], c0, c1, c2, c3⟩) (tail := tail) (fin := (i + g.sections.length, a)) h1
          (by rw [Numbered.append]; exact ⟨h2, by simp [Numbered]⟩) hg1 h3 h8
        rw [itemsOf_append, List.append_assoc] at hn
        have hn' := hn.symm.trans hx
        simp only [Prod.mk.injEq, Outcome.ok.injEq] at hn'
        obtain ⟨rfl, rfl⟩ := hn'
        refine ⟨g, [], (i + g.sections.length, a), tail, f, i + g.sections.length, by simpa using h1, ?_, h3, h8,
          by simp [itemsOf], ?_⟩
        · simp [Numbered.append, h2, Numbered]
        · simpa [Nat.add_assoc] using hc' rfl
      · obtain ⟨pos', hn⟩ := next_group_more (pos := pos) (mc := mc) (sc := sc) (has := has)
          (st := ⟨Validator.new [], c0, c1, c2, c3⟩) (tail := tail) (a := a) h1 h2 hg1 h3 h8
        have hn' := hn.symm.trans hx
        simp only [Prod.mk.injEq, Outcome.ok.injEq] at hn'
        obtain ⟨rfl, rfl⟩ := hn'
        have hl' : (Outcome.ok a :: tail : List Item).length ≤ n := by
          have := @GOk.length_pos g
          simp [itemsOf] at hl ⊢; omega
        obtain ⟨g', gs, fin, tail', f', pos'', e1, e2, e3, e4, e5, e6⟩ := ih hl' (hc' rfl) (Or.inl rfl)
        simp only at e2 e3 e5 e6
        refine ⟨g, g' :: gs, fin, tail', f', pos'', ?_, ?_, h3, e4, ?_, ?_⟩
        · intro x hx'
          rcases List.mem_cons.1 hx' with rfl | hx'
          · exact h1
          · exact e1 x hx'
        · rw [List.flatMap_cons, List.append_assoc, Numbered.append]; exact ⟨h2, e2⟩
        · rw [e5]; simp [List.flatMap_cons]
        · have : i + ((g :: g' :: gs).flatMap Group.sections ++ [fin]).length =
            i + g.sections.length + ((g' :: gs).flatMap Group.sections ++ [fin]).length := by
            simp [List.flatMap_cons]; omega
          rw [this]; exact e6

theorem loop_start_inv {fuel : Nat} {st st' : PStream} {s4 s5 s6 s7 : P} {r : Option (Submsg P)}
    (h : PStream.loop fuel st s4 s5 s6 s7 = (.ok r, st')) (hv : st.iter.state = .startOfMessage) :
    st.iter.items = [] ∨ ∃ a0 a1 tail, st.iter.items = .ok a0 :: .ok a1 :: tail ∧ a0.num = 0 ∧ a1.num = 1 := by
  have hne : st.iter.next = st.iter.ensureSect0 := by
    obtain ⟨⟨items, idx, pos, mc, sc, state, has⟩, _⟩ := st
    simp only at hv
    subst hv
    rfl
  obtain ⟨f, rfl, ⟨v, hv', -⟩ | ⟨x, v', hx, h2⟩⟩ := loop_ok_inv h
  · have := (Validator.next_none hv').2
    simp only [hv, reduceCtorEq, false_or, true_and] at this
    exact Or.inl this
  · rw [hne] at hx
    obtain ⟨rest, h1, h3, h4, rfl⟩ := ensureSect0_some hx
    obtain ⟨st2, t4, t5, t6, t7, e, h5⟩ := h2 (by omega)
    obtain ⟨f, a1, rest', st3, t4, t5, t6, t7, rfl, h6, h7, h8, h9⟩ :=
        loop_num_inv (v0 := st2.iter) (n := 1) h5 (by rw [e]; rfl) (by omega)
    rw [e] at h6
    simp only at h6
    subst h6
    exact Or.inr ⟨x.sect, a1, rest', h1, h3, h7⟩

/-- Reading without error means the input is a sequence of well-ordered messages. -/
theorem messages_inv (n : Nat) : ∀ {fuel i pos mc : Nat} {items : List Item}, items.length ≤ n →
    Clean (PStream.collectN fuel { iter := ⟨items, i, pos, mc, 0, .startOfMessage, false⟩ }).1 →
    ∃ ms : List (Message P), (∀ m ∈ ms, MOk m) ∧ Numbered i (ms.flatMap Message.sections) ∧
      items = itemsOf (ms.flatMap Message.sections) := by
  induction n with
  | zero =>
    intro fuel i pos mc items hl _
    have : items = [] := List.length_eq_zero_iff.1 (by omega)
    subst this
    exact ⟨[], by simp, by simp [Numbered], rfl⟩
  | succ n ih =>
    intro fuel i pos mc items hl hc
    obtain ⟨f, r, st', rfl, hx, -⟩ := collect_ok_inv hc
    rcases loop_start_inv hx rfl with h | ⟨a0, a1, tail, h, h0, h1⟩
    · simp only at h
      subst h
      exact ⟨[], by simp, by simp [Numbered], rfl⟩
    · simp only at h
      subst h
      rw [collectN_head (a0 := (i, a0)) (a1 := (i + 1, a1)) h0 h1 rfl rfl] at hc
      obtain ⟨g, gs, fin, tail', f', pos', e1, e2, e3, e4, e5, e6⟩ :=
        groups_inv _ (Nat.le_refl _) hc (Or.inr ⟨rfl, rfl⟩)
      simp only [Bool.false_eq_true, or_false] at e2 e3 e5 e6
      have hlt : tail'.length ≤ n := by
        have := congrArg List.length e5
        simp [itemsOf] at this hl; omega
      obtain ⟨ms, f1, f2, f3⟩ := ih hlt e6
      refine ⟨⟨(i, a0), (i + 1, a1), g, gs, fin⟩ :: ms, ?_, ?_, ?_⟩
      · intro m hm
        rcases List.mem_cons.1 hm with rfl | hm
        · refine ⟨h0, h1, ?_, by simpa [Message.map, Group.map] using e3, e4⟩
          intro x hx'
          simp only [Message.groups, Message.map, List.mem_cons, List.mem_map] at hx'
          rcases hx' with rfl | ⟨y, hy, rfl⟩
          · exact e1 _ (by simp)
          · exact e1 _ (by simp [hy])
        · exact f1 m hm
      · rw [List.flatMap_cons, Numbered.append]
        simp only [Message.sections, Message.groups, Numbered]
        refine ⟨⟨trivial, trivial, e2⟩, ?_⟩
        have : i + (((i, a0) :: (i + 1, a1) :: ((g :: gs).flatMap Group.sections ++ [fin]) : List P)).length =
            i + 2 + ((g :: gs).flatMap Group.sections ++ [fin]).length := by
          simp only [List.length_cons]; omega
        rw [this]; exact f2
      · rw [e5, f3]
        simp [Message.sections, Message.groups, itemsOf, List.flatMap_cons]

end Grib.Model
