import Verif.Props.Listing
import Verif.Spec.Session

/-! # C72: every way of using iterators over submessages

A program that has opened data can make iterators, copy them, and call `next`, `nth` and `size_hint` on any of them, in any
order, while it keeps or drops the submessage it was last given.  This file says what every one of these calls gives. -/

namespace Grib.Props

open Grib.Model

open Grib.Spec

/-- All submessages, as a loop gives them. -/
def _root_.Grib.Model.Grib2.all (g : Grib2) : List ((Nat × Nat) × SubMessage) := SubIter.drain (g.len + 1) g.iter

theorem all_eq {r : Rdr} {g : Grib2} (h : Grib2.read r = .ok g) :
    g.all = g.submessages.map fun x => ((x.msg, x.sub), x.sects.map g.sect) := by
  rw [Grib2.all, Grib2.iter, opened_drain h 0 (g.len + 1) (by simp [Grib2.len]), List.drop_zero]

theorem next_any {r : Rdr} {g : Grib2} (h : Grib2.read r = .ok g) (live : Bool) (pos : Nat) :
    SubIter.next live ⟨g, pos⟩ =
      if pos < g.all.length then (if live then .panic else .ok g.all[pos]?, ⟨g, pos + 1⟩) else (.ok none, ⟨g, pos⟩) := by
  rw [all_eq h, List.length_map]
  cases live with
  | false =>
    rw [opened_next h]
    by_cases hp : pos < g.submessages.length
    · rw [if_pos hp, List.getElem?_eq_getElem hp, List.getElem?_map, List.getElem?_eq_getElem hp]; rfl
    · rw [if_neg hp, List.getElem?_eq_none (by omega)]
  | true =>
    unfold SubIter.next
    by_cases hp : pos < g.submessages.length
    · rw [if_pos hp]
      have hx : g.submessages[pos]? = some g.submessages[pos] := List.getElem?_eq_getElem hp
      simp only [hx]
      rw [Grib2.newSubmessage_eq (opened_kinds h (List.mem_of_getElem? hx)).1]
      rfl
    · rw [if_neg hp]
      simp only [List.getElem?_eq_none (Nat.le_of_not_lt hp)]

theorem sizeHint_any {r : Rdr} {g : Grib2} (h : Grib2.read r = .ok g) (pos : Nat) :
    SubIter.sizeHint ⟨g, pos⟩ = if pos ≤ g.all.length then .ok (g.all.length - pos) else .panic := by
  rw [all_eq h, List.length_map]
  unfold SubIter.sizeHint
  dsimp only
  by_cases hp : pos ≤ g.submessages.length
  · rw [if_pos hp, if_neg (by omega)]
  · rw [if_neg hp, if_pos (by omega)]

/-- The state of the program that the cursors stand for. -/
def _root_.Grib.Model.Session.of (g : Grib2) (c : Cursors) : Session := ⟨g, c.cursors.map (SubIter.mk g), c.kept⟩

theorem called_next {r : Rdr} {g : Grib2} (h : Grib2.read r = .ok g) (c : Cursors) (i pos : Nat) :
    (Session.of g c).called i (SubIter.next c.kept ⟨g, pos⟩) =
      if pos < g.all.length then
        (if c.kept then .panic else .item g.all[pos]?, Session.of g ⟨c.cursors.set i (pos + 1), true⟩)
      else (.item none, Session.of g { c with cursors := c.cursors.set i pos }) := by
  rw [next_any h]
  obtain ⟨cs, kept⟩ := c
  by_cases hp : pos < g.all.length
  · rw [if_pos hp, if_pos hp]
    cases kept with
    | true => simp [Session.called, Session.of, List.map_set]
    | false =>
      rw [List.getElem?_eq_getElem hp]
      simp [Session.called, Session.of, List.map_set]
  · rw [if_neg hp, if_neg hp]
    simp [Session.called, Session.of, List.map_set]

theorem step_eq {r : Rdr} {g : Grib2} (h : Grib2.read r = .ok g) (c : Cursors) (op : IterOp) :
    (Session.of g c).step op = ((c.step g.all op).1, Session.of g (c.step g.all op).2) := by
  have hget : ∀ i : Nat, (Session.of g c).iters[i]? = c.cursors[i]?.map (SubIter.mk g) := by
    intro i; simp [Session.of]
  cases op with
  | iter => simp [Session.step, Cursors.step, Session.of, Grib2.iter]
  | drop => rfl
  | copy i =>
    simp only [Session.step, Cursors.step, hget]
    cases hc : c.cursors[i]? with
    | none => rfl
    | some k => simp [Session.of]
  | next i =>
    simp only [Session.step, Cursors.step, hget]
    cases hc : c.cursors[i]? with
    | none => rfl
    | some k =>
      simp only [Option.map_some]
      have e : (Session.of g c).kept = c.kept := rfl
      rw [e, called_next h]
      by_cases hp : k < g.all.length
      · rw [if_pos hp, if_pos hp]
      · rw [if_neg hp, if_neg hp]
        obtain ⟨hl, he⟩ := List.getElem?_eq_some_iff.1 hc
        have : c.cursors.set i k = c.cursors := by rw [← he]; exact List.set_getElem_self hl
        rw [this]
  | nth i n =>
    simp only [Session.step, Cursors.step, hget]
    cases hc : c.cursors[i]? with
    | none => rfl
    | some k =>
      simp only [Option.map_some, SubIter.nth]
      have e : (Session.of g c).kept = c.kept := rfl
      rw [e, called_next h]
      by_cases hp : n < g.all.length
      · rw [if_pos hp, if_pos hp]
      · rw [if_neg hp, if_neg hp]
  | sizeHint i =>
    simp only [Session.step, Cursors.step, hget]
    cases hc : c.cursors[i]? with
    | none => rfl
    | some k =>
      simp only [Option.map_some]
      rw [sizeHint_any h]
      by_cases hp : k ≤ g.all.length
      · rw [if_pos hp, if_pos hp]
      · rw [if_neg hp, if_neg hp]

theorem run_eq {r : Rdr} {g : Grib2} (h : Grib2.read r = .ok g) (ops : List IterOp) (c : Cursors) :
    (Session.of g c).run ops = ((c.run g.all ops).1, Session.of g (c.run g.all ops).2) := by
  induction ops generalizing c with
  | nil => rfl
  | cons op ops ih => simp only [Session.run, Cursors.run, step_eq h, ih]

/-- C72: whatever a program does with its iterators, it observes what the cursors into the list of all submessages say:
`next` gives the submessage at the iterator's cursor and moves it on, `nth(n)` the one at position `n` of the whole list,
`size_hint` what is left behind the cursor, copies go on from where the original was, iterators do not disturb each other;
a panic happens exactly when a submessage is asked for while another one is kept, and when `size_hint` is asked after `nth`
beyond the end. -/
theorem C72_session (r : Rdr) (g : Grib2) (h : Grib2.read r = .ok g) (ops : List IterOp) :
    (g.session.run ops).1 = ((Cursors.mk [] false).run g.all ops).1 := by
  have := run_eq h ops ⟨[], false⟩
  rw [show Session.of g ⟨[], false⟩ = g.session from rfl] at this
  rw [this]

/-! ## The same in terms of the history of one iterator -/

/-- How often `next` is called in a history without `nth`. -/
def nexts (i : Nat) (ops : List IterOp) : Nat := ops.countP fun op => decide (op = .next i)

theorem session_append (s : Session) (a b : List IterOp) :
    s.run (a ++ b) = ((s.run a).1 ++ ((s.run a).2.run b).1, ((s.run a).2.run b).2) := by
  induction a generalizing s with
  | nil => rfl
  | cons op a ih => simp only [List.cons_append, Session.run, ih, List.cons_append]

theorem specRun_append (all : List ((Nat × Nat) × SubMessage)) (s : Cursors) (a b : List IterOp) :
    s.run all (a ++ b) = ((s.run all a).1 ++ ((s.run all a).2.run all b).1, ((s.run all a).2.run all b).2) := by
  induction a generalizing s with
  | nil => rfl
  | cons op a ih => simp only [List.cons_append, Cursors.run, ih, List.cons_append]

theorem step_cursor_other {all : List ((Nat × Nat) × SubMessage)} {s : Cursors} {i k : Nat} (hs : s.cursors[i]? = some k)
    (op : IterOp) (h1 : op ≠ .next i) (h2 : ∀ n, op ≠ .nth i n) : (s.step all op).2.cursors[i]? = some k := by
  have hl := (List.getElem?_eq_some_iff.1 hs).1
  cases op with
  | iter => simp only [Cursors.step]; rw [List.getElem?_append_left hl]; exact hs
  | drop => exact hs
  | copy j =>
    simp only [Cursors.step]
    split
    · exact hs
    · rw [List.getElem?_append_left hl]; exact hs
  | next j =>
    have hij : j ≠ i := fun e => h1 (by rw [e])
    simp only [Cursors.step]
    split
    · exact hs
    · split
      · rw [List.getElem?_set_ne hij]; exact hs
      · exact hs
  | nth j n =>
    have hij : j ≠ i := fun e => h2 n (by rw [e])
    simp only [Cursors.step]
    split
    · exact hs
    · split
      · rw [List.getElem?_set_ne hij]; exact hs
      · rw [List.getElem?_set_ne hij]; exact hs
  | sizeHint j =>
    simp only [Cursors.step]
    split <;> exact hs

/-- The cursor after a history without `nth`. -/
theorem run_cursor (all : List ((Nat × Nat) × SubMessage)) (i : Nat) (ops : List IterOp)
    (hn : ∀ n, IterOp.nth i n ∉ ops) (s : Cursors) (k : Nat) (hs : s.cursors[i]? = some k) :
    (s.run all ops).2.cursors[i]? = some (if k < all.length then min (k + nexts i ops) all.length else k) := by
  induction ops generalizing s k with
  | nil =>
    simp only [Cursors.run, nexts, List.countP_nil, Nat.add_zero, hs]
    split
    · rw [Nat.min_eq_left (by omega)]
    · rfl
  | cons op ops ih =>
    simp only [Cursors.run]
    have hn' : ∀ n, IterOp.nth i n ∉ ops := fun n hm => hn n (List.mem_cons_of_mem _ hm)
    by_cases ho : op = .next i
    · subst ho
      have hlen := (List.getElem?_eq_some_iff.1 hs).1
      have hc : nexts i (IterOp.next i :: ops) = nexts i ops + 1 := by simp [nexts]
      by_cases hk : k < all.length
      · have hstep : (s.step all (.next i)).2.cursors[i]? = some (k + 1) := by
          simp only [Cursors.step, hs]
          rw [if_pos hk]
          simp only [List.getElem?_set_self hlen]
        rw [ih hn' _ _ hstep, hc, if_pos hk]
        congr 1
        split <;> omega
      · have hstep : (s.step all (.next i)).2.cursors[i]? = some k := by
          simp only [Cursors.step, hs]
          rw [if_neg hk]
          exact hs
        rw [ih hn' _ _ hstep, if_neg hk, if_neg hk]
    · have hc : nexts i (op :: ops) = nexts i ops := by simp [nexts, ho]
      rw [ih hn' _ k (step_cursor_other hs op ho fun n e => hn n (e ▸ List.mem_cons_self)), hc]

/-- What the last operation of a history gives. -/
def _root_.Grib.Model.Session.last (g : Grib2) (ops : List IterOp) (op : IterOp) : IterRes := ((g.session.run ops).2.step op).1

/-- Whether a submessage is kept at the end of a history. -/
def _root_.Grib.Model.Session.keeps (g : Grib2) (ops : List IterOp) : Bool := (g.session.run ops).2.kept

theorem last_eq {r : Rdr} {g : Grib2} (h : Grib2.read r = .ok g) (ops : List IterOp) (op : IterOp) :
    Session.last g ops op = (((Cursors.mk [] false).run g.all ops).2.step g.all op).1 := by
  have := run_eq h ops ⟨[], false⟩
  rw [show Session.of g ⟨[], false⟩ = g.session from rfl] at this
  rw [Session.last, this, step_eq h]

theorem keeps_eq {r : Rdr} {g : Grib2} (h : Grib2.read r = .ok g) (ops : List IterOp) :
    Session.keeps g ops = ((Cursors.mk [] false).run g.all ops).2.kept := by
  have := run_eq h ops ⟨[], false⟩
  rw [show Session.of g ⟨[], false⟩ = g.session from rfl] at this
  rw [Session.keeps, this]; rfl

/-- The number of iterators made by a history. -/
def _root_.Grib.Model.Session.made (g : Grib2) (ops : List IterOp) : Nat := (g.session.run ops).2.iters.length

theorem made_eq {r : Rdr} {g : Grib2} (h : Grib2.read r = .ok g) (ops : List IterOp) :
    Session.made g ops = ((Cursors.mk [] false).run g.all ops).2.cursors.length := by
  have := run_eq h ops ⟨[], false⟩
  rw [show Session.of g ⟨[], false⟩ = g.session from rfl] at this
  rw [Session.made, this]; simp [Session.of]

/-- What `next` and `size_hint` give for an iterator whose cursor is `c`: `total` submessages, one kept or not. -/
def cursorGives (all : List ((Nat × Nat) × SubMessage)) (kept : Bool) (c : Nat) : IterRes :=
  if c < all.length ∧ kept = true then .panic else .item all[c]?

theorem step_next_gives {all : List ((Nat × Nat) × SubMessage)} {s : Cursors} {i k : Nat} (hs : s.cursors[i]? = some k) :
    (s.step all (.next i)).1 = cursorGives all s.kept k := by
  simp only [Cursors.step, hs, cursorGives]
  by_cases hk : k < all.length
  · rw [if_pos hk]
    cases hkept : s.kept with
    | true => simp [hk]
    | false => simp
  · rw [if_neg hk, if_neg (fun x => hk x.1), List.getElem?_eq_none (by omega)]

theorem step_hint_gives {all : List ((Nat × Nat) × SubMessage)} {s : Cursors} {i k : Nat} (hs : s.cursors[i]? = some k) :
    (s.step all (.sizeHint i)).1 = if k ≤ all.length then .hint (all.length - k) else .panic := by
  simp only [Cursors.step, hs]

/-- C72: for an iterator made by `iter` on which `nth` was never called, the next call of `next` after `c` calls gives
submessage number `c` of all (nothing if there are not so many), whatever else was done in between with other iterators;
it panics exactly if there is such a submessage and another one is kept.  `size_hint` gives exactly what is left. -/
theorem C72_after_iter (r : Rdr) (g : Grib2) (h : Grib2.read r = .ok g) (pre post : List IterOp)
    (hn : ∀ n, IterOp.nth (Session.made g pre) n ∉ post) :
    let i := Session.made g pre
    let ops := pre ++ .iter :: post
    Session.last g ops (.next i) = cursorGives g.all (Session.keeps g ops) (nexts i post) ∧
    Session.last g ops (.sizeHint i) = .hint (g.len - nexts i post) := by
  intro i ops
  have hlen : g.all.length = g.len := (C18_loop r g h).1
  have hcur : ((Cursors.mk [] false).run g.all ops).2.cursors[i]? = some (min (nexts i post) g.all.length) := by
    simp only [ops, specRun_append, Cursors.run]
    have hs : ((((Cursors.mk [] false).run g.all pre).2.step g.all .iter).2).cursors[i]? = some 0 := by
      simp only [Cursors.step, i, made_eq h]
      rw [List.getElem?_append_right (Nat.le_refl _)]; simp
    rw [run_cursor g.all i post hn _ _ hs, Nat.zero_add]
    congr 1
    split <;> omega
  refine ⟨?_, ?_⟩
  · rw [last_eq h, step_next_gives hcur, keeps_eq h]
    unfold cursorGives
    by_cases hc : nexts i post < g.all.length
    · rw [Nat.min_eq_left (by omega)]
    · rw [Nat.min_eq_right (by omega), if_neg (fun x => by omega), if_neg (fun x => hc x.1),
        List.getElem?_eq_none (Nat.le_refl _), List.getElem?_eq_none (by omega)]
  · rw [last_eq h, step_hint_gives hcur, if_pos (Nat.min_le_right _ _), hlen]
    congr 1; omega

/-- C72: after `nth(n)`, the following `c` calls of `next` go on from position `n` of the whole list: the next one gives
submessage number `n + 1 + c`.  `size_hint` then gives what is left, unless `n` was beyond the end: then it panics (`n` equal
to the number of submessages is not yet beyond). -/
theorem C72_after_nth (r : Rdr) (g : Grib2) (h : Grib2.read r = .ok g) (pre post : List IterOp) (i n : Nat)
    (hi : i < Session.made g pre) (hn : ∀ n, IterOp.nth i n ∉ post) :
    let ops := pre ++ .nth i n :: post
    Session.last g pre (.nth i n) = cursorGives g.all (Session.keeps g pre) n ∧
    Session.last g ops (.next i) = cursorGives g.all (Session.keeps g ops) (n + 1 + nexts i post) ∧
    Session.last g ops (.sizeHint i) = if n ≤ g.len then .hint (g.len - (n + 1 + nexts i post)) else .panic := by
  intro ops
  have hlen : g.all.length = g.len := (C18_loop r g h).1
  rw [made_eq h] at hi
  obtain ⟨k, hk⟩ : ∃ k, ((Cursors.mk [] false).run g.all pre).2.cursors[i]? = some k := ⟨_, List.getElem?_eq_getElem hi⟩
  have hcur : ((Cursors.mk [] false).run g.all ops).2.cursors[i]? =
      some (if n < g.all.length then min (n + 1 + nexts i post) g.all.length else n) := by
    simp only [ops, specRun_append, Cursors.run]
    by_cases hl : n < g.all.length
    · have hs : ((((Cursors.mk [] false).run g.all pre).2.step g.all (.nth i n)).2).cursors[i]? = some (n + 1) := by
        simp only [Cursors.step, hk]
        rw [if_pos hl]
        simp only [List.getElem?_set_self hi]
      rw [run_cursor g.all i post hn _ _ hs, if_pos hl]
      congr 1
      split <;> omega
    · have hs : ((((Cursors.mk [] false).run g.all pre).2.step g.all (.nth i n)).2).cursors[i]? = some n := by
        simp only [Cursors.step, hk]
        rw [if_neg hl]
        simp only [List.getElem?_set_self hi]
      rw [run_cursor g.all i post hn _ _ hs, if_neg hl, if_neg hl]
  refine ⟨?_, ?_, ?_⟩
  · rw [last_eq h, keeps_eq h]
    simp only [Cursors.step, hk, cursorGives]
    by_cases hl : n < g.all.length
    · rw [if_pos hl]
      cases hkept : ((Cursors.mk [] false).run g.all pre).2.kept with
      | true => simp [hl]
      | false => simp
    · rw [if_neg hl, if_neg (fun x => hl x.1), List.getElem?_eq_none (by omega)]
  · rw [last_eq h, step_next_gives hcur, keeps_eq h]
    unfold cursorGives
    by_cases hl : n < g.all.length
    · rw [if_pos hl]
      by_cases hc : n + 1 + nexts i post < g.all.length
      · rw [Nat.min_eq_left (by omega)]
      · rw [Nat.min_eq_right (by omega), if_neg (fun x => by omega), if_neg (fun x => hc x.1),
          List.getElem?_eq_none (Nat.le_refl _), List.getElem?_eq_none (by omega)]
    · rw [if_neg hl, if_neg (fun x => hl x.1), if_neg (fun x => by omega), List.getElem?_eq_none (by omega),
        List.getElem?_eq_none (by omega)]
  · rw [last_eq h, step_hint_gives hcur, hlen]
    by_cases hl : n < g.len
    · rw [if_pos hl, if_pos (Nat.min_le_right _ _), if_pos (by omega)]
      congr 1; omega
    · rw [if_neg hl]
      by_cases hl' : n ≤ g.len
      · rw [if_pos hl', if_pos hl']; congr 1; omega
      · rw [if_neg hl', if_neg hl']

/-- C72: a copy goes on from where the original was: what it gives next is what the original would have given. -/
theorem C72_copy (r : Rdr) (g : Grib2) (h : Grib2.read r = .ok g) (pre : List IterOp) (i : Nat) (hi : i < Session.made g pre) :
    Session.last g (pre ++ [.copy i]) (.next (Session.made g pre)) = Session.last g pre (.next i) ∧
    Session.last g (pre ++ [.copy i]) (.sizeHint (Session.made g pre)) = Session.last g pre (.sizeHint i) := by
  have hi' := hi
  rw [made_eq h] at hi
  obtain ⟨k, hk⟩ : ∃ k, ((Cursors.mk [] false).run g.all pre).2.cursors[i]? = some k := ⟨_, List.getElem?_eq_getElem hi⟩
  have hcur : ((Cursors.mk [] false).run g.all (pre ++ [.copy i])).2.cursors[Session.made g pre]? = some k := by
    simp only [specRun_append, Cursors.run, Cursors.step, hk, made_eq h]
    rw [List.getElem?_append_right (Nat.le_refl _)]; simp
  have hkept : ((Cursors.mk [] false).run g.all (pre ++ [.copy i])).2.kept = ((Cursors.mk [] false).run g.all pre).2.kept := by
    simp only [specRun_append, Cursors.run, Cursors.step, hk]
  refine ⟨?_, ?_⟩
  · rw [last_eq h, last_eq h, step_next_gives hcur, step_next_gives hk, hkept]
  · rw [last_eq h, last_eq h, step_hint_gives hcur, step_hint_gives hk]

/-- C72: a submessage is kept exactly from the moment when one was given until the next `drop`. -/
theorem C72_kept (r : Rdr) (g : Grib2) (h : Grib2.read r = .ok g) (pre : List IterOp) (op : IterOp) :
    Session.keeps g (pre ++ [.drop]) = false ∧
    (op ≠ .drop → Session.keeps g (pre ++ [op]) =
      (Session.keeps g pre || match Session.last g pre op with | .item (some _) => true | _ => false)) := by
  refine ⟨?_, fun ho => ?_⟩
  · rw [keeps_eq h, specRun_append]; rfl
  · rw [keeps_eq h, keeps_eq h, last_eq h, specRun_append]
    simp only [Cursors.run]
    generalize ((Cursors.mk [] false).run g.all pre).2 = s
    have aux : ∀ c, c < g.all.length → (match (if s.kept = true then IterRes.panic else .item g.all[c]?) with
        | .item (some _) => true | _ => false) = !s.kept := by
      intro c hc
      cases s.kept with
      | true => rfl
      | false => rw [List.getElem?_eq_getElem hc]; rfl
    cases op with
    | iter => simp [Cursors.step]
    | drop => exact absurd rfl ho
    | copy i => simp only [Cursors.step]; split <;> simp
    | next i =>
      simp only [Cursors.step]
      split
      · simp
      · split
        · rename_i hc
          rw [aux _ hc]
          cases s.kept <;> rfl
        · simp
    | nth i n =>
      simp only [Cursors.step]
      split
      · simp
      · split
        · rename_i hc
          rw [aux _ hc]
          cases s.kept <;> rfl
        · simp
    | sizeHint i =>
      simp only [Cursors.step]
      split
      · simp
      · split <;> simp

/-- A program on the sample file (four submessages): two iterators, one of them a copy. -/
example : ∃ g, Grib2.read ⟨messagesBytes sampleMessagesFile, 0, []⟩ = .ok g ∧
    (g.session.run [.iter, .next 0, .drop, .copy 0, .nth 0 2, .next 1, .drop, .next 1, .sizeHint 1, .drop, .nth 0 7,
      .sizeHint 0, .next 5]).1 =
    [.done, .item g.all[0]?, .done, .done, .item g.all[2]?, .panic, .done, .item g.all[2]?, .hint 1, .done, .item none,
      .panic, .noSuchIterator] ∧ g.all.length = 4 := by
  obtain ⟨g, h1, h2⟩ := sampleMessagesFile_opens
  have hlen : g.all.length = 4 := by rw [← h2]; exact (C18_loop _ g h1).1
  refine ⟨g, h1, ?_, hlen⟩
  rw [C72_session _ g h1]
  simp [Cursors.run, Cursors.step, hlen]

/-- The hypotheses of the history theorems are met by a non-trivial program. -/
example : ∃ g, Grib2.read ⟨messagesBytes sampleMessagesFile, 0, []⟩ = .ok g ∧
    0 < Session.made g [.iter, .next 0, .drop] ∧ (∀ n, IterOp.nth 0 n ∉ [IterOp.next 0, .drop]) ∧
    Session.last g [.iter, .next 0, .drop, .nth 0 1, .drop, .next 0, .drop] (.next 0) = .item g.all[3]? := by
  obtain ⟨g, h1, h2⟩ := sampleMessagesFile_opens
  have hlen : g.all.length = 4 := by rw [← h2]; exact (C18_loop _ g h1).1
  have hm : Session.made g [.iter, .next 0, .drop] = 1 := by
    rw [made_eq h1]; simp [Cursors.run, Cursors.step, hlen]
  refine ⟨g, h1, by omega, by simp, ?_⟩
  have := (C72_after_nth _ g h1 [.iter, .next 0, .drop] [.drop, .next 0, .drop] 0 1 (by omega) (by simp)).2.1
  rw [show ([.iter, .next 0, .drop] ++ IterOp.nth 0 1 :: [.drop, .next 0, .drop] : List IterOp) =
    [.iter, .next 0, .drop, .nth 0 1, .drop, .next 0, .drop] from rfl] at this
  rw [this, keeps_eq h1]
  simp [Cursors.run, Cursors.step, hlen, cursorGives, nexts]

end Grib.Props
