import Verif.Lemmas.ParserErr

/-! # The validator as a finite automaton: first offending section -/

namespace Grib.Model

open Grib.Spec

abbrev Q := VState × Bool

def delta : Q → Nat → Option Q
  | (.startOfMessage, h), 0 => some (.endOfSect 0, h)
  | (.endOfSect 0, h), 1 => some (.endOfSect 1, h)
  | (.endOfSect 1, h), 2 => some (.endOfSect 2, h)
  | (.endOfSect 1, _), 3 => some (.endOfSect 3, true)
  | (.endOfSect 1, true), 4 => some (.endOfSect 4, true)
  | (.startOfSubmessage, h), 2 => some (.endOfSect 2, h)
  | (.startOfSubmessage, _), 3 => some (.endOfSect 3, true)
  | (.startOfSubmessage, true), 4 => some (.endOfSect 4, true)
  | (.endOfSect 2, _), 3 => some (.endOfSect 3, true)
  | (.endOfSect 3, h), 4 => some (.endOfSect 4, h)
  | (.endOfSect 4, h), 5 => some (.endOfSect 5, h)
  | (.endOfSect 5, h), 6 => some (.endOfSect 6, h)
  | (.endOfSect 6, h), 7 => some (.endOfSect 7, h)
  | (.endOfSect 7, _), 8 => some (.startOfMessage, false)
  | (.endOfSect 7, h), 2 => some (.endOfSect 2, h)
  | (.endOfSect 7, _), 3 => some (.endOfSect 3, true)
  | (.endOfSect 7, true), 4 => some (.endOfSect 4, true)
  | _, _ => none

def run (q : Q) (ns : List Nat) : Option Q := ns.foldlM delta q

theorem run_append (q : Q) (a b : List Nat) : run q (a ++ b) = (run q a).bind fun q' => run q' b := by
  simp only [run, List.foldlM_append]; rfl

@[simp] theorem run_nil (q : Q) : run q [] = some q := rfl

theorem run_cons (q : Q) (n : Nat) (ns : List Nat) : run q (n :: ns) = (delta q n).bind fun q' => run q' ns := by
  simp only [run, List.foldlM_cons]; rfl

/-- The states that occur, with the grid flag. -/
def Reach : Q → Prop
  | (.startOfMessage, h) => h = false
  | (.endOfSect 0, h) => h = false
  | (.endOfSect 1, h) => h = false
  | (.endOfSect 2, _) => True
  | (.endOfSect n, h) => n ≤ 7 ∧ h = true
  | (.startOfSubmessage, h) => h = true
  | (.endOfStream, _) => False

def q0 : Q := (.startOfMessage, false)

def nums (xs : List SectionInfo) : List Nat := xs.map (·.num)

theorem nums_append (a b : List SectionInfo) : nums (a ++ b) = nums a ++ nums b := by simp [nums]

/-- No item is a section. -/
def NoOk (tail : List Item) : Prop := ∀ s, .ok s ∉ tail

/-- Link between a validator over `sects` (followed by errors or panics) and the automaton.  Just after a dummy end section the automaton is still
after section 7. -/
structure DInv (sects : List SectionInfo) (tail : List Item) (v : Validator) : Prop where
  items : v.items = (sects.drop v.idx).map .ok ++ tail
  le : v.idx ≤ sects.length
  run : run q0 (nums (sects.take v.idx)) = some (v.state, v.hasSect3) ∨
    (v.state = .startOfSubmessage ∧ run q0 (nums (sects.take v.idx)) = some (.endOfSect 7, v.hasSect3))
  pos : v.idx ≠ 0 → v.pos + 1 = v.idx
  reach : Reach (v.state, v.hasSect3)
  fresh : v.idx = 0 → v.state = .startOfMessage
  sub : v.state = .startOfSubmessage → ∃ s rest, v.items = .ok s :: rest ∧ s.num ≠ 8

theorem drop_ok {sects : List SectionInfo} {tail : List Item} (hn : NoOk tail) {i : Nat} {s : SectionInfo} {rest : List Item}
    (h : .ok s :: rest = (sects.drop i).map Outcome.ok ++ tail) :
    i < sects.length ∧ nums (sects.take (i + 1)) = nums (sects.take i) ++ [s.num] ∧ sects[i]? = some s ∧
      rest = (sects.drop (i + 1)).map .ok ++ tail := by
  have hlt : i < sects.length := by
    by_cases hl : i < sects.length
    · exact hl
    · rw [List.drop_eq_nil_of_le (by omega)] at h
      exact absurd (by rw [List.map_nil, List.nil_append] at h; rw [← h]; simp) (hn s)
  rw [List.drop_eq_getElem_cons hlt] at h
  simp only [List.map_cons, List.cons_append, List.cons.injEq, Outcome.ok.injEq] at h
  refine ⟨hlt, ?_, ?_, h.2⟩
  · rw [List.take_succ_eq_append_getElem hlt, nums_append, h.1]; rfl
  · simp [hlt, h.1]

theorem drop_other {sects : List SectionInfo} {tail rest : List Item} {i : Nat} {x : Item} (hx : ∀ s, x ≠ .ok s)
    (hle : i ≤ sects.length) (h : x :: rest = (sects.drop i).map Outcome.ok ++ tail) : i = sects.length ∧ x :: rest = tail := by
  by_cases hlt : i < sects.length
  · rw [List.drop_eq_getElem_cons hlt] at h
    simp only [List.map_cons, List.cons_append, List.cons.injEq] at h
    exact absurd h.1 (hx _)
  · have e : i = sects.length := by omega
    subst e
    rw [List.drop_length, List.map_nil, List.nil_append] at h
    exact ⟨rfl, h⟩

theorem dinv_kept (sects : List SectionInfo) {tail : List Item} (hn : NoOk tail) : Kept (DInv sects tail) := by
  intro v x v' ⟨hi, hle, hr, hp, hrc, hfr, hsub⟩ h
  unfold Validator.next at h
  split at h
  · simp at h
  · rename_i hst
    obtain ⟨rest, e, n, -, rfl⟩ := ensureSect0_some h
    rw [e] at hi
    obtain ⟨d1, d2, d3, d4⟩ := drop_ok hn hi
    rw [hst] at hr hrc
    refine ⟨d4, d1, Or.inl ?_, by simp, hrc, by simp, by simp⟩
    simp only [reduceCtorEq, false_and, or_false] at hr
    simp only [d2, run_append, hr, n]; rfl
  · rename_i hst
    obtain ⟨rest, e, n, -, rfl⟩ := ensureSectNum_some h
    rw [e] at hi
    obtain ⟨d1, d2, d3, d4⟩ := drop_ok hn hi
    rw [hst] at hr hrc
    refine ⟨d4, d1, Or.inl ?_, by simp, hrc, by simp, by simp⟩
    simp only [reduceCtorEq, false_and, or_false] at hr
    simp only [d2, run_append, hr, n]; rfl
  · rename_i hst
    obtain ⟨rest, has', e, n, -, rfl⟩ := ensureSect234_some h
    rw [e] at hi
    obtain ⟨d1, d2, d3, d4⟩ := drop_ok hn hi
    rw [hst] at hr hrc
    simp only [reduceCtorEq, false_and, or_false] at hr
    rcases n with ⟨n, rfl⟩ | ⟨n, rfl⟩ | ⟨n, rfl, h3⟩
    · refine ⟨d4, d1, Or.inl ?_, by simp, by simp [n, Reach], by simp, by simp⟩
      simp only [d2, run_append, hr, n]; rfl
    · refine ⟨d4, d1, Or.inl ?_, by simp, by simp [n, Reach], by simp, by simp⟩
      simp only [d2, run_append, hr, n]; rfl
    · refine ⟨d4, d1, Or.inl ?_, by simp, by simp [n, Reach], by simp, by simp⟩
      simp only [d2, run_append, hr, n, h3]; rfl
  · rename_i hst
    obtain ⟨rest, has', e, n, -, rfl⟩ := ensureSect234_some h
    rw [e] at hi
    obtain ⟨d1, d2, d3, d4⟩ := drop_ok hn hi
    rw [hst] at hr hrc
    simp only [true_and] at hr
    have hrc : v.hasSect3 = true := hrc
    rw [hrc] at hr n
    rcases n with ⟨n, rfl⟩ | ⟨n, rfl⟩ | ⟨n, rfl, h3⟩
    · refine ⟨d4, d1, Or.inl ?_, by simp, by simp [n, Reach], by simp, by simp⟩
      rcases hr with hr | hr <;> simp only [d2, run_append, hr, n] <;> rfl
    · refine ⟨d4, d1, Or.inl ?_, by simp, by simp [n, Reach], by simp, by simp⟩
      rcases hr with hr | hr <;> simp only [d2, run_append, hr, n] <;> rfl
    · refine ⟨d4, d1, Or.inl ?_, by simp, by simp [n, Reach], by simp, by simp⟩
      rcases hr with hr | hr <;> simp only [d2, run_append, hr, n] <;> rfl
  · rename_i hst
    obtain ⟨rest, e, n, -, rfl⟩ := ensureSectNum_some h
    simp only at e
    rw [e] at hi
    obtain ⟨d1, d2, d3, d4⟩ := drop_ok hn hi
    rw [hst] at hr hrc
    refine ⟨d4, d1, Or.inl ?_, by simp, by simp [Reach], by simp, by simp⟩
    simp only [reduceCtorEq, false_and, or_false] at hr
    simp only [d2, run_append, hr, n]; rfl
  iterate 4
    rename_i hst
    obtain ⟨rest, e, n, -, rfl⟩ := ensureSectNum_some h
    rw [e] at hi
    obtain ⟨d1, d2, d3, d4⟩ := drop_ok hn hi
    rw [hst] at hr hrc
    simp only [reduceCtorEq, false_and, or_false] at hr
    refine ⟨d4, d1, Or.inl ?_, by simp, by simpa [Reach] using hrc, by simp, by simp⟩
    simp only [d2, run_append, hr, n]; rfl
  · rename_i hst
    rw [hst] at hr hrc
    simp only [reduceCtorEq, false_and, or_false] at hr
    obtain ⟨s, rest, e, ⟨n, rfl, rfl⟩ | ⟨n, rfl, rfl⟩⟩ := ensureSect8_some h
    · rw [e] at hi
      obtain ⟨d1, d2, d3, d4⟩ := drop_ok hn hi
      refine ⟨d4, d1, Or.inl ?_, by simp, rfl, by simp, by simp⟩
      simp only [d2, run_append, hr, n]; rfl
    · refine ⟨hi, hle, Or.inr ⟨rfl, hr⟩, hp, hrc.2, ?_, fun _ => ⟨s, rest, e, n⟩⟩
      intro h0; have := hfr h0; simp [hst] at this
  · simp at h

/-- Completing a message from a given state. -/
def finishFrom : VState → List Nat
  | .startOfMessage => []
  | .endOfSect 0 => [1, 3, 4, 5, 6, 7, 8]
  | .endOfSect 1 => [3, 4, 5, 6, 7, 8]
  | .endOfSect 2 => [3, 4, 5, 6, 7, 8]
  | .endOfSect 3 => [4, 5, 6, 7, 8]
  | .endOfSect 4 => [5, 6, 7, 8]
  | .endOfSect 5 => [6, 7, 8]
  | .endOfSect 6 => [7, 8]
  | .endOfSect 7 => [8]
  | _ => [3, 4, 5, 6, 7, 8]

theorem run_finish (q : Q) (h : Reach q) : run q (finishFrom q.1) = some q0 := by
  obtain ⟨st, b⟩ := q
  match st, h with
  | .startOfMessage, h => simp only [Reach] at h; subst h; rfl
  | .startOfSubmessage, h => simp only [Reach] at h; subst h; rfl
  | .endOfStream, h => exact absurd h (by simp [Reach])
  | .endOfSect 0, h => simp only [Reach] at h; subst h; rfl
  | .endOfSect 1, h => simp only [Reach] at h; subst h; rfl
  | .endOfSect 2, _ => rfl
  | .endOfSect 3, h => rfl
  | .endOfSect 4, h => rfl
  | .endOfSect 5, h => rfl
  | .endOfSect 6, h => rfl
  | .endOfSect 7, h => rfl
  | .endOfSect (n + 8), h => simp [Reach] at h

theorem reach_delta {q q' : Q} {n : Nat} (h : Reach q) (hd : delta q n = some q') : Reach q' := by
  unfold delta at hd
  split at hd <;> first | (simp at hd; done) | skip
  all_goals
    simp only [Option.some.injEq] at hd
    subst hd
    first | exact h | (simp [Reach]; done) | exact trivial | exact ⟨by omega, h.2⟩

theorem reach_run {q q' : Q} {ns : List Nat} (h : Reach q) (hd : run q ns = some q') : Reach q' := by
  induction ns generalizing q with
  | nil => simp only [run_nil, Option.some.injEq] at hd; exact hd ▸ h
  | cons n ns ih =>
    rw [run_cons] at hd
    cases hq : delta q n with
    | none => simp [hq] at hd
    | some q1 => rw [hq] at hd; exact ih (reach_delta h hq) hd

theorem delta7 {h : Bool} {n : Nat} (hn : n ≠ 8) : delta (.endOfSect 7, h) n = delta (.startOfSubmessage, h) n := by
  match n, h with
  | 0, _ | 1, _ | 2, _ | 3, _ | 5, _ | 6, _ | 7, _ => rfl
  | 4, true | 4, false => rfl
  | 8, _ => omega
  | n + 9, _ => cases h <;> rfl

theorem run_group {g : Group SectionInfo} (hg : g.Ok) {q : Q}
    (hq : (q = (.endOfSect 1, false) ∧ g.grid.isSome) ∨ q = (.endOfSect 7, true)) :
    run q (nums g.sections) = some (.endOfSect 7, true) := by
  obtain ⟨loc, grid, a4, a5, a6, a7⟩ := g
  obtain ⟨h2, h3, h4, h5, h6, h7, hl⟩ := hg
  simp only at h2 h3 h4 h5 h6 h7 hl
  match loc, grid with
  | none, none =>
    rcases hq with ⟨rfl, h⟩ | rfl
    · simp at h
    · simp only [Group.sections, Option.toList_none, nums, List.nil_append, List.map_cons, List.map_nil, h4, h5, h6, h7]
      rfl
  | none, some a3 =>
    have := h3 _ rfl
    rcases hq with ⟨rfl, h⟩ | rfl <;>
      simp only [Group.sections, Option.toList_none, Option.toList_some, nums, List.nil_append, List.cons_append,
        List.map_cons, List.map_nil, this, h4, h5, h6, h7] <;> rfl
  | some _, none => simp at hl
  | some a2, some a3 =>
    have := h3 _ rfl
    have h2' := h2 _ rfl
    rcases hq with ⟨rfl, h⟩ | rfl <;>
      simp only [Group.sections, Option.toList_some, nums, List.nil_append, List.cons_append,
        List.map_cons, List.map_nil, this, h2', h4, h5, h6, h7] <;> rfl

theorem run_groups {gs : List (Group SectionInfo)} (hg : ∀ g ∈ gs, g.Ok) :
    run (.endOfSect 7, true) (nums (gs.flatMap Group.sections)) = some (.endOfSect 7, true) := by
  induction gs with
  | nil => rfl
  | cons g gs ih =>
    rw [List.flatMap_cons, nums_append, run_append, run_group (hg g (by simp)) (Or.inr rfl)]
    exact ih fun x hx => hg x (List.mem_cons_of_mem _ hx)

theorem run_message {m : Message SectionInfo} (hm : m.Ok) : run q0 (nums m.sections) = some q0 := by
  obtain ⟨a0, a1, g, gs, fin⟩ := m
  obtain ⟨h0, h1, hg, hfg, hf⟩ := hm
  simp only at h0 h1 hf hfg
  simp only [Message.groups] at hg
  simp only [Message.sections, Message.groups]
  have e : nums (a0 :: a1 :: ((g :: gs).flatMap Group.sections ++ [fin])) =
    [0, 1] ++ (nums g.sections ++ (nums (gs.flatMap Group.sections) ++ [8])) := by
    simp [nums, h0, h1, hf]
  rw [e, run_append]
  rw [show run q0 [0, 1] = some (.endOfSect 1, false) from rfl]
  simp only [Option.bind_some]
  rw [run_append, run_group (hg g (by simp)) (Or.inl ⟨rfl, hfg⟩)]
  simp only [Option.bind_some]
  rw [run_append, run_groups fun x hx => hg x (List.mem_cons_of_mem _ hx)]
  rfl

theorem run_of_accepted {sects : List SectionInfo} (h : Accepted sects) : run q0 (nums sects) = some q0 := by
  obtain ⟨ms, hm, rfl⟩ := h
  induction ms with
  | nil => rfl
  | cons m ms ih =>
    rw [List.flatMap_cons, nums_append, run_append, run_message (hm m (by simp))]
    exact ih fun x hx => hm x (List.mem_cons_of_mem _ hx)

theorem run_prefix {q : Q} {a b : List Nat} {q' : Q} (h : run q (a ++ b) = some q') : ∃ q1, run q a = some q1 := by
  rw [run_append] at h
  cases hq : run q a with
  | none => simp [hq] at h
  | some q1 => exact ⟨q1, rfl⟩

theorem ensureSectNum_err {v v' : Validator} {n : Nat} {e : ParseError} (h : v.ensureSectNum n = (.err e, v')) :
    (v.items = [] ∧ e = .unexpectedEndOfData v.pos) ∨ (∃ rest, v.items = .err e :: rest) ∨
      (∃ s rest, v.items = .ok s :: rest ∧ s.num ≠ n ∧ e = .invalidSectionOrder v.idx) := by
  obtain ⟨items, idx, pos, mc, sc, state, has⟩ := v
  match items with
  | [] =>
    simp only [Validator.ensureSectNum, Validator.unexpectedEnd, Prod.mk.injEq, Outcome.err.injEq] at h
    exact Or.inl ⟨rfl, h.1.symm⟩
  | .panic :: _ => simp [Validator.ensureSectNum] at h
  | .err e' :: rest =>
    simp only [Validator.ensureSectNum, Validator.wrapErr, Prod.mk.injEq, Outcome.err.injEq] at h
    exact Or.inr (Or.inl ⟨rest, by rw [h.1]⟩)
  | .ok s :: rest =>
    simp only [Validator.ensureSectNum, Validator.advance, List.tail_cons] at h
    by_cases hn : s.num = n
    · simp [hn, Validator.yield] at h
    · simp only [hn, if_false, Validator.invalidOrder, Prod.mk.injEq, Outcome.err.injEq] at h
      exact Or.inr (Or.inr ⟨s, rest, rfl, hn, h.1.symm⟩)

theorem ensureSect0_err {v v' : Validator} {e : ParseError} (h : v.ensureSect0 = (.err e, v')) :
    (∃ rest, v.items = .err e :: rest) ∨
      (∃ s rest, v.items = .ok s :: rest ∧ s.num ≠ 0 ∧ e = .invalidSectionOrder v.idx) := by
  obtain ⟨items, idx, pos, mc, sc, state, has⟩ := v
  match items with
  | [] => simp [Validator.ensureSect0] at h
  | .panic :: _ => simp [Validator.ensureSect0] at h
  | .err e' :: rest =>
    simp only [Validator.ensureSect0, Validator.wrapErr, Prod.mk.injEq, Outcome.err.injEq] at h
    exact Or.inl ⟨rest, by rw [h.1]⟩
  | .ok s :: rest =>
    simp only [Validator.ensureSect0, Validator.advance, List.tail_cons] at h
    by_cases hn : s.num = 0
    · simp [hn, Validator.yield] at h
    · simp only [hn, if_false, Validator.invalidOrder, Prod.mk.injEq, Outcome.err.injEq] at h
      exact Or.inr ⟨s, rest, rfl, hn, h.1.symm⟩

theorem ensureSect234_err {v v' : Validator} {e : ParseError} (h : v.ensureSect234 = (.err e, v')) :
    (v.items = [] ∧ e = .unexpectedEndOfData v.pos) ∨ (∃ rest, v.items = .err e :: rest) ∨
      (∃ s rest, v.items = .ok s :: rest ∧ s.num ≠ 2 ∧ s.num ≠ 3 ∧
        ((s.num ≠ 4 ∧ e = .invalidSectionOrder v.idx) ∨
          (s.num = 4 ∧ v.hasSect3 = false ∧ e = .noGridDefinition v.idx))) := by
  obtain ⟨items, idx, pos, mc, sc, state, has⟩ := v
  match items with
  | [] =>
    simp only [Validator.ensureSect234, Validator.unexpectedEnd, Prod.mk.injEq, Outcome.err.injEq] at h
    exact Or.inl ⟨rfl, h.1.symm⟩
  | .panic :: _ => simp [Validator.ensureSect234] at h
  | .err e' :: rest =>
    simp only [Validator.ensureSect234, Validator.wrapErr, Prod.mk.injEq, Outcome.err.injEq] at h
    exact Or.inr (Or.inl ⟨rest, by rw [h.1]⟩)
  | .ok s :: rest =>
    simp only [Validator.ensureSect234, Validator.advance, List.tail_cons] at h
    refine Or.inr (Or.inr ⟨s, rest, rfl, ?_⟩)
    by_cases h2 : s.num = 2
    · simp [h2, Validator.yield] at h
    · by_cases h3 : s.num = 3
      · simp [h3, Validator.yield] at h
      · refine ⟨h2, h3, ?_⟩
        by_cases h4 : s.num = 4
        · cases has with
          | false =>
            simp only [h4, if_true, Validator.noGrid] at h
            simp (decide := true) only [if_false, Prod.mk.injEq, Outcome.err.injEq] at h
            exact Or.inr ⟨h4, rfl, h.1.symm⟩
          | true => simp [h4, Validator.yield] at h
        · simp only [h2, h3, h4, if_false, Validator.invalidOrder, Prod.mk.injEq, Outcome.err.injEq] at h
          exact Or.inl ⟨h4, h.1.symm⟩

theorem ensureSect8_err {v v' : Validator} {e : ParseError} (h : v.ensureSect8 = (.err e, v')) :
    (v.items = [] ∧ e = .unexpectedEndOfData v.pos) ∨ (∃ rest, v.items = .err e :: rest) := by
  obtain ⟨items, idx, pos, mc, sc, state, has⟩ := v
  match items with
  | [] =>
    simp only [Validator.ensureSect8, Validator.unexpectedEnd, Prod.mk.injEq, Outcome.err.injEq] at h
    exact Or.inl ⟨rfl, h.1.symm⟩
  | .panic :: _ => simp [Validator.ensureSect8] at h
  | .err e' :: rest =>
    simp only [Validator.ensureSect8, Validator.wrapErr, Prod.mk.injEq, Outcome.err.injEq] at h
    exact Or.inr ⟨rest, by rw [h.1]⟩
  | .ok s :: rest =>
    simp only [Validator.ensureSect8] at h
    split at h <;> simp at h

theorem delta_none0 {h : Bool} {n : Nat} (hn : n ≠ 0) : delta (.startOfMessage, h) n = none := by
  match n with
  | 0 => omega
  | n + 1 => rfl

theorem delta_none {m : Nat} {h : Bool} {n : Nat} (hm : m = 0 ∨ (2 ≤ m ∧ m ≤ 6)) (hn : n ≠ m + 1) :
    delta (.endOfSect m, h) n = none := by
  match m with
  | 0 => match n with
    | 1 => omega
    | 0 => rfl
    | n + 2 => rfl
  | 1 => omega
  | 2 => match n with
    | 3 => omega
    | 0 | 1 | 2 => rfl
    | n + 4 => rfl
  | 3 => match n with
    | 4 => omega
    | 0 | 1 | 2 | 3 => rfl
    | n + 5 => rfl
  | 4 => match n with
    | 5 => omega
    | 0 | 1 | 2 | 3 | 4 => rfl
    | n + 6 => rfl
  | 5 => match n with
    | 6 => omega
    | 0 | 1 | 2 | 3 | 4 | 5 => rfl
    | n + 7 => rfl
  | 6 => match n with
    | 7 => omega
    | 0 | 1 | 2 | 3 | 4 | 5 | 6 => rfl
    | n + 8 => rfl
  | m + 7 => omega

theorem delta_none234 {st : VState} {h : Bool} {n : Nat} (hs : st = .endOfSect 1 ∨ st = .startOfSubmessage)
    (h2 : n ≠ 2) (h3 : n ≠ 3) (h4 : n ≠ 4 ∨ h = false) : delta (st, h) n = none := by
  rcases hs with rfl | rfl
  all_goals
    match n with
    | 2 => omega
    | 3 => omega
    | 4 => simp only [ne_eq, not_true_eq_false, false_or] at h4; subst h4; rfl
    | 0 | 1 => cases h <;> rfl
    | n + 5 => cases h <;> rfl

theorem delta_one {q : Q} {n : Nat} {st : VState} {h : Bool} (hd : delta q n = some (st, h)) : st = .endOfSect 1 ↔ n = 1 := by
  unfold delta at hd
  split at hd <;> simp at hd <;> obtain ⟨rfl, -⟩ := hd <;> simp

theorem run_last_one {sects : List SectionInfo} {k : Nat} (hk : k ≤ sects.length) {st : VState} {h : Bool}
    (hr : run q0 (nums (sects.take k)) = some (st, h)) :
    st = .endOfSect 1 ↔ (1 ≤ k ∧ (sects[k - 1]?).map (·.num) = some 1) := by
  cases k with
  | zero =>
    simp only [List.take_zero, nums, List.map_nil, run_nil, Option.some.injEq, q0, Prod.mk.injEq] at hr
    rw [← hr.1]; simp
  | succ k =>
    have hlt : k < sects.length := by omega
    rw [List.take_succ_eq_append_getElem hlt, nums_append, run_append] at hr
    cases hq : run q0 (nums (sects.take k)) with
    | none => rw [hq] at hr; simp at hr
    | some q =>
      rw [hq, Option.bind_some] at hr
      have e : nums [sects[k]] = [sects[k].num] := rfl
      rw [e, run_cons] at hr
      cases hd : delta q sects[k].num with
      | none => rw [hd] at hr; simp at hr
      | some q' =>
        rw [hd, Option.bind_some, run_nil, Option.some.injEq] at hr
        rw [hr] at hd
        rw [delta_one hd]
        simp [hlt]

theorem DInv.one {sects : List SectionInfo} {tail : List Item} {v : Validator} (hv : DInv sects tail v) :
    v.state = .endOfSect 1 ↔ (1 ≤ v.idx ∧ (sects[v.idx - 1]?).map (·.num) = some 1) := by
  rcases hv.run with hr | ⟨hst, hr⟩
  · exact run_last_one hv.le hr
  · rw [← run_last_one hv.le hr, hst]; simp

/-- What an error of the validator says, for a stream of sections followed by errors or panics. -/
theorem dinv_err {sects : List SectionInfo} {tail : List Item} (hn : NoOk tail) {v v' : Validator} {e : ParseError}
    (hv : DInv sects tail v)
    (h : v.next = (.err e, v')) :
    (∃ k, OrderError sects k e ∧ k < sects.length ∧
      (∃ q, run q0 (nums (sects.take k)) = some q) ∧ run q0 (nums (sects.take (k + 1))) = none) ∨
    (tail = [] ∧ e = .unexpectedEndOfData (sects.length - 1) ∧ sects ≠ [] ∧
      ∃ q, run q0 (nums sects) = some q ∧ q ≠ q0) ∨
    (tail.head? = some (.err e) ∧ ∃ q, run q0 (nums sects) = some q) := by
  have hone := hv.one
  obtain ⟨hi, hle, hr, hp, hrc, hfr, hsub⟩ := hv
  have endcase : v.items = [] → v.state ≠ .startOfMessage → e = .unexpectedEndOfData v.pos →
      (tail = [] ∧ e = .unexpectedEndOfData (sects.length - 1) ∧ sects ≠ [] ∧
        ∃ q, run q0 (nums sects) = some q ∧ q ≠ q0) := by
    intro h1 h2 h3
    rw [h1] at hi
    have htl : tail = [] := (List.append_eq_nil_iff.1 hi.symm).2
    have hlen : v.idx = sects.length := by
      have := congrArg List.length hi
      simp [htl] at this; omega
    refine ⟨htl, ?_⟩
    have hne : v.idx ≠ 0 := fun hz => h2 (hfr hz)
    refine ⟨by rw [h3, ← hlen, ← hp hne]; rfl, by rintro rfl; simp at hlen; omega, ?_⟩
    rw [hlen, List.take_length] at hr
    rcases hr with hr | ⟨hst, hr⟩
    · exact ⟨_, hr, fun hq => h2 (congrArg Prod.fst hq)⟩
    · exact ⟨_, hr, by simp [q0]⟩
  -- the bad-section case
  have bad : ∀ s rest, v.items = .ok s :: rest →
      ((e = .invalidSectionOrder v.idx ∧ (s.num = 4 → v.state ≠ .endOfSect 1)) ∨
        (e = .noGridDefinition v.idx ∧ s.num = 4 ∧ v.state = .endOfSect 1)) →
      delta (v.state, v.hasSect3) s.num = none →
      (∃ k, OrderError sects k e ∧ k < sects.length ∧
      (∃ q, run q0 (nums (sects.take k)) = some q) ∧ run q0 (nums (sects.take (k + 1))) = none) := by
    intro s rest h1 h2' h3
    have h4 : v.state = .startOfSubmessage → s.num ≠ 8 := by
      intro hst
      obtain ⟨s', r', e', h'⟩ := hsub hst
      rw [h1] at e'
      simp only [List.cons.injEq, Outcome.ok.injEq] at e'
      rw [e'.1]; exact h'
    rw [h1] at hi
    obtain ⟨d1, d2, d3, d4⟩ := drop_ok hn hi
    have h2 : OrderError sects v.idx e := by
      rcases h2' with ⟨h2, h5⟩ | ⟨h2, h5, h6⟩
      · refine Or.inl ⟨h2, fun ⟨g1, g2, g3⟩ => ?_⟩
        rw [d3] at g3
        simp only [Option.map_some, Option.some.injEq] at g3
        exact h5 g3 (hone.2 ⟨g1, g2⟩)
      · refine Or.inr ⟨h2, (hone.1 h6).1, (hone.1 h6).2, ?_⟩
        rw [d3, Option.map_some, h5]
    refine ⟨v.idx, h2, d1, ?_, ?_⟩
    · rcases hr with hr | ⟨-, hr⟩ <;> exact ⟨_, hr⟩
    · rcases hr with hr | ⟨hst, hr⟩
      · rw [d2, run_append, hr, Option.bind_some, run_cons, h3]; rfl
      · rw [d2, run_append, hr, Option.bind_some, run_cons, delta7 (h4 hst), ← hst, h3]; rfl
  have iserr : ∀ rest, v.items = .err e :: rest →
      (tail.head? = some (.err e) ∧ ∃ q, run q0 (nums sects) = some q) := by
    intro rest h1
    rw [h1] at hi
    obtain ⟨hl, ht⟩ := drop_other (x := .err e) (by simp) hle hi
    rw [hl, List.take_length] at hr
    refine ⟨by rw [← ht]; rfl, ?_⟩
    rcases hr with hr | ⟨-, hr⟩ <;> exact ⟨_, hr⟩
  unfold Validator.next at h
  split at h
  · simp at h
  · rename_i hst
    rcases ensureSect0_err h with ⟨r, h1⟩ | ⟨s, r, h1, h2, h3⟩
    · exact Or.inr (Or.inr (iserr r h1))
    · exact Or.inl (bad s r h1 (Or.inl ⟨h3, fun _ => by simp [hst]⟩) (by rw [hst]; exact delta_none0 h2))
  · rename_i hst
    rcases ensureSectNum_err h with ⟨h1, h2⟩ | ⟨r, h1⟩ | ⟨s, r, h1, h2, h3⟩
    · exact Or.inr (Or.inl (endcase h1 (by simp [hst]) h2))
    · exact Or.inr (Or.inr (iserr r h1))
    · exact Or.inl (bad s r h1 (Or.inl ⟨h3, fun _ => by simp [hst]⟩) (by rw [hst]; exact delta_none (by omega) h2))
  iterate 2
    rename_i hst
    rcases ensureSect234_err h with ⟨h1, h2⟩ | ⟨r, h1⟩ | ⟨s, r, h1, h2, h3, h4⟩
    · exact Or.inr (Or.inl (endcase h1 (by simp [hst]) h2))
    · exact Or.inr (Or.inr (iserr r h1))
    · refine Or.inl (bad s r h1 ?_ ?_)
      · rcases h4 with ⟨h5, h4⟩ | ⟨h5, h6, h4⟩
        · exact Or.inl ⟨h4, fun h => absurd h h5⟩
        · refine Or.inr ⟨h4, h5, ?_⟩
          rw [hst, h6] at hrc
          first
            | exact hst
            | simp [Reach] at hrc
      · rw [hst]
        refine delta_none234 (by simp) h2 h3 ?_
        rcases h4 with ⟨h4, -⟩ | ⟨-, h4, -⟩
        · exact Or.inl h4
        · exact Or.inr h4
  iterate 5
    rename_i hst
    rcases ensureSectNum_err h with ⟨h1, h2⟩ | ⟨r, h1⟩ | ⟨s, r, h1, h2, h3⟩
    · exact Or.inr (Or.inl (endcase h1 (by simp [hst]) h2))
    · exact Or.inr (Or.inr (iserr r h1))
    · exact Or.inl (bad s r h1 (Or.inl ⟨h3, fun _ => by simp [hst]⟩) (by rw [hst]; exact delta_none (by omega) h2))
  · rename_i hst
    rcases ensureSect8_err h with ⟨h1, h2⟩ | ⟨r, h1⟩
    · exact Or.inr (Or.inl (endcase h1 (by simp [hst]) h2))
    · exact Or.inr (Or.inr (iserr r h1))
  · simp at h

/-- The validator panics only on a panic of its input, all sections before it being in order. -/
theorem dinv_panic {sects : List SectionInfo} {tail : List Item} {v v' : Validator} (hv : DInv sects tail v)
    (h : v.next = (.panic, v')) : tail.head? = some .panic ∧ ∃ q, run q0 (nums sects) = some q := by
  obtain ⟨hi, hle, hr, hp, hrc, hfr, hsub⟩ := hv
  by_cases hh : ∃ t, v.items = .panic :: t
  · obtain ⟨t, ht⟩ := hh
    rw [ht] at hi
    obtain ⟨hl, ht⟩ := drop_other (x := .panic) (by simp) hle hi
    rw [hl, List.take_length] at hr
    refine ⟨by rw [← ht]; rfl, ?_⟩
    rcases hr with hr | ⟨-, hr⟩ <;> exact ⟨_, hr⟩
  · refine absurd h (head_next (fun t ht => hh ⟨t, ht⟩) ?_)
    intro n hn
    rw [hn] at hrc
    match n, hrc with
    | 0, _ | 1, _ | 2, _ | 3, _ | 4, _ | 5, _ | 6, _ | 7, _ => omega
    | n + 8, hrc => simp [Reach] at hrc

end Grib.Model
