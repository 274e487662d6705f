import Verif.Lemmas.ParserSpec

/-! # Most recent sections, positionally -/

namespace Grib.Model

open Grib.Spec

theorem Numbered.getElem {i : Nat} {F : List P} (h : Numbered i F) {k : Nat} (hk : k < F.length) : F[k].1 = i + k := by
  induction F generalizing i k with
  | nil => simp at hk
  | cons p F ih =>
    cases k with
    | zero => exact h.1
    | succ k =>
      simp only [List.getElem_cons_succ]
      rw [ih h.2 (by simpa using hk)]; omega

theorem Numbered.map_fst {i : Nat} {F : List P} (h : Numbered i F) : F.map Prod.fst = List.range' i F.length := by
  induction F generalizing i with
  | nil => rfl
  | cons p F ih => rw [List.map_cons, ih h.2, h.1]; rfl

/-- Positions below the end of `A ++ B` holding a section with property `p`, at or after the end of `A`. -/
theorem filter_positions {A B C : List P} (h : Numbered 0 (A ++ B ++ C)) (p : SectionInfo → Bool) :
    (List.range (A.length + B.length)).filter
      (fun j => A.length ≤ j && (((A ++ B ++ C).map Prod.snd)[j]?).any p) =
    (B.filter fun x => p x.2).map Prod.fst := by
  have hAB : Numbered 0 (A ++ B) := (Numbered.append.1 h).1
  have hB : Numbered A.length B := by simpa using (Numbered.append.1 hAB).2
  have e : List.range (A.length + B.length) = A.map Prod.fst ++ B.map Prod.fst := by
    rw [← List.map_append, hAB.map_fst, List.length_append, List.range_eq_range']
  rw [e, List.filter_append, List.filter_map, List.filter_map]
  have hA : A.filter ((fun j => decide (A.length ≤ j) && (((A ++ B ++ C).map Prod.snd)[j]?).any p) ∘ Prod.fst) = [] := by
    rw [List.filter_eq_nil_iff]
    intro x hx
    obtain ⟨k, hk, rfl⟩ := List.getElem_of_mem hx
    have := (Numbered.append.1 hAB).1.getElem hk
    simp [this]
    intro h'; omega
  rw [hA]
  simp only [List.map_nil, List.nil_append]
  congr 1
  apply List.filter_congr
  intro x hx
  obtain ⟨k, hk, rfl⟩ := List.getElem_of_mem hx
  have := hB.getElem hk
  simp only [Function.comp, this, Nat.le_add_right, decide_true, Bool.true_and, List.getElem?_map]
  rw [List.append_assoc, List.getElem?_append_right (by omega), Nat.add_sub_cancel_left,
    List.getElem?_append_left hk, List.getElem?_eq_getElem hk]
  rfl

def isNum (n : Nat) (s : SectionInfo) : Bool := s.num == n

/-- Sections of a group before its product section. -/
def Group.front {α : Type} (g : Group α) : List α := g.loc.toList ++ g.grid.toList

theorem Group.front_filter {g : Group P} (hg : GOk g) :
    (Group.front g).filter (fun x => isNum 2 x.2) = g.loc.toList ∧
      (Group.front g).filter (fun x => isNum 3 x.2) = g.grid.toList ∧
      (Group.front g).filter (fun x => isNum 0 x.2) = [] ∧ (Group.front g).filter (fun x => isNum 8 x.2) = [] := by
  obtain ⟨loc, grid, a, b, c, d⟩ := g
  obtain ⟨h2, h3, -, -, -, -, -⟩ := hg
  simp only [Group.map] at h2 h3
  cases loc with
  | none =>
    cases grid with
    | none => simp [Group.front]
    | some y => have := h3 _ rfl; simp [Group.front, isNum, this]
  | some x =>
    have hx := h2 _ rfl
    cases grid with
    | none => simp [Group.front, isNum, hx]
    | some y => have := h3 _ rfl; simp [Group.front, isNum, this, hx]

theorem Group.sections_eq {α : Type} (g : Group α) : g.sections = Group.front g ++ [g.prod, g.repr, g.bitmap, g.data] :=
  rfl

theorem Group.sections_filter {g : Group P} (hg : GOk g) :
    g.sections.filter (fun x => isNum 2 x.2) = g.loc.toList ∧
      g.sections.filter (fun x => isNum 3 x.2) = g.grid.toList ∧
      g.sections.filter (fun x => isNum 0 x.2) = [] ∧ g.sections.filter (fun x => isNum 8 x.2) = [] := by
  obtain ⟨f2, f3, f0, f8⟩ := Group.front_filter hg
  rw [Group.sections_eq]
  obtain ⟨loc, grid, a, b, c, d⟩ := g
  obtain ⟨h2, h3, h4, h5, h6, h7, -⟩ := hg
  simp only [Group.map] at h2 h3 h4 h5 h6 h7
  refine ⟨?_, ?_, ?_, ?_⟩
  · rw [List.filter_append, f2]; simp [isNum, h4, h5, h6, h7]
  · rw [List.filter_append, f3]; simp [isNum, h4, h5, h6, h7]
  · rw [List.filter_append, f0]; simp [isNum, h4, h5, h6, h7]
  · rw [List.filter_append, f8]; simp [isNum, h4, h5, h6, h7]

theorem groups_filter {gs : List (Group P)} (hg : ∀ g ∈ gs, GOk g) :
    (gs.flatMap Group.sections).filter (fun x => isNum 2 x.2) = (gs.map Group.loc).filterMap id ∧
      (gs.flatMap Group.sections).filter (fun x => isNum 3 x.2) = (gs.map Group.grid).filterMap id ∧
      (gs.flatMap Group.sections).filter (fun x => isNum 0 x.2) = [] ∧
      (gs.flatMap Group.sections).filter (fun x => isNum 8 x.2) = [] := by
  induction gs with
  | nil => simp
  | cons g gs ih =>
    obtain ⟨i2, i3, i0, i8⟩ := ih fun x hx => hg x (List.mem_cons_of_mem _ hx)
    obtain ⟨f2, f3, f0, f8⟩ := Group.sections_filter (hg g (by simp))
    simp only [List.flatMap_cons, List.filter_append, i2, i3, i0, i8, f2, f3, f0, f8, List.map_cons]
    refine ⟨?_, ?_, rfl, rfl⟩
    · cases g.loc <;> simp
    · cases g.grid <;> simp

/-- The sections of a message up to (excluding) the product section of its `k`-th group. -/
def Message.before {α : Type} (m : Message α) (k : Nat) (g : Group α) : List α :=
  m.indicator :: m.ident :: ((m.groups.take k).flatMap Group.sections ++ Group.front g)

theorem Message.split {α : Type} (m : Message α) (k : Nat) (hk : k < m.groups.length) :
    m.sections = Message.before m k m.groups[k] ++ ([m.groups[k].prod, m.groups[k].repr, m.groups[k].bitmap,
      m.groups[k].data] ++ ((m.groups.drop (k + 1)).flatMap Group.sections ++ [m.fin])) := by
  have : m.groups.flatMap Group.sections = (m.groups.take k).flatMap Group.sections ++
      (m.groups[k].sections ++ (m.groups.drop (k + 1)).flatMap Group.sections) := by
    rw [← List.flatMap_cons, ← List.drop_eq_getElem_cons hk, ← List.flatMap_append, List.take_append_drop]
  rw [Message.sections, this, Message.before, Group.sections_eq]
  simp

theorem before_filter {m : Message P} (hm : MOk m) {k : Nat} (hk : k < m.groups.length) :
    ((Message.before m k m.groups[k]).filter fun x => isNum 2 x.2).getLast? =
        mostRecent ((m.groups.take (k + 1)).map Group.loc) ∧
      ((Message.before m k m.groups[k]).filter fun x => isNum 3 x.2).getLast? =
        mostRecent ((m.groups.take (k + 1)).map Group.grid) ∧
      (Message.before m k m.groups[k]).filter (fun x => isNum 0 x.2) = [m.indicator] ∧
      (Message.before m k m.groups[k]).filter (fun x => isNum 8 x.2) = [] := by
  have hg := hm.groupsOk
  obtain ⟨h0, h1, -, -, -⟩ := hm
  simp only [Message.map] at h0 h1
  obtain ⟨g2, g3, g0, g8⟩ := groups_filter (gs := m.groups.take k) fun x hx => hg x (List.mem_of_mem_take hx)
  obtain ⟨f2, f3, f0, f8⟩ := Group.front_filter (hg _ (List.getElem_mem hk))
  have et : m.groups.take (k + 1) = m.groups.take k ++ [m.groups[k]] := by
    rw [List.take_succ_eq_append_getElem hk]
  simp only [Message.before, List.filter_cons, isNum, h0, h1, List.filter_append]
  simp only [isNum] at g2 g3 g0 g8 f2 f3 f0 f8
  simp only [g2, g3, g0, g8, f2, f3, f0, f8, et, List.map_append, List.map_cons, List.map_nil]
  refine ⟨?_, ?_, ?_, ?_⟩
  · simp only [mostRecent, List.filterMap_append]
    cases m.groups[k].loc <;> simp
  · simp only [mostRecent, List.filterMap_append]
    cases m.groups[k].grid <;> simp
  · simp
  · simp

/-- `x` is the submessage of the `k`-th group of message `m` of the file `F`. -/
theorem mem_fileSubs {α : Type} {dummy d : α} {start : Nat} {ms : List (Message α)} {x : Submsg α}
    (h : x ∈ fileSubs dummy d start ms) :
    ∃ pre m post k, ms = pre ++ m :: post ∧ ∃ hk : k < m.groups.length, x =
      { msg := start + pre.length, sub := k,
        sects :=
          { s0 := m.indicator, s1 := m.ident,
            s2 := mostRecent ((m.groups.take (k + 1)).map Group.loc),
            s3 := (mostRecent ((m.groups.take (k + 1)).map Group.grid)).getD d,
            s4 := m.groups[k].prod, s5 := m.groups[k].repr, s6 := m.groups[k].bitmap, s7 := m.groups[k].data,
            s8 := if k + 1 = m.groups.length then m.fin else dummy } } := by
  induction ms generalizing start with
  | nil => simp [fileSubs] at h
  | cons m ms ih =>
    rw [fileSubs, List.mem_append] at h
    rcases h with h | h
    · simp only [Message.subs, List.mem_map, List.mem_range] at h
      obtain ⟨k, hk, rfl⟩ := h
      exact ⟨[], m, ms, k, rfl, hk, by simp [hk]⟩
    · obtain ⟨pre, m', post, k, e, hk, hx⟩ := ih h
      refine ⟨m :: pre, m', post, k, by rw [e]; rfl, hk, ?_⟩
      rw [hx, List.length_cons, show start + 1 + pre.length = start + (pre.length + 1) by omega]

theorem firstGrid_mostRecent {m : Message P} (hm : MOk m) {k : Nat} :
    ∃ p, mostRecent ((m.groups.take (k + 1)).map Group.grid) = some p := by
  have hf := hm.firstGrid
  simp only [Message.map, Group.map, Option.isSome_map] at hf
  obtain ⟨p, hp⟩ := Option.isSome_iff_exists.1 hf
  simp only [Message.groups, List.take_succ_cons, List.map_cons, mostRecent, hp]
  simp only [List.filterMap_cons, id]
  exact ⟨_, List.getLast?_cons⟩

end Grib.Model
