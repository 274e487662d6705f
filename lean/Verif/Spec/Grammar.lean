import Verif.Model.Parser

/-! # Specification: the section grammar of GRIB2 files and the submessages it denotes

Only the data types `SectionInfo`, `Nine`, `Submsg` are shared with the model. -/

namespace Grib.Spec

open Grib.Model

/-- One repetition inside a message: an optional local-use section (2), an optional grid section (3), then the
product (4), representation (5), bitmap (6) and data (7) sections. -/
structure Group (α : Type) where
  loc : Option α
  grid : Option α
  prod : α
  repr : α
  bitmap : α
  data : α
deriving DecidableEq, Repr

/-- A message: indicator (0), identification (1), one or more groups, end (8). -/
structure Message (α : Type) where
  indicator : α
  ident : α
  first : Group α
  rest : List (Group α)
  fin : α
deriving DecidableEq, Repr

variable {α β : Type}

/-- The sections of a group in file order. -/
def Group.sections (g : Group α) : List α :=
  g.loc.toList ++ g.grid.toList ++ [g.prod, g.repr, g.bitmap, g.data]

def Message.groups (m : Message α) : List (Group α) := m.first :: m.rest

/-- The sections of a message in file order. -/
def Message.sections (m : Message α) : List α :=
  m.indicator :: m.ident :: (m.groups.flatMap Group.sections ++ [m.fin])

/-- Section numbers are as they should be, and a local-use section is directly followed by a grid section. -/
structure Group.Ok (g : Group SectionInfo) : Prop where
  loc : ∀ s ∈ g.loc, s.num = 2
  grid : ∀ s ∈ g.grid, s.num = 3
  prod : g.prod.num = 4
  repr : g.repr.num = 5
  bitmap : g.bitmap.num = 6
  data : g.data.num = 7
  locGrid : g.loc.isSome → g.grid.isSome

/-- A well-ordered message: the first group has a grid section. -/
structure Message.Ok (m : Message SectionInfo) : Prop where
  indicator : m.indicator.num = 0
  ident : m.ident.num = 1
  groups : ∀ g ∈ m.groups, g.Ok
  firstGrid : m.first.grid.isSome
  fin : m.fin.num = 8

/-- The language of well-ordered section sequences. -/
def Accepted (sects : List SectionInfo) : Prop :=
  ∃ ms : List (Message SectionInfo), (∀ m ∈ ms, m.Ok) ∧ sects = ms.flatMap Message.sections

/-- The most recent element present in a list of optional elements. -/
def mostRecent (xs : List (Option α)) : Option α :=
  (xs.filterMap id).getLast?

/-- The submessages of a message, `dummy` standing for the missing end section of all but the last.
`d` is only used for a grid section that is nowhere to be found (impossible in an `Ok` message). -/
def Message.subs (m : Message α) (dummy d : α) (msg : Nat) : List (Submsg α) :=
  (List.range m.groups.length).map fun k =>
    let upto := m.groups.take (k + 1)
    let g := m.groups.getD k m.first
    { msg := msg, sub := k,
      sects :=
        { s0 := m.indicator, s1 := m.ident,
          s2 := mostRecent (upto.map Group.loc),
          s3 := (mostRecent (upto.map Group.grid)).getD d,
          s4 := g.prod, s5 := g.repr, s6 := g.bitmap, s7 := g.data,
          s8 := if k + 1 = m.groups.length then m.fin else dummy } }

/-- The submessages of a file: messages numbered from `start`. -/
def fileSubs (dummy d : α) (start : Nat) : List (Message α) → List (Submsg α)
  | [] => []
  | m :: ms => m.subs dummy d start ++ fileSubs dummy d (start + 1) ms

def Group.map (f : α → β) (g : Group α) : Group β :=
  ⟨g.loc.map f, g.grid.map f, f g.prod, f g.repr, f g.bitmap, f g.data⟩

def Message.map (f : α → β) (m : Message α) : Message β :=
  ⟨f m.indicator, f m.ident, m.first.map f, m.rest.map (Group.map f), f m.fin⟩

/-- A section sequence that some continuation completes to a well-ordered one. -/
def Viable (sects : List SectionInfo) : Prop := ∃ ext, Accepted (sects ++ ext)

/-- Section `k` is a product definition that follows the identification section directly: its grid is missing. -/
def GridMissing (sects : List SectionInfo) (k : Nat) : Prop :=
  1 ≤ k ∧ (sects[k - 1]?).map (·.num) = some 1 ∧ (sects[k]?).map (·.num) = some 4

/-- `e` is the error about section `k`: a missing grid, or a section out of order. -/
def OrderError (sects : List SectionInfo) (k : Nat) (e : ParseError) : Prop :=
  (e = .invalidSectionOrder k ∧ ¬ GridMissing sects k) ∨ (e = .noGridDefinition k ∧ GridMissing sects k)

/-- A group with its sections paired with their positions, the first being at `i`. -/
def Group.number (i : Nat) (g : Group α) : Group (Nat × α) :=
  let j := i + g.loc.toList.length
  let k := j + g.grid.toList.length
  ⟨g.loc.map (i, ·), g.grid.map (j, ·), (k, g.prod), (k + 1, g.repr), (k + 2, g.bitmap), (k + 3, g.data)⟩

def numberGroups : (i : Nat) → List (Group α) → List (Group (Nat × α))
  | _, [] => []
  | i, g :: gs => g.number i :: numberGroups (i + g.sections.length) gs

def Message.number (i : Nat) (m : Message α) : Message (Nat × α) :=
  ⟨(i, m.indicator), (i + 1, m.ident), m.first.number (i + 2), numberGroups (i + 2 + m.first.sections.length) m.rest,
    (i + 2 + (m.groups.flatMap Group.sections).length, m.fin)⟩

/-- The messages of a file with each section paired with its position in the file's section list. -/
def numberMessages : (i : Nat) → List (Message α) → List (Message (Nat × α))
  | _, [] => []
  | i, m :: ms => m.number i :: numberMessages (i + m.sections.length) ms

end Grib.Spec
