import Verif.Model.Parser
import Verif.Model.Headers

/-! # Model of `src/context.rs`: opening data, listing submessages and templates, section accessors -/

namespace Grib.Model

/-- `Grib2` (src/context.rs:138-142). -/
structure Grib2 where
  reader : Rdr
  sections : List SectionInfo
  submessages : List (Submsg Nat)
deriving DecidableEq, Repr

/-- `Grib2::read` (src/context.rs:238-248), reached through `from_reader` (src/context.rs:104-108).
Simplification: the code pulls sections lazily, the model collects the section stream (up to its first error or panic)
first; the index stream stops at the first error, so it never sees anything behind one, and on success it has pulled
everything.  `GribError::ParseError` wrapping is omitted. -/
def Grib2.read (r : Rdr) : Outcome ParseError Grib2 :=
  let (items, s) := (SectStream.new r).collect
  let (subs, cache) := idxStreamItems items
  match collectResult subs with
  | .ok subs => .ok ⟨s.reader, cache, subs⟩
  | .err e => .err e
  | .panic => .panic

/-- `Grib2::len` (src/context.rs:161-163). -/
def Grib2.len (g : Grib2) : Nat := g.submessages.length

/-! ## Submessages -/

/-- `SubMessageSection` (src/context.rs:685-693): index and section. -/
abbrev SubMessageSection := Nat × SectionInfo

/-- `SubMessage` (src/context.rs:352-363) without its `RefMut` of the reader, which `SubIter.next` accounts for. -/
abbrev SubMessage := Nine SubMessageSection

/-- `SubmessageIterator` (src/context.rs:285-288). -/
structure SubIter where
  context : Grib2
  pos : Nat
deriving DecidableEq, Repr

/-- `SubmessageIterator::new`, `Grib2::iter` (src/context.rs:197-206, 291-293). -/
def Grib2.iter (g : Grib2) : SubIter := ⟨g, 0⟩

/-- `SubmessageIterator::new_submessage_section` (src/context.rs:295-300). -/
def Grib2.newSubmessageSection (g : Grib2) (i : Nat) : Option SubMessageSection := g.sections[i]?.map (i, ·)

/-- The tuple built by `SubmessageIterator::next` (src/context.rs:310-325): a section index out of range makes it `None`,
except for section 2, which is then absent. -/
def Grib2.newSubmessage (g : Grib2) (x : Nine Nat) : Option SubMessage := do
  let s0 ← g.newSubmessageSection x.s0
  let s1 ← g.newSubmessageSection x.s1
  let s2 := x.s2.bind g.newSubmessageSection
  let s3 ← g.newSubmessageSection x.s3
  let s4 ← g.newSubmessageSection x.s4
  let s5 ← g.newSubmessageSection x.s5
  let s6 ← g.newSubmessageSection x.s6
  let s7 ← g.newSubmessageSection x.s7
  let s8 ← g.newSubmessageSection x.s8
  pure ⟨s0, s1, s2, s3, s4, s5, s6, s7, s8⟩

/-- `SubmessageIterator::next` (src/context.rs:306-327).  `live` says whether a `SubMessage` of the same `Grib2` is still
alive: each of them holds the reader's `RefMut`, so that `borrow_mut` panics. -/
def SubIter.next (live : Bool) (it : SubIter) : Outcome Empty (Option ((Nat × Nat) × SubMessage)) × SubIter :=
  match it.context.submessages[it.pos]? with
  | none => (.ok none, it)
  | some x =>
    let it' := { it with pos := it.pos + 1 }
    match it.context.newSubmessage x.sects with
    | none => (.ok none, it')
    | some sub => if live then (.panic, it') else (.ok (some ((x.msg, x.sub), sub)), it')

/-- `SubmessageIterator::size_hint` (src/context.rs:329-332): both bounds are the same number.
`len() - pos` underflows (panic) when `pos` is beyond the end. -/
def SubIter.sizeHint (it : SubIter) : Outcome Empty Nat :=
  if it.context.submessages.length < it.pos then .panic else .ok (it.context.submessages.length - it.pos)

/-- `SubmessageIterator::nth` (src/context.rs:334-337). -/
def SubIter.nth (live : Bool) (it : SubIter) (n : Nat) : Outcome Empty (Option ((Nat × Nat) × SubMessage)) × SubIter :=
  SubIter.next live { it with pos := n }

/-- A `for` loop over an iterator: every submessage is dropped before the next one is asked for.  `fuel` bounds the
number of calls. -/
def SubIter.drain : (fuel : Nat) → SubIter → List ((Nat × Nat) × SubMessage)
  | 0, _ => []
  | fuel + 1, it =>
    match it.next false with
    | (.ok (some x), it') => x :: SubIter.drain fuel it'
    | _ => []

/-! ## Accessors of a submessage -/

/-- `SubMessage::indicator` (src/context.rs:436-442). -/
def SubMessage.indicator {ε : Type} (m : SubMessage) : Outcome ε Indicator :=
  match m.s0.2.body with
  | some (.section0 data) => .ok data
  | _ => .panic

/-- `SubMessage::identification` (src/context.rs:444-450). -/
def SubMessage.identification {ε : Type} (m : SubMessage) : Outcome ε Identification :=
  match m.s1.2.body with
  | some (.section1 data) => .ok ⟨data⟩
  | _ => .panic

/-- `SubMessage::grid_def` (src/context.rs:452-458). -/
def SubMessage.gridDef {ε : Type} (m : SubMessage) : Outcome ε GridDefinition :=
  match m.s3.2.body with
  | some (.section3 data) => .ok ⟨data⟩
  | _ => .panic

/-- `SubMessage::prod_def` (src/context.rs:460-466). -/
def SubMessage.prodDef {ε : Type} (m : SubMessage) : Outcome ε ProdDefinition :=
  match m.s4.2.body with
  | some (.section4 data) => .ok ⟨data⟩
  | _ => .panic

/-- `SubMessage::repr_def` (src/context.rs:468-474). -/
def SubMessage.reprDef {ε : Type} (m : SubMessage) : Outcome ε ReprDefinition :=
  match m.s5.2.body with
  | some (.section5 data) => .ok ⟨data⟩
  | _ => .panic

/-- `SubMessage::parameter` (src/context.rs:417-434). -/
def SubMessage.parameter {ε : Type} (m : SubMessage) : Outcome ε (Option Parameter) := do
  let ind ← m.indicator
  let ident ← m.identification
  let centre ← ident.centreId
  let masterVer ← ident.masterTableVersion
  let localVer ← ident.localTableVersion
  let prod ← m.prodDef
  match ← prod.parameterCategory with
  | none => .ok none
  | some category =>
    match ← prod.parameterNumber with
    | none => .ok none
    | some num => .ok (some ⟨ind.discipline, centre, masterVer, localVer, category, num⟩)

/-! ## Templates -/

/-- `SectionBody::get_tmpl_num` (src/context.rs:57-64). -/
def SectionBody.getTmplNum {ε : Type} : SectionBody → Outcome ε (Option Nat)
  | .section3 p => do .ok (some (← (GridDefinition.mk p).gridTmplNum))
  | .section4 p => do .ok (some (← (ProdDefinition.mk p).prodTmplNum))
  | .section5 p => do .ok (some (← (ReprDefinition.mk p).reprTmplNum))
  | _ => .ok none

/-- `SectionInfo::get_tmpl_code` (src/context.rs:29-32): `TemplateInfo` is a pair. -/
def SectionInfo.getTmplCode {ε : Type} (s : SectionInfo) : Outcome ε (Option (Nat × Nat)) :=
  match s.body with
  | none => .ok none
  | some b => do
    match ← b.getTmplNum with
    | none => .ok none
    | some n => .ok (some (s.num, n))

/-- The derived order of `TemplateInfo` (src/context.rs:67-68): lexicographic. -/
def TemplateInfo.le (a b : Nat × Nat) : Bool := decide (a.1 < b.1 ∨ (a.1 = b.1 ∧ a.2 ≤ b.2))

/-- All template codes of a list of sections, in order (the `filter_map` of `get_templates`). -/
def tmplCodes {ε : Type} : List SectionInfo → Outcome ε (List (Nat × Nat))
  | [] => .ok []
  | s :: ss => do
    match ← s.getTmplCode with
    | none => tmplCodes ss
    | some c => do .ok (c :: (← tmplCodes ss))

/-- `get_templates` (src/context.rs:271-276).  The iteration order of the `HashSet` is any order of the distinct codes;
`perm` is the reordering it makes of them. -/
def getTemplates {ε : Type} (perm : List (Nat × Nat) → List (Nat × Nat)) (sects : List SectionInfo) :
    Outcome ε (List (Nat × Nat)) := do
  let codes ← tmplCodes sects
  .ok ((perm codes.eraseDups).mergeSort TemplateInfo.le)

/-- `Grib2::list_templates` (src/context.rs:257-259). -/
def Grib2.listTemplates {ε : Type} (perm : List (Nat × Nat) → List (Nat × Nat)) (g : Grib2) :
    Outcome ε (List (Nat × Nat)) := getTemplates perm g.sections

end Grib.Model
