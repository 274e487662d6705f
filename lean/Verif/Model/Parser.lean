import Verif.Model.Reader

/-! # Model of `src/parser.rs`: the section-order validator and the two submessage streams

The section stream given to a parser is a finite list of items (`Item`: a section, an error or a panic when pulled);
after the last item the stream is at its end.  Nothing is pulled after the first error (proved: the validator stops). -/

namespace Grib.Model

/-- `Grib2SubmessageValidatorState` (src/parser.rs:519-524). -/
inductive VState where
  | startOfMessage
  | startOfSubmessage
  | endOfSect (n : Nat)
  | endOfStream
deriving DecidableEq, Repr

/-- `Grib2SubmessageValidator` (src/parser.rs:305-315).  `items` and `idx` model `Peekable<Enumerate<I>>`: the items
not yet consumed and the index of the first of them. -/
structure Validator where
  items : List Item
  idx : Nat := 0
  pos : Nat := 0
  messageCount : Nat := 0
  submessageCount : Nat := 0
  state : VState := .startOfMessage
  hasSect3 : Bool := false
deriving DecidableEq, Repr

/-- `Grib2SubmessageValidator::new` (src/parser.rs:321-330). -/
def Validator.new (items : List Item) : Validator := { items := items }

/-- What the validator yields: `(pos, message_count, submessage_count, section)`. -/
structure VItem where
  pos : Nat
  msg : Nat
  sub : Nat
  sect : SectionInfo
deriving DecidableEq, Repr

/-- Result of a call of `next`: `ok none` is `None`, `ok (some x)` is `Some(Ok(x))`, `err e` is `Some(Err(e))`. -/
abbrev VStep := Outcome ParseError (Option VItem) × Validator

/-- The section is yielded with the current counters. -/
def Validator.yield (v : Validator) (s : SectionInfo) : VStep :=
  (.ok (some ⟨v.pos, v.messageCount, v.submessageCount, s⟩), v)

/-- `new_unexpected_end_of_data_err` (src/parser.rs:339-344). -/
def Validator.unexpectedEnd (v : Validator) : VStep :=
  (.err (.unexpectedEndOfData v.pos), { v with state := .endOfStream })

/-- `new_invalid_section_order_err` (src/parser.rs:346-351). -/
def Validator.invalidOrder (v : Validator) : VStep :=
  (.err (.invalidSectionOrder v.pos), { v with state := .endOfStream })

/-- `new_no_grid_definition_err` (src/parser.rs:353-358). -/
def Validator.noGrid (v : Validator) : VStep :=
  (.err (.noGridDefinition v.pos), { v with state := .endOfStream })

/-- `wrap_parse_err` (src/parser.rs:360-366). -/
def Validator.wrapErr (v : Validator) (e : ParseError) : VStep :=
  (.err e, { v with state := .endOfStream })

/-- Consume the first item of the underlying enumerated iterator. -/
def Validator.advance (v : Validator) : Validator :=
  { v with items := v.items.tail, idx := v.idx + 1 }

/-- `ensure_next_is_sect0` (src/parser.rs:373-389): the end of the stream here is a regular end. -/
def Validator.ensureSect0 (v : Validator) : VStep :=
  match v.items with
  | [] => (.ok none, v)
  | .panic :: _ => (.panic, v)
  | .err e :: _ => v.advance.wrapErr e
  | .ok s :: _ =>
    let v := { v.advance with pos := v.idx }
    if s.num = 0 then { v with state := .endOfSect 0 }.yield s
    else v.invalidOrder

/-- `ensure_next_is_sect_2_or_3_or_4` (src/parser.rs:391-423). -/
def Validator.ensureSect234 (v : Validator) : VStep :=
  match v.items with
  | [] => v.unexpectedEnd
  | .panic :: _ => (.panic, v)
  | .err e :: _ => v.advance.wrapErr e
  | .ok s :: _ =>
    let v := { v.advance with pos := v.idx }
    if s.num = 2 then { v with state := .endOfSect 2 }.yield s
    else if s.num = 3 then { v with state := .endOfSect 3, hasSect3 := true }.yield s
    else if s.num = 4 then
      if v.hasSect3 then { v with state := .endOfSect 4 }.yield s else v.noGrid
    else v.invalidOrder

/-- `ensure_next_is_sect8` (src/parser.rs:425-469): peeks; a section 8 is consumed and closes the message
(`reinitialize_message`, lines 332-337), any other section stays unconsumed and a dummy section 8 with position 0 is
yielded. -/
def Validator.ensureSect8 (v : Validator) : VStep :=
  match v.items with
  | [] => v.unexpectedEnd
  | .panic :: _ => (.panic, v)
  | .err e :: _ => v.advance.wrapErr e
  | .ok s :: _ =>
    if s.num = 8 then
      let v := { v.advance with pos := v.idx }
      (.ok (some ⟨v.pos, v.messageCount, v.submessageCount, s⟩),
        { v with messageCount := v.messageCount + 1, submessageCount := 0, state := .startOfMessage,
                 hasSect3 := false })
    else
      (.ok (some ⟨0, v.messageCount, v.submessageCount, SectionInfo.new8 0⟩),
        { v with submessageCount := v.submessageCount + 1, state := .startOfSubmessage })

/-- `ensure_next_is_sect_num` (src/parser.rs:471-488). -/
def Validator.ensureSectNum (v : Validator) (num : Nat) : VStep :=
  match v.items with
  | [] => v.unexpectedEnd
  | .panic :: _ => (.panic, v)
  | .err e :: _ => v.advance.wrapErr e
  | .ok s :: _ =>
    let v := { v.advance with pos := v.idx, state := .endOfSect num }
    if s.num = num then v.yield s else v.invalidOrder

/-- `Iterator::next` of the validator (src/parser.rs:497-516). -/
def Validator.next (v : Validator) : VStep :=
  match v.state with
  | .endOfStream => (.ok none, v)
  | .startOfMessage => v.ensureSect0
  | .endOfSect 0 => v.ensureSectNum 1
  | .endOfSect 1 => v.ensureSect234
  | .startOfSubmessage => v.ensureSect234
  | .endOfSect 2 => { v with hasSect3 := true }.ensureSectNum 3
  | .endOfSect 3 => v.ensureSectNum 4
  | .endOfSect 4 => v.ensureSectNum 5
  | .endOfSect 5 => v.ensureSectNum 6
  | .endOfSect 6 => v.ensureSectNum 7
  | .endOfSect 7 => v.ensureSect8
  | .endOfSect _ => (.panic, v)

/-- The nine section references of a submessage: `Submessage` (src/parser.rs:5-15) for `α = SectionInfo`,
`Grib2SubmessageIndex` (src/datatypes.rs:8-19) for `α = Nat`. -/
structure Nine (α : Type) where
  s0 : α
  s1 : α
  s2 : Option α
  s3 : α
  s4 : α
  s5 : α
  s6 : α
  s7 : α
  s8 : α
deriving DecidableEq, Repr

/-- A submessage with its `(message, submessage)` index. -/
structure Submsg (α : Type) where
  msg : Nat
  sub : Nat
  sects : Nine α
deriving DecidableEq, Repr

/-- `Grib2SubmessageStream` (src/parser.rs:69-78). -/
structure SubStream where
  iter : Validator
  sect0 : SectionInfo := .default
  sect1 : SectionInfo := .default
  sect2 : Option SectionInfo := none
  sect3 : SectionInfo := .default
deriving DecidableEq, Repr

/-- `Grib2SubmessageStream::new` (src/parser.rs:100-108). -/
def SubStream.new (items : List Item) : SubStream := { iter := .new items }

/-- `Grib2SubmessageStream::clear_message_cache` (src/parser.rs:110-115). -/
def SubStream.clear (s : SubStream) : SubStream :=
  { s with sect0 := .default, sect1 := .default, sect2 := none, sect3 := .default }

/-- The `loop` of `Grib2SubmessageStream::next` (src/parser.rs:129-182) with its local variables `sect4`..`sect7`.
`fuel` bounds the number of iterations (each consumes an item or ends the loop); running out of it is `panic`. -/
def SubStream.loop : (fuel : Nat) → SubStream → (s4 s5 s6 s7 : SectionInfo) →
    Outcome ParseError (Option (Submsg SectionInfo)) × SubStream
  | 0, st, _, _, _, _ => (.panic, st)
  | fuel + 1, st, s4, s5, s6, s7 =>
    match st.iter.next with
    | (.ok none, v) => (.ok none, { st with iter := v })
    | (.err e, v) => (.err e, { st with iter := v })
    | (.panic, v) => (.panic, { st with iter := v })
    | (.ok (some x), v) =>
      let st := { st with iter := v }
      match x.sect.num with
      | 0 => SubStream.loop fuel { st with sect0 := x.sect } s4 s5 s6 s7
      | 1 => SubStream.loop fuel { st with sect1 := x.sect } s4 s5 s6 s7
      | 2 => SubStream.loop fuel { st with sect2 := some x.sect } s4 s5 s6 s7
      | 3 => SubStream.loop fuel { st with sect3 := x.sect } s4 s5 s6 s7
      | 4 => SubStream.loop fuel st x.sect s5 s6 s7
      | 5 => SubStream.loop fuel st s4 x.sect s6 s7
      | 6 => SubStream.loop fuel st s4 s5 x.sect s7
      | 7 => SubStream.loop fuel st s4 s5 s6 x.sect
      | 8 =>
        let ret : Submsg SectionInfo :=
          ⟨x.msg, x.sub, ⟨st.sect0, st.sect1, st.sect2, st.sect3, s4, s5, s6, s7, x.sect⟩⟩
        (.ok (some ret), if x.pos ≠ 0 then st.clear else st)
      | _ => (.panic, st)

/-- `Iterator::next` of `Grib2SubmessageStream` (src/parser.rs:124-183). -/
def SubStream.next (st : SubStream) : Outcome ParseError (Option (Submsg SectionInfo)) × SubStream :=
  SubStream.loop (st.iter.items.length + 2) st .default .default .default .default

/-- `Grib2SubmessageIndexStream` (src/parser.rs:186-196) with its section cacher. -/
structure IdxStream where
  iter : Validator
  cache : List SectionInfo := []
  sect0 : Nat := 0
  sect1 : Nat := 0
  sect2 : Option Nat := none
  sect3 : Nat := 0
deriving DecidableEq, Repr

/-- `Grib2SubmessageIndexStream::new(..).with_cacher(..)` (src/parser.rs:202-216). -/
def IdxStream.new (items : List Item) : IdxStream := { iter := .new items }

/-- `cache_sect` (src/parser.rs:218-222). -/
def IdxStream.push (s : IdxStream) (sect : SectionInfo) : IdxStream := { s with cache := s.cache ++ [sect] }

/-- `clear_message_cache` (src/parser.rs:224-229). -/
def IdxStream.clear (s : IdxStream) : IdxStream :=
  { s with sect0 := 0, sect1 := 0, sect2 := none, sect3 := 0 }

/-- The `loop` of `Grib2SubmessageIndexStream::next` (src/parser.rs:243-302); see `SubStream.loop`. -/
def IdxStream.loop : (fuel : Nat) → IdxStream → (s4 s5 s6 s7 : Nat) →
    Outcome ParseError (Option (Submsg Nat)) × IdxStream
  | 0, st, _, _, _, _ => (.panic, st)
  | fuel + 1, st, s4, s5, s6, s7 =>
    match st.iter.next with
    | (.ok none, v) => (.ok none, { st with iter := v })
    | (.err e, v) => (.err e, { st with iter := v })
    | (.panic, v) => (.panic, { st with iter := v })
    | (.ok (some x), v) =>
      let st := { st with iter := v }
      match x.sect.num with
      | 0 => IdxStream.loop fuel { st.push x.sect with sect0 := x.pos } s4 s5 s6 s7
      | 1 => IdxStream.loop fuel { st.push x.sect with sect1 := x.pos } s4 s5 s6 s7
      | 2 => IdxStream.loop fuel { st.push x.sect with sect2 := some x.pos } s4 s5 s6 s7
      | 3 => IdxStream.loop fuel { st.push x.sect with sect3 := x.pos } s4 s5 s6 s7
      | 4 => IdxStream.loop fuel (st.push x.sect) x.pos s5 s6 s7
      | 5 => IdxStream.loop fuel (st.push x.sect) s4 x.pos s6 s7
      | 6 => IdxStream.loop fuel (st.push x.sect) s4 s5 x.pos s7
      | 7 => IdxStream.loop fuel (st.push x.sect) s4 s5 s6 x.pos
      | 8 =>
        let ret : Submsg Nat :=
          ⟨x.msg, x.sub, ⟨st.sect0, st.sect1, st.sect2, st.sect3, s4, s5, s6, s7, x.pos⟩⟩
        (.ok (some ret), if x.pos ≠ 0 then (st.push x.sect).clear else st)
      | _ => (.panic, st)

/-- `Iterator::next` of `Grib2SubmessageIndexStream` (src/parser.rs:238-303). -/
def IdxStream.next (st : IdxStream) : Outcome ParseError (Option (Submsg Nat)) × IdxStream :=
  IdxStream.loop (st.iter.items.length + 2) st 0 0 0 0

/-- The items of the by-value stream up to and including the first error or panic, and the stream reached. -/
def SubStream.collectN : (fuel : Nat) → SubStream → List (Outcome ParseError (Submsg SectionInfo)) × SubStream
  | 0, s => ([.panic], s)
  | fuel + 1, s =>
    match s.next with
    | (.ok none, s') => ([], s')
    | (.ok (some x), s') =>
      let (xs, s'') := SubStream.collectN fuel s'
      (.ok x :: xs, s'')
    | (.err e, s') => ([.err e], s')
    | (.panic, s') => ([.panic], s')

/-- The items of the index stream up to and including the first error or panic, and the stream reached. -/
def IdxStream.collectN : (fuel : Nat) → IdxStream → List (Outcome ParseError (Submsg Nat)) × IdxStream
  | 0, s => ([.panic], s)
  | fuel + 1, s =>
    match s.next with
    | (.ok none, s') => ([], s')
    | (.ok (some x), s') =>
      let (xs, s'') := IdxStream.collectN fuel s'
      (.ok x :: xs, s'')
    | (.err e, s') => ([.err e], s')
    | (.panic, s') => ([.panic], s')

/-- All items of the by-value stream over a section list. -/
def subStreamItems (items : List Item) : List (Outcome ParseError (Submsg SectionInfo)) :=
  (SubStream.collectN (items.length + 2) (SubStream.new items)).1

/-- All items of the index stream over a section list, and the recorded sections. -/
def idxStreamItems (items : List Item) : List (Outcome ParseError (Submsg Nat)) × List SectionInfo :=
  let (xs, s) := IdxStream.collectN (items.length + 2) (IdxStream.new items)
  (xs, s.cache)

/-- `collect::<Result<Vec<_>, _>>()`: all values, or the first error (or panic). -/
def collectResult {ε α : Type} : List (Outcome ε α) → Outcome ε (List α)
  | [] => .ok []
  | .ok x :: xs => do
    let rest ← collectResult xs
    pure (x :: rest)
  | .err e :: _ => .err e
  | .panic :: _ => .panic

end Grib.Model
