import Verif.Model.Context

/-! # A program that uses iterators over submessages (src/context.rs:197-350) -/

namespace Grib.Model

/-! ## Model: a program using opened data -/

/-- What a program can do with opened data.  Iterators are named by the order in which they were made. -/
inductive IterOp where
  /-- `Grib2::iter`, `Grib2::submessages`, `into_iter` (src/context.rs:197-206, 262-269) -/
  | iter
  /-- `Clone` of `SubmessageIterator` and its `into_iter` (src/context.rs:284, 340-350) -/
  | copy (i : Nat)
  | next (i : Nat)
  | nth (i n : Nat)
  | sizeHint (i : Nat)
  /-- drops the submessage that the program keeps -/
  | drop
deriving DecidableEq, Repr

/-- What the program observes. -/
inductive IterRes where
  | done
  | noSuchIterator
  | item (x : Option ((Nat × Nat) × SubMessage))
  | hint (n : Nat)
  | panic
deriving DecidableEq, Repr

/-- The program's state: its iterators, and whether it keeps a submessage.  It never keeps more than one: asking for
another one panics (`RefCell::borrow_mut`, src/context.rs:323). -/
structure Session where
  context : Grib2
  iters : List SubIter
  kept : Bool

/-- The state after a call of `next` or `nth` on iterator `i`.  A submessage that is returned is kept (until `drop`). -/
def Session.called (s : Session) (i : Nat) (r : Outcome Empty (Option ((Nat × Nat) × SubMessage)) × SubIter) :
    IterRes × Session :=
  match r with
  | (.ok none, it) => (.item none, { s with iters := s.iters.set i it })
  | (.ok (some x), it) => (.item (some x), { s with iters := s.iters.set i it, kept := true })
  | (.err e, _) => nomatch e
  | (.panic, it) => (.panic, { s with iters := s.iters.set i it })

/-- One operation (src/context.rs:197-206, 262-269, 284-350).  The program goes on after a panic (as with
`catch_unwind`). -/
def Session.step (s : Session) : IterOp → IterRes × Session
  | .iter => (.done, { s with iters := s.iters ++ [s.context.iter] })
  | .copy i =>
    match s.iters[i]? with
    | none => (.noSuchIterator, s)
    | some it => (.done, { s with iters := s.iters ++ [it] })
  | .next i =>
    match s.iters[i]? with
    | none => (.noSuchIterator, s)
    | some it => s.called i (it.next s.kept)
  | .nth i n =>
    match s.iters[i]? with
    | none => (.noSuchIterator, s)
    | some it => s.called i (it.nth s.kept n)
  | .sizeHint i =>
    match s.iters[i]? with
    | none => (.noSuchIterator, s)
    | some it =>
      match it.sizeHint with
      | .ok n => (.hint n, s)
      | _ => (.panic, s)
  | .drop => (.done, { s with kept := false })

/-- A whole program: what it observes, and its last state. -/
def Session.run (s : Session) : List IterOp → List IterRes × Session
  | [] => ([], s)
  | op :: ops =>
    let (r, s') := s.step op
    let (rs, s'') := s'.run ops
    (r :: rs, s'')

/-- The program starts with opened data and nothing else. -/
def Grib2.session (g : Grib2) : Session := ⟨g, [], false⟩

end Grib.Model
