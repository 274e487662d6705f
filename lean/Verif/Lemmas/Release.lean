import Verif.Model.Release
import Verif.Lemmas.ReaderPost
import Verif.Lemmas.ReaderWalk
import Verif.Lemmas.ParserSpec
import Verif.Lemmas.Truncate

/-! # Release builds: reading and opening -/

namespace Grib.Model.Rel

open Grib.Model Grib.Spec

theorem usub_le {a b : Nat} (h : b ≤ a) : usub a b = a - b := if_pos h

theorem allocReadExact_small {n : Nat} (h : n < 2 ^ 63) : allocReadExact n = rdReadExact n := if_neg (by omega)

theorem allocReadExact_big {n : Nat} (h : 2 ^ 63 ≤ n) : allocReadExact n = RM.panic := if_pos h

theorem usub_short {size : Nat} (h : size < 5) : usub size 5 = size + USIZE - 5 := if_neg (by omega)

theorem readSect6Payload_eq {n : Nat} (h : n < 2 ^ 63) (h1 : 1 ≤ n) : readSect6Payload n = Model.readSect6Payload n := by
  unfold readSect6Payload Model.readSect6Payload
  simp only [usub_le h1, allocReadExact_small (show n - 1 < 2 ^ 63 by omega)]
  congr 1
  funext buf
  exact (if_neg (by omega : ¬ n < 1)).symm

theorem readSect6Payload_zero : readSect6Payload 0 = Model.readSect6Payload 0 := by
  unfold readSect6Payload Model.readSect6Payload
  have h : usub 0 1 = USIZE - 1 := rfl
  simp only [h, allocReadExact_big (show 2 ^ 63 ≤ USIZE - 1 by unfold USIZE; omega)]
  congr 1

theorem readSectPayload_eq {size num : Nat} (h : size < 2 ^ 63) (h5 : 5 ≤ size) :
    readSectPayload size num = Model.readSectPayload size num := by
  unfold readSectPayload Model.readSectPayload
  rw [if_neg (by omega)]
  simp only [usub_le h5, allocReadExact_small (show size - 5 < 2 ^ 63 by omega)]
  match num with
  | 0 | 1 | 2 | 3 | 4 | 5 => rfl
  | 6 =>
    by_cases h6 : size = 5
    · subst h6; exact readSect6Payload_zero
    · exact readSect6Payload_eq (by omega) (by omega)
  | 7 =>
    unfold skipSect7Payload asI64
    rw [if_pos (by omega)]
    rfl
  | n + 8 => rfl

theorem readSect6Payload_big {n : Nat} (h : 2 ^ 63 ≤ usub n 1) (r : Rdr) :
    (readSect6Payload n r).1 = .panic ∨ ∃ e, (readSect6Payload n r).1 = .err e := by
  unfold readSect6Payload
  simp only [allocReadExact_big h]
  rw [RM.bind_apply]
  split
  · left
    rw [if_pos (show usub n 1 > 0 by omega)]
    rfl
  · exact Or.inr ⟨_, rfl⟩
  · exact Or.inl rfl

/-- Outcomes for a size that makes no sense. -/
theorem readSectPayload_short {size num : Nat} (h : size < 5) (r : Rdr) :
    (1 ≤ num ∧ num ≤ 6 ∧ ((readSectPayload size num r).1 = .panic ∨ ∃ e, (readSectPayload size num r).1 = .err e)) ∨
    (num = 7 ∧ (readSectPayload size num r).2.data = r.data ∧
      (((readSectPayload size num r).1 = .ok .section7 ∧ ((readSectPayload size num r).2.pos : Int) = r.pos + size - 5) ∨
        ∃ e, (readSectPayload size num r).1 = .err e)) ∨
    (readSectPayload size num r).1 = .err (.unknownSectionNumber num) := by
  have hu := usub_short h
  have hb : allocReadExact (usub size 5) = RM.panic := allocReadExact_big (by rw [hu]; unfold USIZE; omega)
  unfold readSectPayload
  simp only [hb]
  split
  · exact Or.inl ⟨by omega, by omega, Or.inl rfl⟩
  · exact Or.inl ⟨by omega, by omega, Or.inl rfl⟩
  · exact Or.inl ⟨by omega, by omega, Or.inl rfl⟩
  · exact Or.inl ⟨by omega, by omega, Or.inl rfl⟩
  · exact Or.inl ⟨by omega, by omega, Or.inl rfl⟩
  · refine Or.inl ⟨by omega, by omega, ?_⟩
    exact readSect6Payload_big (by rw [hu]; unfold USIZE usub; split <;> omega) r
  · refine Or.inr (Or.inl ⟨rfl, ?_⟩)
    unfold skipSect7Payload asI64
    rw [hu, if_neg (by unfold USIZE; omega)]
    have e : ((size + USIZE - 5 : Nat) : Int) - (USIZE : Int) = (size : Int) - 5 := by unfold USIZE; omega
    rw [e, RM.bind_apply]
    have hd := (rdSeekCur_honest ((size : Int) - 5) r).1
    rcases hc : rdSeekCur ((size : Int) - 5) r with ⟨o, r1⟩
    rw [hc] at hd
    cases o with
    | ok u =>
      obtain ⟨h1, h2⟩ := rdSeekCur_ok hc
      refine ⟨hd, Or.inl ⟨rfl, ?_⟩⟩
      show (r1.pos : Int) = _
      omega
    | err e => exact ⟨hd, Or.inr ⟨e, rfl⟩⟩
    | panic => exact absurd hc (rdSeekCur_noPanic _ _ _)
  · exact Or.inr (Or.inr rfl)

/-! ## `next` as a monadic program -/

def nextQ0 (w : Nat) : RM (Option (SectionInfo × Nat × Nat)) := do
  let w1 ← startR w
  let x ← readSect0
  match x with
  | none => pure none
  | some (offset, ind) =>
    pure (some (⟨0, uadd w1 offset, 16, some (.section0 ind)⟩, uadd (uadd w1 offset) ind.totalLength, usub ind.totalLength 16))

def nextQ8 (w rest : Nat) : RM (Option (SectionInfo × Nat × Nat)) := do
  let x ← readSect8
  match x with
  | none => pure none
  | some () => pure (some (⟨8, usub w rest, 4, none⟩, w, usub rest 4))

def nextQS (w rest : Nat) : RM (Option (SectionInfo × Nat × Nat)) := do
  let x ← readSectHeader
  match x with
  | none => pure none
  | some (size, num) => do
    let body ← readSectPayload size num
    pure (some (⟨num, usub w rest, size, some body⟩, w, usub rest size))

def nextQ (w rest : Nat) : RM (Option (SectionInfo × Nat × Nat)) :=
  if rest = 0 then nextQ0 w else if rest = 4 then nextQ8 w rest else nextQS w rest

theorem next_eq (s : SectStream) :
    (next s).1 = (nextQ s.wholeSize s.restSize s.reader).1.bind (fun x => .ok (dropState x)) ∧
    (next s).2.reader = (nextQ s.wholeSize s.restSize s.reader).2 ∧
    ∀ sect w rest r, nextQ s.wholeSize s.restSize s.reader = (.ok (some (sect, w, rest)), r) →
      next s = (.ok (some sect), ⟨r, w, rest⟩) := by
  unfold next nextQ
  split
  · unfold nextSect0 nextQ0 startR SectStream.resetPos
    by_cases hw : s.wholeSize = 0
    · simp only [hw, if_true, RM.bind_apply, RM.mapErr]
      rcases rdPos s.reader with ⟨o, r'⟩
      cases o with
      | err e => exact ⟨rfl, rfl, by simp [Outcome.mapErr]⟩
      | panic => exact ⟨rfl, rfl, by simp [Outcome.mapErr]⟩
      | ok p =>
        simp only [Outcome.mapErr]
        rcases readSect0 r' with ⟨o, r''⟩
        cases o with
        | err e => exact ⟨rfl, rfl, by simp⟩
        | panic => exact ⟨rfl, rfl, by simp⟩
        | ok x =>
          cases x with
          | none => exact ⟨rfl, rfl, by simp [RM.pure_apply]⟩
          | some q =>
            refine ⟨rfl, rfl, ?_⟩
            intro sect w rest r h
            simp only [RM.pure_apply, Prod.mk.injEq, Outcome.ok.injEq, Option.some.injEq] at h
            obtain ⟨⟨rfl, rfl, rfl⟩, rfl⟩ := h
            rfl
    · simp only [hw, if_false, RM.bind_apply, RM.pure_apply]
      rcases readSect0 s.reader with ⟨o, r''⟩
      cases o with
      | err e => exact ⟨rfl, rfl, by simp⟩
      | panic => exact ⟨rfl, rfl, by simp⟩
      | ok x =>
        cases x with
        | none => exact ⟨rfl, rfl, by simp [RM.pure_apply]⟩
        | some q =>
          refine ⟨rfl, rfl, ?_⟩
          intro sect w rest r h
          simp only [RM.pure_apply, Prod.mk.injEq, Outcome.ok.injEq, Option.some.injEq] at h
          obtain ⟨⟨rfl, rfl, rfl⟩, rfl⟩ := h
          rfl
  · split
    · unfold nextSect8 nextQ8
      simp only [RM.bind_apply]
      rcases readSect8 s.reader with ⟨o, r''⟩
      cases o with
      | err e => exact ⟨rfl, rfl, by simp⟩
      | panic => exact ⟨rfl, rfl, by simp⟩
      | ok x =>
        cases x with
        | none => exact ⟨rfl, rfl, by simp [RM.pure_apply]⟩
        | some q =>
          refine ⟨rfl, rfl, ?_⟩
          intro sect w rest r h
          simp only [RM.pure_apply, Prod.mk.injEq, Outcome.ok.injEq, Option.some.injEq] at h
          obtain ⟨⟨rfl, rfl, rfl⟩, rfl⟩ := h
          rfl
    · unfold nextSect nextQS
      simp only [RM.bind_apply]
      rcases readSectHeader s.reader with ⟨o, r'⟩
      cases o with
      | err e => exact ⟨rfl, rfl, by simp⟩
      | panic => exact ⟨rfl, rfl, by simp⟩
      | ok x =>
        cases x with
        | none => exact ⟨rfl, rfl, by simp [RM.pure_apply]⟩
        | some q =>
          obtain ⟨size, num⟩ := q
          simp only [RM.bind_apply]
          rcases readSectPayload size num r' with ⟨o, r''⟩
          cases o with
          | err e => exact ⟨rfl, rfl, by simp⟩
          | panic => exact ⟨rfl, rfl, by simp⟩
          | ok b =>
            refine ⟨rfl, rfl, ?_⟩
            intro sect w rest r h
            simp only [RM.pure_apply, Prod.mk.injEq, Outcome.ok.injEq, Option.some.injEq] at h
            obtain ⟨⟨rfl, rfl, rfl⟩, rfl⟩ := h
            rfl

/-- The collected items of a stream, by the monadic program. -/
def collectQ : (fuel w rest : Nat) → Rdr → List Item × Rdr
  | 0, _, _, r => ([.panic], r)
  | fuel + 1, w, rest, r =>
    match nextQ w rest r with
    | (.ok none, r') => ([], r')
    | (.ok (some (sect, w', rest')), r') => (.ok sect :: (collectQ fuel w' rest' r').1, (collectQ fuel w' rest' r').2)
    | (.err e, r') => ([.err e], r')
    | (.panic, r') => ([.panic], r')

theorem collectN_eq (fuel : Nat) (s : SectStream) :
    (collectN fuel s).1 = (collectQ fuel s.wholeSize s.restSize s.reader).1 ∧
    (collectN fuel s).2.reader = (collectQ fuel s.wholeSize s.restSize s.reader).2 := by
  induction fuel generalizing s with
  | zero => exact ⟨rfl, rfl⟩
  | succ f ih =>
    obtain ⟨h1, h2, h3⟩ := next_eq s
    rw [collectN, collectQ]
    rcases hn : nextQ s.wholeSize s.restSize s.reader with ⟨o, r'⟩
    rw [hn] at h1 h2 h3
    rcases hs : next s with ⟨o', s'⟩
    rw [hs] at h1 h2
    cases o with
    | err e => simp only [Outcome.bind] at h1; subst h1; exact ⟨rfl, h2⟩
    | panic => simp only [Outcome.bind] at h1; subst h1; exact ⟨rfl, h2⟩
    | ok x =>
      cases x with
      | none => simp only [Outcome.bind, dropState, Option.map_none] at h1; subst h1; exact ⟨rfl, h2⟩
      | some q =>
        obtain ⟨sect, w, rest⟩ := q
        have := h3 sect w rest r' rfl
        rw [hs] at this
        rw [this]
        have := ih ⟨r', w, rest⟩
        exact ⟨by simp only [this.1], this.2⟩

/-- What opening makes of the collected items. -/
def finish (x : List Item × Rdr) : Outcome ParseError Grib2 :=
  match collectResult (idxStreamItems x.1).1 with
  | .ok subs => .ok ⟨x.2, (idxStreamItems x.1).2, subs⟩
  | .err e => .err e
  | .panic => .panic

theorem readN_eq (fuel : Nat) (r : Rdr) : readN fuel r = finish (collectQ fuel 0 0 r) := by
  unfold readN finish
  have h := collectN_eq fuel (SectStream.new r)
  simp only [h.1, h.2]
  rfl

theorem read_eq (r : Rdr) : Grib2.read r = finish (itemsR r) := Grib2.read_eq r

end Grib.Model.Rel
