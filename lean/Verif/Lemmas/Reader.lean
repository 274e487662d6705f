import Verif.Model.Context

/-! # Reader lemmas: the section stream as one monadic program; failures are reported -/

namespace Grib.Model

variable {α β : Type}

theorem RM.pure_apply (a : α) (r : Rdr) : (pure a : RM α) r = (.ok a, r) := rfl

theorem RM.bind_apply (x : RM α) (f : α → RM β) (r : Rdr) :
    (x >>= f) r = match x r with
      | (.ok a, r') => f a r'
      | (.err e, r') => (.err e, r')
      | (.panic, r') => (.panic, r') := rfl

/-- `Result::map_err` on reader operations. -/
def RM.mapErr (f : ParseError → ParseError) (x : RM α) : RM α := fun r => ((x r).1.mapErr f, (x r).2)

/-! ## `SectStream.next` as a monadic program -/

/-- First call: take over the current position. -/
def startR (w : Nat) : RM Nat :=
  if w = 0 then RM.mapErr (fun _ => .readError .resetPos) rdPos else pure w

def nextR0 (w : Nat) : RM (Option (SectionInfo × Nat × Nat)) := do
  let w1 ← startR w
  let x ← readSect0
  match x with
  | none => pure none
  | some (offset, ind) =>
    if w1 + offset + ind.totalLength ≥ USIZE ∨ ind.totalLength < 16 then RM.panic
    else pure (some (⟨0, w1 + offset, 16, some (.section0 ind)⟩, w1 + offset + ind.totalLength, ind.totalLength - 16))

def nextR8 (w rest : Nat) : RM (Option (SectionInfo × Nat × Nat)) := do
  let x ← readSect8
  match x with
  | none => pure none
  | some () => pure (some (⟨8, w - rest, 4, none⟩, w, rest - 4))

def nextRS (w rest : Nat) : RM (Option (SectionInfo × Nat × Nat)) := do
  let x ← readSectHeader
  match x with
  | none => pure none
  | some (size, num) => do
    let body ← readSectPayload size num
    if rest < size then RM.panic else pure (some (⟨num, w - rest, size, some body⟩, w, rest - size))

def nextR (w rest : Nat) : RM (Option (SectionInfo × Nat × Nat)) :=
  if rest = 0 then nextR0 w else if rest = 4 then nextR8 w rest else nextRS w rest

def dropState (x : Option (SectionInfo × Nat × Nat)) : Option SectionInfo := x.map Prod.fst

theorem SectStream.next_eq (s : SectStream) :
    s.next.1 = (nextR s.wholeSize s.restSize s.reader).1.bind (fun x => .ok (dropState x)) ∧
    s.next.2.reader = (nextR s.wholeSize s.restSize s.reader).2 ∧
    ∀ sect w rest r, nextR s.wholeSize s.restSize s.reader = (.ok (some (sect, w, rest)), r) →
      s.next = (.ok (some sect), ⟨r, w, rest⟩) := by
  unfold SectStream.next nextR
  split
  · unfold SectStream.nextSect0 nextR0 startR SectStream.resetPos
    by_cases hw : s.wholeSize = 0
    · simp only [hw, if_true, RM.bind_apply, RM.mapErr]
      rcases rdPos s.reader with ⟨o, r'⟩
      cases o with
      | err e => exact ⟨rfl, rfl, by simp [Outcome.mapErr]⟩
      | panic => exact ⟨rfl, rfl, by simp [Outcome.mapErr]⟩
      | ok p =>
        simp only [Outcome.mapErr]
        rcases readSect0 r' with ⟨o, r''⟩
        cases o with
        | err e => exact ⟨rfl, rfl, by simp⟩
        | panic => exact ⟨rfl, rfl, by simp⟩
        | ok x =>
          cases x with
          | none => exact ⟨rfl, rfl, by simp [RM.pure_apply]⟩
          | some q =>
            simp only
            split
            · exact ⟨rfl, rfl, by simp [RM.panic]⟩
            · refine ⟨rfl, rfl, ?_⟩
              intro sect w rest r h
              simp only [RM.pure_apply, Prod.mk.injEq, Outcome.ok.injEq, Option.some.injEq] at h
              obtain ⟨⟨rfl, rfl, rfl⟩, rfl⟩ := h
              rfl
    · simp only [hw, if_false, RM.bind_apply, RM.pure_apply]
      rcases readSect0 s.reader with ⟨o, r''⟩
      cases o with
      | err e => exact ⟨rfl, rfl, by simp⟩
      | panic => exact ⟨rfl, rfl, by simp⟩
      | ok x =>
        cases x with
        | none => exact ⟨rfl, rfl, by simp [RM.pure_apply]⟩
        | some q =>
          simp only
          split
          · exact ⟨rfl, rfl, by simp [RM.panic]⟩
          · refine ⟨rfl, rfl, ?_⟩
            intro sect w rest r h
            simp only [RM.pure_apply, Prod.mk.injEq, Outcome.ok.injEq, Option.some.injEq] at h
            obtain ⟨⟨rfl, rfl, rfl⟩, rfl⟩ := h
            rfl
  · split
    · unfold SectStream.nextSect8 nextR8
      simp only [RM.bind_apply]
      rcases readSect8 s.reader with ⟨o, r''⟩
      cases o with
      | err e => exact ⟨rfl, rfl, by simp⟩
      | panic => exact ⟨rfl, rfl, by simp⟩
      | ok x =>
        cases x with
        | none => exact ⟨rfl, rfl, by simp [RM.pure_apply]⟩
        | some q =>
          refine ⟨rfl, rfl, ?_⟩
          intro sect w rest r h
          simp only [RM.pure_apply, Prod.mk.injEq, Outcome.ok.injEq, Option.some.injEq] at h
          obtain ⟨⟨rfl, rfl, rfl⟩, rfl⟩ := h
          rfl
    · unfold SectStream.nextSect nextRS
      simp only [RM.bind_apply]
      rcases readSectHeader s.reader with ⟨o, r'⟩
      cases o with
      | err e => exact ⟨rfl, rfl, by simp⟩
      | panic => exact ⟨rfl, rfl, by simp⟩
      | ok x =>
        cases x with
        | none => exact ⟨rfl, rfl, by simp [RM.pure_apply]⟩
        | some q =>
          obtain ⟨size, num⟩ := q
          simp only [RM.bind_apply]
          rcases readSectPayload size num r' with ⟨o, r''⟩
          cases o with
          | err e => exact ⟨rfl, rfl, by simp⟩
          | panic => exact ⟨rfl, rfl, by simp⟩
          | ok b =>
            simp only
            split
            · exact ⟨rfl, rfl, by simp [RM.panic]⟩
            · refine ⟨rfl, rfl, ?_⟩
              intro sect w rest r h
              simp only [RM.pure_apply, Prod.mk.injEq, Outcome.ok.injEq, Option.some.injEq] at h
              obtain ⟨⟨rfl, rfl, rfl⟩, rfl⟩ := h
              rfl

/-- The collected items of a stream, by the monadic program. -/
def collectR : (fuel w rest : Nat) → Rdr → List Item × Rdr
  | 0, _, _, r => ([.panic], r)
  | fuel + 1, w, rest, r =>
    match nextR w rest r with
    | (.ok none, r') => ([], r')
    | (.ok (some (sect, w', rest')), r') => (.ok sect :: (collectR fuel w' rest' r').1, (collectR fuel w' rest' r').2)
    | (.err e, r') => ([.err e], r')
    | (.panic, r') => ([.panic], r')

theorem SectStream.collectN_eq (fuel : Nat) (s : SectStream) :
    (s.collectN fuel).1 = (collectR fuel s.wholeSize s.restSize s.reader).1 ∧
    (s.collectN fuel).2.reader = (collectR fuel s.wholeSize s.restSize s.reader).2 := by
  induction fuel generalizing s with
  | zero => exact ⟨rfl, rfl⟩
  | succ f ih =>
    obtain ⟨h1, h2, h3⟩ := s.next_eq
    rw [SectStream.collectN, collectR]
    rcases hn : nextR s.wholeSize s.restSize s.reader with ⟨o, r'⟩
    rw [hn] at h1 h2 h3
    rcases hs : s.next with ⟨o', s'⟩
    rw [hs] at h1 h2
    cases o with
    | err e => simp only [Outcome.bind] at h1; subst h1; exact ⟨rfl, h2⟩
    | panic => simp only [Outcome.bind] at h1; subst h1; exact ⟨rfl, h2⟩
    | ok x =>
      cases x with
      | none => simp only [Outcome.bind, dropState, Option.map_none] at h1; subst h1; exact ⟨rfl, h2⟩
      | some q =>
        obtain ⟨sect, w, rest⟩ := q
        have := h3 sect w rest r' rfl
        rw [hs] at this
        rw [this]
        have := ih ⟨r', w, rest⟩
        exact ⟨by simp only [this.1], this.2⟩

/-- The collected items of a fresh stream. -/
def itemsR (r : Rdr) : List Item × Rdr := collectR (r.data.length + 2) 0 0 r

theorem collect_new (r : Rdr) : (SectStream.new r).collect.1 = (itemsR r).1 ∧
    (SectStream.new r).collect.2.reader = (itemsR r).2 := SectStream.collectN_eq _ _

theorem Grib2.read_eq (r : Rdr) : Grib2.read r =
    match collectResult (idxStreamItems (itemsR r).1).1 with
    | .ok subs => .ok ⟨(itemsR r).2, (idxStreamItems (itemsR r).1).2, subs⟩
    | .err e => .err e
    | .panic => .panic := by
  unfold Grib2.read
  simp only [(collect_new r).1, (collect_new r).2]
  rfl

/-! ## Honesty: a failure of the underlying reader surfaces as an error at once -/

/-- The operation keeps the data, consumes events in order, and returns an error if one of them is a failure. -/
def Honest (x : RM α) : Prop :=
  ∀ r, (x r).2.data = r.data ∧ ∃ c, r.evs = c ++ (x r).2.evs ∧ (IoEv.fail ∈ c → ∃ e, (x r).1 = .err e)

theorem Honest.pure (a : α) : Honest (pure a : RM α) := fun _ => ⟨rfl, [], rfl, by simp⟩

theorem Honest.lift (x : Outcome ParseError α) : Honest (RM.lift x) := fun _ => ⟨rfl, [], rfl, by simp⟩

theorem Honest.throw (e : ParseError) : Honest (RM.throw e : RM α) := fun _ => ⟨rfl, [], rfl, by simp⟩

theorem Honest.panic : Honest (RM.panic : RM α) := fun _ => ⟨rfl, [], rfl, by simp⟩

theorem Honest.mapErr {x : RM α} (hx : Honest x) (f : ParseError → ParseError) : Honest (RM.mapErr f x) := by
  intro r
  obtain ⟨h1, c, h2, h3⟩ := hx r
  refine ⟨h1, c, h2, fun h => ?_⟩
  obtain ⟨e, he⟩ := h3 h
  exact ⟨f e, by simp [RM.mapErr, he, Outcome.mapErr]⟩

theorem Honest.bind {x : RM α} {f : α → RM β} (hx : Honest x) (hf : ∀ a, Honest (f a)) : Honest (x >>= f) := by
  intro r
  rw [RM.bind_apply]
  obtain ⟨h1, c, h2, h3⟩ := hx r
  rcases hr : x r with ⟨o, r'⟩
  rw [hr] at h1 h2 h3
  cases o with
  | ok a =>
    obtain ⟨h4, c', h5, h6⟩ := hf a r'
    refine ⟨h4.trans h1, c ++ c', by simp only [h2, h5, List.append_assoc], fun h => ?_⟩
    rcases List.mem_append.1 h with h | h
    · simpa using h3 h
    · exact h6 h
  | err e => exact ⟨h1, c, h2, fun _ => ⟨e, rfl⟩⟩
  | panic => exact ⟨h1, c, h2, fun h => by simpa using h3 h⟩

theorem Honest.ite {c : Prop} [Decidable c] {x y : RM α} (hx : Honest x) (hy : Honest y) :
    Honest (if c then x else y) := by
  split
  · exact hx
  · exact hy

theorem rdRead_honest (n : Nat) : Honest (rdRead n) := by
  intro r
  unfold rdRead
  split
  · exact ⟨rfl, [], by simpa [Rdr.deliver], by simp⟩
  · exact ⟨rfl, [.full], by simpa [Rdr.deliver], by simp⟩
  · exact ⟨rfl, [.short _], by simpa [Rdr.deliver], by simp⟩
  · exact ⟨rfl, [.fail], by simpa, fun _ => ⟨_, rfl⟩⟩

theorem rdReadExactLoop_honest (fuel n : Nat) : Honest (rdReadExactLoop fuel n) := by
  induction fuel generalizing n with
  | zero => exact Honest.pure _
  | succ f ih =>
    unfold rdReadExactLoop
    refine Honest.ite (Honest.pure _) (Honest.bind (rdRead_honest n) fun chunk => ?_)
    exact Honest.ite (Honest.throw _) (Honest.bind (ih _) fun rest => Honest.pure _)

theorem rdReadExact_honest (n : Nat) : Honest (rdReadExact n) := rdReadExactLoop_honest n n

theorem rdSeekTo_honest (t : Int) : Honest (rdSeekTo t) := by
  intro r
  unfold rdSeekTo
  split
  · exact ⟨rfl, [.fail], by simpa, fun _ => ⟨_, rfl⟩⟩
  · rename_i h
    have : ∃ c, r.evs = c ++ r.evs.tail ∧ IoEv.fail ∉ c := by
      cases hr : r.evs with
      | nil => exact ⟨[], by simp, by simp⟩
      | cons a b =>
        refine ⟨[a], by simp, ?_⟩
        intro hc
        simp only [List.mem_singleton] at hc
        exact h b (by rw [hr, hc])
    obtain ⟨c, hc, hf⟩ := this
    split
    · exact ⟨rfl, c, hc, fun h => absurd h hf⟩
    · exact ⟨rfl, c, hc, fun h => absurd h hf⟩

theorem rdSeekCur_honest (d : Int) : Honest (rdSeekCur d) := fun r => rdSeekTo_honest (r.pos + d) r

theorem rdSeekStart_honest (p : Nat) : Honest (rdSeekStart p) := rdSeekTo_honest p

theorem rdPos_honest : Honest rdPos := by
  intro r
  unfold rdPos
  obtain ⟨h1, c, h2, h3⟩ := rdSeekCur_honest 0 r
  rcases hr : rdSeekCur 0 r with ⟨o, r'⟩
  rw [hr] at h1 h2 h3
  cases o with
  | ok a => exact ⟨h1, c, h2, fun h => by simpa using h3 h⟩
  | err e => exact ⟨h1, c, h2, fun _ => ⟨e, rfl⟩⟩
  | panic => exact ⟨h1, c, h2, fun h => by simpa using h3 h⟩

theorem readSect0Loop_honest (fuel off : Nat) : Honest (readSect0Loop fuel off) := by
  induction fuel generalizing off with
  | zero => exact Honest.panic
  | succ f ih =>
    unfold readSect0Loop
    refine Honest.bind (rdRead_honest _) fun buf => Honest.ite (Honest.pure _) ?_
    cases findMagic buf with
    | none => exact Honest.bind (rdSeekCur_honest _) fun _ => ih _
    | some pos => exact Honest.bind (rdSeekCur_honest _) fun _ => Honest.bind (Honest.lift _) fun _ => Honest.pure _

theorem readSect0_honest : Honest readSect0 := fun r => readSect0Loop_honest _ 0 r

theorem readSect8_honest : Honest readSect8 := by
  unfold readSect8
  exact Honest.bind (rdRead_honest _) fun buf => Honest.ite (Honest.pure _)
    (Honest.ite (Honest.throw _) (Honest.ite (Honest.throw _) (Honest.pure _)))

theorem readSectHeader_honest : Honest readSectHeader := by
  unfold readSectHeader
  exact Honest.bind (rdRead_honest _) fun buf => Honest.ite (Honest.pure _)
    (Honest.ite (Honest.throw _) (Honest.bind (Honest.lift _) fun _ => Honest.bind (Honest.lift _) fun _ =>
      Honest.pure _))

theorem readSectPayload_honest (size num : Nat) : Honest (readSectPayload size num) := by
  unfold readSectPayload
  refine Honest.ite Honest.panic ?_
  simp only
  split
  · exact Honest.bind (rdReadExact_honest _) fun _ => Honest.bind (Honest.lift _) fun _ => Honest.pure _
  · exact Honest.bind (rdReadExact_honest _) fun _ => Honest.pure _
  · exact Honest.bind (rdReadExact_honest _) fun _ => Honest.bind (Honest.lift _) fun _ => Honest.pure _
  · exact Honest.bind (rdReadExact_honest _) fun _ => Honest.bind (Honest.lift _) fun _ => Honest.pure _
  · exact Honest.bind (rdReadExact_honest _) fun _ => Honest.bind (Honest.lift _) fun _ => Honest.pure _
  · exact Honest.bind (rdReadExact_honest _) fun _ => Honest.ite Honest.panic
      (Honest.ite (Honest.bind (rdReadExact_honest _) fun _ => Honest.pure _) (Honest.pure _))
  · exact Honest.bind (rdSeekCur_honest _) fun _ => Honest.pure _
  · exact Honest.throw _

theorem readSectPayloadAsSlice_honest (s : SectionInfo) : Honest (readSectPayloadAsSlice s) := by
  unfold readSectPayloadAsSlice
  exact Honest.bind (rdSeekStart_honest _) fun _ => Honest.ite Honest.panic (rdReadExact_honest _)

theorem nextR_honest (w rest : Nat) : Honest (nextR w rest) := by
  unfold nextR
  refine Honest.ite ?_ (Honest.ite ?_ ?_)
  · unfold nextR0 startR
    refine Honest.bind (Honest.ite (Honest.mapErr rdPos_honest _) (Honest.pure _)) fun w1 =>
      Honest.bind readSect0_honest fun x => ?_
    cases x with
    | none => exact Honest.pure _
    | some q => exact Honest.ite Honest.panic (Honest.pure _)
  · unfold nextR8
    refine Honest.bind readSect8_honest fun x => ?_
    cases x with
    | none => exact Honest.pure _
    | some q => exact Honest.pure _
  · unfold nextRS
    refine Honest.bind readSectHeader_honest fun x => ?_
    cases x with
    | none => exact Honest.pure _
    | some q => exact Honest.bind (readSectPayload_honest _ _) fun _ => Honest.ite Honest.panic (Honest.pure _)

/-- If the reader failed during collection, the last item is an error. -/
theorem collectR_honest (fuel w rest : Nat) (r : Rdr) :
    (collectR fuel w rest r).2.data = r.data ∧
    ∃ c, r.evs = c ++ (collectR fuel w rest r).2.evs ∧ (IoEv.fail ∈ c →
      ∃ pre e, (collectR fuel w rest r).1 = pre ++ [.err e] ∧ ∀ x ∈ pre, x ≠ .panic) := by
  induction fuel generalizing w rest r with
  | zero => exact ⟨rfl, [], rfl, by simp⟩
  | succ f ih =>
    rw [collectR]
    obtain ⟨h1, c, h2, h3⟩ := nextR_honest w rest r
    rcases hn : nextR w rest r with ⟨o, r'⟩
    rw [hn] at h1 h2 h3
    cases o with
    | ok x =>
      cases x with
      | none => exact ⟨h1, c, h2, fun h => by simpa using h3 h⟩
      | some q =>
        obtain ⟨sect, w', rest'⟩ := q
        obtain ⟨h4, c', h5, h6⟩ := ih w' rest' r'
        refine ⟨h4.trans h1, c ++ c', by simp only [h2, h5, List.append_assoc], fun h => ?_⟩
        rcases List.mem_append.1 h with h | h
        · simpa using h3 h
        · obtain ⟨pre, e, h7, h8⟩ := h6 h
          refine ⟨.ok sect :: pre, e, by simp only [h7]; rfl, ?_⟩
          intro x hx
          rcases List.mem_cons.1 hx with rfl | hx
          · simp
          · exact h8 x hx
    | err e => exact ⟨h1, c, h2, fun _ => ⟨[], e, rfl, by simp⟩⟩
    | panic => exact ⟨h1, c, h2, fun h => by simpa using h3 h⟩

end Grib.Model
