import Verif.Model.Memory
import Verif.Spec.Memory
import Verif.Lemmas.ReaderAny
import Verif.Lemmas.Decoder

/-! # Opening with the buffers counted is opening -/

namespace Grib.Model.Mem

open Grib Grib.Model Grib.Spec

variable {α β : Type}

theorem RMB.bind_fst {x : RMB α} {f : α → RMB β} {x' : RM α} {f' : α → RM β} (hx : ∀ r, (x r).1 = x' r)
    (hf : ∀ a r, (f a r).1 = f' a r) (r : Rdr) : ((x >>= f) r).1 = (x' >>= f') r := by
  show (RMB.bind x f r).1 = RM.bind x' f' r
  unfold RMB.bind RM.bind
  rw [← hx r]
  rcases x r with ⟨⟨o, r'⟩, bs⟩
  cases o with
  | ok a => exact hf a r'
  | err e => rfl
  | panic => rfl

theorem readSlice_eq (n : Nat) (r : Rdr) : readSlice n r = (rdReadExact n r, [n]) := by
  rfl

theorem readSect6Payload_fst (n : Nat) (r : Rdr) : (readSect6Payload n r).1 = Model.readSect6Payload n r := by
  unfold readSect6Payload Model.readSect6Payload
  apply RMB.bind_fst (fun _ => rfl)
  intro buf r
  split
  · rfl
  · dsimp only
    split
    · exact RMB.bind_fst (fun r => by rw [readSlice_eq]) (fun _ _ => rfl) r
    · rfl

/-- The request after reading the size and number of a section. -/
theorem readSectPayload_fst (size num : Nat) (r : Rdr) : (readSectPayload size num r).1 = Model.readSectPayload size num r := by
  unfold readSectPayload Model.readSectPayload
  split
  · rfl
  · dsimp only
    split
    · exact RMB.bind_fst (fun r => by rw [readSlice_eq]) (fun _ r => RMB.bind_fst (fun _ => rfl) (fun _ _ => rfl) r) r
    · exact RMB.bind_fst (fun r => by rw [readSlice_eq]) (fun _ _ => rfl) r
    · exact RMB.bind_fst (fun r => by rw [readSlice_eq]) (fun _ r => RMB.bind_fst (fun _ => rfl) (fun _ _ => rfl) r) r
    · exact RMB.bind_fst (fun r => by rw [readSlice_eq]) (fun _ r => RMB.bind_fst (fun _ => rfl) (fun _ _ => rfl) r) r
    · exact RMB.bind_fst (fun r => by rw [readSlice_eq]) (fun _ r => RMB.bind_fst (fun _ => rfl) (fun _ _ => rfl) r) r
    · exact readSect6Payload_fst _ _
    · rfl
    · split <;> first | rfl | contradiction

/-- What is requested for a slice and a computation that requests nothing. -/
theorem readSlice_bind_snd (n : Nat) (f : List UInt8 → RMB β) (hf : ∀ a r, (f a r).2 = []) (r : Rdr) :
    ((readSlice n >>= f) r).2 = [n] := by
  show (RMB.bind _ f r).2 = _
  unfold RMB.bind
  rw [readSlice_eq]
  rcases rdReadExact n r with ⟨o, r'⟩
  cases o with
  | ok a => simp [hf]
  | err e => rfl
  | panic => rfl

theorem lift_bind_snd (x : Outcome ParseError α) (f : α → β) (r : Rdr) :
    ((RMB.of (RM.lift x) >>= fun a => pure (f a) : RMB β) r).2 = [] := by
  show (RMB.bind _ _ r).2 = _
  unfold RMB.bind
  cases x <;> rfl

/-- The buffers requested for a section with this size and number: at most one, not larger than the section without its
header, and if the section is read, the one that belongs to it. -/
theorem readSectPayload_snd (size num : Nat) (r : Rdr) :
    (readSectPayload size num r).2.length ≤ 1 ∧ (∀ b ∈ (readSectPayload size num r).2, b + 5 ≤ size) ∧
    ∀ body r' offset, (readSectPayload size num r).1 = (.ok body, r') →
      (readSectPayload size num r).2 = buffersOf ⟨num, offset, size, some body⟩ := by
  unfold readSectPayload
  split
  · refine ⟨by simp [RMB.of], by simp [RMB.of], fun body r' o h => ?_⟩
    simp [RMB.of, RM.panic] at h
  · rename_i hs
    dsimp only
    split
    · have := readSlice_bind_snd (size - 5) (fun p => do let p ← RMB.of (RM.lift (checkPayload 16 p)); pure (SectionBody.section1 p))
        (fun a r => lift_bind_snd _ _ r) r
      rw [this]
      exact ⟨by simp, by simp; omega, fun _ _ _ _ => by simp [buffersOf]⟩
    · have := readSlice_bind_snd (size - 5) (fun p => (pure (SectionBody.section2 p) : RMB SectionBody)) (fun a r => rfl) r
      rw [this]
      exact ⟨by simp, by simp; omega, fun _ _ _ _ => by simp [buffersOf]⟩
    · have := readSlice_bind_snd (size - 5) (fun p => do let p ← RMB.of (RM.lift (checkPayload 9 p)); pure (SectionBody.section3 p))
        (fun a r => lift_bind_snd _ _ r) r
      rw [this]
      exact ⟨by simp, by simp; omega, fun _ _ _ _ => by simp [buffersOf]⟩
    · have := readSlice_bind_snd (size - 5) (fun p => do let p ← RMB.of (RM.lift (checkPayload 4 p)); pure (SectionBody.section4 p))
        (fun a r => lift_bind_snd _ _ r) r
      rw [this]
      exact ⟨by simp, by simp; omega, fun _ _ _ _ => by simp [buffersOf]⟩
    · have := readSlice_bind_snd (size - 5) (fun p => do let p ← RMB.of (RM.lift (checkPayload 6 p)); pure (SectionBody.section5 p))
        (fun a r => lift_bind_snd _ _ r) r
      rw [this]
      exact ⟨by simp, by simp; omega, fun _ _ _ _ => by simp [buffersOf]⟩
    · unfold readSect6Payload
      simp only [bind, RMB.bind, RMB.of]
      rcases rdReadExact 1 r with ⟨o, r1⟩
      cases o with
      | err e => exact ⟨by simp, by simp, fun _ _ _ h => by simp at h⟩
      | panic => exact ⟨by simp, by simp, fun _ _ _ h => by simp at h⟩
      | ok buf =>
        dsimp only
        split
        · exact ⟨Nat.zero_le 1, (fun b hb => by cases hb), (fun _ _ _ h => by cases h)⟩
        · split
          · have := readSlice_bind_snd (size - 5 - 1) (fun _ => (pure (SectionBody.section6 (be buf)) : RMB SectionBody))
              (fun a r => rfl) r1
            simp only [bind] at this
            refine ⟨?_, ?_, ?_⟩
            · rw [show (RMB.bind (readSlice (size - 5 - 1)) fun _ => pure (SectionBody.section6 (be buf))) r1 = _ from rfl]
              simp [this]
            · intro b hb
              simp only [this, List.nil_append, List.mem_singleton] at hb
              omega
            · intro body r' o _
              simp only [this, List.nil_append, buffersOf]
              rw [if_neg (by simp), if_pos (by simp; omega)]
              congr 1
          · refine ⟨by simp [pure], by simp [pure], fun _ _ _ h => ?_⟩
            simp only [pure, List.append_nil, buffersOf]
            rw [if_neg (by simp), if_neg (by simp; omega)]
    · exact ⟨by simp [RMB.of], by simp [RMB.of], fun _ _ _ _ => by simp [RMB.of, buffersOf]⟩
    · refine ⟨by simp [RMB.of], by simp [RMB.of], fun _ _ _ h => ?_⟩
      simp [RMB.of, RM.throw] at h

theorem nextSect_fst (s : SectStream) : (nextSect s).1 = s.nextSect := by
  unfold nextSect SectStream.nextSect
  rcases readSectHeader s.reader with ⟨o, r'⟩
  cases o with
  | err e => rfl
  | panic => rfl
  | ok x =>
    cases x with
    | none => rfl
    | some q =>
      obtain ⟨size, num⟩ := q
      dsimp only
      rw [← readSectPayload_fst]
      rcases readSectPayload size num r' with ⟨⟨o, r''⟩, bs⟩
      cases o with
      | err e => rfl
      | panic => rfl
      | ok body => dsimp only; split <;> rfl

theorem next_fst (s : SectStream) : (next s).1 = s.next := by
  unfold next SectStream.next
  split
  · rfl
  · split
    · rfl
    · exact nextSect_fst s

theorem collectN_fst (fuel : Nat) (s : SectStream) : (collectN fuel s).1 = s.collectN fuel := by
  induction fuel generalizing s with
  | zero => rfl
  | succ f ih =>
    rw [collectN, SectStream.collectN, ← next_fst]
    rcases next s with ⟨⟨o, s'⟩, bs⟩
    cases o with
    | err e => rfl
    | panic => rfl
    | ok x =>
      cases x with
      | none => rfl
      | some sect => dsimp only; rw [← ih s']

theorem read_fst (r : Rdr) : (Grib2.read r).1 = Model.Grib2.read r := by
  unfold Grib2.read Model.Grib2.read SectStream.collect
  have h : (SectStream.new r).reader.data.length + 2 = r.data.length + 2 := rfl
  rw [h, ← collectN_fst]
  rcases collectN (r.data.length + 2) (SectStream.new r) with ⟨⟨items, s⟩, bs⟩
  rfl

/-- The buffers of one call of `next`. -/
theorem next_snd (s : SectStream) :
    (next s).2.length ≤ 1 ∧ (∀ b ∈ (next s).2, b + 5 < 2 ^ 32) ∧
    ((next s).1.1 = .ok none → (next s).2 = []) ∧
    ∀ sect, (next s).1.1 = .ok (some sect) → (next s).2 = buffersOf sect := by
  unfold next
  split
  · refine ⟨by simp, by simp, fun _ => rfl, fun sect h => ?_⟩
    dsimp only at h ⊢
    unfold SectStream.nextSect0 at h
    split at h
    · simp at h
    · simp at h
    · split at h
      · simp at h
      · simp at h
      · simp at h
      · dsimp only at h
        split at h
        · simp at h
        · simp only [Outcome.ok.injEq, Option.some.injEq] at h
          subst h
          simp [buffersOf]
  · split
    · refine ⟨by simp, by simp, fun _ => rfl, fun sect h => ?_⟩
      dsimp only at h ⊢
      unfold SectStream.nextSect8 at h
      split at h
      · simp at h
      · simp at h
      · simp at h
      · simp only [Outcome.ok.injEq, Option.some.injEq] at h
        subst h
        simp [buffersOf]
    · unfold nextSect
      rcases hh : readSectHeader s.reader with ⟨o, r'⟩
      cases o with
      | err e => simp
      | panic => simp
      | ok x =>
        cases x with
        | none => simp
        | some q =>
          obtain ⟨size, num⟩ := q
          obtain ⟨-, -, -, a4, -⟩ := readSectHeader_ok hh
          have hlt : size < 2 ^ 32 := by
            rw [← a4]
            exact Grib.Model.number_lt ..
          obtain ⟨b1, b2, b3⟩ := readSectPayload_snd size num r'
          dsimp only
          rcases hp : readSectPayload size num r' with ⟨⟨o, r''⟩, bs⟩
          rw [hp] at b1 b2 b3
          have b2' : ∀ b ∈ bs, b + 5 < 2 ^ 32 := fun b hb => by have := b2 b hb; omega
          cases o with
          | err e => exact ⟨b1, b2', by simp, by simp⟩
          | panic => exact ⟨b1, b2', by simp, by simp⟩
          | ok body =>
            dsimp only
            split
            · exact ⟨b1, b2', by simp, by simp⟩
            · refine ⟨b1, b2', by simp, fun sect h => ?_⟩
              simp only [Outcome.ok.injEq, Option.some.injEq] at h
              subst h
              exact b3 _ _ _ rfl

/-- The buffers of a whole stream: those of the sections reported, and at most one more, in case of an error. -/
theorem collectN_snd (fuel : Nat) (s : SectStream) :
    ∃ (sects : List SectionInfo) (tail : List Item) (last : List Nat), (collectN fuel s).1.1 = sects.map .ok ++ tail ∧ (∀ x, .ok x ∉ tail) ∧
      (collectN fuel s).2 = sects.flatMap buffersOf ++ last ∧ last.length ≤ 1 ∧ (tail = [] → last = []) ∧
      ∀ b ∈ (collectN fuel s).2, b + 5 < 2 ^ 32 := by
  induction fuel generalizing s with
  | zero => exact ⟨[], [.panic], [], rfl, by simp, rfl, by simp, by simp, by simp [collectN]⟩
  | succ f ih =>
    obtain ⟨a1, a2, a3, a4⟩ := next_snd s
    rw [collectN]
    rcases hn : next s with ⟨⟨o, s'⟩, bs⟩
    rw [hn] at a1 a2 a3 a4
    cases o with
    | err e => exact ⟨[], [.err e], bs, rfl, by simp, rfl, a1, by simp, a2⟩
    | panic => exact ⟨[], [.panic], bs, rfl, by simp, rfl, a1, by simp, a2⟩
    | ok x =>
      cases x with
      | none => exact ⟨[], [], bs, rfl, by simp, rfl, a1, fun _ => a3 rfl, a2⟩
      | some sect =>
        obtain ⟨sects, tail, last, b1, b2, b3, b4, b5, b6⟩ := ih s'
        refine ⟨sect :: sects, tail, last, ?_, b2, ?_, b4, b5, ?_⟩
        · show Outcome.ok sect :: (collectN f s').1.1 = _
          rw [b1]; rfl
        · show bs ++ (collectN f s').2 = _
          rw [b3, show bs = buffersOf sect from a4 sect rfl]
          simp
        · intro b hb
          have hb' : b ∈ bs ++ (collectN f s').2 := hb
          rcases List.mem_append.1 hb' with hb | hb
          · exact a2 b hb
          · exact b6 b hb

end Grib.Model.Mem
