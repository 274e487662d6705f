import Verif.Spec.Chain
import Verif.Model.NarrowRelease
import Verif.Lemmas.Narrow
import Verif.Lemmas.ReleaseOpen

/-! # Release builds for 32-bit platforms: opening -/

namespace Grib.Model.R32

open Grib.Model Grib.Spec

theorem usub_le {a b : Nat} (h : b ≤ a) : usub a b = a - b := if_pos h

theorem readSect6Payload_eq (n : Nat) : readSect6Payload n = N32.readSect6Payload n := by
  unfold readSect6Payload N32.readSect6Payload
  by_cases h : 1 ≤ n
  · simp only [usub_le h]
    congr 1
    funext buf
    exact (if_neg (by omega : ¬ n < 1)).symm
  · have h0 : n = 0 := by omega
    subst h0
    have h : usub 0 1 = 2 ^ 32 - 1 := rfl
    simp only [h, N32.allocReadExact_big (show 2 ^ 31 ≤ 2 ^ 32 - 1 by omega)]
    congr 1

theorem readSectPayload_eq {size num : Nat} (h5 : 5 ≤ size) : readSectPayload size num = N32.readSectPayload size num := by
  unfold readSectPayload N32.readSectPayload
  rw [if_neg (by omega)]
  simp only [usub_le h5]
  match num with
  | 0 | 1 | 2 | 3 | 4 | 5 => rfl
  | 6 => exact readSect6Payload_eq _
  | 7 => rfl
  | n + 8 => rfl

/-- Outcomes for a size that makes no sense: on 32 bits the reader is taken far ahead over a section 7. -/
theorem readSectPayload_short {size num : Nat} (h : size < 5) (r : Rdr) :
    (readSectPayload size num r).1 = .panic ∨ (∃ e, (readSectPayload size num r).1 = .err e) ∨
    (num = 7 ∧ (readSectPayload size num r).1 = .ok .section7 ∧ (readSectPayload size num r).2.data = r.data ∧
      (readSectPayload size num r).2.pos + 5 = r.pos + size + 2 ^ 32) := by
  have hu : usub size 5 = size + 2 ^ 32 - 5 := if_neg (by omega)
  have hb : N32.allocReadExact (usub size 5) = RM.panic := N32.allocReadExact_big (by rw [hu]; omega)
  unfold readSectPayload
  simp only [hb]
  split
  · exact Or.inl rfl
  · exact Or.inl rfl
  · exact Or.inl rfl
  · exact Or.inl rfl
  · exact Or.inl rfl
  · unfold readSect6Payload
    have hu' : usub (usub size 5) 1 = size + 2 ^ 32 - 6 := by rw [hu, usub_le (by omega)]; omega
    simp only [hu', N32.allocReadExact_big (show 2 ^ 31 ≤ size + 2 ^ 32 - 6 by omega)]
    rw [RM.bind_apply]
    split
    · left
      rw [if_pos (by omega)]
      rfl
    · exact Or.inr (Or.inl ⟨_, rfl⟩)
    · exact Or.inl rfl
  · unfold skipSect7Payload
    rw [hu, RM.bind_apply]
    have hd := (rdSeekCur_honest ((size + 2 ^ 32 - 5 : Nat) : Int) r).1
    rcases hc : rdSeekCur ((size + 2 ^ 32 - 5 : Nat) : Int) r with ⟨o, r1⟩
    rw [hc] at hd
    cases o with
    | ok u =>
      obtain ⟨h1, h2⟩ := rdSeekCur_ok hc
      refine Or.inr (Or.inr ⟨rfl, rfl, hd, ?_⟩)
      show r1.pos + 5 = _
      omega
    | err e => exact Or.inr (Or.inl ⟨e, rfl⟩)
    | panic => exact absurd hc (rdSeekCur_noPanic _ _ _)
  · exact Or.inr (Or.inl ⟨_, rfl⟩)

/-- A payload that was read. -/
theorem payload_ok {size num : Nat} {r r' : Rdr} {body : SectionBody} {p : Nat} (hp : r.pos = p + 5)
    (h : readSectPayload size num r = (.ok body, r')) :
    r'.data = r.data ∧ 1 ≤ num ∧ num ≤ 7 ∧
      ((5 ≤ size ∧ r'.pos = p + size) ∨ (size < 5 ∧ r'.pos = p + size + 2 ^ 32)) := by
  by_cases h5 : 5 ≤ size
  · rw [readSectPayload_eq h5] at h
    rcases N32.readSectPayload_fol size num r with hf | hf
    · rw [h] at hf; cases hf
    · rw [h] at hf
      obtain ⟨c1, c2, c3, c4, c5, -⟩ := readSectPayload_ok hp hf.symm
      exact ⟨c1, c4, c5, Or.inl ⟨h5, c2⟩⟩
  · rcases readSectPayload_short (num := num) (show size < 5 by omega) r with h1 | ⟨e, h1⟩ | ⟨rfl, h1, h2, h3⟩
    · rw [h] at h1; cases h1
    · rw [h] at h1; cases h1
    · rw [h] at h2 h3
      exact ⟨h2, by omega, by omega, Or.inr ⟨by omega, by simp only at h3; omega⟩⟩

/-! ## One section -/

/-- `whole_size` is where the message ends. -/
def Exact (s : SectStream) : Prop :=
  (s.wholeSize = 0 ∧ s.restSize = 0 ∧ s.reader.pos < 2 ^ 32) ∨ (s.wholeSize = s.restSize + s.reader.pos ∧ s.wholeSize < 2 ^ 32)

theorem Exact.start {s : SectStream} (h : Exact s) : N32.Start s := by
  intro h0
  rcases h with ⟨-, h1, h2⟩ | ⟨h1, h2⟩
  · exact ⟨h1, h2⟩
  · exact ⟨by omega, by omega⟩

/-- The message ends beyond what can be addressed: no end section will be found. -/
def Lost (s : SectStream) : Prop := 2 ^ 32 ≤ s.restSize + s.reader.pos

theorem resetPos_ok {s s1 : SectStream} (h : N32.resetPos s = (.ok (), s1)) :
    s1.reader.data = s.reader.data ∧ s1.reader.pos = s.reader.pos ∧
      (Exact s → s.restSize = 0 → s1.wholeSize = s.reader.pos) := by
  unfold N32.resetPos at h
  split at h
  · rename_i h0
    rcases hp : rdPos s.reader with ⟨o, r'⟩
    rw [hp] at h
    cases o with
    | ok p =>
      simp only [Prod.mk.injEq, true_and] at h
      obtain ⟨h1, h2, h3⟩ := rdPos_ok hp
      subst h
      refine ⟨h1, h2, fun he h0' => ?_⟩
      show p % 2 ^ 32 = _
      rcases he with ⟨-, -, h⟩ | ⟨h, -⟩
      · rw [h3]; exact Nat.mod_eq_of_lt h
      · rw [h3]; exact Nat.mod_eq_of_lt (by omega)
    | err e => simp at h
    | panic => simp at h
  · rename_i h0
    simp only [Prod.mk.injEq, true_and] at h
    subst h
    refine ⟨rfl, rfl, fun he h0' => ?_⟩
    rcases he with ⟨h, -⟩ | ⟨h, -⟩
    · exact absurd h h0
    · omega

/-- What one step of a release build yields where a debug build panics. -/
def Astray (data : List UInt8) (y : Outcome ParseError (Option SectionInfo) × SectStream) : Prop :=
  y.1 = .panic ∨ (∃ e, y.1 = .err e) ∨
    ∃ x s', y = (.ok (some x), s') ∧ x.num ≠ 8 ∧ Lost s' ∧ s'.reader.data = data

theorem next_step {s : SectStream} (hs : Exact s) (hl : s.reader.data.length < 2 ^ 31) :
    (next s = N32.next s ∧ ∀ x s', N32.next s = (.ok (some x), s') → Exact s' ∧ s'.reader.data = s.reader.data) ∨
      ((N32.next s).1 = .panic ∧ Astray s.reader.data (next s)) := by
  unfold next N32.next
  split
  · rename_i h0
    unfold nextSect0 N32.nextSect0
    rcases hr : N32.resetPos s with ⟨o, s1⟩
    cases o with
    | err e => exact Or.inl ⟨rfl, by simp⟩
    | panic => exact Or.inl ⟨rfl, by simp⟩
    | ok u =>
      obtain ⟨a1, a2, a3⟩ := resetPos_ok hr
      have hw := a3 hs h0
      dsimp only
      rcases hs0 : readSect0 s1.reader with ⟨o, r'⟩
      cases o with
      | err e => exact Or.inl ⟨rfl, by simp⟩
      | panic => exact Or.inl ⟨rfl, by simp⟩
      | ok x =>
        cases x with
        | none => exact Or.inl ⟨rfl, by simp⟩
        | some q =>
          obtain ⟨off, ind⟩ := q
          obtain ⟨b1, p, b2, b3, b4, b5, b6⟩ := readSect0Loop_some hs0
          have hge := b2.1
          have hm := b2.2.1.2
          rw [a1] at b1 hm
          rw [a2] at hge
          have hp : s1.wholeSize + off = p := by rw [hw, b3, a2]; omega
          have hu : uadd s1.wholeSize off = p := by unfold uadd; omega
          dsimp only
          rw [hu, hp]
          by_cases hc : p + ind.totalLength % 2 ^ 32 ≥ 2 ^ 32 ∨ ind.totalLength % 2 ^ 32 < 16
          · right
            rw [if_pos hc]
            refine ⟨rfl, Or.inr (Or.inr ⟨_, _, rfl, by simp, ?_, b1⟩)⟩
            unfold Lost usub
            show _ ≤ _ + r'.pos
            rw [b4]
            dsimp only
            split <;> omega
          · left
            rw [if_neg hc]
            have e3 : uadd p (ind.totalLength % 2 ^ 32) = p + ind.totalLength % 2 ^ 32 := Nat.mod_eq_of_lt (by omega)
            rw [e3, usub_le (by omega)]
            refine ⟨rfl, ?_⟩
            intro x s' h
            simp only [Prod.mk.injEq] at h
            rw [← h.2]
            refine ⟨Or.inr ?_, b1⟩
            simp only [b4]
            omega
  · rename_i h0
    obtain ⟨hw, hw32⟩ : s.wholeSize = s.restSize + s.reader.pos ∧ s.wholeSize < 2 ^ 32 := by
      rcases hs with ⟨-, h, -⟩ | h
      · exact absurd h h0
      · exact h
    split
    · rename_i h4
      left
      unfold nextSect8 SectStream.nextSect8
      rw [usub_le (show s.restSize ≤ s.wholeSize by omega), usub_le (show 4 ≤ s.restSize by omega)]
      refine ⟨rfl, ?_⟩
      intro x s' h
      rcases h8 : readSect8 s.reader with ⟨o, r'⟩
      rw [h8] at h
      cases o with
      | err e => simp at h
      | panic => simp at h
      | ok y =>
        cases y with
        | none => simp at h
        | some u =>
          simp only [Prod.mk.injEq] at h
          obtain ⟨h1, h2, h3⟩ := readSect8_ok h8
          rw [← h.2]
          refine ⟨Or.inr ?_, h1⟩
          simp only [h2]
          omega
    · rename_i h4
      unfold nextSect N32.nextSect
      rw [usub_le (show s.restSize ≤ s.wholeSize by omega)]
      rcases hh : readSectHeader s.reader with ⟨o, r'⟩
      cases o with
      | err e => exact Or.inl ⟨rfl, by simp⟩
      | panic => exact Or.inl ⟨rfl, by simp⟩
      | ok x =>
        cases x with
        | none => exact Or.inl ⟨rfl, by simp⟩
        | some q =>
          obtain ⟨size, num⟩ := q
          obtain ⟨a1, a2, a3, a4, a5⟩ := readSectHeader_ok hh
          have hsz := Rel.number4_lt s.reader.data s.reader.pos
          rw [a4] at hsz
          dsimp only
          by_cases h5 : 5 ≤ size
          · rw [readSectPayload_eq h5]
            rcases hb : N32.readSectPayload size num r' with ⟨o, r''⟩
            cases o with
            | err e => exact Or.inl ⟨rfl, by simp⟩
            | panic => exact Or.inl ⟨rfl, by simp⟩
            | ok body =>
              obtain ⟨b1, b2, b3, b4⟩ := payload_ok a2 ((congrFun (readSectPayload_eq h5) r').trans hb)
              have b4 : r''.pos = s.reader.pos + size := by omega
              rw [a1] at b1
              dsimp only
              by_cases hc : s.restSize < size
              · right
                rw [if_pos hc]
                refine ⟨rfl, Or.inr (Or.inr ⟨_, _, rfl, by simp only; omega, ?_, b1⟩)⟩
                unfold Lost usub
                simp only [b4]
                rw [if_neg (by omega)]
                omega
              · left
                rw [if_neg hc, usub_le (by omega)]
                refine ⟨rfl, ?_⟩
                intro x s' h
                simp only [Prod.mk.injEq] at h
                rw [← h.2]
                refine ⟨Or.inr ?_, b1⟩
                simp only [b4]
                omega
          · right
            refine ⟨by unfold N32.readSectPayload; rw [if_pos (by omega)]; rfl, ?_⟩
            rcases hb : readSectPayload size num r' with ⟨o, r''⟩
            cases o with
            | err e => exact Or.inr (Or.inl ⟨e, rfl⟩)
            | panic => exact Or.inl rfl
            | ok body =>
              obtain ⟨b1, b2, b3, b4⟩ := payload_ok a2 hb
              have b4 : r''.pos = s.reader.pos + size + 2 ^ 32 := by omega
              rw [a1] at b1
              refine Or.inr (Or.inr ⟨_, _, rfl, by simp only; omega, ?_, b1⟩)
              unfold Lost
              simp only [b4]
              omega

theorem next_lost {s s' : SectStream} {x : SectionInfo} (hs : Lost s) (hl : s.reader.data.length < 2 ^ 31)
    (h : next s = (.ok (some x), s')) : x.num ≠ 8 ∧ Lost s' ∧ s'.reader.data = s.reader.data := by
  unfold Lost at hs
  unfold next at h
  split at h
  · exfalso
    rename_i h0
    unfold nextSect0 at h
    rcases hr : N32.resetPos s with ⟨o, s1⟩
    rw [hr] at h
    cases o with
    | err e => simp at h
    | panic => simp at h
    | ok u =>
      obtain ⟨a1, a2, -⟩ := resetPos_ok hr
      dsimp only at h
      rcases hs0 : readSect0 s1.reader with ⟨o, r'⟩
      rw [hs0] at h
      cases o with
      | err e => simp at h
      | panic => simp at h
      | ok x =>
        cases x with
        | none => simp at h
        | some q =>
          obtain ⟨off, ind⟩ := q
          obtain ⟨b1, p, b2, -⟩ := readSect0Loop_some hs0
          have hge := b2.1
          have hm := b2.2.1.2
          rw [a1] at hm
          rw [a2] at hge
          omega
  · split at h
    · exfalso
      unfold nextSect8 at h
      rcases h8 : readSect8 s.reader with ⟨o, r'⟩
      rw [h8] at h
      cases o with
      | err e => simp at h
      | panic => simp at h
      | ok y =>
        cases y with
        | none => simp at h
        | some u =>
          have h3 := (readSect8_ok h8).2.2.1
          simp only [List.length_cons, List.length_nil] at h3
          omega
    · unfold nextSect at h
      rcases hh : readSectHeader s.reader with ⟨o, r'⟩
      rw [hh] at h
      cases o with
      | err e => simp at h
      | panic => simp at h
      | ok x =>
        cases x with
        | none => simp at h
        | some q =>
          obtain ⟨size, num⟩ := q
          obtain ⟨a1, a2, a3, a4, a5⟩ := readSectHeader_ok hh
          have hsz := Rel.number4_lt s.reader.data s.reader.pos
          rw [a4] at hsz
          dsimp only at h
          rcases hb : readSectPayload size num r' with ⟨o, r''⟩
          rw [hb] at h
          cases o with
          | err e => simp at h
          | panic => simp at h
          | ok body =>
            obtain ⟨b1, b2, b3, b4⟩ := payload_ok a2 hb
            simp only [Prod.mk.injEq, Outcome.ok.injEq, Option.some.injEq] at h
            rw [← h.1, ← h.2]
            refine ⟨by simp only; omega, ?_, by rw [← a1]; exact b1⟩
            unfold Lost usub
            simp only
            split <;> omega

/-- Every section that is found takes the reader on by four octets at least. -/
theorem next_progress {s s' : SectStream} {x : SectionInfo} (h : next s = (.ok (some x), s')) :
    s'.reader.data = s.reader.data ∧ s.reader.pos + 4 ≤ s'.reader.pos ∧ s.reader.pos + 4 ≤ s.reader.data.length := by
  unfold next at h
  split at h
  · unfold nextSect0 at h
    rcases hr : N32.resetPos s with ⟨o, s1⟩
    rw [hr] at h
    cases o with
    | err e => simp at h
    | panic => simp at h
    | ok u =>
      obtain ⟨a1, a2, -⟩ := resetPos_ok hr
      dsimp only at h
      rcases hs0 : readSect0 s1.reader with ⟨o, r'⟩
      rw [hs0] at h
      cases o with
      | err e => simp at h
      | panic => simp at h
      | ok x =>
        cases x with
        | none => simp at h
        | some q =>
          obtain ⟨off, ind⟩ := q
          obtain ⟨b1, p, b2, b3, b4, -⟩ := readSect0Loop_some hs0
          have hge := b2.1
          have hm := b2.2.1.2
          rw [a1] at hm b1
          rw [a2] at hge
          simp only [Prod.mk.injEq] at h
          rw [← h.2]
          exact ⟨b1, by simp only; omega, by omega⟩
  · split at h
    · unfold nextSect8 at h
      rcases h8 : readSect8 s.reader with ⟨o, r'⟩
      rw [h8] at h
      cases o with
      | err e => simp at h
      | panic => simp at h
      | ok y =>
        cases y with
        | none => simp at h
        | some u =>
          obtain ⟨h1, h2, h3⟩ := readSect8_ok h8
          have hl := h3.1
          simp only [List.length_cons, List.length_nil] at hl
          simp only [Prod.mk.injEq] at h
          rw [← h.2]
          exact ⟨h1, by simp only; omega, by omega⟩
    · unfold nextSect at h
      rcases hh : readSectHeader s.reader with ⟨o, r'⟩
      rw [hh] at h
      cases o with
      | err e => simp at h
      | panic => simp at h
      | ok x =>
        cases x with
        | none => simp at h
        | some q =>
          obtain ⟨size, num⟩ := q
          obtain ⟨a1, a2, a3, a4, a5⟩ := readSectHeader_ok hh
          dsimp only at h
          rcases hb : readSectPayload size num r' with ⟨o, r''⟩
          rw [hb] at h
          cases o with
          | err e => simp at h
          | panic => simp at h
          | ok body =>
            obtain ⟨b1, b2, b3, b4⟩ := payload_ok a2 hb
            simp only [Prod.mk.injEq] at h
            rw [← h.2]
            exact ⟨by rw [← a1]; exact b1, by simp only; omega, by omega⟩

/-- Headers are read where they may be expected. -/
theorem next_chain {s s' : SectStream} {x : SectionInfo} (hc : s.restSize ≠ 0 → HeaderAt s.reader.data s.reader.pos ∨ s.reader.data.length < s.reader.pos)
    (hl : s.reader.data.length < 2 ^ 31) (h : next s = (.ok (some x), s')) :
    s'.restSize ≠ 0 → HeaderAt s'.reader.data s'.reader.pos ∨ s'.reader.data.length < s'.reader.pos := by
  unfold next at h
  split at h
  · unfold nextSect0 at h
    rcases hr : N32.resetPos s with ⟨o, s1⟩
    rw [hr] at h
    cases o with
    | err e => simp at h
    | panic => simp at h
    | ok u =>
      obtain ⟨a1, a2, -⟩ := resetPos_ok hr
      dsimp only at h
      rcases hs0 : readSect0 s1.reader with ⟨o, r'⟩
      rw [hs0] at h
      cases o with
      | err e => simp at h
      | panic => simp at h
      | ok x =>
        cases x with
        | none => simp at h
        | some q =>
          obtain ⟨off, ind⟩ := q
          obtain ⟨b1, p, b2, b3, b4, -⟩ := readSect0Loop_some hs0
          simp only [Prod.mk.injEq] at h
          rw [← h.2]
          refine fun _ => Or.inl ?_
          simp only
          rw [b1, b4]
          exact .first p b2.2.1
  · split at h
    · unfold nextSect8 at h
      rcases h8 : readSect8 s.reader with ⟨o, r'⟩
      rw [h8] at h
      cases o with
      | err e => simp at h
      | panic => simp at h
      | ok y =>
        cases y with
        | none => simp at h
        | some u =>
          rename_i h0 h4
          simp only [Prod.mk.injEq] at h
          rw [← h.2]
          simp [h4, usub]
    · unfold nextSect at h
      rcases hh : readSectHeader s.reader with ⟨o, r'⟩
      rw [hh] at h
      cases o with
      | err e => simp at h
      | panic => simp at h
      | ok x =>
        cases x with
        | none => simp at h
        | some q =>
          obtain ⟨size, num⟩ := q
          obtain ⟨a1, a2, a3, a4, a5⟩ := readSectHeader_ok hh
          dsimp only at h
          rcases hb : readSectPayload size num r' with ⟨o, r''⟩
          rw [hb] at h
          cases o with
          | err e => simp at h
          | panic => simp at h
          | ok body =>
            obtain ⟨b1, b2, b3, b4⟩ := payload_ok a2 hb
            simp only [Prod.mk.injEq] at h
            rw [← h.2]
            intro _
            simp only
            rw [b1, a1]
            rcases hc (by assumption) with hc | hc
            · rcases b4 with ⟨b4, b5⟩ | ⟨b4, b5⟩
              · left
                rw [b5, ← a4]
                exact .next _ hc a3 (by omega) (by omega) (by omega)
              · right; omega
            · omega

/-! ## Whole streams -/

theorem collectN_fuel (f k : Nat) {s : SectStream} (hf : s.reader.data.length - s.reader.pos + 2 ≤ f) :
    collectN (f + k) s = collectN f s := by
  induction f generalizing s with
  | zero => omega
  | succ f ih =>
    have e : f + 1 + k = (f + k) + 1 := by omega
    rw [e, collectN, collectN]
    rcases hn : next s with ⟨o, s'⟩
    cases o with
    | err e => rfl
    | panic => rfl
    | ok x =>
      cases x with
      | none => rfl
      | some x =>
        obtain ⟨h1, h2, h3⟩ := next_progress hn
        dsimp only
        rw [ih (by rw [h1]; omega)]

theorem collectN_shape (fuel : Nat) (s : SectStream) :
    ∃ (oks : List SectionInfo) (t : List Item), (collectN fuel s).1 = oks.map .ok ++ t ∧ (t = [] ∨ (∃ e, t = [.err e]) ∨ t = [.panic]) := by
  induction fuel generalizing s with
  | zero => exact ⟨[], [.panic], rfl, Or.inr (Or.inr rfl)⟩
  | succ f ih =>
    rw [collectN]
    split
    · exact ⟨[], [], rfl, Or.inl rfl⟩
    · rename_i sect s' _
      obtain ⟨oks, t, h1, h2⟩ := ih s'
      exact ⟨sect :: oks, t, by simp only [h1, List.map_cons, List.cons_append], h2⟩
    · exact ⟨[], _, rfl, Or.inr (Or.inl ⟨_, rfl⟩)⟩
    · exact ⟨[], _, rfl, Or.inr (Or.inr rfl)⟩

theorem lost_items (fuel : Nat) {s : SectStream} (hs : Lost s) (hl : s.reader.data.length < 2 ^ 31) :
    ∀ x, .ok x ∈ (collectN fuel s).1 → x.num ≠ 8 := by
  induction fuel generalizing s with
  | zero => simp [collectN]
  | succ f ih =>
    intro x hx
    rw [collectN] at hx
    split at hx
    · simp at hx
    · rename_i y s' hn
      obtain ⟨a1, a2, a3⟩ := next_lost hs hl hn
      simp only [List.mem_cons] at hx
      rcases hx with hx | hx
      · cases hx; exact a1
      · exact ih a2 (by rw [a3]; exact hl) x hx
    · simp at hx
    · simp at hx

/-- The rest of the items of a release build after the point where a debug build panics: not nothing, and no end section. -/
def AstrayTail (tail : List Item) : Prop := tail ≠ [] ∧ ∀ x, .ok x ∈ tail → x.num ≠ 8

theorem collectN_step (fuel : Nat) {s : SectStream} (hs : Exact s) (hl : s.reader.data.length < 2 ^ 31) :
    collectN fuel s = N32.collectN fuel s ∨
      ∃ (pre : List SectionInfo) (tail : List Item), (N32.collectN fuel s).1 = pre.map .ok ++ [.panic] ∧
        (collectN fuel s).1 = pre.map .ok ++ tail ∧ AstrayTail tail := by
  induction fuel generalizing s with
  | zero => exact Or.inl rfl
  | succ f ih =>
    rcases next_step hs hl with ⟨he, hi⟩ | ⟨hp, ha⟩
    · rw [collectN, N32.collectN, he]
      rcases hn : N32.next s with ⟨o, s'⟩
      cases o with
      | err e => exact Or.inl rfl
      | panic => exact Or.inl rfl
      | ok x =>
        cases x with
        | none => exact Or.inl rfl
        | some x =>
          obtain ⟨i1, i2⟩ := hi x s' hn
          dsimp only
          rcases ih i1 (by rw [i2]; exact hl) with h | ⟨pre, tail, h1, h2, h3⟩
          · left; rw [h]
          · right
            exact ⟨x :: pre, tail, by simp only [h1, List.map_cons, List.cons_append],
              by simp only [h2, List.map_cons, List.cons_append], h3⟩
    · right
      refine ⟨[], (collectN (f + 1) s).1, ?_, by simp, ?_⟩
      · rw [N32.collectN]
        rcases hn : N32.next s with ⟨o, s'⟩
        rw [hn] at hp
        dsimp only at hp
        subst hp
        rfl
      · rw [collectN]
        rcases ha with h | ⟨e, h⟩ | ⟨x, s', h, h1, h2, h3⟩
        · rcases hn : next s with ⟨o, s'⟩
          rw [hn] at h
          dsimp only at h
          subst h
          exact ⟨by simp, by simp⟩
        · rcases hn : next s with ⟨o, s'⟩
          rw [hn] at h
          dsimp only at h
          subst h
          exact ⟨by simp, by simp⟩
        · rw [h]
          refine ⟨by simp, ?_⟩
          intro y hy
          simp only [List.mem_cons] at hy
          rcases hy with hy | hy
          · cases hy; exact h1
          · exact lost_items f h2 (by rw [h3]; exact hl) y hy

/-! ## Panics -/

theorem readSectPayload_panic {size num : Nat} {r r' : Rdr} (h : readSectPayload size num r = (.panic, r')) :
    1 ≤ num ∧ num ≤ 6 ∧ (size < 5 ∨ (num = 6 ∧ size = 5) ∨ 2 ^ 31 + 5 ≤ size) := by
  have hn : 1 ≤ num ∧ num ≤ 6 := by
    unfold readSectPayload at h
    match num with
    | 0 => cases h
    | 1 | 2 | 3 | 4 | 5 | 6 => omega
    | 7 =>
      exfalso
      change skipSect7Payload _ r = _ at h
      unfold skipSect7Payload at h
      rw [RM.bind_apply] at h
      split at h
      · cases h
      · cases h
      · rename_i hc; exact rdSeekCur_noPanic _ _ _ hc
    | n + 8 => cases h
  refine ⟨hn.1, hn.2, ?_⟩
  by_cases h5 : size < 5
  · exact Or.inl h5
  · by_cases hb : size < 2 ^ 31 + 5
    · rw [readSectPayload_eq (by omega), N32.readSectPayload_small hb] at h
      rcases Model.readSectPayload_panic h with h' | h'
      · exact absurd h' h5
      · exact Or.inr (Or.inl h')
    · exact Or.inr (Or.inr (by omega))

/-- Where the stream itself panics. -/
theorem next_panic {s s' : SectStream} (h : next s = (.panic, s')) :
    s.restSize ≠ 0 ∧ ∃ p, p = s.reader.pos ∧ p + 5 ≤ s.reader.data.length ∧ 1 ≤ octet s.reader.data (p + 4) ∧
      octet s.reader.data (p + 4) ≤ 6 ∧ (number s.reader.data p 4 < 5 ∨ (octet s.reader.data (p + 4) = 6 ∧ number s.reader.data p 4 = 5) ∨
        2 ^ 31 + 5 ≤ number s.reader.data p 4) := by
  unfold next at h
  split at h
  · exfalso
    unfold nextSect0 at h
    rcases hr : N32.resetPos s with ⟨o, s1⟩
    rw [hr] at h
    cases o with
    | err e => simp at h
    | panic =>
      unfold N32.resetPos at hr
      split at hr
      · rcases hp : rdPos s.reader with ⟨o, r'⟩
        rw [hp] at hr
        cases o with
        | ok p => simp at hr
        | err e => simp at hr
        | panic =>
          unfold rdPos at hp
          rcases hc : rdSeekCur 0 s.reader with ⟨o, r2⟩
          rw [hc] at hp
          cases o with
          | ok p => simp at hp
          | err e => simp at hp
          | panic => exact rdSeekCur_noPanic _ _ _ hc
      · simp at hr
    | ok u =>
      dsimp only at h
      rcases hs0 : readSect0 s1.reader with ⟨o, r'⟩
      rw [hs0] at h
      cases o with
      | err e => simp at h
      | panic => exact readSect0_noPanic _ _ hs0
      | ok x =>
        cases x with
        | none => simp at h
        | some q => simp at h
  · split at h
    · exfalso
      unfold nextSect8 at h
      rcases h8 : readSect8 s.reader with ⟨o, r'⟩
      rw [h8] at h
      cases o with
      | err e => simp at h
      | panic => exact readSect8_noPanic _ _ h8
      | ok y =>
        cases y with
        | none => simp at h
        | some u => simp at h
    · unfold nextSect at h
      rcases hh : readSectHeader s.reader with ⟨o, r'⟩
      rw [hh] at h
      cases o with
      | err e => simp at h
      | panic => exact absurd hh (readSectHeader_noPanic _ _)
      | ok x =>
        cases x with
        | none => simp at h
        | some q =>
          obtain ⟨size, num⟩ := q
          obtain ⟨a1, a2, a3, a4, a5⟩ := readSectHeader_ok hh
          dsimp only at h
          rcases hb : readSectPayload size num r' with ⟨o, r''⟩
          rw [hb] at h
          cases o with
          | err e => simp at h
          | ok body => simp at h
          | panic =>
            refine ⟨by assumption, s.reader.pos, rfl, a3, ?_⟩
            rw [a4, a5]
            exact readSectPayload_panic hb

theorem collectN_panic (f : Nat) {s : SectStream} (hf : s.reader.data.length - s.reader.pos + 2 ≤ f)
    (hc : s.restSize ≠ 0 → HeaderAt s.reader.data s.reader.pos ∨ s.reader.data.length < s.reader.pos)
    (hl : s.reader.data.length < 2 ^ 31) (h : .panic ∈ (collectN f s).1) :
    ∃ s1 s2, s1.reader.data = s.reader.data ∧ next s1 = (.panic, s2) ∧
      (s1.restSize ≠ 0 → HeaderAt s1.reader.data s1.reader.pos ∨ s1.reader.data.length < s1.reader.pos) := by
  induction f generalizing s with
  | zero => omega
  | succ f ih =>
    rw [collectN] at h
    rcases hn : next s with ⟨o, s'⟩
    rw [hn] at h
    cases o with
    | err e => simp at h
    | panic => exact ⟨s, s', rfl, hn, hc⟩
    | ok x =>
      cases x with
      | none => simp at h
      | some x =>
        obtain ⟨h1, h2, h3⟩ := next_progress hn
        simp only [List.mem_cons, reduceCtorEq, false_or] at h
        obtain ⟨s1, s2, g1, g2⟩ := ih (by rw [h1]; omega) (next_chain hc hl hn) (by rw [h1]; exact hl) h
        exact ⟨s1, s2, by rw [g1, h1], g2⟩

end Grib.Model.R32
