import Verif.Lemmas.Release

/-! # Release builds: what the section stream does -/

namespace Grib.Model.Rel

open Grib.Model Grib.Spec

/-- `whole_size` is where the message ends, modulo `2^64`. -/
def WInv (w rest pos : Nat) : Prop :=
  (w = 0 ∧ rest = 0) ∨ (w < USIZE ∧ rest < USIZE ∧ w % USIZE = (rest + pos) % USIZE)

theorem octet_lt (data : List UInt8) (p : Nat) : octet data p < 256 := (data.getD p 0).toNat_lt

theorem number4_lt (data : List UInt8) (p : Nat) : number data p 4 < 2 ^ 32 := by
  have h0 := octet_lt data p
  have h1 := octet_lt data (p + 1)
  have h2 := octet_lt data (p + 2)
  have h3 := octet_lt data (p + 3)
  have : number data p 4 = (((0 * 256 + octet data (p + 0)) * 256 + octet data (p + 1)) * 256 + octet data (p + 2)) * 256 +
    octet data (p + 3) := rfl
  simp only [Nat.add_zero] at this
  omega

theorem number8_lt (data : List UInt8) (p : Nat) : number data p 8 < 2 ^ 64 := by
  have h0 := octet_lt data p
  have h1 := octet_lt data (p + 1)
  have h2 := octet_lt data (p + 2)
  have h3 := octet_lt data (p + 3)
  have h4 := octet_lt data (p + 4)
  have h5 := octet_lt data (p + 5)
  have h6 := octet_lt data (p + 6)
  have h7 := octet_lt data (p + 7)
  have : number data p 8 = (((((((0 * 256 + octet data (p + 0)) * 256 + octet data (p + 1)) * 256 + octet data (p + 2)) * 256 +
    octet data (p + 3)) * 256 + octet data (p + 4)) * 256 + octet data (p + 5)) * 256 + octet data (p + 6)) * 256 +
    octet data (p + 7) := rfl
  simp only [Nat.add_zero] at this
  omega

theorem startR_pos {w : Nat} {r r' : Rdr} {w1 : Nat} (h : startR w r = (.ok w1, r')) :
    r'.data = r.data ∧ r'.pos = r.pos ∧ ((w = 0 ∧ w1 = r.pos) ∨ (w ≠ 0 ∧ w1 = w)) := by
  unfold startR at h
  split at h
  · rename_i h0
    unfold RM.mapErr at h
    rcases hp : rdPos r with ⟨o, r1⟩
    rw [hp] at h
    cases o with
    | ok p =>
      simp only [Outcome.mapErr, Prod.mk.injEq, Outcome.ok.injEq] at h
      obtain ⟨rfl, rfl⟩ := h
      obtain ⟨h1, h2, h3⟩ := rdPos_ok hp
      exact ⟨h1, h2, Or.inl ⟨h0, h3⟩⟩
    | err e => simp [Outcome.mapErr] at h
    | panic => simp [Outcome.mapErr] at h
  · rename_i h0
    simp only [RM.pure_apply, Prod.mk.injEq, Outcome.ok.injEq] at h
    obtain ⟨rfl, rfl⟩ := h
    exact ⟨rfl, rfl, Or.inr ⟨h0, rfl⟩⟩

/-- A payload that was read. -/
theorem payload_ok {size num : Nat} {r r' : Rdr} {body : SectionBody} {p : Nat} (hp : r.pos = p + 5) (hs : size < 2 ^ 32)
    (h : readSectPayload size num r = (.ok body, r')) :
    r'.data = r.data ∧ r'.pos = p + size ∧ 1 ≤ num ∧ num ≤ 7 ∧ BodyAt r.data p size num (some body) ∧
      ((5 ≤ size ∧ (num ≤ 6 → (size = 5 ∨ p + size ≤ r.data.length) ∧ minPayload num ≤ size - 5) ∧
          Model.readSectPayload size num r = (.ok body, r')) ∨
        (num = 7 ∧ size < 5)) := by
  by_cases h5 : 5 ≤ size
  · rw [readSectPayload_eq (by omega) h5] at h
    obtain ⟨b1, b2, b3, b4, b5, b6, b7⟩ := readSectPayload_ok hp h
    exact ⟨b1, b2, b4, b5, b6, Or.inl ⟨b3, b7, h⟩⟩
  · have := readSectPayload_short (num := num) (show size < 5 by omega) r
    rw [h] at this
    rcases this with ⟨-, -, h1 | ⟨e, h1⟩⟩ | ⟨h1, h2, ⟨h3, h4⟩ | ⟨e, h3⟩⟩ | h1
    · simp at h1
    · simp at h1
    · simp only [Outcome.ok.injEq] at h3
      subst h1 h3
      exact ⟨h2, by simp only at h4; omega, by omega, by omega, rfl, Or.inr ⟨rfl, by omega⟩⟩
    · simp at h3
    · simp at h1

/-- A section 7 announced to be shorter than its own header. -/
structure Short (data : List UInt8) (s : SectionInfo) : Prop where
  num : s.num = 7
  size : s.size < 5
  body : s.body = some .section7
  header : number data s.offset 4 = s.size ∧ octet data (s.offset + 4) = 7 ∧ s.offset + 5 ≤ data.length

theorem nextQ_some {w rest w' rest' : Nat} {r r' : Rdr} {s : SectionInfo} (hw : WInv w rest r.pos)
    (hl : r.data.length < 2 ^ 63) (h : nextQ w rest r = (.ok (some (s, w', rest')), r')) :
    r'.data = r.data ∧ r.pos < r.data.length ∧ WInv w' rest' r'.pos ∧ (Faithful r.data s ∨ Short r.data s) ∧
    r'.pos ≤ r.data.length + 2 ^ 32 ∧ r'.pos = s.offset + s.size ∧
    ((rest = 0 ∧ s.num = 0 ∧ r.pos + 16 ≤ r'.pos ∧ rest' = usub (number r.data (s.offset + 8) 8) 16) ∨
     (rest = 4 ∧ s.num = 8 ∧ rest' = 0 ∧ r'.pos = r.pos + 4) ∨
     (rest ≠ 0 ∧ rest ≠ 4 ∧ 1 ≤ s.num ∧ s.num ≤ 7 ∧ rest' = usub rest s.size ∧ s.offset = r.pos ∧
       s.size = number r.data r.pos 4 ∧ s.num = octet r.data (r.pos + 4))) := by
  unfold nextQ at h
  split at h
  · rename_i h0
    subst h0
    obtain ⟨w1, r1, h1, h2⟩ := RM.bind_ok_inv h
    obtain ⟨a1, a2, a3⟩ := startR_pos h1
    obtain ⟨x, r2, h3, h4⟩ := RM.bind_ok_inv h2
    cases x with
    | none => simp [RM.pure_apply] at h4
    | some q =>
      obtain ⟨off, ind⟩ := q
      obtain ⟨b1, p, b2, b3, b4, b5, b6⟩ := readSect0Loop_some h3
      rw [a1, a2] at b2
      rw [a1] at b1 b5 b6
      simp only [RM.pure_apply, Prod.mk.injEq, Outcome.ok.injEq, Option.some.injEq] at h4
      obtain ⟨⟨rfl, rfl, rfl⟩, rfl⟩ := h4
      have hm := b2.2.1
      have hm2 := hm.2
      have hge := b2.1
      have hw1 : w1 = r.pos := by
        rcases a3 with ⟨-, h⟩ | ⟨h, h'⟩
        · exact h
        · rcases hw with ⟨h5, -⟩ | ⟨h5, h6, h7⟩
          · exact absurd h5 h
          · unfold USIZE at h5 h7; omega
      have hp : uadd w1 off = p := by
        unfold uadd USIZE
        rw [hw1, b3, a2]
        omega
      rw [hp]
      have htl : ind.totalLength = number r.data (p + 8) 8 := by rw [b6]; rfl
      have hlt := number8_lt r.data (p + 8)
      refine ⟨b1, by omega, Or.inr ?_, Or.inl ?_, by omega, b4, Or.inl ⟨rfl, rfl, by omega, by rw [htl]⟩⟩
      · rw [htl, b4]
        unfold uadd usub USIZE
        refine ⟨by omega, by split <;> omega, by split <;> omega⟩
      · exact ⟨by rw [b6]; rfl, by simp, fun _ => ⟨rfl, hm, b5⟩, by simp, by simp, fun _ => ⟨hm2, by simp⟩⟩
  · rename_i h0
    obtain ⟨hw1, hw2, hw3⟩ : w < USIZE ∧ rest < USIZE ∧ w % USIZE = (rest + r.pos) % USIZE := by
      rcases hw with ⟨-, h⟩ | h
      · exact absurd h h0
      · exact h
    unfold USIZE at hw1 hw2 hw3
    split at h
    · rename_i h4
      obtain ⟨x, r1, h1, h2⟩ := RM.bind_ok_inv h
      cases x with
      | none => simp [RM.pure_apply] at h2
      | some u =>
        obtain ⟨a1, a2, a3⟩ := readSect8_ok h1
        simp only [RM.pure_apply, Prod.mk.injEq, Outcome.ok.injEq, Option.some.injEq] at h2
        obtain ⟨⟨rfl, rfl, rfl⟩, rfl⟩ := h2
        have hl4 := a3.1
        simp only [List.length_cons, List.length_nil] at hl4
        have hoff : usub w rest = r.pos := by unfold usub USIZE; split <;> omega
        have hr0 : usub rest 4 = 0 := by rw [usub_le (by omega)]; omega
        rw [hoff, hr0]
        refine ⟨a1, by omega, Or.inr ?_, Or.inl ?_, by omega, a2, Or.inr (Or.inl ⟨h4, rfl, rfl, a2⟩)⟩
        · unfold USIZE; omega
        · exact ⟨rfl, by simp, by simp, fun _ => ⟨rfl, a3⟩, by simp, by simp⟩
    · rename_i h4
      obtain ⟨x, r1, h1, h2⟩ := RM.bind_ok_inv h
      cases x with
      | none => simp [RM.pure_apply] at h2
      | some q =>
        obtain ⟨size, num⟩ := q
        obtain ⟨a1, a2, a3, a4, a5⟩ := readSectHeader_ok h1
        obtain ⟨body, r2, h3, h5⟩ := RM.bind_ok_inv h2
        have hsz := number4_lt r.data r.pos
        rw [a4] at hsz
        obtain ⟨b1, b2, b4, b5, b6, b7⟩ := payload_ok a2 hsz h3
        rw [a1] at b1 b6 b7
        simp only [RM.pure_apply, Prod.mk.injEq, Outcome.ok.injEq, Option.some.injEq] at h5
        obtain ⟨⟨rfl, rfl, rfl⟩, rfl⟩ := h5
        have hoff : usub w rest = r.pos := by unfold usub USIZE; split <;> omega
        rw [hoff]
        refine ⟨b1, by omega, Or.inr ?_, ?_, by omega, b2, Or.inr (Or.inr ⟨h0, h4, b4, b5, rfl, rfl, a4.symm, a5.symm⟩)⟩
        · rw [b2]; unfold usub USIZE; refine ⟨by omega, by split <;> omega, by split <;> omega⟩
        · rcases b7 with ⟨b3, b7, -⟩ | ⟨rfl, hs⟩
          · refine Or.inl ⟨b6, by simp; omega, ?_, ?_, fun _ _ => ⟨b3, a4, a5, a3⟩, ?_⟩
            · intro h; simp only at h; omega
            · intro h; simp only at h; omega
            · intro h
              obtain ⟨c1, c2⟩ := b7 h
              exact ⟨by simp only; omega, fun _ => c2⟩
          · exact Or.inr ⟨rfl, hs, b6, a4, a5, a3⟩

/-! ## Against the debug build -/

/-- What a release build does where a debug build panics: it panics, returns an error, takes a section 7 that is shorter than
its header, or counts below zero what is left of the message. -/
def Astray (x : Outcome ParseError (Option (SectionInfo × Nat × Nat)) × Rdr) : Prop :=
  x.1 = .panic ∨ (∃ e, x.1 = .err e) ∨
    ∃ s w rest r, x = (.ok (some (s, w, rest)), r) ∧ ((s.num = 7 ∧ s.size < 5) ∨ (s.num ≠ 8 ∧ 2 ^ 64 ≤ rest + r.pos))

theorem nextQ_step {w rest stop : Nat} {r : Rdr} (hi : Inv w rest r.pos stop) (hw : WInv w rest r.pos)
    (hl : r.data.length < 2 ^ 63) :
    nextQ w rest r = nextR w rest r ∨ ((nextR w rest r).1 = .panic ∧ Astray (nextQ w rest r)) := by
  by_cases h0 : rest = 0
  · subst h0
    have e1 : nextQ w 0 r = nextQ0 w r := rfl
    have e2 : nextR w 0 r = nextR0 w r := rfl
    rcases hst : startR w r with ⟨o, r1⟩
    cases o with
    | err e => left; rw [e1, e2]; unfold nextQ0 nextR0; simp only [RM.bind_apply, hst]
    | panic => exact absurd hst (startR_noPanic _ _ _)
    | ok w1 =>
      obtain ⟨a1, a2, a3⟩ := startR_ok hi hst
      rcases hs0 : readSect0 r1 with ⟨o, r2⟩
      cases o with
      | err e => left; rw [e1, e2]; unfold nextQ0 nextR0; simp only [RM.bind_apply, hst, hs0]
      | panic => exact absurd hs0 (readSect0_noPanic _ _)
      | ok x =>
        cases x with
        | none => left; rw [e1, e2]; unfold nextQ0 nextR0; simp only [RM.bind_apply, hst, hs0]
        | some q =>
          obtain ⟨off, ind⟩ := q
          obtain ⟨b1, p, b2, b3, b4, b5, b6⟩ := readSect0Loop_some hs0
          rw [a1, a2] at b2
          have hm2 := b2.2.1.2
          have hge := b2.1
          have hp : w1 + off = p := by rw [a3, b3, a2]; omega
          have hu : uadd w1 off = p := by unfold uadd USIZE; omega
          have q1 : nextQ w 0 r = (.ok (some (⟨0, p, 16, some (.section0 ind)⟩, uadd p ind.totalLength,
              usub ind.totalLength 16)), r2) := by
            rw [e1]; unfold nextQ0; simp only [RM.bind_apply, hst, hs0, hu]; rfl
          by_cases hc : p + ind.totalLength ≥ USIZE ∨ ind.totalLength < 16
          · right
            refine ⟨?_, Or.inr (Or.inr ⟨_, _, _, _, q1, Or.inr ⟨by simp, ?_⟩⟩)⟩
            · rw [e2]; unfold nextR0; simp only [RM.bind_apply, hst, hs0, hp]; rw [if_pos hc]; rfl
            · rw [b4]; unfold usub USIZE at *; split <;> omega
          · left
            rw [q1, e2]; unfold nextR0; simp only [RM.bind_apply, hst, hs0, hp]; rw [if_neg hc]
            have e3 : uadd p ind.totalLength = p + ind.totalLength := by unfold uadd; exact Nat.mod_eq_of_lt (by omega)
            rw [e3, usub_le (by omega)]; rfl
  · have hstop := hi.1
    have hww : w = stop := by rcases hi with ⟨-, h | h⟩ <;> omega
    by_cases h4 : rest = 4
    · left
      unfold nextQ nextR
      rw [if_neg h0, if_neg h0, if_pos h4, if_pos h4]
      unfold nextQ8 nextR8
      rw [usub_le (show rest ≤ w by omega), usub_le (show 4 ≤ rest by omega)]
      rfl
    · have e1 : nextQ w rest r = nextQS w rest r := by unfold nextQ; rw [if_neg h0, if_neg h4]
      have e2 : nextR w rest r = nextRS w rest r := by unfold nextR; rw [if_neg h0, if_neg h4]
      rcases hh : readSectHeader r with ⟨o, r1⟩
      cases o with
      | err e => left; rw [e1, e2]; unfold nextQS nextRS; simp only [RM.bind_apply, hh]
      | panic => exact absurd hh (readSectHeader_noPanic _ _)
      | ok x =>
        cases x with
        | none => left; rw [e1, e2]; unfold nextQS nextRS; simp only [RM.bind_apply, hh]
        | some q =>
          obtain ⟨size, num⟩ := q
          obtain ⟨a1, a2, a3, a4, a5⟩ := readSectHeader_ok hh
          have hsz := number4_lt r.data r.pos
          rw [a4] at hsz
          by_cases h5 : 5 ≤ size
          · have hpe := readSectPayload_eq (num := num) (show size < 2 ^ 63 by omega) h5
            rcases hb : Model.readSectPayload size num r1 with ⟨o, r2⟩
            cases o with
            | err e => left; rw [e1, e2]; unfold nextQS nextRS; simp only [RM.bind_apply, hh, hpe, hb]
            | panic => left; rw [e1, e2]; unfold nextQS nextRS; simp only [RM.bind_apply, hh, hpe, hb]
            | ok body =>
              obtain ⟨b1, b2, b3, b4, b5, -⟩ := readSectPayload_ok a2 hb
              have q1 : nextQ w rest r = (.ok (some (⟨num, w - rest, size, some body⟩, w, usub rest size)), r2) := by
                rw [e1]; unfold nextQS; simp only [RM.bind_apply, hh, hpe, hb, usub_le (show rest ≤ w by omega)]; rfl
              by_cases hc : rest < size
              · right
                refine ⟨?_, Or.inr (Or.inr ⟨_, _, _, _, q1, Or.inr ⟨by simp only; omega, ?_⟩⟩)⟩
                · rw [e2]; unfold nextRS; simp only [RM.bind_apply, hh, hb]; rw [if_pos hc]; rfl
                · rw [b2]; unfold usub; rw [if_neg (by omega)]; unfold USIZE; omega
              · left
                rw [q1, e2]; unfold nextRS; simp only [RM.bind_apply, hh, hb]; rw [if_neg hc, usub_le (by omega)]; rfl
          · right
            have hs5 : size < 5 := by omega
            refine ⟨?_, ?_⟩
            · rw [e2]; unfold nextRS Model.readSectPayload; simp only [RM.bind_apply, hh]; rw [if_pos hs5]; rfl
            · have hps := readSectPayload_short (num := num) hs5 r1
              rcases hb : readSectPayload size num r1 with ⟨o, r2⟩
              rw [hb] at hps
              cases o with
              | err e =>
                exact Or.inr (Or.inl ⟨e, by rw [e1]; unfold nextQS; simp only [RM.bind_apply, hh, hb]⟩)
              | panic => exact Or.inl (by rw [e1]; unfold nextQS; simp only [RM.bind_apply, hh, hb])
              | ok body =>
                obtain ⟨-, -, -, -, -, ⟨c1, -⟩ | ⟨c1, c2⟩⟩ := payload_ok a2 hsz hb
                · omega
                · refine Or.inr (Or.inr ⟨⟨num, usub w rest, size, some body⟩, w, usub rest size, r2, ?_, Or.inl ⟨c1, c2⟩⟩)
                  rw [e1]; unfold nextQS; simp only [RM.bind_apply, hh, hb]; rfl

/-! ## Whole streams -/

theorem collectQ_shape (fuel w rest : Nat) (r : Rdr) :
    ∃ (oks : List SectionInfo) (t : List Item), (collectQ fuel w rest r).1 = oks.map .ok ++ t ∧ (t = [] ∨ (∃ e, t = [.err e]) ∨ t = [.panic]) := by
  induction fuel generalizing w rest r with
  | zero => exact ⟨[], [.panic], rfl, Or.inr (Or.inr rfl)⟩
  | succ f ih =>
    rw [collectQ]
    split
    · exact ⟨[], [], rfl, Or.inl rfl⟩
    · rename_i sect w' rest' r' _
      obtain ⟨oks, t, h1, h2⟩ := ih w' rest' r'
      exact ⟨sect :: oks, t, by simp only [h1, List.map_cons, List.cons_append], h2⟩
    · exact ⟨[], _, rfl, Or.inr (Or.inl ⟨_, rfl⟩)⟩
    · exact ⟨[], _, rfl, Or.inr (Or.inr rfl)⟩

theorem noOk_tail {t : List Item} (h : t = [] ∨ (∃ e, t = [.err e]) ∨ t = [.panic]) : NoOk t := by
  rcases h with rfl | ⟨e, rfl⟩ | rfl <;> simp [NoOk]

/-- Every section found is what the octets say, or a section 7 that is shorter than its header. -/
theorem collectQ_faithful {fuel w rest : Nat} {r : Rdr} (hw : WInv w rest r.pos) (hl : r.data.length < 2 ^ 63)
    {x : SectionInfo} (hx : .ok x ∈ (collectQ fuel w rest r).1) : Faithful r.data x ∨ Short r.data x := by
  induction fuel generalizing w rest r with
  | zero => simp [collectQ] at hx
  | succ f ih =>
    rw [collectQ] at hx
    split at hx
    · simp at hx
    · rename_i s w' rest' r' hn
      obtain ⟨a1, a2, a3, a4, -⟩ := nextQ_some hw hl hn
      simp only [List.mem_cons] at hx
      rcases hx with hx | hx
      · cases hx; exact a4
      · have := ih a3 (by rw [a1]; exact hl) hx
        rwa [a1] at this
    · simp at hx
    · simp at hx

/-- Once what is left has been counted below zero, no end section is found any more. -/
theorem lost_items {fuel w rest : Nat} {r : Rdr} (hw : WInv w rest r.pos) (hl : r.data.length < 2 ^ 63)
    (h1 : 2 ^ 64 ≤ rest + r.pos) (h2 : r.pos ≤ r.data.length + 2 ^ 32) :
    ∀ x, .ok x ∈ (collectQ fuel w rest r).1 → x.num ≠ 8 := by
  induction fuel generalizing w rest r with
  | zero => simp [collectQ]
  | succ f ih =>
    intro x hx
    rw [collectQ] at hx
    split at hx
    · simp at hx
    · rename_i s w' rest' r' hn
      obtain ⟨a1, a2, a3, a4, a5, a6, a7⟩ := nextQ_some hw hl hn
      have hr : r'.pos = r.pos + s.size ∧ rest' = usub rest s.size ∧ s.size < 2 ^ 32 ∧ s.num ≠ 8 := by
        rcases a7 with ⟨b1, -⟩ | ⟨b1, -⟩ | ⟨b1, b2, b3, b4, b5, b6, b7, b8⟩
        · omega
        · omega
        · have := number4_lt r.data r.pos
          exact ⟨by omega, b5, by omega, by omega⟩
      obtain ⟨c1, c2, c3, c4⟩ := hr
      simp only [List.mem_cons] at hx
      rcases hx with hx | hx
      · cases hx; exact c4
      · refine ih a3 (by rw [a1]; exact hl) ?_ (by rw [a1]; exact a5) x hx
        rw [c1, c2, usub_le (by omega)]
        omega
    · simp at hx
    · simp at hx

/-- The rest of the items of a release build after the point where a debug build panics. -/
def AstrayTail (tail : List Item) : Prop :=
  tail = [.panic] ∨ (∃ e, tail = [.err e]) ∨ (∃ x t, tail = .ok x :: t ∧ x.num = 7 ∧ x.size < 5) ∨
    (tail ≠ [] ∧ ∀ x, .ok x ∈ tail → x.num ≠ 8)

theorem collectQ_step (fuel : Nat) {w rest stop : Nat} {r : Rdr} (hi : Inv w rest r.pos stop) (hw : WInv w rest r.pos)
    (hl : r.data.length < 2 ^ 63) :
    collectQ fuel w rest r = collectR fuel w rest r ∨
      ∃ (pre : List SectionInfo) (tail : List Item), (collectR fuel w rest r).1 = pre.map .ok ++ [.panic] ∧
        (collectQ fuel w rest r).1 = pre.map .ok ++ tail ∧ AstrayTail tail := by
  induction fuel generalizing w rest stop r with
  | zero => exact Or.inl rfl
  | succ f ih =>
    rcases nextQ_step hi hw hl with he | ⟨hp, ha⟩
    · rw [collectQ, collectR, ← he]
      rcases hn : nextQ w rest r with ⟨o, r'⟩
      cases o with
      | err e => exact Or.inl rfl
      | panic => exact Or.inl rfl
      | ok x =>
        cases x with
        | none => exact Or.inl rfl
        | some q =>
          obtain ⟨s, w', rest'⟩ := q
          obtain ⟨a1, -, a3, -⟩ := nextQ_some hw hl hn
          rw [he] at hn
          obtain ⟨b1, b2, b3, b4, b5, stop', b6, -⟩ := nextR_some hi hn
          rcases ih b6 a3 (by rw [a1]; exact hl) with h | ⟨pre, tail, h1, h2, h3⟩
          · left; simp only [h]
          · right
            exact ⟨s :: pre, tail, by simp only [h1, List.map_cons, List.cons_append],
              by simp only [h2, List.map_cons, List.cons_append], h3⟩
    · right
      rcases hr : nextR w rest r with ⟨o, r1⟩
      rw [hr] at hp
      simp only at hp
      subst hp
      refine ⟨[], (collectQ (f + 1) w rest r).1, by rw [collectR, hr]; rfl, by simp, ?_⟩
      rw [collectQ]
      rcases ha with h | ⟨e, h⟩ | ⟨s, w', rest', r', h, h'⟩
      · rcases hn : nextQ w rest r with ⟨o, r'⟩
        rw [hn] at h
        simp only at h
        subst h
        exact Or.inl rfl
      · rcases hn : nextQ w rest r with ⟨o, r'⟩
        rw [hn] at h
        simp only at h
        subst h
        exact Or.inr (Or.inl ⟨e, rfl⟩)
      · rw [h]
        obtain ⟨a1, a2, a3, a4, a5, -⟩ := nextQ_some hw hl h
        rcases h' with ⟨h1, h2⟩ | ⟨h1, h2⟩
        · exact Or.inr (Or.inr (Or.inl ⟨s, _, rfl, h1, h2⟩))
        · refine Or.inr (Or.inr (Or.inr ⟨by simp, ?_⟩))
          intro x hx
          simp only [List.mem_cons] at hx
          rcases hx with hx | hx
          · cases hx; exact h1
          · exact lost_items a3 (by rw [a1]; exact hl) h2 (by rw [a1]; exact a5) x hx

/-! ## The parser on streams with a common beginning -/

theorem Viable.of_append {a b : List SectionInfo} (h : Viable (a ++ b)) : Viable a := by
  obtain ⟨ext, h⟩ := h
  exact ⟨b ++ ext, by rw [← List.append_assoc]; exact h⟩

theorem OrderError.congr {a b : List SectionInfo} {k : Nat} {e : ParseError} (hk : k < a.length) :
    OrderError (a ++ b) k e ↔ OrderError a k e := by
  have h : GridMissing (a ++ b) k ↔ GridMissing a k := by
    unfold GridMissing
    rw [List.getElem?_append_left (by omega), List.getElem?_append_left (by omega)]
  unfold OrderError
  rw [h]

theorem OrderError.unique {a : List SectionInfo} {k : Nat} {e e' : ParseError} (h : OrderError a k e) (h' : OrderError a k e') :
    e = e' := by
  rcases h with ⟨rfl, h1⟩ | ⟨rfl, h1⟩ <;> rcases h' with ⟨rfl, h2⟩ | ⟨rfl, h2⟩
  · rfl
  · exact absurd h2 h1
  · exact absurd h1 h2
  · rfl

/-- Sections that no continuation completes: the error is about them, whatever follows. -/
theorem parse_prefix {pre oks : List SectionInfo} {t t' : List Item} (hv : ¬ Viable pre) (ht : NoOk t) (ht' : NoOk t') :
    ∃ e, collectResult (pItems (pre.map .ok ++ t)) = .err e ∧
      collectResult (pItems ((pre ++ oks).map .ok ++ t')) = .err e := by
  obtain ⟨e, k, h1, h2, h3, h4, h5⟩ := pItems_not_viable ht hv
  obtain ⟨e', k', g1, g2, g3, g4, g5⟩ := pItems_not_viable (sects := pre ++ oks) ht' (fun h => hv (Viable.of_append h))
  have hkk : k = k' := by
    rcases Nat.lt_trichotomy k k' with h | h | h
    · refine absurd ?_ h5
      have e1 : pre.take (k + 1) = ((pre ++ oks).take k').take (k + 1) := by
        rw [List.take_take, Nat.min_eq_left (by omega), List.take_append_of_le_length (by omega)]
      rw [e1]
      have := List.take_append_drop (k + 1) ((pre ++ oks).take k')
      rw [← this] at g4
      exact Viable.of_append g4
    · exact h
    · refine absurd ?_ g5
      have e1 : (pre ++ oks).take (k' + 1) = (pre.take k).take (k' + 1) := by
        rw [List.take_take, Nat.min_eq_left (by omega), List.take_append_of_le_length (by omega)]
      rw [e1]
      have := List.take_append_drop (k' + 1) (pre.take k)
      rw [← this] at h4
      exact Viable.of_append h4
  subst hkk
  rw [OrderError.congr h3] at g2
  exact ⟨e, h1, by rw [g1, OrderError.unique h2 g2]⟩

theorem finish_parse (x : List Item × Rdr) :
    (∀ e, collectResult (pItems x.1) = .err e → finish x = .err e) ∧
    (finish x = .panic ↔ collectResult (pItems x.1) = .panic) := by
  have hm := collectResult_map (Submsg.map Prod.fst) (pItems x.1)
  rw [← (idxStreamItems_eq _).1] at hm
  unfold finish
  cases hc : collectResult (pItems x.1) with
  | ok subs => rw [hc] at hm; rw [hm]; simp [mapOut]
  | err e => rw [hc] at hm; rw [hm]; simp [mapOut]
  | panic => rw [hc] at hm; rw [hm]; simp [mapOut]

/-- Two streams that begin with the same sections, which no continuation completes. -/
theorem finish_prefix {pre oks : List SectionInfo} {t t' : List Item} {r r' : Rdr} (hv : ¬ Viable pre) (ht : NoOk t)
    (ht' : NoOk t') : finish (pre.map .ok ++ t, r) = finish ((pre ++ oks).map .ok ++ t', r') := by
  obtain ⟨e, h1, h2⟩ := parse_prefix (oks := oks) hv ht ht'
  rw [(finish_parse _).1 e h1, (finish_parse _).1 e h2]

/-! ## The end of opening -/

/-- Two sections 7 in a row. -/
theorem not_viable_77 {pre : List SectionInfo} {a b : SectionInfo} (ha : a.num = 7) (hb : b.num = 7) :
    ¬ Viable (pre ++ [a, b]) := by
  intro h
  obtain ⟨q, h⟩ := run_of_viable h
  rw [nums_append, run_append] at h
  have e : nums [a, b] = [7, 7] := by simp [nums, ha, hb]
  rw [e] at h
  cases hq : run q0 (nums pre) with
  | none => rw [hq] at h; simp at h
  | some p =>
    rw [hq] at h
    simp only [Option.bind_some, run_cons] at h
    cases h1 : delta p 7 with
    | none => rw [h1] at h; simp at h
    | some p' =>
      rw [h1] at h
      have h2 : p'.1 = .endOfSect 7 := by
        unfold delta at h1
        split at h1 <;> first | (cases h1; done) | contradiction | (injection h1 with h1; rw [← h1])
      obtain ⟨st, f⟩ := p'
      simp only at h2
      subst h2
      simp [delta] at h

/-- After a step without progress the next section is a section 7 once more. -/
theorem nextQ_stuck {w rest w' rest' w2 rest2 : Nat} {r r' r2 : Rdr} {s s2 : SectionInfo} (hw : WInv w rest r.pos)
    (hl : r.data.length < 2 ^ 63) (h : nextQ w rest r = (.ok (some (s, w', rest')), r')) (hp : r'.pos ≤ r.pos)
    (h2 : nextQ w' rest' r' = (.ok (some (s2, w2, rest2)), r2)) : s.num = 7 ∧ s2.num = 7 := by
  obtain ⟨a1, a2, a3, a4, a5, a6, a7⟩ := nextQ_some hw hl h
  obtain ⟨b1, b2, b3, b4, b5, b6, b7⟩ := nextQ_some a3 (by rw [a1]; exact hl) h2
  rcases a7 with ⟨c1, c2, c3, c4⟩ | ⟨c1, c2, c3, c4⟩ | ⟨c1, c2, c3, c4, c5, c6, c7, c8⟩
  · omega
  · omega
  · have hs0 : s.size = 0 := by omega
    have hs7 : s.num = 7 := by
      rcases a4 with hf | hf
      · have := (hf.header (by omega) (by omega)).1
        omega
      · exact hf.num
    have hr : rest' = rest := by rw [c5, hs0]; exact usub_le (Nat.zero_le _)
    have hpos : r'.pos = r.pos := by omega
    refine ⟨hs7, ?_⟩
    rcases b7 with ⟨d1, -⟩ | ⟨d1, -⟩ | ⟨d1, d2, d3, d4, d5, d6, d7, d8⟩
    · exact absurd (hr ▸ d1) c1
    · exact absurd (hr ▸ d1) c2
    · rw [d8, a1, hpos, ← c8]; exact hs7

/-- More calls than octets (and two more) change nothing, unless two sections 7 in a row have been found. -/
theorem collectQ_fuel (f k : Nat) {w rest : Nat} {r : Rdr} (hw : WInv w rest r.pos) (hl : r.data.length < 2 ^ 63)
    (hf : r.data.length - r.pos + 2 ≤ f) :
    (collectQ (f + k) w rest r = collectQ f w rest r ∧
        ∀ oks : List SectionInfo, (collectQ f w rest r).1 = oks.map .ok ++ [.panic] →
          ∃ w1 rest1 r1 r2, r1.data = r.data ∧ WInv w1 rest1 r1.pos ∧ nextQ w1 rest1 r1 = (.panic, r2)) ∨
      ∃ (pre : List SectionInfo) (a b : SectionInfo) (t t' : List Item), a.num = 7 ∧ b.num = 7 ∧
        (collectQ (f + k) w rest r).1 = (pre ++ [a, b]).map .ok ++ t ∧
        (collectQ f w rest r).1 = (pre ++ [a, b]).map .ok ++ t' := by
  induction f generalizing w rest r with
  | zero => omega
  | succ f ih =>
    have e : f + 1 + k = (f + k) + 1 := by omega
    rw [e, collectQ, collectQ]
    rcases hn : nextQ w rest r with ⟨o, r'⟩
    cases o with
    | err e => exact Or.inl ⟨rfl, by
        intro oks h
        cases oks with
        | nil => simp at h
        | cons x xs => simp at h⟩
    | panic => exact Or.inl ⟨rfl, fun _ _ => ⟨w, rest, r, r', rfl, hw, hn⟩⟩
    | ok x =>
      cases x with
      | none => exact Or.inl ⟨rfl, by intro oks h; cases oks <;> simp at h⟩
      | some q =>
        obtain ⟨s, w', rest'⟩ := q
        have hns := nextQ_some hw hl hn
        obtain ⟨a1, a2, a3, -⟩ := hns
        by_cases hp : r.pos < r'.pos
        · rcases ih a3 (by rw [a1]; exact hl) (by rw [a1]; omega) with ⟨h1, h2⟩ | ⟨pre, a, b, t, t', h1, h2, h3, h4⟩
          · left
            refine ⟨by simp only [h1], ?_⟩
            intro oks h
            cases oks with
            | nil => simp at h
            | cons y ys =>
              simp only [List.map_cons, List.cons_append, List.cons.injEq] at h
              obtain ⟨w1, rest1, r1, r2, g1, g2, g3⟩ := h2 ys h.2
              exact ⟨w1, rest1, r1, r2, by rw [g1, a1], g2, g3⟩
          · right
            exact ⟨s :: pre, a, b, t, t', h1, h2, by simp only [h3, List.cons_append, List.map_cons],
              by simp only [h4, List.cons_append, List.map_cons]⟩
        · obtain ⟨f, rfl⟩ : ∃ f', f = f' + 1 := ⟨f - 1, by omega⟩
          have e : f + 1 + k = (f + k) + 1 := by omega
          simp only [e]
          rw [collectQ, collectQ]
          rcases hn2 : nextQ w' rest' r' with ⟨o, r2⟩
          cases o with
          | err e => exact Or.inl ⟨rfl, by
              intro oks h
              rcases oks with _ | ⟨x, _ | ⟨y, ys⟩⟩ <;> simp at h⟩
          | panic => exact Or.inl ⟨rfl, fun _ _ => ⟨w', rest', r', r2, a1, a3, hn2⟩⟩
          | ok x =>
            cases x with
            | none => exact Or.inl ⟨rfl, by
                intro oks h
                rcases oks with _ | ⟨x, _ | ⟨y, ys⟩⟩ <;> simp at h⟩
            | some q =>
              obtain ⟨s2, w2, rest2⟩ := q
              obtain ⟨h1, h2⟩ := nextQ_stuck hw hl hn (by omega) hn2
              exact Or.inr ⟨[], s, s2, _, _, h1, h2, rfl, rfl⟩

/-- Where the stream itself panics. -/
theorem nextQ_panic {w rest : Nat} {r r' : Rdr} (h : nextQ w rest r = (.panic, r')) :
    ∃ p, p + 5 ≤ r.data.length ∧ 1 ≤ octet r.data (p + 4) ∧ octet r.data (p + 4) ≤ 6 ∧
      (number r.data p 4 < 5 ∨ (octet r.data (p + 4) = 6 ∧ number r.data p 4 = 5)) := by
  unfold nextQ at h
  split at h
  · exfalso
    unfold nextQ0 at h
    rw [RM.bind_apply] at h
    split at h
    · rename_i hs
      rw [RM.bind_apply] at h
      split at h
      · rename_i x _ _
        cases x with
        | none => simp [RM.pure_apply] at h
        | some q => simp [RM.pure_apply] at h
      · simp at h
      · rename_i h0; exact readSect0_noPanic _ _ h0
    · simp at h
    · rename_i h0; exact startR_noPanic _ _ _ h0
  · split at h
    · exfalso
      unfold nextQ8 at h
      rw [RM.bind_apply] at h
      split at h
      · rename_i x _ _
        cases x with
        | none => simp [RM.pure_apply] at h
        | some q => simp [RM.pure_apply] at h
      · simp at h
      · rename_i h0; exact readSect8_noPanic _ _ h0
    · unfold nextQS at h
      rw [RM.bind_apply] at h
      split at h
      · rename_i x r1 hh
        cases x with
        | none => simp [RM.pure_apply] at h
        | some q =>
          obtain ⟨size, num⟩ := q
          obtain ⟨a1, a2, a3, a4, a5⟩ := readSectHeader_ok hh
          have hsz := number4_lt r.data r.pos
          rw [a4] at hsz
          simp only [RM.bind_apply] at h
          rcases hb : readSectPayload size num r1 with ⟨o, r2⟩
          rw [hb] at h
          cases o with
          | ok b => simp [RM.pure_apply] at h
          | err e => simp at h
          | panic =>
            refine ⟨r.pos, a3, ?_⟩
            rw [a4, a5]
            by_cases h5 : 5 ≤ size
            · rw [readSectPayload_eq (by omega) h5] at hb
              rcases readSectPayload_panic hb with h' | ⟨rfl, rfl⟩
              · omega
              · exact ⟨by omega, by omega, Or.inr ⟨rfl, rfl⟩⟩
            · have hs := readSectPayload_short (num := num) (show size < 5 by omega) r1
              rw [hb] at hs
              rcases hs with ⟨h1, h2, -⟩ | ⟨h1, -, ⟨h2, -⟩ | ⟨e, h2⟩⟩ | h1
              · exact ⟨h1, h2, Or.inl (by omega)⟩
              · simp at h2
              · simp at h2
              · simp at h1
      · simp at h
      · rename_i h0; exact absurd h0 (readSectHeader_noPanic _ _)

end Grib.Model.Rel
