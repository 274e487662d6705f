import Verif.Model.Narrow
import Verif.Lemmas.ReleaseOpen
import Verif.Lemmas.Truncate

/-! # Builds for 32-bit platforms: reading and opening -/

namespace Grib.Model.N32

open Grib.Model Grib.Spec

/-! ## Payloads -/

theorem allocReadExact_small {n : Nat} (h : n < 2 ^ 31) : allocReadExact n = rdReadExact n := if_neg (by omega)

theorem allocReadExact_big {n : Nat} (h : 2 ^ 31 ≤ n) : allocReadExact n = RM.panic := if_pos h

theorem readSect6Payload_small {n : Nat} (h : n ≤ 2 ^ 31) : readSect6Payload n = Model.readSect6Payload n := by
  unfold readSect6Payload Model.readSect6Payload
  dsimp only
  rw [allocReadExact_small (show n - 1 < 2 ^ 31 by omega)]

theorem readSectPayload_small {size num : Nat} (h : size < 2 ^ 31 + 5) : readSectPayload size num = Model.readSectPayload size num := by
  unfold readSectPayload Model.readSectPayload
  split
  · rfl
  · dsimp only
    rw [allocReadExact_small (show size - 5 < 2 ^ 31 by omega), readSect6Payload_small (show size - 5 ≤ 2 ^ 31 by omega)]
    rfl

theorem readSect6Payload_fol (n : Nat) (r : Rdr) :
    (readSect6Payload n r).1 = .panic ∨ readSect6Payload n r = Model.readSect6Payload n r := by
  by_cases h : n ≤ 2 ^ 31
  · exact Or.inr (by rw [readSect6Payload_small h])
  unfold readSect6Payload Model.readSect6Payload
  rw [RM.bind_apply, RM.bind_apply]
  rcases rdReadExact 1 r with ⟨o, r1⟩
  cases o with
  | ok b =>
    dsimp only
    rw [if_neg (show ¬ n < 1 by omega), if_pos (show n - 1 > 0 by omega), allocReadExact_big (show 2 ^ 31 ≤ n - 1 by omega)]
    exact Or.inl rfl
  | err e => exact Or.inr rfl
  | panic => exact Or.inr rfl

/-- Reading the payload of a section is the same as with 64 bits, or a panic. -/
theorem readSectPayload_fol (size num : Nat) (r : Rdr) :
    (readSectPayload size num r).1 = .panic ∨ readSectPayload size num r = Model.readSectPayload size num r := by
  by_cases h : size < 2 ^ 31 + 5
  · exact Or.inr (by rw [readSectPayload_small h])
  have h5 : ¬ size < 5 := by omega
  have hb := allocReadExact_big (show 2 ^ 31 ≤ size - 5 by omega)
  match num with
  | 0 => right; unfold readSectPayload Model.readSectPayload; rw [if_neg h5, if_neg h5]; rfl
  | 1 => left; unfold readSectPayload; rw [if_neg h5, hb]; rfl
  | 2 => left; unfold readSectPayload; rw [if_neg h5, hb]; rfl
  | 3 => left; unfold readSectPayload; rw [if_neg h5, hb]; rfl
  | 4 => left; unfold readSectPayload; rw [if_neg h5, hb]; rfl
  | 5 => left; unfold readSectPayload; rw [if_neg h5, hb]; rfl
  | 6 =>
    unfold readSectPayload Model.readSectPayload
    rw [if_neg h5, if_neg h5]
    exact readSect6Payload_fol _ _
  | 7 => right; unfold readSectPayload Model.readSectPayload; rw [if_neg h5, if_neg h5]; rfl
  | n + 8 => right; unfold readSectPayload Model.readSectPayload; rw [if_neg h5, if_neg h5]; rfl

/-- What is read with 64 bits is read with 32 bits, if the data have less than `2^31` octets. -/
theorem readSectPayload_of_model {size num : Nat} {r r' : Rdr} {body : SectionBody} {p : Nat} (hp : r.pos = p + 5)
    (hl : r.data.length < 2 ^ 31) (h : Model.readSectPayload size num r = (.ok body, r')) :
    readSectPayload size num r = (.ok body, r') := by
  by_cases hs : size < 2 ^ 31 + 5
  · rw [readSectPayload_small hs]; exact h
  · by_cases h7 : num ≤ 6
    · obtain ⟨h1, h2, h3, h4, h5, h6, h9⟩ := readSectPayload_ok hp h
      obtain ⟨h9, -⟩ := h9 h7
      omega
    · rcases Nat.lt_or_ge 7 num with h8 | h8
      · obtain ⟨h1, h2, h3, h4, h5, h6⟩ := readSectPayload_ok hp h
        omega
      · have : num = 7 := by omega
        subst this
        rw [← h]
        unfold readSectPayload Model.readSectPayload
        rfl

/-! ## One section -/

/-- What holds of a stream from the beginning: the position is only asked for before the first section, and fits. -/
def Start (s : SectStream) : Prop := s.wholeSize = 0 → s.restSize = 0 ∧ s.reader.pos < 2 ^ 32

theorem resetPos_eq {s : SectStream} (h : Start s) : resetPos s = s.resetPos := by
  unfold resetPos SectStream.resetPos
  split
  · rename_i hw
    rcases hp : rdPos s.reader with ⟨o, r'⟩
    cases o with
    | ok p =>
      have hp' := (rdPos_ok hp).2.2
      have := (h hw).2
      dsimp only
      rw [Nat.mod_eq_of_lt (show p < 2 ^ 32 by omega)]
    | err e => rfl
    | panic => rfl
  · rfl

theorem resetPos_data {s s1 : SectStream} (h : s.resetPos = (.ok (), s1)) :
    s1.reader.data = s.reader.data ∧ s1.reader.pos = s.reader.pos := by
  unfold SectStream.resetPos at h
  split at h
  · rcases hp : rdPos s.reader with ⟨o, r'⟩
    rw [hp] at h
    cases o with
    | ok p =>
      simp only [Prod.mk.injEq, true_and] at h
      obtain ⟨h1, h2, -⟩ := rdPos_ok hp
      rw [← h]
      exact ⟨h1, h2⟩
    | err e => simp at h
    | panic => simp at h
  · simp only [Prod.mk.injEq, true_and] at h
    rw [← h]
    exact ⟨rfl, rfl⟩

/-- The total lengths of all messages, as far as they can be met, fit in 32 bits. -/
def SmallTotals (data : List UInt8) : Prop :=
  ∀ q, octet data (q + 7) = 2 → MagicAt data q → number data (q + 8) 8 < 2 ^ 32

theorem nextSect0_fol {s : SectStream} (h : Start s) (ht : SmallTotals s.reader.data) :
    (nextSect0 s).1 = .panic ∨ nextSect0 s = s.nextSect0 := by
  unfold nextSect0 SectStream.nextSect0
  rw [resetPos_eq h]
  rcases hr : s.resetPos with ⟨o, s1⟩
  cases o with
  | err e => exact Or.inr rfl
  | panic => exact Or.inr rfl
  | ok u =>
    dsimp only
    obtain ⟨d1, d2⟩ := resetPos_data hr
    rcases h0 : readSect0 s1.reader with ⟨o, r'⟩
    cases o with
    | err e => exact Or.inr rfl
    | panic => exact Or.inr rfl
    | ok x =>
      cases x with
      | none => exact Or.inr rfl
      | some q =>
        obtain ⟨off, ind⟩ := q
        dsimp only
        obtain ⟨b1, p, b2, b3, b4, b5, b6⟩ := readSect0Loop_some h0
        rw [d1] at b2 b5 b6
        have htl : ind.totalLength = number s.reader.data (p + 8) 8 := by rw [b6]; rfl
        have := ht p b5 b2.2.1
        rw [Nat.mod_eq_of_lt (show ind.totalLength < 2 ^ 32 by omega)]
        by_cases hc : s1.wholeSize + off + ind.totalLength ≥ 2 ^ 32 ∨ ind.totalLength < 16
        · left; rw [if_pos hc]
        · right; rw [if_neg hc, if_neg (by unfold USIZE; omega)]

theorem nextSect_fol (s : SectStream) : (nextSect s).1 = .panic ∨ nextSect s = s.nextSect := by
  unfold nextSect SectStream.nextSect
  rcases readSectHeader s.reader with ⟨o, r'⟩
  cases o with
  | err e => exact Or.inr rfl
  | panic => exact Or.inr rfl
  | ok x =>
    cases x with
    | none => exact Or.inr rfl
    | some q =>
      obtain ⟨size, num⟩ := q
      dsimp only
      rcases readSectPayload_fol size num r' with h | h
      · left
        rcases hp : readSectPayload size num r' with ⟨o, r''⟩
        rw [hp] at h
        dsimp only at h
        subst h
        rfl
      · right
        rw [h]
        rcases Model.readSectPayload size num r' with ⟨o, r''⟩
        cases o <;> rfl

/-- One step is that of 64 bits, or a panic. -/
theorem next_fol {s : SectStream} (h : Start s) (ht : SmallTotals s.reader.data) :
    (next s).1 = .panic ∨ next s = s.next := by
  unfold next SectStream.next
  split
  · exact nextSect0_fol h ht
  · split
    · exact Or.inr rfl
    · exact nextSect_fol s

/-- A section that has been found: the reader has moved on and the total size is known. -/
theorem next_some {s s' : SectStream} {x : SectionInfo} (h : Start s) (hn : s.next = (.ok (some x), s')) :
    s'.reader.data = s.reader.data ∧ Start s' := by
  unfold SectStream.next at hn
  split at hn
  · unfold SectStream.nextSect0 at hn
    rcases hr : s.resetPos with ⟨o, s1⟩
    rw [hr] at hn
    cases o with
    | err e => simp at hn
    | panic => simp at hn
    | ok u =>
      dsimp only at hn
      rcases h0 : readSect0 s1.reader with ⟨o, r'⟩
      rw [h0] at hn
      cases o with
      | err e => simp at hn
      | panic => simp at hn
      | ok x =>
        cases x with
        | none => simp at hn
        | some q =>
          obtain ⟨off, ind⟩ := q
          dsimp only at hn
          have d0 := (readSect0Loop_some h0).1
          split at hn
          · simp at hn
          · rename_i hc
            simp only [Prod.mk.injEq] at hn
            rw [← hn.2]
            refine ⟨by rw [d0]; exact (resetPos_data hr).1, ?_⟩
            intro hw
            simp only at hw
            omega
  · rename_i hr
    have hw : s.wholeSize ≠ 0 := fun hw => hr (h hw).1
    split at hn
    · unfold SectStream.nextSect8 at hn
      rcases h8 : readSect8 s.reader with ⟨o, r'⟩
      rw [h8] at hn
      cases o with
      | err e => simp at hn
      | panic => simp at hn
      | ok x =>
        cases x with
        | none => simp at hn
        | some u =>
          simp only [Prod.mk.injEq] at hn
          rw [← hn.2]
          exact ⟨(readSect8_ok h8).1, fun h => absurd h hw⟩
    · unfold SectStream.nextSect at hn
      rcases hh : readSectHeader s.reader with ⟨o, r'⟩
      rw [hh] at hn
      cases o with
      | err e => simp at hn
      | panic => simp at hn
      | ok x =>
        cases x with
        | none => simp at hn
        | some q =>
          obtain ⟨size, num⟩ := q
          obtain ⟨a1, a2, -⟩ := readSectHeader_ok hh
          dsimp only at hn
          rcases hb : Model.readSectPayload size num r' with ⟨o, r''⟩
          rw [hb] at hn
          cases o with
          | err e => simp at hn
          | panic => simp at hn
          | ok body =>
            dsimp only at hn
            split at hn
            · simp at hn
            · simp only [Prod.mk.injEq] at hn
              rw [← hn.2]
              exact ⟨by rw [(readSectPayload_ok a2 hb).1, a1], fun h => absurd h hw⟩

/-- Where 64 bits find a section that ends below `2^32`, or the end, 32 bits find the same. -/
theorem next_of_model {s s' : SectStream} {x : Option SectionInfo} (h : Start s) (hl : s.reader.data.length < 2 ^ 31)
    (hx : ∀ start ind, x = some ⟨0, start, 16, some (.section0 ind)⟩ → start + ind.totalLength < 2 ^ 32)
    (hn : s.next = (.ok x, s')) : next s = (.ok x, s') := by
  rw [← hn]
  unfold SectStream.next at hn
  unfold next SectStream.next
  split at hn
  · rename_i h0
    rw [if_pos h0, if_pos h0]
    unfold SectStream.nextSect0 at hn
    unfold nextSect0 SectStream.nextSect0
    rw [resetPos_eq h]
    rcases hr : s.resetPos with ⟨o, s1⟩
    rw [hr] at hn
    cases o with
    | err e => rfl
    | panic => rfl
    | ok u =>
      dsimp only at hn ⊢
      rcases h0 : readSect0 s1.reader with ⟨o, r'⟩
      rw [h0] at hn
      cases o with
      | err e => rfl
      | panic => rfl
      | ok y =>
        cases y with
        | none => rfl
        | some q =>
          obtain ⟨off, ind⟩ := q
          dsimp only at hn ⊢
          split at hn
          · simp at hn
          · rename_i hc
            simp only [Prod.mk.injEq, Outcome.ok.injEq] at hn
            have hx := hx _ _ hn.1.symm
            rw [Nat.mod_eq_of_lt (show ind.totalLength < 2 ^ 32 by omega), if_neg hc, if_neg (by omega)]
  · rename_i h0
    rw [if_neg h0, if_neg h0]
    split at hn
    · rename_i h4
      rw [if_pos h4, if_pos h4]
    · rename_i h4
      rw [if_neg h4, if_neg h4]
      unfold SectStream.nextSect at hn
      unfold nextSect SectStream.nextSect
      rcases hh : readSectHeader s.reader with ⟨o, r'⟩
      rw [hh] at hn
      cases o with
      | err e => rfl
      | panic => rfl
      | ok y =>
        cases y with
        | none => rfl
        | some q =>
          obtain ⟨size, num⟩ := q
          obtain ⟨a1, a2, -⟩ := readSectHeader_ok hh
          dsimp only at hn ⊢
          rcases hb : Model.readSectPayload size num r' with ⟨o, r''⟩
          rw [hb] at hn
          cases o with
          | err e => simp at hn
          | panic => simp at hn
          | ok body => rw [readSectPayload_of_model a2 (by rw [a1]; exact hl) hb]

/-- Every section that is found takes the reader on by four octets at least, within the data. -/
theorem next_progress {s s' : SectStream} {x : SectionInfo} (hn : next s = (.ok (some x), s')) :
    s'.reader.data = s.reader.data ∧ s.reader.pos + 4 ≤ s'.reader.pos ∧ s.reader.pos + 4 ≤ s.reader.data.length := by
  unfold next at hn
  split at hn
  · unfold nextSect0 at hn
    rcases hr : resetPos s with ⟨o, s1⟩
    rw [hr] at hn
    cases o with
    | err e => simp at hn
    | panic => simp at hn
    | ok u =>
      have hd : s1.reader.data = s.reader.data ∧ s1.reader.pos = s.reader.pos := by
        unfold resetPos at hr
        split at hr
        · rcases hp : rdPos s.reader with ⟨o, r'⟩
          rw [hp] at hr
          cases o with
          | ok p =>
            simp only [Prod.mk.injEq, true_and] at hr
            obtain ⟨h1, h2, -⟩ := rdPos_ok hp
            rw [← hr]
            exact ⟨h1, h2⟩
          | err e => simp at hr
          | panic => simp at hr
        · simp only [Prod.mk.injEq, true_and] at hr
          rw [← hr]
          exact ⟨rfl, rfl⟩
      dsimp only at hn
      rcases h0 : readSect0 s1.reader with ⟨o, r'⟩
      rw [h0] at hn
      cases o with
      | err e => simp at hn
      | panic => simp at hn
      | ok x =>
        cases x with
        | none => simp at hn
        | some q =>
          obtain ⟨off, ind⟩ := q
          dsimp only at hn
          obtain ⟨b1, p, b2, b3, b4, b5, b6⟩ := readSect0Loop_some h0
          have hge := b2.1
          have hm := b2.2.1.2
          rw [hd.1] at b1 hm
          rw [hd.2] at hge
          split at hn
          · simp at hn
          · simp only [Prod.mk.injEq] at hn
            rw [← hn.2]
            exact ⟨b1, by simp only; omega, by omega⟩
  · split at hn
    · unfold SectStream.nextSect8 at hn
      rcases h8 : readSect8 s.reader with ⟨o, r'⟩
      rw [h8] at hn
      cases o with
      | err e => simp at hn
      | panic => simp at hn
      | ok x =>
        cases x with
        | none => simp at hn
        | some u =>
          simp only [Prod.mk.injEq] at hn
          obtain ⟨h1, h2, h3⟩ := readSect8_ok h8
          have hl := h3.1
          simp only [List.length_cons, List.length_nil] at hl
          rw [← hn.2]
          exact ⟨h1, by simp only; omega, by omega⟩
    · unfold nextSect at hn
      rcases hh : readSectHeader s.reader with ⟨o, r'⟩
      rw [hh] at hn
      cases o with
      | err e => simp at hn
      | panic => simp at hn
      | ok x =>
        cases x with
        | none => simp at hn
        | some q =>
          obtain ⟨size, num⟩ := q
          obtain ⟨a1, a2, a3, -⟩ := readSectHeader_ok hh
          dsimp only at hn
          have hf := readSectPayload_fol size num r'
          rcases hb : readSectPayload size num r' with ⟨o, r''⟩
          rw [hb] at hn hf
          cases o with
          | err e => simp at hn
          | panic => simp at hn
          | ok body =>
            dsimp only at hn
            split at hn
            · simp at hn
            · simp only [Prod.mk.injEq] at hn
              rcases hf with hf | hf
              · simp at hf
              · obtain ⟨c1, c2, c3, -⟩ := readSectPayload_ok a2 hf.symm
                rw [← hn.2]
                exact ⟨by rw [c1, a1], by simp only; omega, by omega⟩

/-! ## Whole streams -/

theorem collectN_fuel (f k : Nat) {s : SectStream} (hf : s.reader.data.length - s.reader.pos + 2 ≤ f) :
    collectN (f + k) s = collectN f s := by
  induction f generalizing s with
  | zero => omega
  | succ f ih =>
    have e : f + 1 + k = (f + k) + 1 := by omega
    rw [e, collectN, collectN]
    rcases hn : next s with ⟨o, s'⟩
    cases o with
    | err e => rfl
    | panic => rfl
    | ok x =>
      cases x with
      | none => rfl
      | some x =>
        obtain ⟨h1, h2, h3⟩ := next_progress hn
        dsimp only
        rw [ih (by rw [h1]; omega)]

theorem collectN_of_model (f : Nat) {s s' : SectStream} {sects : List SectionInfo} (h : Start s)
    (hl : s.reader.data.length < 2 ^ 31)
    (hx : ∀ start ind, ⟨0, start, 16, some (.section0 ind)⟩ ∈ sects → start + ind.totalLength < 2 ^ 32)
    (hc : s.collectN f = (sects.map .ok, s')) : collectN f s = (sects.map .ok, s') := by
  induction f generalizing s sects with
  | zero =>
    rw [SectStream.collectN] at hc
    cases sects <;> simp at hc
  | succ f ih =>
    rw [SectStream.collectN] at hc
    rw [collectN]
    rcases hn : s.next with ⟨o, s1⟩
    rw [hn] at hc
    cases o with
    | err e => cases sects <;> simp at hc
    | panic => cases sects <;> simp at hc
    | ok x =>
      cases x with
      | none => rw [next_of_model h hl (by simp) hn]; exact hc
      | some x =>
        dsimp only at hc
        obtain ⟨d1, d2⟩ := next_some h hn
        rcases hc1 : s1.collectN f with ⟨items, s2⟩
        rw [hc1] at hc
        dsimp only at hc
        cases sects with
        | nil => simp at hc
        | cons y ys =>
          simp only [List.map_cons, Prod.mk.injEq, List.cons.injEq, Outcome.ok.injEq] at hc
          obtain ⟨⟨rfl, rfl⟩, rfl⟩ := hc
          rw [next_of_model h hl (fun start ind e => hx start ind (by
            simp only [Option.some.injEq] at e; rw [e]; exact List.mem_cons_self)) hn]
          dsimp only
          rw [ih d2 (by rw [d1]; exact hl) (fun start ind h => hx start ind (List.mem_cons_of_mem _ h)) hc1]
          rfl

theorem collectN_shape (fuel : Nat) (s : SectStream) :
    ∃ (oks : List SectionInfo) (t : List Item), (s.collectN fuel).1 = oks.map .ok ++ t ∧ (t = [] ∨ (∃ e, t = [.err e]) ∨ t = [.panic]) := by
  induction fuel generalizing s with
  | zero => exact ⟨[], [.panic], rfl, Or.inr (Or.inr rfl)⟩
  | succ f ih =>
    rw [SectStream.collectN]
    split
    · exact ⟨[], [], rfl, Or.inl rfl⟩
    · rename_i sect s' _
      obtain ⟨oks, t, h1, h2⟩ := ih s'
      exact ⟨sect :: oks, t, by simp only [h1, List.map_cons, List.cons_append], h2⟩
    · exact ⟨[], _, rfl, Or.inr (Or.inl ⟨_, rfl⟩)⟩
    · exact ⟨[], _, rfl, Or.inr (Or.inr rfl)⟩

/-- The sections are the same up to a panic with 32 bits. -/
theorem collectN_fol (f : Nat) {s : SectStream} (h : Start s) (ht : SmallTotals s.reader.data) :
    collectN f s = s.collectN f ∨
      ∃ (pre ext : List SectionInfo) (t : List Item), (collectN f s).1 = pre.map .ok ++ [.panic] ∧
        (s.collectN f).1 = (pre ++ ext).map .ok ++ t ∧ (t = [] ∨ (∃ e, t = [.err e]) ∨ t = [.panic]) := by
  induction f generalizing s with
  | zero => exact Or.inl rfl
  | succ f ih =>
    rcases next_fol h ht with hp | he
    · right
      obtain ⟨ext, t, h1, h2⟩ := collectN_shape (f + 1) s
      refine ⟨[], ext, t, ?_, by simpa using h1, h2⟩
      rw [collectN]
      rcases hn : next s with ⟨o, s'⟩
      rw [hn] at hp
      dsimp only at hp
      subst hp
      rfl
    · rw [collectN, SectStream.collectN, he]
      rcases hn : s.next with ⟨o, s'⟩
      cases o with
      | err e => exact Or.inl rfl
      | panic => exact Or.inl rfl
      | ok x =>
        cases x with
        | none => exact Or.inl rfl
        | some x =>
          obtain ⟨d1, d2⟩ := next_some h hn
          dsimp only
          rcases ih d2 (by rw [d1]; exact ht) with h | ⟨pre, ext, t, h1, h2, h3⟩
          · left; rw [h]
          · right
            exact ⟨x :: pre, ext, t, by simp only [h1, List.map_cons, List.cons_append],
              by simp only [h2, List.map_cons, List.cons_append], h3⟩

/-! ## Where messages end -/

/-- In a walk that ends with an end section and at the end of a message, every message ends within the data. -/
theorem walk_within {data : List UInt8} {p t q : Nat} {sects : List SectionInfo} (h : Walk data p t sects q q)
    (hf : ∀ s ∈ sects, Faithful data s) (hl : ∀ s, sects.getLast? = some s → s.num = 8) :
    (p ≠ t → t ≤ data.length) ∧ (∀ s ∈ sects, s.num = 0 → s.offset + number data (s.offset + 8) 8 ≤ data.length) ∧
      ∀ s ∈ sects, s.offset + s.size ≤ data.length := by
  induction sects generalizing p t with
  | nil => cases h; exact ⟨fun h => absurd rfl h, by simp, by simp⟩
  | cons s ss ih =>
    have hl' : ∀ x, ss.getLast? = some x → x.num = 8 := by
      intro x hx
      apply hl
      cases ss with
      | nil => simp at hx
      | cons y ys => rw [List.getLast?_cons_cons]; exact hx
    have hf' : ∀ x ∈ ss, Faithful data x := fun x hx => hf x (List.mem_cons_of_mem _ hx)
    cases h with
    | message h1 h2 h2' h3 =>
      obtain ⟨g1, g2, g3⟩ := ih h3 hf' hl'
      refine ⟨fun h => absurd rfl h, ?_, ?_⟩
      intro x hx hx0
      rw [List.mem_cons] at hx
      rcases hx with rfl | hx
      · by_cases he : x.offset + x.size = x.offset + number data (x.offset + 8) 8
        · have hm := h2.2.1.2
          have hs : x.size = 16 := ((hf x (by simp)).sect0 hx0).1
          omega
        · exact g1 he
      · exact g2 x hx hx0
      intro x hx
      rw [List.mem_cons] at hx
      rcases hx with rfl | hx
      · exact ((hf x (by simp)).whole (by omega)).1
      · exact g3 x hx
    | sect h1 h2 h3 h4 h5 h6 =>
      obtain ⟨g1, g2, g3⟩ := ih h6 hf' hl'
      have ht : t ≤ data.length := by
        by_cases he : p + s.size = t
        · by_cases h8 : s.num = 8
          · have := ((hf s (by simp)).sect8 h8).2.1
            simp only [List.length_cons, List.length_nil] at this
            have := h5.1 h8
            omega
          · cases ss with
            | nil => exact absurd (hl s (by simp)) h8
            | cons y ys =>
              rw [he] at h6
              cases h6 with
              | message k1 k2 k2' k3 =>
                have := k2.1
                have := k2.2.1.2
                omega
              | sect k1 k2 k3 k4 k5 k6 => exact absurd rfl k1
        · exact g1 he
      refine ⟨fun _ => ht, ?_, ?_⟩
      · intro x hx hx0
        rw [List.mem_cons] at hx
        rcases hx with rfl | hx
        · exact absurd hx0 h2
        · exact g2 x hx hx0
      · intro x hx
        rw [List.mem_cons] at hx
        rcases hx with rfl | hx
        · omega
        · exact g3 x hx

end Grib.Model.N32
