import Verif.Lemmas.ReaderPost

/-! # The section stream walks through the file (all schedules) -/

namespace Grib.Model

open Grib.Spec

/-- What ties the counters of the stream to the reader position: `stop` is the end of the current message. -/
def Inv (w rest pos stop : Nat) : Prop :=
  stop = pos + rest ∧ (w = stop ∨ (w = 0 ∧ rest = 0))

theorem startR_ok {w stop : Nat} {r r' : Rdr} {w1 : Nat} (hi : Inv w 0 r.pos stop) (h : startR w r = (.ok w1, r')) :
    r'.data = r.data ∧ r'.pos = r.pos ∧ w1 = r.pos := by
  unfold startR at h
  split at h
  · unfold RM.mapErr at h
    rcases hp : rdPos r with ⟨o, r1⟩
    rw [hp] at h
    cases o with
    | ok p =>
      simp only [Outcome.mapErr, Prod.mk.injEq, Outcome.ok.injEq] at h
      obtain ⟨rfl, rfl⟩ := h
      exact rdPos_ok hp
    | err e => simp [Outcome.mapErr] at h
    | panic => simp [Outcome.mapErr] at h
  · simp only [RM.pure_apply, Prod.mk.injEq, Outcome.ok.injEq] at h
    obtain ⟨rfl, rfl⟩ := h
    refine ⟨rfl, rfl, ?_⟩
    rcases hi with ⟨h1, h2⟩
    omega

theorem startR_noPanic (w : Nat) (r r' : Rdr) : startR w r ≠ (.panic, r') := by
  unfold startR
  split
  · unfold RM.mapErr
    rcases hp : rdPos r with ⟨o, r1⟩
    cases o with
    | ok p => simp [Outcome.mapErr]
    | err e => simp [Outcome.mapErr]
    | panic => exact absurd hp (rdPos_noPanic _ _)
  · simp [RM.pure_apply]

/-- One step of the stream that reports a section. -/
theorem nextR_some {w rest stop w' rest' : Nat} {r r' : Rdr} {s : SectionInfo} (hi : Inv w rest r.pos stop)
    (h : nextR w rest r = (.ok (some (s, w', rest')), r')) :
    r'.data = r.data ∧ r.pos + 4 ≤ r.data.length ∧ r.pos + 4 ≤ r'.pos ∧ r'.pos = s.offset + s.size ∧
    Faithful r.data s ∧ ∃ stop', Inv w' rest' r'.pos stop' ∧
      ∀ ss p' t', Walk r.data r'.pos stop' ss p' t' → Walk r.data r.pos stop (s :: ss) p' t' := by
  unfold nextR at h
  split at h
  · rename_i h0
    subst h0
    obtain ⟨w1, r1, h1, h2⟩ := RM.bind_ok_inv h
    obtain ⟨a1, a2, a3⟩ := startR_ok hi h1
    obtain ⟨x, r2, h3, h4⟩ := RM.bind_ok_inv h2
    cases x with
    | none => simp [RM.pure_apply] at h4
    | some q =>
      obtain ⟨off, ind⟩ := q
      obtain ⟨b1, p, b2, b3, b4, b5, b6⟩ := readSect0Loop_some h3
      rw [a1, a2] at b2
      rw [a1] at b1 b5 b6
      simp only at h4
      split at h4
      · simp [RM.panic] at h4
      · rename_i hok
        simp only [RM.pure_apply, Prod.mk.injEq, Outcome.ok.injEq, Option.some.injEq] at h4
        obtain ⟨⟨rfl, rfl, rfl⟩, rfl⟩ := h4
        have hp : w1 + off = p := by
          have := b2.1
          omega
        have hm := b2.2.1
        have hm2 := hm.2
        have hge := b2.1
        rw [hp] at hok ⊢
        have htl : ind.totalLength = number r.data (p + 8) 8 := by rw [b6]; rfl
        refine ⟨b1, by omega, by omega, b4, ?_, p + ind.totalLength, ⟨by omega, Or.inl rfl⟩, ?_⟩
        · refine ⟨by rw [b6]; rfl, by simp, fun _ => ⟨rfl, hm, b5⟩, by simp, by simp, fun _ => ⟨hm2, by simp⟩⟩
        · intro ss p' t' hw
          obtain ⟨i1, i2⟩ := hi
          have : stop = r.pos := by omega
          subst this
          refine Walk.message rfl b2 (by simp only [← htl]; omega) ?_
          simp only [← htl]
          rw [b4] at hw
          exact hw
  · rename_i h0
    have hw : w = stop := by rcases hi with ⟨-, h | h⟩ <;> omega
    have hstop := hi.1
    split at h
    · rename_i h4
      obtain ⟨x, r1, h1, h2⟩ := RM.bind_ok_inv h
      cases x with
      | none => simp [RM.pure_apply] at h2
      | some u =>
        obtain ⟨a1, a2, a3⟩ := readSect8_ok h1
        simp only [RM.pure_apply, Prod.mk.injEq, Outcome.ok.injEq, Option.some.injEq] at h2
        obtain ⟨⟨rfl, rfl, rfl⟩, rfl⟩ := h2
        have hoff : w - rest = r.pos := by omega
        have hl := a3.1
        simp only [List.length_cons, List.length_nil] at hl
        rw [hoff]
        refine ⟨a1, by omega, by omega, by omega, ?_, stop, ⟨by omega, Or.inl hw⟩, ?_⟩
        · exact ⟨rfl, by simp, by simp, fun _ => ⟨rfl, a3⟩, by simp, by simp⟩
        · intro ss p' t' hwk
          refine Walk.sect (by omega) (by simp) rfl (by simp; omega) (by simp; omega) ?_
          rw [a2] at hwk
          exact hwk
    · rename_i h4
      obtain ⟨x, r1, h1, h2⟩ := RM.bind_ok_inv h
      cases x with
      | none => simp [RM.pure_apply] at h2
      | some q =>
        obtain ⟨size, num⟩ := q
        obtain ⟨a1, a2, a3, a4, a5⟩ := readSectHeader_ok h1
        obtain ⟨body, r2, h3, h5⟩ := RM.bind_ok_inv h2
        obtain ⟨b1, b2, b3, b4, b5, b6, b7⟩ := readSectPayload_ok a2 h3
        rw [a1] at b1 b6 b7
        split at h5
        · simp [RM.panic] at h5
        · rename_i hle
          simp only [RM.pure_apply, Prod.mk.injEq, Outcome.ok.injEq, Option.some.injEq] at h5
          obtain ⟨⟨rfl, rfl, rfl⟩, rfl⟩ := h5
          have hoff : w - rest = r.pos := by omega
          rw [hoff]
          refine ⟨b1, by omega, by omega, by omega, ?_, stop, ⟨by omega, Or.inl hw⟩, ?_⟩
          · refine ⟨b6, by simp; omega, ?_, ?_, fun _ _ => ⟨b3, a4, a5, a3⟩, ?_⟩
            · intro h; simp only at h; omega
            · intro h; simp only at h; omega
            · intro h
              obtain ⟨c1, c2⟩ := b7 h
              exact ⟨by simp only; omega, fun _ => c2⟩
          · intro ss p' t' hwk
            refine Walk.sect (by omega) (by simp only; omega) rfl (by simp only; omega) ?_ ?_
            · simp only; omega
            · rw [b2] at hwk
              exact hwk

/-- A step of the stream panics only on a senseless length. -/
theorem nextR_panic {w rest stop : Nat} {r r' : Rdr} (hi : Inv w rest r.pos stop)
    (h : nextR w rest r = (.panic, r')) : BadLength r.data r.pos stop := by
  unfold nextR at h
  unfold BadLength
  split at h
  · rename_i h0
    subst h0
    rw [if_pos (by have := hi.1; omega)]
    rcases RM.bind_panic_inv h with h | ⟨w1, r1, h1, h2⟩
    · exact absurd h (startR_noPanic _ _ _)
    · obtain ⟨a1, a2, a3⟩ := startR_ok hi h1
      rcases RM.bind_panic_inv h2 with h | ⟨x, r2, h3, h4⟩
      · exact absurd h (readSect0_noPanic _ _)
      · cases x with
        | none => simp [RM.pure_apply] at h4
        | some q =>
          obtain ⟨off, ind⟩ := q
          obtain ⟨b1, p, b2, b3, b4, b5, b6⟩ := readSect0Loop_some h3
          rw [a1, a2] at b2
          rw [a1] at b1 b5 b6
          refine ⟨p, b2, b5, ?_⟩
          have htl : ind.totalLength = number r.data (p + 8) 8 := by rw [b6]; rfl
          simp only at h4
          split at h4
          · rename_i hor
            have := b2.1
            simp only [USIZE, htl] at hor
            omega
          · simp [RM.pure_apply] at h4
  · rename_i h0
    rw [if_neg (by have := hi.1; omega)]
    split at h
    · rcases RM.bind_panic_inv h with h | ⟨x, r1, h1, h2⟩
      · exact absurd h (readSect8_noPanic _ _)
      · cases x with
        | none => simp [RM.pure_apply] at h2
        | some u => simp [RM.pure_apply] at h2
    · rcases RM.bind_panic_inv h with h | ⟨x, r1, h1, h2⟩
      · exact absurd h (readSectHeader_noPanic _ _)
      · cases x with
        | none => simp [RM.pure_apply] at h2
        | some q =>
          obtain ⟨size, num⟩ := q
          obtain ⟨a1, a2, a3, a4, a5⟩ := readSectHeader_ok h1
          refine ⟨a3, ?_⟩
          rw [a4, a5]
          have := hi.1
          rcases RM.bind_panic_inv h2 with h | ⟨body, r2, h3, h4⟩
          · have := readSectPayload_panic h
            omega
          · split at h4
            · omega
            · simp [RM.pure_apply] at h4

/-- Everything the stream reports, from a state that satisfies the invariant. -/
theorem collectR_spec {fuel w rest stop : Nat} {r : Rdr} (hi : Inv w rest r.pos stop)
    (hf : (r.data.length - r.pos) / 4 < fuel) :
    ∃ sects tail p' t', (collectR fuel w rest r).1 = sects.map .ok ++ tail ∧
      Walk r.data r.pos stop sects p' t' ∧ (∀ s ∈ sects, Faithful r.data s) ∧
      4 * sects.length ≤ r.data.length - r.pos ∧
      (tail = [] ∨ (∃ e, tail = [.err e]) ∨ (tail = [.panic] ∧ BadLength r.data p' t')) := by
  induction fuel generalizing w rest stop r with
  | zero => omega
  | succ f ih =>
    rw [collectR]
    rcases hn : nextR w rest r with ⟨o, r'⟩
    cases o with
    | err e => exact ⟨[], [.err e], _, _, rfl, Walk.nil _ _, by simp, by simp, Or.inr (Or.inl ⟨e, rfl⟩)⟩
    | panic =>
      exact ⟨[], [.panic], _, _, rfl, Walk.nil _ _, by simp, by simp, Or.inr (Or.inr ⟨rfl, nextR_panic hi hn⟩)⟩
    | ok x =>
      cases x with
      | none => exact ⟨[], [], _, _, rfl, Walk.nil _ _, by simp, by simp, Or.inl rfl⟩
      | some q =>
        obtain ⟨s, w', rest'⟩ := q
        obtain ⟨a1, a2, a3, a4, a5, stop', a6, a7⟩ := nextR_some hi hn
        obtain ⟨sects, tail, p', t', b1, b2, b3, b4, b5⟩ := ih a6 (by rw [a1]; omega)
        rw [a1] at b2 b3 b4 b5
        refine ⟨s :: sects, tail, p', t', by simp [b1], a7 _ _ _ b2, ?_, by simp only [List.length_cons]; omega, b5⟩
        intro x hx
        rcases List.mem_cons.1 hx with rfl | hx
        · exact a5
        · exact b3 x hx

theorem itemsR_spec (r : Rdr) :
    ∃ sects tail p' t', (itemsR r).1 = sects.map .ok ++ tail ∧
      Walk r.data r.pos r.pos sects p' t' ∧ (∀ s ∈ sects, Faithful r.data s) ∧
      4 * sects.length ≤ r.data.length - r.pos ∧
      (tail = [] ∨ (∃ e, tail = [.err e]) ∨ (tail = [.panic] ∧ BadLength r.data p' t')) :=
  collectR_spec ⟨by omega, Or.inr ⟨rfl, rfl⟩⟩ (by omega)

/-- More fuel changes nothing. -/
theorem collectR_fuel {fuel fuel' w rest stop : Nat} {r : Rdr} (hi : Inv w rest r.pos stop)
    (hf : (r.data.length - r.pos) / 4 < fuel) (hle : fuel ≤ fuel') :
    collectR fuel' w rest r = collectR fuel w rest r := by
  induction fuel generalizing fuel' w rest stop r with
  | zero => omega
  | succ f ih =>
    obtain ⟨f', rfl⟩ : ∃ f', fuel' = f' + 1 := ⟨fuel' - 1, by omega⟩
    rw [collectR, collectR]
    rcases hn : nextR w rest r with ⟨o, r'⟩
    cases o with
    | err e => rfl
    | panic => rfl
    | ok x =>
      cases x with
      | none => rfl
      | some q =>
        obtain ⟨s, w', rest'⟩ := q
        obtain ⟨a1, a2, a3, a4, a5, stop', a6, a7⟩ := nextR_some hi hn
        simp only
        rw [ih a6 (by rw [a1]; omega) (by omega)]

/-! ## Walks -/

theorem Walk.append_inv {data : List UInt8} {p t p' t' : Nat} {a b : List SectionInfo}
    (h : Walk data p t (a ++ b) p' t') : ∃ p1 t1, Walk data p t a p1 t1 ∧ Walk data p1 t1 b p' t' := by
  induction a generalizing p t with
  | nil => exact ⟨p, t, Walk.nil _ _, h⟩
  | cons s ss ih =>
    rw [List.cons_append] at h
    cases h with
    | message h1 h2 h2' h3 =>
      obtain ⟨p1, t1, h4, h5⟩ := ih h3
      exact ⟨p1, t1, Walk.message h1 h2 h2' h4, h5⟩
    | sect h1 h2 h3 h4 h5 h6 =>
      obtain ⟨p1, t1, h7, h8⟩ := ih h6
      exact ⟨p1, t1, Walk.sect h1 h2 h3 h4 h5 h7, h8⟩

theorem Walk.body {data : List UInt8} {p t p' t' : Nat} {body : List SectionInfo} (hb : ∀ s ∈ body, s.num ≠ 0)
    (hpt : p ≤ t) (h : Walk data p t body p' t') :
    t' = t ∧ p' = p + (body.map SectionInfo.size).sum ∧ p' ≤ t ∧
    (∀ k (hk : k < body.length), body[k].offset = p + ((body.take k).map SectionInfo.size).sum) ∧
    (∀ k (hk : k < body.length), body[k].num = 8 ↔ body[k].offset + 4 = t) := by
  induction body generalizing p with
  | nil => cases h; exact ⟨rfl, by simp, hpt, by simp, by simp⟩
  | cons s ss ih =>
    cases h with
    | message h1 h2 h2' h3 => exact absurd h1 (hb s (by simp))
    | sect h1 h2 h3 h4 h5 h6 =>
      obtain ⟨g1, g2, g3, g4, g5⟩ := ih (fun x hx => hb x (List.mem_cons_of_mem _ hx)) h4 h6
      refine ⟨g1, by simp only [List.map_cons, List.sum_cons]; omega, g3, ?_, ?_⟩
      · intro k hk
        cases k with
        | zero => simpa using h3
        | succ k =>
          simp only [List.getElem_cons_succ, List.take_succ_cons, List.map_cons, List.sum_cons]
          rw [g4 k (by simpa using hk)]; omega
      · intro k hk
        cases k with
        | zero => simpa [h3] using h5
        | succ k => exact g5 k (by simpa using hk)

end Grib.Model
