import Verif.Lemmas.ReaderExact

/-! # What the section stream does on a reader that may fail or deliver as little as it likes at any time -/

namespace Grib.Model

open Grib.Spec

/-- When a payload read panics, with what must be in the file. -/
theorem readSectPayload_crash {size num : Nat} {r r' : Rdr} {p : Nat} (hp : r.pos = p + 5)
    (h : readSectPayload size num r = (.panic, r')) :
    size < 5 ∨ (num = 6 ∧ size = 5 ∧ p + 6 ≤ r.data.length) := by
  rcases readSectPayload_panic h with h' | ⟨rfl, rfl⟩
  · exact Or.inl h'
  · right
    refine ⟨rfl, rfl, ?_⟩
    rw [readSectPayload, if_neg (by omega)] at h
    simp only [readSect6Payload] at h
    rcases RM.bind_panic_inv h with h | ⟨buf, r1, h1, h2⟩
    · exact absurd h (rdReadExact_noPanic _ _ _)
    · obtain ⟨b1, b2, b3, b4, b5⟩ := rdReadExact_ok h1
      omega

/-- A step of the stream panics only on the lengths of `Crash`, whatever the reader does. -/
theorem nextR_crash {w rest stop : Nat} {r r' : Rdr} (hi : Inv w rest r.pos stop)
    (h : nextR w rest r = (.panic, r')) : Crash r.data r.pos stop := by
  unfold nextR at h
  unfold Crash
  split at h
  · rename_i h0
    subst h0
    rw [if_pos (by have := hi.1; omega)]
    rcases RM.bind_panic_inv h with h | ⟨w1, r1, h1, h2⟩
    · exact absurd h (startR_noPanic _ _ _)
    · obtain ⟨a1, a2, a3⟩ := startR_ok hi h1
      rcases RM.bind_panic_inv h2 with h | ⟨x, r2, h3, h4⟩
      · exact absurd h (readSect0_noPanic _ _)
      · cases x with
        | none => simp [RM.pure_apply] at h4
        | some q =>
          obtain ⟨off, ind⟩ := q
          obtain ⟨b1, p, b2, b3, b4, b5, b6⟩ := readSect0Loop_some h3
          rw [a1, a2] at b2
          rw [a1] at b1 b5 b6
          refine ⟨p, b2, b5, ?_⟩
          have htl : ind.totalLength = number r.data (p + 8) 8 := by rw [b6]; rfl
          simp only at h4
          split at h4
          · rename_i hor
            have := b2.1
            simp only [USIZE, htl] at hor
            omega
          · simp [RM.pure_apply] at h4
  · rename_i h0
    rw [if_neg (by have := hi.1; omega)]
    split at h
    · rcases RM.bind_panic_inv h with h | ⟨x, r1, h1, h2⟩
      · exact absurd h (readSect8_noPanic _ _)
      · cases x with
        | none => simp [RM.pure_apply] at h2
        | some u => simp [RM.pure_apply] at h2
    · rename_i h4'
      rcases RM.bind_panic_inv h with h | ⟨x, r1, h1, h2⟩
      · exact absurd h (readSectHeader_noPanic _ _)
      · cases x with
        | none => simp [RM.pure_apply] at h2
        | some q =>
          obtain ⟨size, num⟩ := q
          obtain ⟨a1, a2, a3, a4, a5⟩ := readSectHeader_ok h1
          have hst := hi.1
          refine ⟨by omega, a3, ?_⟩
          rw [a4, a5]
          rcases RM.bind_panic_inv h2 with h | ⟨body, r2, h3, h4⟩
          · rcases readSectPayload_crash a2 h with h | ⟨h, h', h''⟩
            · exact Or.inl h
            · rw [a1] at h''
              exact Or.inr (Or.inl ⟨h, h', h''⟩)
          · obtain ⟨b1, b2, b3, b4, b5, b6, b7⟩ := readSectPayload_ok a2 h3
            rw [a1] at b7
            split at h4
            · refine Or.inr (Or.inr ⟨by omega, ?_⟩)
              by_cases h7 : num = 7
              · exact Or.inl h7
              · obtain ⟨c1, c2⟩ := b7 (by omega)
                exact Or.inr ⟨b4, by omega, by omega, c2⟩
            · simp [RM.pure_apply] at h4

/-- A reported section 0 opens a message whose end fits 64 bits, whatever the reader does. -/
theorem nextR_addressable {w rest stop w' rest' : Nat} {r r' : Rdr} {s : SectionInfo} (hi : Inv w rest r.pos stop)
    (h : nextR w rest r = (.ok (some (s, w', rest')), r')) : Addressable r.data s := by
  intro hs
  unfold nextR at h
  split at h
  · rename_i h0
    subst h0
    obtain ⟨w1, r1, h1, h2⟩ := RM.bind_ok_inv h
    obtain ⟨a1, a2, a3⟩ := startR_ok hi h1
    obtain ⟨x, r2, h3, h4⟩ := RM.bind_ok_inv h2
    cases x with
    | none => simp [RM.pure_apply] at h4
    | some q =>
      obtain ⟨off, ind⟩ := q
      obtain ⟨b1, p, b2, b3, b4, b5, b6⟩ := readSect0Loop_some h3
      rw [a1] at b6
      simp only at h4
      split at h4
      · simp [RM.panic] at h4
      · rename_i hok
        simp only [RM.pure_apply, Prod.mk.injEq, Outcome.ok.injEq, Option.some.injEq] at h4
        obtain ⟨⟨rfl, rfl, rfl⟩, rfl⟩ := h4
        have hp : w1 + off = p := by
          have := b2.1
          omega
        have htl : ind.totalLength = number r.data (p + 8) 8 := by rw [b6]; rfl
        simp only [USIZE] at hok
        simp only [hp]
        omega
  · split at h
    · obtain ⟨x, r1, h1, h2⟩ := RM.bind_ok_inv h
      cases x with
      | none => simp [RM.pure_apply] at h2
      | some u =>
        simp only [RM.pure_apply, Prod.mk.injEq, Outcome.ok.injEq, Option.some.injEq] at h2
        obtain ⟨⟨rfl, rfl, rfl⟩, rfl⟩ := h2
        simp at hs
    · obtain ⟨x, r1, h1, h2⟩ := RM.bind_ok_inv h
      cases x with
      | none => simp [RM.pure_apply] at h2
      | some q =>
        obtain ⟨size, num⟩ := q
        obtain ⟨a1, a2, a3, a4, a5⟩ := readSectHeader_ok h1
        obtain ⟨body, r2, h3, h5⟩ := RM.bind_ok_inv h2
        obtain ⟨b1, b2, b3, b4, b5, b6, b7⟩ := readSectPayload_ok a2 h3
        split at h5
        · simp [RM.panic] at h5
        · simp only [RM.pure_apply, Prod.mk.injEq, Outcome.ok.injEq, Option.some.injEq] at h5
          obtain ⟨⟨rfl, rfl, rfl⟩, rfl⟩ := h5
          simp only at hs
          omega

/-- Everything the stream reports, whatever the reader does. -/
theorem collectR_any {fuel w rest stop : Nat} {r : Rdr} (hi : Inv w rest r.pos stop)
    (hf : (r.data.length - r.pos) / 4 < fuel) :
    ∃ sects tail p' t', (collectR fuel w rest r).1 = sects.map .ok ++ tail ∧
      Walk r.data r.pos stop sects p' t' ∧ (∀ s ∈ sects, Faithful r.data s ∧ Addressable r.data s) ∧
      (tail = [] ∨ (∃ e, tail = [.err e]) ∨ (tail = [.panic] ∧ Crash r.data p' t')) := by
  induction fuel generalizing w rest stop r with
  | zero => omega
  | succ f ih =>
    rw [collectR]
    rcases hn : nextR w rest r with ⟨o, r'⟩
    cases o with
    | err e => exact ⟨[], [.err e], _, _, rfl, Walk.nil _ _, by simp, Or.inr (Or.inl ⟨e, rfl⟩)⟩
    | panic =>
      exact ⟨[], [.panic], _, _, rfl, Walk.nil _ _, by simp, Or.inr (Or.inr ⟨rfl, nextR_crash hi hn⟩)⟩
    | ok x =>
      cases x with
      | none => exact ⟨[], [], _, _, rfl, Walk.nil _ _, by simp, Or.inl rfl⟩
      | some q =>
        obtain ⟨s, w', rest'⟩ := q
        obtain ⟨a1, a2, a3, a4, a5, stop', a6, a7⟩ := nextR_some hi hn
        have a8 := nextR_addressable hi hn
        obtain ⟨sects, tail, p', t', b1, b2, b3, b4⟩ := ih a6 (by rw [a1]; omega)
        rw [a1] at b2 b3 b4
        refine ⟨s :: sects, tail, p', t', by simp [b1], a7 _ _ _ b2, ?_, b4⟩
        intro x hx
        rcases List.mem_cons.1 hx with rfl | hx
        · exact ⟨a5, a8⟩
        · exact b3 x hx

theorem itemsR_any (r : Rdr) :
    ∃ sects tail p' t', (itemsR r).1 = sects.map .ok ++ tail ∧
      Walk r.data r.pos r.pos sects p' t' ∧ (∀ s ∈ sects, Faithful r.data s ∧ Addressable r.data s) ∧
      (tail = [] ∨ (∃ e, tail = [.err e]) ∨ (tail = [.panic] ∧ Crash r.data p' t')) :=
  collectR_any (fuel := r.data.length + 2) (inv_start r.pos) (by omega)

/-! ## Schedules: how many calls an operation makes -/

variable {α β : Type}

/-- On a reader whose next `n` calls are complete, the operation does what it does on a cursor and makes exactly these
calls. -/
def Counted (x : RM α) (d : List UInt8) (p : Nat) : Prop :=
  ∃ n, ∀ es, x ⟨d, p, List.replicate n .full ++ es⟩ =
    ((x ⟨d, p, []⟩).1, ⟨(x ⟨d, p, []⟩).2.data, (x ⟨d, p, []⟩).2.pos, es⟩)

theorem Counted.bind {x : RM α} {f : α → RM β} {d : List UInt8} {p : Nat} (hx : Counted x d p)
    (hev : (x ⟨d, p, []⟩).2.evs = [])
    (hf : ∀ a, (x ⟨d, p, []⟩).1 = .ok a → Counted (f a) (x ⟨d, p, []⟩).2.data (x ⟨d, p, []⟩).2.pos) :
    Counted (x >>= f) d p := by
  obtain ⟨n, hn⟩ := hx
  rcases hc : x ⟨d, p, []⟩ with ⟨o, d', p', es'⟩
  rw [hc] at hf hn hev
  simp only at hf hn hev
  subst hev
  cases o with
  | ok a =>
    obtain ⟨m, hm⟩ := hf a rfl
    refine ⟨n + m, fun es => ?_⟩
    rw [RM.bind_apply, ← List.replicate_append_replicate, List.append_assoc, hn]
    simp only
    rw [hm, RM.bind_apply, hc]
  | err e =>
    refine ⟨n, fun es => ?_⟩
    rw [RM.bind_apply, hn, RM.bind_apply, hc]
  | panic =>
    refine ⟨n, fun es => ?_⟩
    rw [RM.bind_apply, hn, RM.bind_apply, hc]

/-- A cursor stays one. -/
theorem Honest.cursor {x : RM α} (hx : Honest x) (d : List UInt8) (p : Nat) :
    (x ⟨d, p, []⟩).2.data = d ∧ (x ⟨d, p, []⟩).2.evs = [] := by
  obtain ⟨h1, c, h2, -⟩ := hx ⟨d, p, []⟩
  exact ⟨h1, (List.append_eq_nil_iff.1 h2.symm).2⟩

theorem Counted.bind' {x : RM α} {f : α → RM β} {d : List UInt8} {p : Nat} (hx : Counted x d p) (hh : Honest x)
    (hf : ∀ a q, Counted (f a) d q) : Counted (x >>= f) d p := by
  refine hx.bind (hh.cursor d p).2 fun a _ => ?_
  rw [(hh.cursor d p).1]
  exact hf a _

theorem Counted.pure (a : α) (d : List UInt8) (p : Nat) : Counted (pure a : RM α) d p := ⟨0, fun _ => rfl⟩
theorem Counted.lift (a : Outcome ParseError α) (d : List UInt8) (p : Nat) : Counted (RM.lift a) d p := ⟨0, fun _ => rfl⟩
theorem Counted.throw (e : ParseError) (d : List UInt8) (p : Nat) : Counted (RM.throw e : RM α) d p := ⟨0, fun _ => rfl⟩
theorem Counted.panic (d : List UInt8) (p : Nat) : Counted (RM.panic : RM α) d p := ⟨0, fun _ => rfl⟩
theorem Counted.mapErr {x : RM α} {d : List UInt8} {p : Nat} (hx : Counted x d p) (f : ParseError → ParseError) :
    Counted (RM.mapErr f x) d p := by
  obtain ⟨n, hn⟩ := hx
  refine ⟨n, fun es => ?_⟩
  unfold RM.mapErr
  rw [hn]
theorem Counted.ite {c : Prop} [Decidable c] {x y : RM α} {d : List UInt8} {p : Nat} (hx : Counted x d p)
    (hy : Counted y d p) : Counted (if c then x else y) d p := by
  split <;> assumption

theorem rdRead_counted (n : Nat) (d : List UInt8) (p : Nat) : Counted (rdRead n) d p := ⟨1, fun _ => rfl⟩

theorem rdReadExactLoop_counted (fuel n : Nat) (d : List UInt8) (p : Nat) : Counted (rdReadExactLoop fuel n) d p := by
  induction fuel generalizing n p with
  | zero => exact Counted.pure _ _ _
  | succ f ih =>
    rw [rdReadExactLoop]
    refine Counted.ite (Counted.pure _ _ _) ?_
    refine (rdRead_counted _ _ _).bind' (rdRead_honest _) fun a q => ?_
    refine Counted.ite (Counted.throw _ _ _) ?_
    exact (ih _ _).bind' (rdReadExactLoop_honest _ _) fun a q => Counted.pure _ _ _

theorem rdSeekTo_counted (t : Int) (d : List UInt8) (p : Nat) : Counted (rdSeekTo t) d p := by
  refine ⟨1, fun es => ?_⟩
  unfold rdSeekTo
  simp only [List.replicate_one, List.cons_append, List.nil_append]
  split <;> rfl

theorem rdSeekCur_counted (t : Int) (d : List UInt8) (p : Nat) : Counted (rdSeekCur t) d p :=
  (rdSeekTo_counted (p + t) d p).elim fun n h => ⟨n, h⟩

theorem rdPos_counted (d : List UInt8) (p : Nat) : Counted rdPos d p := by
  refine ⟨1, fun es => ?_⟩
  unfold rdPos rdSeekCur rdSeekTo
  simp only [List.replicate_one, List.cons_append, List.nil_append]
  rw [if_neg (by omega), if_neg (by omega)]
  rfl

theorem readSect0Loop_counted (fuel off : Nat) (d : List UInt8) (p : Nat) : Counted (readSect0Loop fuel off) d p := by
  induction fuel generalizing off p with
  | zero => exact Counted.panic _ _
  | succ f ih =>
    rw [readSect0Loop]
    refine (rdRead_counted _ _ _).bind' (rdRead_honest _) fun buf q => ?_
    refine Counted.ite (Counted.pure _ _ _) ?_
    split
    · refine (rdSeekCur_counted _ _ _).bind' (rdSeekCur_honest _) fun _ _ => ?_
      exact (Counted.lift _ _ _).bind' (Honest.lift _) fun _ _ => Counted.pure _ _ _
    · exact (rdSeekCur_counted _ _ _).bind' (rdSeekCur_honest _) fun _ _ => ih _ _

theorem readSect0_counted (d : List UInt8) (p : Nat) : Counted readSect0 d p := by
  obtain ⟨n, hn⟩ := readSect0Loop_counted (d.length - p + 1) 0 d p
  exact ⟨n, hn⟩

theorem readSect8_counted (d : List UInt8) (p : Nat) : Counted readSect8 d p :=
  (rdRead_counted _ _ _).bind' (rdRead_honest _) fun _ _ =>
    Counted.ite (Counted.pure _ _ _) (Counted.ite (Counted.throw _ _ _)
      (Counted.ite (Counted.throw _ _ _) (Counted.pure _ _ _)))

theorem readSectHeader_counted (d : List UInt8) (p : Nat) : Counted readSectHeader d p :=
  (rdRead_counted _ _ _).bind' (rdRead_honest _) fun _ _ =>
    Counted.ite (Counted.pure _ _ _) (Counted.ite (Counted.throw _ _ _)
      ((Counted.lift _ _ _).bind' (Honest.lift _) fun _ _ =>
        (Counted.lift _ _ _).bind' (Honest.lift _) fun _ _ => Counted.pure _ _ _))

theorem readSectPayload_counted (size num : Nat) (d : List UInt8) (p : Nat) :
    Counted (readSectPayload size num) d p := by
  have ex := fun n p => rdReadExactLoop_counted n n d p
  have hx := fun n => rdReadExact_honest n
  unfold readSectPayload
  refine Counted.ite (Counted.panic _ _) ?_
  have chk : ∀ (m : Nat) (f : List UInt8 → SectionBody), Counted (do
      let p ← rdReadExact (size - 5)
      let p ← RM.lift (checkPayload m p)
      pure (f p) : RM SectionBody) d p := fun m f =>
    (ex _ _).bind' (hx _) fun _ _ => (Counted.lift _ _ _).bind' (Honest.lift _) fun _ _ => Counted.pure _ _ _
  simp only
  split
  · exact chk 16 _
  · exact (ex _ _).bind' (hx _) fun _ _ => Counted.pure _ _ _
  · exact chk 9 _
  · exact chk 4 _
  · exact chk 6 _
  · refine (ex _ _).bind' (hx _) fun _ _ => Counted.ite (Counted.panic _ _) ?_
    refine Counted.ite ?_ (Counted.pure _ _ _)
    exact (ex _ _).bind' (hx _) fun _ _ => Counted.pure _ _ _
  · exact (rdSeekCur_counted _ _ _).bind' (rdSeekCur_honest _) fun _ _ => Counted.pure _ _ _
  · exact Counted.throw _ _ _

theorem startR_counted (w : Nat) (d : List UInt8) (p : Nat) : Counted (startR w) d p :=
  Counted.ite ((rdPos_counted _ _).mapErr _) (Counted.pure _ _ _)

theorem startR_honest (w : Nat) : Honest (startR w) :=
  Honest.ite (rdPos_honest.mapErr _) (Honest.pure _)

theorem nextR_counted (w rest : Nat) (d : List UInt8) (p : Nat) : Counted (nextR w rest) d p := by
  unfold nextR
  refine Counted.ite ?_ (Counted.ite ?_ ?_)
  · refine (startR_counted _ _ _).bind' (startR_honest _) fun _ _ => ?_
    refine (readSect0_counted _ _).bind' readSect0_honest fun x _ => ?_
    split
    · exact Counted.pure _ _ _
    · exact Counted.ite (Counted.panic _ _) (Counted.pure _ _ _)
  · refine (readSect8_counted _ _).bind' readSect8_honest fun x _ => ?_
    split
    · exact Counted.pure _ _ _
    · exact Counted.pure _ _ _
  · refine (readSectHeader_counted _ _).bind' readSectHeader_honest fun x _ => ?_
    split
    · exact Counted.pure _ _ _
    · refine (readSectPayload_counted _ _ _ _).bind' (readSectPayload_honest _ _) fun _ _ => ?_
      exact Counted.ite (Counted.panic _ _) (Counted.pure _ _ _)

/-- A reader can stop delivering after any walk that ends between messages. -/
theorem collectR_stops {data : List UInt8} {sects : List SectionInfo} : ∀ {w rest p t p' : Nat} {fuel : Nat},
    Inv w rest p t → Walk data p t sects p' p' → (∀ s ∈ sects, Faithful data s ∧ Addressable data s) →
    sects.length < fuel → ∃ evs, (collectR fuel w rest ⟨data, p, evs⟩).1 = sects.map .ok := by
  induction sects with
  | nil =>
    intro w rest p t p' fuel hi hw _ hf
    cases hw
    obtain ⟨f, rfl⟩ : ∃ f, fuel = f + 1 := ⟨fuel - 1, by simp at hf; omega⟩
    have h0 : rest = 0 := by have := hi.1; omega
    subst h0
    obtain ⟨n, hn⟩ := startR_counted w data p
    refine ⟨List.replicate n .full ++ [.short 0], ?_⟩
    have : ∃ r', nextR w 0 ⟨data, p, List.replicate n .full ++ [.short 0]⟩ = (.ok none, r') := by
      unfold nextR
      rw [if_pos rfl, nextR0, RM.bind_apply, hn, startR_cursor (by rcases hi.2 with h | h <;> omega)]
      simp only
      rw [RM.bind_apply, readSect0]
      simp only
      rw [readSect0Loop, RM.bind_apply, rdRead]
      simp only [Rdr.deliver]
      rw [if_pos]
      · exact ⟨_, rfl⟩
      · rw [List.length_take]; omega
    obtain ⟨r', hr'⟩ := this
    rw [collectR, hr']
    rfl
  | cons s ss ih =>
    intro w rest p t p' fuel hi hw hf hl
    obtain ⟨f, rfl⟩ : ∃ f, fuel = f + 1 := ⟨fuel - 1, by simp at hl; omega⟩
    obtain ⟨h1, h2⟩ := hf s (by simp)
    obtain ⟨w1, rest1, t1, a1, a2, a3⟩ := nextR_walk hi hw h1 h2
    obtain ⟨evs, he⟩ := ih (fuel := f) a2 a3 (fun x hx => hf x (List.mem_cons_of_mem _ hx)) (by simp at hl; omega)
    obtain ⟨n, hn⟩ := nextR_counted w rest data p
    refine ⟨List.replicate n .full ++ evs, ?_⟩
    rw [collectR, hn, a1]
    simp only [List.map_cons, he]

end Grib.Model
