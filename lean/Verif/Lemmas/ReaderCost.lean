import Verif.Lemmas.ReaderAny

/-! # How many calls to the underlying reader the operations make -/

namespace Grib.Model

open Grib.Spec

variable {α β : Type}

/-- On a reader whose next `n` calls are complete, the operation does what it does on a cursor and makes exactly `n`
calls. -/
def Makes (n : Nat) (x : RM α) (d : List UInt8) (p : Nat) : Prop :=
  ∀ es, x ⟨d, p, List.replicate n .full ++ es⟩ = ((x ⟨d, p, []⟩).1, ⟨d, (x ⟨d, p, []⟩).2.pos, es⟩)

theorem Makes.bind {x : RM α} {f : α → RM β} {d : List UInt8} {p q n m : Nat} {a : α} (hx : Makes n x d p)
    (hc : x ⟨d, p, []⟩ = (.ok a, ⟨d, q, []⟩)) (hf : Makes m (f a) d q) : Makes (n + m) (x >>= f) d p := by
  intro es
  rw [RM.bind_apply, ← List.replicate_append_replicate, List.append_assoc, hx, RM.bind_apply, hc]
  simp only
  rw [hf]

theorem Makes.stop {x : RM α} {d : List UInt8} {p n : Nat} (f : α → RM β) (hx : Makes n x d p) (hh : Honest x)
    (hc : ∀ a, (x ⟨d, p, []⟩).1 ≠ .ok a) : Makes n (x >>= f) d p := by
  intro es
  obtain ⟨h1, h2⟩ := hh.cursor d p
  rw [RM.bind_apply, hx, RM.bind_apply]
  rcases hx' : x ⟨d, p, []⟩ with ⟨o, d', q, es'⟩
  rw [hx'] at hc h1 h2
  cases o with
  | ok a => exact absurd rfl (hc a)
  | err e => rfl
  | panic => rfl

/-- The operation on a cursor: its outcome and where it leaves it. -/
theorem Honest.on_cursor {x : RM α} (hh : Honest x) (d : List UInt8) (p : Nat) :
    ∃ o q, x ⟨d, p, []⟩ = (o, ⟨d, q, []⟩) := by
  obtain ⟨h1, h2⟩ := hh.cursor d p
  rcases hx' : x ⟨d, p, []⟩ with ⟨o, d', q, es'⟩
  rw [hx'] at h1 h2
  simp only at h1 h2
  subst h1 h2
  exact ⟨o, q, rfl⟩

theorem Makes.pure (a : α) (d : List UInt8) (p : Nat) : Makes 0 (pure a : RM α) d p := fun _ => rfl
theorem Makes.lift (a : Outcome ParseError α) (d : List UInt8) (p : Nat) : Makes 0 (RM.lift a) d p := fun _ => rfl
theorem Makes.throw (e : ParseError) (d : List UInt8) (p : Nat) : Makes 0 (RM.throw e : RM α) d p := fun _ => rfl
theorem Makes.panic (d : List UInt8) (p : Nat) : Makes 0 (RM.panic : RM α) d p := fun _ => rfl

theorem Makes.mapErr {x : RM α} {d : List UInt8} {p n : Nat} (hx : Makes n x d p) (f : ParseError → ParseError) :
    Makes n (RM.mapErr f x) d p := by
  intro es
  unfold RM.mapErr
  rw [hx]

/-- Continue with something that needs at most `m` calls. -/
theorem makes_bind_le {x : RM α} {f : α → RM β} {d : List UInt8} {p n m : Nat} (hx : Makes n x d p) (hh : Honest x)
    (hf : ∀ a q, x ⟨d, p, []⟩ = (.ok a, ⟨d, q, []⟩) → ∃ k, k ≤ m ∧ Makes k (f a) d q) :
    ∃ k, k ≤ n + m ∧ Makes k (x >>= f) d p := by
  obtain ⟨o, q, hc⟩ := hh.on_cursor d p
  cases o with
  | ok a =>
    obtain ⟨k, h1, h2⟩ := hf a q hc
    exact ⟨n + k, by omega, hx.bind hc h2⟩
  | err e => exact ⟨n, by omega, hx.stop f hh (by rw [hc]; simp)⟩
  | panic => exact ⟨n, by omega, hx.stop f hh (by rw [hc]; simp)⟩

theorem rdRead_makes (n : Nat) (d : List UInt8) (p : Nat) : Makes 1 (rdRead n) d p := fun _ => rfl

theorem rdRead_full (n : Nat) (d : List UInt8) (p : Nat) :
    rdRead n ⟨d, p, []⟩ = (.ok ((d.drop p).take n), ⟨d, p + min n (d.length - p), []⟩) := by
  simp [rdRead, Rdr.deliver, List.length_take, List.length_drop]

theorem rdSeekTo_makes (t : Int) (d : List UInt8) (p : Nat) : Makes 1 (rdSeekTo t) d p := by
  intro es
  unfold rdSeekTo
  simp only [List.replicate_one, List.cons_append, List.nil_append]
  split <;> rfl

theorem rdSeekCur_makes (t : Int) (d : List UInt8) (p : Nat) : Makes 1 (rdSeekCur t) d p := rdSeekTo_makes (p + t) d p

theorem rdPos_makes (d : List UInt8) (p : Nat) : Makes 1 rdPos d p := by
  intro es
  unfold rdPos rdSeekCur rdSeekTo
  simp only [List.replicate_one, List.cons_append, List.nil_append]
  rw [if_neg (by omega), if_neg (by omega)]
  rfl

/-- Reading exactly `n` octets takes one call, or two if the data end before. -/
theorem rdReadExact_makes (n : Nat) (d : List UInt8) (p : Nat) :
    ∃ k, k ≤ (if n ≤ d.length - p then 1 else 2) ∧ Makes k (rdReadExact n) d p := by
  unfold rdReadExact
  cases n with
  | zero => exact ⟨0, by simp, fun _ => rfl⟩
  | succ n =>
    have hl : ((d.drop p).take (n + 1)).length = min (n + 1) (d.length - p) := by
      rw [List.length_take, List.length_drop]
    by_cases h : n + 1 ≤ d.length - p
    · rw [if_pos h, rdReadExactLoop, if_neg (by omega)]
      have := makes_bind_le (m := 0) (f := fun chunk : List UInt8 =>
          if chunk.length = 0 then RM.throw (.readError .unexpectedEof) else do
            let rest ← rdReadExactLoop n (n + 1 - chunk.length)
            pure (chunk ++ rest))
        (rdRead_makes (n + 1) d p) (rdRead_honest _) (by
          intro a q ha
          rw [rdRead_full] at ha
          simp only [Prod.mk.injEq, Outcome.ok.injEq] at ha
          obtain ⟨rfl, -⟩ := ha
          rw [if_neg (by omega)]
          refine ⟨0, by omega, ?_⟩
          have : n + 1 - ((d.drop p).take (n + 1)).length = 0 := by omega
          rw [this]
          have e : rdReadExactLoop n 0 = (Pure.pure [] : RM (List UInt8)) := by cases n <;> rfl
          rw [e]
          exact fun es => rfl)
      exact this
    · rw [if_neg h, rdReadExactLoop, if_neg (by omega)]
      have := makes_bind_le (m := 1) (f := fun chunk : List UInt8 =>
          if chunk.length = 0 then RM.throw (.readError .unexpectedEof) else do
            let rest ← rdReadExactLoop n (n + 1 - chunk.length)
            pure (chunk ++ rest))
        (rdRead_makes (n + 1) d p) (rdRead_honest _) (by
          intro a q ha
          rw [rdRead_full] at ha
          simp only [Prod.mk.injEq, Outcome.ok.injEq, Rdr.mk.injEq] at ha
          obtain ⟨rfl, -, rfl, -⟩ := ha
          split
          · exact ⟨0, by omega, Makes.throw _ _ _⟩
          · next h0 =>
            obtain ⟨n', rfl⟩ : ∃ n', n = n' + 1 := ⟨n - 1, by omega⟩
            have hq : d.length - (p + min (n' + 1 + 1) (d.length - p)) = 0 := by omega
            generalize p + min (n' + 1 + 1) (d.length - p) = q at hq ⊢
            have hm : Makes 1 (rdReadExactLoop (n' + 1) (n' + 1 + 1 - ((d.drop p).take (n' + 1 + 1)).length)) d q := by
              rw [rdReadExactLoop, if_neg (by omega)]
              have : (d.drop q).take (n' + 1 + 1 - ((d.drop p).take (n' + 1 + 1)).length) = [] := by
                have e : d.drop q = [] := List.drop_eq_nil_of_le (by omega)
                rw [e, List.take_nil]
              refine (rdRead_makes _ d q).bind (m := 0) (rdRead_full _ d q) ?_
              rw [this, if_pos (by simp)]
              exact Makes.throw _ _ _
            refine makes_bind_le (m := 0) hm (rdReadExactLoop_honest _ _) ?_
            intro a q' _
            exact ⟨0, by omega, Makes.pure _ _ _⟩)
      exact this

/-- Blocks of 4081 positions up to the end of the data. -/
abbrev blocks (d : List UInt8) (p : Nat) : Nat := (d.length - p) / 4081

/-- The search for the next message: two calls for each block gone through; at most three more. -/
theorem readSect0Loop_makes (fuel off : Nat) (d : List UInt8) (p : Nat) :
    ∃ n, Makes n (readSect0Loop fuel off) d p ∧ n ≤ 3 + 2 * blocks d p ∧
      (d.length - p < 16 → n ≤ 1 ∧ ∀ x, (readSect0Loop fuel off ⟨d, p, []⟩).1 ≠ .ok (some x)) ∧
      ∀ x q, readSect0Loop fuel off ⟨d, p, []⟩ = (.ok (some x), ⟨d, q, []⟩) → n + 2 * blocks d q ≤ 2 + 2 * blocks d p := by
  unfold blocks
  induction fuel generalizing off p with
  | zero =>
    refine ⟨0, Makes.panic _ _, by omega, fun _ => ⟨by omega, ?_⟩, ?_⟩
    · intro x h; simp [readSect0Loop, RM.panic] at h
    · intro x q h; simp [readSect0Loop, RM.panic] at h
  | succ f ih =>
    have hl : ((d.drop p).take 4096).length = min 4096 (d.length - p) := by
      rw [List.length_take, List.length_drop]
    rw [readSect0Loop]
    have hr := rdRead_full 4096 d p
    have hm := rdRead_makes 4096 d p
    by_cases h16 : d.length - p < 16
    · refine ⟨1, hm.bind (m := 0) hr ?_, by omega, fun _ => ⟨by omega, ?_⟩, ?_⟩
      · simp only
        rw [if_pos (by omega)]
        exact Makes.pure _ _ _
      · intro x h
        rw [RM.bind_apply, hr] at h
        simp only at h
        rw [if_pos (by omega)] at h
        simp [RM.pure_apply] at h
      · intro x q h
        rw [RM.bind_apply, hr] at h
        simp only at h
        rw [if_pos (by omega)] at h
        simp [RM.pure_apply] at h
    · cases hk : findMagic ((d.drop p).take 4096) with
      | some k =>
        have hks := (findMagic_some (by omega) hk).1
        have hseek : rdSeekCur (((k + 16 : Nat) : Int) - (((d.drop p).take 4096).length : Int))
            ⟨d, p + min 4096 (d.length - p), []⟩ = (.ok (), ⟨d, p + k + 16, []⟩) := by
          unfold rdSeekCur rdSeekTo
          simp only
          rw [if_neg (by omega)]
          simp only [List.tail_nil, Prod.mk.injEq, Rdr.mk.injEq, true_and, and_true]
          omega
        obtain ⟨n, hn, hmk⟩ := makes_bind_le (m := 0) (f := fun _ : Unit => (do
            let indicator ← RM.lift (Indicator.fromSlice ((((d.drop p).take 4096).drop k).take 16))
            pure (some (off + k, indicator)) : RM (Option (Nat × Indicator))))
          (rdSeekCur_makes (((k + 16 : Nat) : Int) - (((d.drop p).take 4096).length : Int)) d (p + min 4096 (d.length - p)))
          (rdSeekCur_honest _) (fun a q _ =>
            makes_bind_le (m := 0) (Makes.lift _ _ _) (Honest.lift _) fun a q _ => ⟨0, by omega, Makes.pure _ _ _⟩)
        have hmk' : Makes (1 + n) (readSect0Loop (f + 1) off) d p := by
          rw [readSect0Loop]
          refine hm.bind hr ?_
          simp only
          rw [if_neg (by omega), hk]
          exact hmk
        refine ⟨1 + n, by rw [readSect0Loop] at hmk'; exact hmk', by omega, fun h => absurd h h16, ?_⟩
        intro x q h
        have hq : q = p + k + 16 := by
          rw [RM.bind_apply, hr] at h
          simp only at h
          rw [if_neg (by omega), hk] at h
          simp only at h
          rw [RM.bind_apply, hseek] at h
          simp only at h
          obtain ⟨i, r1, h1, h2⟩ := RM.bind_ok_inv h
          simp only [RM.lift, Prod.mk.injEq] at h1
          simp only [RM.pure_apply, Prod.mk.injEq, Outcome.ok.injEq] at h2
          rw [← h1.2] at h2
          have := congrArg Rdr.pos h2.2
          simpa using this.symm
        subst hq
        omega
      | none =>
        have hseek : rdSeekCur ((((d.drop p).take 4096).length - 16 + 1 : Nat) - (((d.drop p).take 4096).length : Int))
            ⟨d, p + min 4096 (d.length - p), []⟩ = (.ok (), ⟨d, p + (min 4096 (d.length - p) - 15), []⟩) := by
          unfold rdSeekCur rdSeekTo
          simp only
          rw [if_neg (by omega)]
          simp only [List.tail_nil, Prod.mk.injEq, Rdr.mk.injEq, true_and, and_true]
          omega
        obtain ⟨n, hmk, hn, hshort, hfound⟩ := ih (off + (((d.drop p).take 4096).length - 16 + 1)) (p + (min 4096 (d.length - p) - 15))
        have hmk' : Makes (1 + (1 + n)) (readSect0Loop (f + 1) off) d p := by
          rw [readSect0Loop]
          refine hm.bind hr ?_
          simp only
          rw [if_neg (by omega), hk]
          exact (rdSeekCur_makes _ _ _).bind hseek hmk
        have hrun : readSect0Loop (f + 1) off ⟨d, p, []⟩ =
            readSect0Loop f (off + (((d.drop p).take 4096).length - 16 + 1)) ⟨d, p + (min 4096 (d.length - p) - 15), []⟩ := by
          rw [readSect0Loop, RM.bind_apply, hr]
          simp only
          rw [if_neg (by omega), hk]
          simp only
          rw [RM.bind_apply, hseek]
        rw [readSect0Loop] at hmk' hrun
        refine ⟨1 + (1 + n), hmk', ?_, fun h => absurd h h16, ?_⟩
        · by_cases hb : d.length - p < 4096
          · have := (hshort (by omega)).1; omega
          · omega
        · intro x q h
          rw [hrun] at h
          by_cases hb : d.length - p < 4096
          · exact absurd (by rw [h]) ((hshort (by omega)).2 x)
          · have := hfound x q h; omega

theorem readSect0_makes (d : List UInt8) (p : Nat) :
    ∃ n, Makes n readSect0 d p ∧ n ≤ 3 + 2 * blocks d p ∧
      ∀ x q, readSect0 ⟨d, p, []⟩ = (.ok (some x), ⟨d, q, []⟩) → n + 2 * blocks d q ≤ 2 + 2 * blocks d p := by
  obtain ⟨n, h1, h2, -, h3⟩ := readSect0Loop_makes (d.length - p + 1) 0 d p
  exact ⟨n, h1, h2, h3⟩

theorem readSect8_makes (d : List UInt8) (p : Nat) : Makes 1 readSect8 d p := by
  refine (rdRead_makes _ _ _).bind (m := 0) (rdRead_full _ d p) ?_
  split
  · exact Makes.pure _ _ _
  · split
    · exact Makes.throw _ _ _
    · split
      · exact Makes.throw _ _ _
      · exact Makes.pure _ _ _

theorem readSectHeader_makes (d : List UInt8) (p : Nat) : Makes 1 readSectHeader d p := by
  refine (rdRead_makes _ _ _).bind (m := 0) (rdRead_full _ d p) ?_
  split
  · exact Makes.pure _ _ _
  · split
    · exact Makes.throw _ _ _
    · obtain ⟨k, hk, h⟩ := makes_bind_le (m := 0) (d := d) (p := p + min 5 (d.length - p)) (f := fun size : Nat => (do
          let num ← RM.lift (Outcome.ofOption (((d.drop p).take 5)[4]?))
          pure (some (size, num.toNat)) : RM (Option (Nat × Nat))))
        (Makes.lift (Outcome.ofOption (readBE? ((d.drop p).take 5) 0 4)) _ _) (Honest.lift _) fun a q _ =>
          makes_bind_le (m := 0) (Makes.lift _ _ _) (Honest.lift _) fun a q _ => ⟨0, by omega, Makes.pure _ _ _⟩
      obtain rfl : k = 0 := by omega
      exact h

/-- A payload: at most three calls; at most two if it is read. -/
theorem readSectPayload_makes (size num : Nat) (d : List UInt8) (p : Nat) :
    ∃ k, Makes k (readSectPayload size num) d p ∧ k ≤ 3 ∧
      ∀ b, (readSectPayload size num ⟨d, p, []⟩).1 = .ok b → k ≤ 2 := by
  have small : ∀ {x : RM SectionBody}, (∃ k, k ≤ 2 ∧ Makes k x d p) →
      ∃ k, Makes k x d p ∧ k ≤ 3 ∧ ∀ b, (x ⟨d, p, []⟩).1 = .ok b → k ≤ 2 :=
    fun ⟨k, h1, h2⟩ => ⟨k, h2, by omega, fun _ _ => h1⟩
  have ex : ∀ n, ∃ k, k ≤ 2 ∧ Makes k (rdReadExact n) d p := by
    intro n
    obtain ⟨k, h1, h2⟩ := rdReadExact_makes n d p
    exact ⟨k, by split at h1 <;> omega, h2⟩
  have chk : ∀ (m : Nat) (f : List UInt8 → SectionBody), ∃ k, k ≤ 2 ∧ Makes k (do
      let p ← rdReadExact (size - 5)
      let p ← RM.lift (checkPayload m p)
      pure (f p) : RM SectionBody) d p := by
    intro m f
    obtain ⟨k, h1, h2⟩ := ex (size - 5)
    obtain ⟨k', h3, h4⟩ := makes_bind_le (m := 0) (f := fun p => (do
      let p ← RM.lift (checkPayload m p)
      pure (f p) : RM SectionBody)) h2 (rdReadExact_honest _) fun _ _ _ =>
      makes_bind_le (m := 0) (Makes.lift _ _ _) (Honest.lift _) fun _ _ _ => ⟨0, by omega, Makes.pure _ _ _⟩
    exact ⟨k', by omega, h4⟩
  unfold readSectPayload
  split
  · exact small ⟨0, by omega, Makes.panic _ _⟩
  · simp only
    split
    · exact small (chk 16 _)
    · obtain ⟨k, h1, h2⟩ := ex (size - 5)
      obtain ⟨k', h3, h4⟩ := makes_bind_le (m := 0) (f := fun p => (pure (.section2 p) : RM SectionBody)) h2
        (rdReadExact_honest _) fun _ _ _ => ⟨0, by omega, Makes.pure _ _ _⟩
      exact small ⟨k', by omega, h4⟩
    · exact small (chk 9 _)
    · exact small (chk 4 _)
    · exact small (chk 6 _)
    · -- section 6
      obtain ⟨k, h1, h2⟩ := rdReadExact_makes 1 d p
      obtain ⟨o, q, hc⟩ := (rdReadExact_honest 1).on_cursor d p
      cases o with
      | ok buf =>
        have hp := (rdReadExact_ok hc)
        have hk : k ≤ 1 := by
          have : 1 ≤ d.length - p := by
            have h3 := hp.2.2.2.2
            simp only at h3
            omega
          rw [if_pos this] at h1
          exact h1
        have step : ∃ j, Makes j (if size - 5 < 1 then RM.panic else (do
              if size - 5 - 1 > 0 then do
                let _ ← rdReadExact (size - 5 - 1)
                pure (.section6 (be buf))
              else pure (.section6 (be buf)) : RM SectionBody)) d q ∧ j ≤ 2 ∧
            ∀ b, ((if size - 5 < 1 then RM.panic else (do
              if size - 5 - 1 > 0 then do
                let _ ← rdReadExact (size - 5 - 1)
                pure (.section6 (be buf))
              else pure (.section6 (be buf)) : RM SectionBody)) ⟨d, q, []⟩).1 = .ok b → j ≤ 1 := by
          split
          · exact ⟨0, Makes.panic _ _, by omega, fun _ _ => by omega⟩
          · split
            · obtain ⟨j, j1, j2⟩ := rdReadExact_makes (size - 5 - 1) d q
              obtain ⟨o', q', hc'⟩ := (rdReadExact_honest (size - 5 - 1)).on_cursor d q
              cases o' with
              | ok buf' =>
                have hp' := (rdReadExact_ok hc')
                refine ⟨j + 0, j2.bind hc' (Makes.pure _ _ _), by split at j1 <;> omega, fun _ _ => ?_⟩
                have : size - 5 - 1 ≤ d.length - q := by
                  have h3 := hp'.2.2.2.2
                  simp only at h3
                  omega
                rw [if_pos this] at j1
                omega
              | err e =>
                refine ⟨j, j2.stop _ (rdReadExact_honest _) (by rw [hc']; simp), by split at j1 <;> omega, ?_⟩
                intro b hb
                rw [RM.bind_apply, hc'] at hb
                simp at hb
              | panic => exact absurd hc' (rdReadExact_noPanic _ _ _)
            · exact ⟨0, Makes.pure _ _ _, by omega, fun _ _ => by omega⟩
        obtain ⟨j, j1, j2, j3⟩ := step
        refine ⟨k + j, h2.bind hc j1, by omega, ?_⟩
        intro b hb
        unfold readSect6Payload at hb
        rw [RM.bind_apply, hc] at hb
        have := j3 b hb
        omega
      | err e =>
        refine ⟨k, h2.stop _ (rdReadExact_honest _) (by rw [hc]; simp), by split at h1 <;> omega, ?_⟩
        intro b hb
        unfold readSect6Payload at hb
        rw [RM.bind_apply, hc] at hb
        simp at hb
      | panic => exact absurd hc (rdReadExact_noPanic _ _ _)
    · obtain ⟨k, h1, h2⟩ := makes_bind_le (m := 0) (f := fun _ => (pure .section7 : RM SectionBody))
        (rdSeekCur_makes ((size - 5 : Nat) : Int) d p) (rdSeekCur_honest _) fun _ _ _ => ⟨0, by omega, Makes.pure _ _ _⟩
      exact small ⟨k, by omega, h2⟩
    · exact small ⟨0, by omega, Makes.throw _ _ _⟩

/-- A payload read again later: a seek and one call, or two if the data end before. -/
theorem readSectPayloadAsSlice_makes (s : SectionInfo) (d : List UInt8) (p : Nat) :
    ∃ k, Makes k (readSectPayloadAsSlice s) d p ∧ k ≤ 3 ∧
      ∀ b, (readSectPayloadAsSlice s ⟨d, p, []⟩).1 = .ok b → k ≤ 2 := by
  unfold readSectPayloadAsSlice
  have hs : rdSeekStart (s.offset + 5) ⟨d, p, []⟩ = (.ok (), ⟨d, s.offset + 5, []⟩) := by
    unfold rdSeekStart rdSeekTo
    simp only
    rw [if_neg (by omega), List.tail_nil, Int.toNat_natCast]
  have hm : Makes 1 (rdSeekStart (s.offset + 5)) d p := rdSeekTo_makes _ _ _
  by_cases h5 : s.size < 5
  · refine ⟨1 + 0, hm.bind hs (by rw [if_pos h5]; exact Makes.panic _ _), by omega, fun _ _ => by omega⟩
  · obtain ⟨k, h1, h2⟩ := rdReadExact_makes (s.size - 5) d (s.offset + 5)
    refine ⟨1 + k, hm.bind hs (by rw [if_neg h5]; exact h2), by split at h1 <;> omega, ?_⟩
    intro b hb
    rw [RM.bind_apply, hs] at hb
    simp only at hb
    rw [if_neg h5] at hb
    obtain ⟨o, q, hc⟩ := (rdReadExact_honest (s.size - 5)).on_cursor d (s.offset + 5)
    rw [hc] at hb
    simp only at hb
    subst hb
    have h3 := (rdReadExact_ok hc).2.2.2.2
    simp only at h3
    rw [if_pos (by omega)] at h1
    omega

/-- One step of the stream. -/
theorem nextR_makes (w rest : Nat) (d : List UInt8) (p : Nat) :
    ∃ n, Makes n (nextR w rest) d p ∧ n ≤ 4 + 2 * blocks d p ∧
      ∀ x q, nextR w rest ⟨d, p, []⟩ = (.ok (some x), ⟨d, q, []⟩) → p ≤ q → n + 2 * blocks d q ≤ 3 + 2 * blocks d p := by
  have mono : ∀ {q}, p ≤ q → blocks d q ≤ blocks d p := fun h => Nat.div_le_div_right (by omega)
  unfold nextR
  split
  · unfold nextR0
    have hstart : ∃ k, k ≤ 1 ∧ Makes k (startR w) d p := by
      unfold startR
      split
      · exact ⟨1, by omega, (rdPos_makes _ _).mapErr _⟩
      · exact ⟨0, by omega, Makes.pure _ _ _⟩
    obtain ⟨k, k1, k2⟩ := hstart
    obtain ⟨o, q, hc⟩ := (startR_honest w).on_cursor d p
    cases o with
    | panic => exact absurd hc (startR_noPanic _ _ _)
    | err e =>
      refine ⟨k, k2.stop _ (startR_honest _) (by rw [hc]; simp), by omega, ?_⟩
      intro x q' h
      rw [RM.bind_apply, hc] at h
      simp at h
    | ok w1 =>
      have hq : q = p := by
        unfold startR at hc
        split at hc
        · have := congrArg (fun x => x.2.pos) hc
          simp [RM.mapErr, rdPos, rdSeekCur, rdSeekTo, show ¬ ((p : Int) < 0) by omega] at this
          omega
        · simp only [RM.pure_apply, Prod.mk.injEq, Rdr.mk.injEq] at hc
          exact hc.2.2.1.symm
      subst hq
      obtain ⟨n, n1, n2, n3⟩ := readSect0_makes d q
      obtain ⟨o, q', hc'⟩ := readSect0_honest.on_cursor d q
      cases o with
      | err e =>
        refine ⟨k + n, k2.bind hc (n1.stop _ readSect0_honest (by rw [hc']; simp)), by omega, ?_⟩
        intro x q' h
        rw [RM.bind_apply, hc] at h
        simp only at h
        rw [RM.bind_apply, hc'] at h
        simp at h
      | panic => exact absurd hc' (readSect0_noPanic _ _)
      | ok y =>
        have hrun : ∀ f : Option (Nat × Indicator) → RM (Option (SectionInfo × Nat × Nat)),
            (startR w >>= fun w1 => readSect0 >>= f) ⟨d, q, []⟩ = f y ⟨d, q', []⟩ := by
          intro f
          rw [RM.bind_apply, hc]
          simp only
          rw [RM.bind_apply, hc']
        cases y with
        | none =>
          refine ⟨k + (n + 0), k2.bind hc (n1.bind hc' (Makes.pure _ _ _)), by omega, ?_⟩
          intro x q'' h
          rw [RM.bind_apply, hc] at h
          simp only at h
          rw [RM.bind_apply, hc'] at h
          simp [RM.pure_apply] at h
        | some y =>
          have hz : Makes 0 (if w1 + y.1 + y.2.totalLength ≥ USIZE ∨ y.2.totalLength < 16 then RM.panic
            else pure (some (⟨0, w1 + y.1, 16, some (.section0 y.2)⟩, w1 + y.1 + y.2.totalLength, y.2.totalLength - 16)) :
              RM (Option (SectionInfo × Nat × Nat))) d q' := by
            split
            · exact Makes.panic _ _
            · exact Makes.pure _ _ _
          refine ⟨k + (n + 0), k2.bind hc (n1.bind hc' hz), by omega, ?_⟩
          intro x q'' h _
          rw [RM.bind_apply, hc] at h
          simp only at h
          rw [RM.bind_apply, hc'] at h
          have : q'' = q' := by
            simp only at h
            split at h
            · simp [RM.panic] at h
            · simp only [RM.pure_apply, Prod.mk.injEq, Rdr.mk.injEq] at h
              exact h.2.2.1.symm
          subst this
          have := n3 y q'' hc'
          omega
  · split
    · unfold nextR8
      obtain ⟨n, n1, n2⟩ := makes_bind_le (m := 0) (f := fun x : Option Unit => (match x with
          | none => pure none
          | some () => pure (some (⟨8, w - rest, 4, none⟩, w, rest - 4)) : RM (Option (SectionInfo × Nat × Nat))))
        (readSect8_makes d p) readSect8_honest (by
          intro a q _
          refine ⟨0, by omega, ?_⟩
          cases a <;> exact Makes.pure _ _ _)
      refine ⟨n, n2, by omega, ?_⟩
      intro x q _ hq
      have := mono hq
      omega
    · unfold nextRS
      obtain ⟨o, q, hc⟩ := readSectHeader_honest.on_cursor d p
      cases o with
      | panic => exact absurd hc (readSectHeader_noPanic _ _)
      | err e =>
        refine ⟨1, (readSectHeader_makes d p).stop _ readSectHeader_honest (by rw [hc]; simp), by omega, ?_⟩
        intro x q' h
        rw [RM.bind_apply, hc] at h
        simp at h
      | ok y =>
        cases y with
        | none =>
          refine ⟨1 + 0, (readSectHeader_makes d p).bind hc (Makes.pure _ _ _), by omega, ?_⟩
          intro x q' h
          rw [RM.bind_apply, hc] at h
          simp [RM.pure_apply] at h
        | some y =>
          obtain ⟨size, num⟩ := y
          obtain ⟨k, k1, k2, k3⟩ := readSectPayload_makes size num d q
          obtain ⟨o, q', hc'⟩ := (readSectPayload_honest size num).on_cursor d q
          cases o with
          | panic =>
            refine ⟨1 + k, (readSectHeader_makes d p).bind hc (k1.stop _ (readSectPayload_honest _ _) (by rw [hc']; simp)), by omega, ?_⟩
            intro x q' h
            rw [RM.bind_apply, hc] at h
            simp only at h
            rw [RM.bind_apply, hc'] at h
            simp at h
          | err e =>
            refine ⟨1 + k, (readSectHeader_makes d p).bind hc (k1.stop _ (readSectPayload_honest _ _) (by rw [hc']; simp)), by omega, ?_⟩
            intro x q' h
            rw [RM.bind_apply, hc] at h
            simp only at h
            rw [RM.bind_apply, hc'] at h
            simp at h
          | ok body =>
            have hz : Makes 0 (if rest < size then RM.panic else pure (some (⟨num, w - rest, size, some body⟩, w, rest - size)) :
                RM (Option (SectionInfo × Nat × Nat))) d q' := by
              split
              · exact Makes.panic _ _
              · exact Makes.pure _ _ _
            have := k3 body (by rw [hc'])
            refine ⟨1 + (k + 0), (readSectHeader_makes d p).bind hc (k1.bind hc' hz), by omega, ?_⟩
            intro x q'' _ hq
            have := mono hq
            omega

/-- The whole stream: three calls for each section, two for each block of 4081 octets, four more. -/
theorem collectR_makes {fuel w rest stop : Nat} {d : List UInt8} {p : Nat} (hi : Inv w rest p stop) :
    ∃ (n : Nat) (sects : List SectionInfo) (tail : List Item), (collectR fuel w rest ⟨d, p, []⟩).1 = sects.map .ok ++ tail ∧ (∀ s, .ok s ∉ tail) ∧
      n ≤ 3 * sects.length + 4 + 2 * blocks d p ∧
      ∀ es, collectR fuel w rest ⟨d, p, List.replicate n .full ++ es⟩ =
        ((collectR fuel w rest ⟨d, p, []⟩).1, ⟨d, (collectR fuel w rest ⟨d, p, []⟩).2.pos, es⟩) := by
  induction fuel generalizing w rest stop p with
  | zero => exact ⟨0, [], [.panic], rfl, by simp, by omega, fun es => rfl⟩
  | succ f ih =>
    obtain ⟨n, n1, n2, n3⟩ := nextR_makes w rest d p
    obtain ⟨o, q, hc⟩ := (nextR_honest w rest).on_cursor d p
    have n1' : ∀ es, nextR w rest ⟨d, p, List.replicate n .full ++ es⟩ = (o, ⟨d, q, es⟩) := by
      intro es; rw [n1 es, hc]
    cases o with
    | err e => exact ⟨n, [], [.err e], by rw [collectR, hc]; rfl, by simp, by simpa using n2, fun es => by rw [collectR, n1', collectR, hc]⟩
    | panic => exact ⟨n, [], [.panic], by rw [collectR, hc]; rfl, by simp, by simpa using n2, fun es => by rw [collectR, n1', collectR, hc]⟩
    | ok x =>
      cases x with
      | none => exact ⟨n, [], [], by rw [collectR, hc]; rfl, by simp, by simpa using n2, fun es => by rw [collectR, n1', collectR, hc]⟩
      | some x =>
        obtain ⟨s, w', rest'⟩ := x
        obtain ⟨a1, a2, a3, a4, a5, stop', a6, a7⟩ := nextR_some hi hc
        simp only at a3 a6
        obtain ⟨m, sects, tail, b1, b2, b3, b4⟩ := ih a6
        have := n3 _ q hc (by omega)
        refine ⟨n + m, s :: sects, tail, ?_, b2, ?_, ?_⟩
        · rw [collectR, hc]
          simp only [b1, List.map_cons, List.cons_append]
        · rw [List.length_cons]; omega
        · intro es
          rw [← List.replicate_append_replicate, List.append_assoc, collectR, n1', collectR, hc]
          simp only [b4]

end Grib.Model
