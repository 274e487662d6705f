import Verif.Lemmas.ParserSound

/-! # Where errors come from; no panics; images of the common refinement -/

namespace Grib.Model

open Grib.Spec

/-- A property of validators kept by every successful step. -/
def Kept (I : Validator → Prop) : Prop := ∀ v x v', I v → v.next = (.ok (some x), v') → I v'

theorem loop_kept {I : Validator → Prop} (hk : Kept I) (fuel : Nat) (st : PStream) (s4 s5 s6 s7 : P) (hi : I st.iter) :
    (∀ x st', PStream.loop fuel st s4 s5 s6 s7 = (.ok (some x), st') → I st'.iter) ∧
    (∀ e st', PStream.loop fuel st s4 s5 s6 s7 = (.err e, st') → ∃ v v', I v ∧ v.next = (.err e, v')) := by
  induction fuel generalizing st s4 s5 s6 s7 with
  | zero => simp [PStream.loop]
  | succ f ih =>
    rw [PStream.loop]
    rcases hx : st.iter.next with ⟨o, v⟩
    rcases o with o | e | _
    · cases o with
      | none => simp
      | some x =>
        have hi' : I v := hk _ _ _ hi hx
        obtain ⟨pos, msg, sub, ⟨num, off, size, body⟩⟩ := x
        match num with
        | 0 => exact ih _ _ _ _ _ hi'
        | 1 => exact ih _ _ _ _ _ hi'
        | 2 => exact ih _ _ _ _ _ hi'
        | 3 => exact ih _ _ _ _ _ hi'
        | 4 => exact ih _ _ _ _ _ hi'
        | 5 => exact ih _ _ _ _ _ hi'
        | 6 => exact ih _ _ _ _ _ hi'
        | 7 => exact ih _ _ _ _ _ hi'
        | 8 =>
          simp only [Prod.mk.injEq, Outcome.ok.injEq, Option.some.injEq, reduceCtorEq, false_and, false_implies,
            implies_true, and_true]
          rintro x st' ⟨-, rfl⟩
          split
          · exact hi'
          · exact hi'
        | n + 9 => simp
    · simp only [Prod.mk.injEq, reduceCtorEq, false_and, false_implies, implies_true, Outcome.err.injEq, true_and]
      rintro e' st' ⟨rfl, rfl⟩
      exact ⟨_, _, hi, hx⟩
    · simp

theorem collect_kept {I : Validator → Prop} (hk : Kept I) (fuel : Nat) (st : PStream) (hi : I st.iter) {e : ParseError}
    (he : .err e ∈ (PStream.collectN fuel st).1) : ∃ v v', I v ∧ v.next = (.err e, v') := by
  induction fuel generalizing st with
  | zero => simp [PStream.collectN] at he
  | succ f ih =>
    rw [PStream.collectN] at he
    obtain ⟨h1, h2⟩ := loop_kept hk (st.iter.items.length + 2) st .default .default .default .default hi
    rcases hx : st.next with ⟨o, st'⟩
    rw [hx] at he
    rw [PStream.next] at hx
    rcases o with o | e' | _
    · cases o with
      | none => simp at he
      | some x =>
        simp only [List.mem_cons, reduceCtorEq, false_or] at he
        exact ih _ (h1 _ _ hx) he
    · simp only [List.mem_singleton, Outcome.err.injEq] at he
      subst he
      exact h2 _ _ hx
    · simp at he

/-- No item of the input panics when pulled and the state is one of the reachable ones. -/
def NoPanic (v : Validator) : Prop :=
  (∀ x ∈ v.items, x ≠ .panic) ∧ ∀ n, v.state = .endOfSect n → n ≤ 7

theorem noPanic_kept : Kept NoPanic := by
  intro v x v' ⟨h1, h2⟩ h
  unfold Validator.next at h
  split at h
  · simp at h
  · obtain ⟨rest, e, n, -, rfl⟩ := ensureSect0_some h
    exact ⟨fun y hy => h1 y (by rw [e]; exact List.mem_cons_of_mem _ hy), by simp⟩
  · obtain ⟨rest, e, n, -, rfl⟩ := ensureSectNum_some h
    exact ⟨fun y hy => h1 y (by rw [e]; exact List.mem_cons_of_mem _ hy), by simp⟩
  iterate 2
    obtain ⟨rest, has', e, n, -, rfl⟩ := ensureSect234_some h
    exact ⟨fun y hy => h1 y (by rw [e]; exact List.mem_cons_of_mem _ hy), by simp; omega⟩
  iterate 5
    obtain ⟨rest, e, n, -, rfl⟩ := ensureSectNum_some h
    exact ⟨fun y hy => h1 y (by rw [e]; exact List.mem_cons_of_mem _ hy), by simp⟩
  · obtain ⟨s, rest, e, ⟨n, rfl, rfl⟩ | ⟨n, rfl, rfl⟩⟩ := ensureSect8_some h
    · exact ⟨fun y hy => h1 y (by rw [e]; exact List.mem_cons_of_mem _ hy), by simp⟩
    · exact ⟨h1, by simp⟩
  · simp at h

theorem head_next {v v' : Validator} (h1 : ∀ t, v.items ≠ .panic :: t) (h2 : ∀ n, v.state = .endOfSect n → n ≤ 7) :
    v.next ≠ (.panic, v') := by
  obtain ⟨items, idx, pos, mc, sc, state, has⟩ := v
  simp only at h1 h2
  have key : ∀ s (t : List Item), items = s :: t → s ≠ .panic := by
    intro s t e hp; exact h1 t (by rw [e, hp])
  have hnum : ∀ (st : VState) (hb : Bool) n,
      (Validator.ensureSectNum ⟨items, idx, pos, mc, sc, st, hb⟩ n).1 ≠ .panic := by
    intro st hb n
    match items, key with
    | [], _ => simp [Validator.ensureSectNum, Validator.unexpectedEnd]
    | .panic :: t, key => exact absurd rfl (key _ _ rfl)
    | .err e :: t, _ => simp [Validator.ensureSectNum, Validator.wrapErr]
    | .ok s :: t, _ =>
      simp only [Validator.ensureSectNum]; split <;> simp [Validator.yield, Validator.invalidOrder]
  have h234 : ∀ (st : VState) (hb : Bool),
      (Validator.ensureSect234 ⟨items, idx, pos, mc, sc, st, hb⟩).1 ≠ .panic := by
    intro st hb
    match items, key with
    | [], _ => simp [Validator.ensureSect234, Validator.unexpectedEnd]
    | .panic :: t, key => exact absurd rfl (key _ _ rfl)
    | .err e :: t, _ => simp [Validator.ensureSect234, Validator.wrapErr]
    | .ok s :: t, _ =>
      simp only [Validator.ensureSect234]
      split
      · simp [Validator.yield]
      · split
        · simp [Validator.yield]
        · split
          · cases hb <;> simp [Validator.advance, Validator.yield, Validator.noGrid]
          · simp [Validator.invalidOrder]
  intro hc
  have hc1 : (Validator.next ⟨items, idx, pos, mc, sc, state, has⟩).1 = .panic := by rw [hc]
  unfold Validator.next at hc1
  simp only at hc1
  split at hc1
  · simp at hc1
  · match items, key with
    | [], _ => simp [Validator.ensureSect0] at hc1
    | .panic :: t, key => exact absurd rfl (key _ _ rfl)
    | .err e :: t, _ => simp [Validator.ensureSect0, Validator.wrapErr] at hc1
    | .ok s :: t, _ =>
      simp only [Validator.ensureSect0] at hc1
      split at hc1 <;> simp [Validator.yield, Validator.invalidOrder] at hc1
  · exact hnum _ _ _ hc1
  · exact h234 _ _ hc1
  · exact h234 _ _ hc1
  · exact hnum _ _ _ hc1
  · exact hnum _ _ _ hc1
  · exact hnum _ _ _ hc1
  · exact hnum _ _ _ hc1
  · exact hnum _ _ _ hc1
  · match items, key with
    | [], _ => simp [Validator.ensureSect8, Validator.unexpectedEnd] at hc1
    | .panic :: t, key => exact absurd rfl (key _ _ rfl)
    | .err e :: t, _ => simp [Validator.ensureSect8, Validator.wrapErr] at hc1
    | .ok s :: t, _ =>
      simp only [Validator.ensureSect8] at hc1
      split at hc1 <;> simp at hc1
  · rename_i n _ _ _ _ _ _ _ _
    have := h2 n rfl
    match n with
    | 0 | 1 | 2 | 3 | 4 | 5 | 6 | 7 => simp_all
    | n + 8 => omega

theorem noPanic_next {v v' : Validator} (h : NoPanic v) : v.next ≠ (.panic, v') :=
  head_next (fun t e => h.1 .panic (by rw [e]; simp) rfl) h.2

/-- The loop has enough fuel, and each turn consumes input unless it starts right after a section 7. -/
theorem loop_noPanic {I : Validator → Prop} (hk : Kept I) (hn : ∀ v v', I v → v.next ≠ (.panic, v'))
    (fuel : Nat) (st : PStream) (s4 s5 s6 s7 : P) (hi : I st.iter)
    (hf : st.iter.items.length + 1 ≤ fuel) :
    (∀ st', PStream.loop fuel st s4 s5 s6 s7 ≠ (.panic, st')) ∧
    (∀ x st', PStream.loop fuel st s4 s5 s6 s7 = (.ok (some x), st') →
      (st.iter.state ≠ .endOfSect 7 → st'.iter.items.length < st.iter.items.length) ∧
      st'.iter.items.length ≤ st.iter.items.length ∧
      st'.iter.state ≠ .endOfSect 7) := by
  induction fuel generalizing st s4 s5 s6 s7 with
  | zero => omega
  | succ f ih =>
    rw [PStream.loop]
    rcases hx : st.iter.next with ⟨o, v⟩
    rcases o with o | e | _
    · cases o with
      | none => simp
      | some x =>
        have hi' : I v := hk _ _ _ hi hx
        rcases Validator.next_some hx with hr | hd
        · have hlen : st.iter.items.length = v.items.length + 1 := by rw [hr.1]; rfl
          have h8s : x.sect.num = 8 → v.state ≠ .endOfSect 7 := by
            intro h8
            rw [next_endOfSect7 (hr.2.2.2.1 h8)] at hx
            obtain ⟨s, rest, e, ⟨n, rfl, rfl⟩ | ⟨n, rfl, rfl⟩⟩ := ensureSect8_some hx <;> simp
          have hle := hr.2.2.2.2.2
          obtain ⟨pos, msg, sub, ⟨num, off, size, body⟩⟩ := x
          have fin : ∀ (st2 : PStream) (t4 t5 t6 t7 : P), st2.iter = v →
              (∀ st', PStream.loop f st2 t4 t5 t6 t7 ≠ (.panic, st')) ∧
              (∀ x st', PStream.loop f st2 t4 t5 t6 t7 = (.ok (some x), st') →
                (st.iter.state ≠ .endOfSect 7 → st'.iter.items.length < st.iter.items.length) ∧
                st'.iter.items.length ≤ st.iter.items.length ∧ st'.iter.state ≠ .endOfSect 7) := by
            intro st2 t4 t5 t6 t7 he
            obtain ⟨i1, i2⟩ := ih st2 t4 t5 t6 t7 (by rw [he]; exact hi') (by rw [he]; omega)
            refine ⟨i1, fun x st' h => ?_⟩
            obtain ⟨j1, j2, j3⟩ := i2 x st' h
            rw [he] at j2
            exact ⟨fun _ => by omega, by omega, j3⟩
          match num with
          | 0 => exact fin _ _ _ _ _ rfl
          | 1 => exact fin _ _ _ _ _ rfl
          | 2 => exact fin _ _ _ _ _ rfl
          | 3 => exact fin _ _ _ _ _ rfl
          | 4 => exact fin _ _ _ _ _ rfl
          | 5 => exact fin _ _ _ _ _ rfl
          | 6 => exact fin _ _ _ _ _ rfl
          | 7 => exact fin _ _ _ _ _ rfl
          | 8 =>
            have h8v := h8s rfl
            simp only [Prod.mk.injEq, Outcome.ok.injEq, Option.some.injEq, reduceCtorEq, false_and, ne_eq,
              not_false_eq_true, implies_true, true_and]
            rintro x st' ⟨-, rfl⟩
            split
            · exact ⟨fun _ => by simp [PStream.clear]; omega, by simp [PStream.clear]; omega, h8v⟩
            · exact ⟨fun _ => by simp; omega, by simp; omega, h8v⟩
          | n + 9 => simp at hle
        · have hst : v.state ≠ .endOfSect 7 := by
            rw [next_endOfSect7 hd.1] at hx
            obtain ⟨s, rest, e, ⟨n, rfl, rfl⟩ | ⟨n, rfl, rfl⟩⟩ := ensureSect8_some hx <;> simp
          obtain ⟨h0, h1, h2, h3, h4, _⟩ := hd
          obtain ⟨pos, msg, sub, sect⟩ := x
          simp only at h1 h2
          subst h1 h2
          simp only [SectionInfo.new8]
          simp only [ne_eq, not_true_eq_false, if_false, Prod.mk.injEq, Outcome.ok.injEq, Option.some.injEq,
            reduceCtorEq, false_and, not_false_eq_true, implies_true, true_and]
          rintro x st' ⟨-, rfl⟩
          exact ⟨fun h => absurd h0 h, by simp [h3], hst⟩
    · simp
    · exact absurd hx (hn _ _ hi)

theorem collect_noPanic {I : Validator → Prop} (hk : Kept I) (hn : ∀ v v', I v → v.next ≠ (.panic, v'))
    (fuel : Nat) (st : PStream) (hi : I st.iter) (hs : st.iter.state ≠ .endOfSect 7)
    (hf : st.iter.items.length + 1 ≤ fuel) : .panic ∉ (PStream.collectN fuel st).1 := by
  induction fuel generalizing st with
  | zero => omega
  | succ f ih =>
    rw [PStream.collectN]
    obtain ⟨h1, h2⟩ := loop_noPanic hk hn (st.iter.items.length + 2) st .default .default .default .default hi (by omega)
    obtain ⟨k1, -⟩ := loop_kept hk (st.iter.items.length + 2) st .default .default .default .default hi
    rcases hx : st.next with ⟨o, st'⟩
    rw [PStream.next] at hx
    rcases o with o | e' | _
    · cases o with
      | none => simp
      | some x =>
        obtain ⟨j1, j2, j3⟩ := h2 _ _ hx
        simp only [List.mem_cons, reduceCtorEq, false_or]
        exact ih _ (k1 _ _ hx) j3 (by have := j1 hs; omega)
    · simp
    · exact absurd hx (h1 _)

/-! ## The index stream -/

theorem IdxStream.collectN_eq (all : List Item) (fuel : Nat) (st : PStream) (cache : List SectionInfo)
    (hv : CInv all cache st.iter) :
    ∃ cache', (IdxStream.collectN fuel (st.toIdx cache)).1 =
        (PStream.collectN fuel st).1.map (mapOut (Submsg.map (·.1))) ∧
      (IdxStream.collectN fuel (st.toIdx cache)).2.cache = cache' ∧
      (∃ k, all.take k = cache'.map .ok) ∧
      (Clean (PStream.collectN fuel st).1 → all = cache'.map .ok) := by
  induction fuel generalizing st cache with
  | zero =>
    refine ⟨cache, by simp [IdxStream.collectN, PStream.collectN, mapOut],
      by simp [IdxStream.collectN, PStream.toIdx], ⟨_, hv.cache⟩, fun h => ?_⟩
    obtain ⟨a, ha⟩ := h .panic (by simp [PStream.collectN])
    simp at ha
  | succ f ih =>
    obtain ⟨cache1, h1⟩ := IdxStream.loop_eq (st.iter.items.length + 2) st cache .default .default .default .default
    obtain ⟨h2, h3⟩ := IdxStream.loop_inv all (st.iter.items.length + 2) (st.toIdx cache) 0 0 0 0 hv
    have h1' : (st.toIdx cache).next =
        (mapOut (Option.map (Submsg.map (·.1))) st.next.1, st.next.2.toIdx cache1) := h1
    have e1 : IdxStream.loop (st.iter.items.length + 2) (st.toIdx cache) 0 0 0 0 = (st.toIdx cache).next := rfl
    rw [e1] at h2 h3
    rw [IdxStream.collectN, PStream.collectN]
    rw [h1'] at h2 h3 ⊢
    rcases hx : st.next with ⟨o, st'⟩
    rw [hx] at h2 h3
    rcases o with o | e' | _
    · cases o with
      | none =>
        obtain ⟨h4, h5⟩ := h2 none _ rfl
        refine ⟨cache1, by simp [mapOut], by simp [mapOut, PStream.toIdx], ⟨_, h4.cache⟩, fun _ => ?_⟩
        obtain ⟨-, h7⟩ := h5 rfl
        have h8 := h4.items
        have h9 := h4.cache
        rw [h7] at h8
        have : all.length ≤ (st'.toIdx cache1).iter.idx := List.drop_eq_nil_iff.1 h8.symm
        rw [List.take_of_length_le this] at h9
        exact h9
      | some x =>
        obtain ⟨h4, -⟩ := h2 _ _ rfl
        obtain ⟨cache', i1, i2, i3, i4⟩ := ih st' cache1 h4
        refine ⟨cache', by simp [mapOut, i1], by simp [mapOut, i2], i3, fun hc => i4 fun y hy => hc y (by simp [hy])⟩
    · refine ⟨cache1, by simp [mapOut], by simp [mapOut, PStream.toIdx], ?_, fun hc => ?_⟩
      · exact h3
      · obtain ⟨a, ha⟩ := hc (.err e') (by simp); simp at ha
    · refine ⟨cache1, by simp [mapOut], by simp [mapOut, PStream.toIdx], ?_, fun hc => ?_⟩
      · exact h3
      · obtain ⟨a, ha⟩ := hc .panic (by simp); simp at ha

end Grib.Model
