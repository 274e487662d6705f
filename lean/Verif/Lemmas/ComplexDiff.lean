import Verif.Lemmas.ComplexRead

/-! # Undoing differences, whatever they are -/

namespace Grib.Model

open Grib.Spec

theorem first_bad (P : Nat → Prop) (n : Nat) : ∃ m ≤ n, (∀ h < m, P h) ∧ (m < n → ¬ P m) := by
  induction n with
  | zero => exact ⟨0, by omega, by omega, by omega⟩
  | succ n ih =>
    obtain ⟨m, h1, h2, h3⟩ := ih
    by_cases hm : m < n
    · exact ⟨m, by omega, h2, fun _ => h3 hm⟩
    · have : m = n := by omega
      subst this
      rcases Classical.em (P m) with h | h
      · refine ⟨m + 1, by omega, ?_, by omega⟩
        intro k hk
        by_cases hkm : k = m
        · subst hkm; exact h
        · exact h2 k (by omega)
      · exact ⟨m, by omega, h2, fun _ => h⟩

theorem checkI32_fits {ε : Type} {v : Int} (h : FitsI32 v) : (checkI32 v : Outcome ε Int) = .ok v := by
  unfold FitsI32 at h; unfold checkI32; rw [if_pos h]

theorem checkI32_panic {ε : Type} {v : Int} (h : ¬ FitsI32 v) : (checkI32 v : Outcome ε Int) = .panic := by
  unfold FitsI32 at h; unfold checkI32; rw [if_neg h]

/-- First-order differences: all values in range. -/
theorem stepItems_undo1 (first : Int) (xs : List DecodedValue) (tail : Items DecodedValue)
    (ht : tail = [] ∨ tail = [.panic]) (s : Diff1) (prev : Option Int)
    (hs : (prev = none ∧ s.count = 0 ∧ s.firstValues.head? = some first) ∨ (s.count ≠ 0 ∧ prev = some s.prev)) :
    (Fits1 first prev xs →
      stepItems Diff1.step s (xs.map .ok ++ tail) = (undo1 first prev xs).map .ok ++ tail) ∧
    ∀ m < xs.length, Fits1 first prev (xs.take m) → ¬ Fits1 first prev (xs.take (m + 1)) →
      stepItems Diff1.step s (xs.map .ok ++ tail) = ((undo1 first prev xs).take m).map .ok ++ [.panic] := by
  induction xs generalizing s prev with
  | nil =>
    refine ⟨fun _ => ?_, fun m hm => absurd hm (by simp)⟩
    have : undo1 first prev [] = [] := by cases prev <;> rfl
    rw [this]
    rcases ht with rfl | rfl <;> rfl
  | cons x xs ih =>
    cases x with
    | normal d =>
      rcases hs with ⟨rfl, h2, h3⟩ | ⟨h1, rfl⟩
      · obtain ⟨f, fs, hf⟩ : ∃ f fs, s.firstValues = f :: fs := by
          cases hfv : s.firstValues with
          | nil => rw [hfv] at h3; cases h3
          | cons f fs => exact ⟨f, fs, rfl⟩
        rw [hf] at h3
        simp only [List.head?_cons, Option.some.injEq] at h3
        subst h3
        have hstep : (Diff1.step s (.normal d) : Outcome Empty _) = .ok (.normal f, ⟨fs, s.count + 1, f⟩) := by
          unfold Diff1.step
          simp only [h2, hf]
        obtain ⟨i1, i2⟩ := ih ⟨fs, s.count + 1, f⟩ (some f) (.inr ⟨by simp, rfl⟩)
        simp only [List.map_cons, List.cons_append, stepItems, hstep, undo1]
        refine ⟨fun h => ?_, ?_⟩
        · rw [i1 h]
        · intro m hm h1 h2'
          cases m with
          | zero => exact absurd trivial h2'
          | succ m =>
            simp only [List.take_succ_cons, Fits1] at h1 h2'
            rw [i2 m (by simpa using hm) h1 h2']
            rfl
      · obtain ⟨c, hc⟩ : ∃ c, s.count = c + 1 := ⟨s.count - 1, by omega⟩
        by_cases hfit : FitsI32 (d + s.prev)
        · have hstep : (Diff1.step s (.normal d) : Outcome Empty _) = .ok (.normal (d + s.prev), { s with prev := d + s.prev }) := by
            unfold Diff1.step
            simp only [hc]
            rw [checkI32_fits hfit]; rfl
          obtain ⟨i1, i2⟩ := ih { s with prev := d + s.prev } (some (d + s.prev)) (.inr ⟨h1, rfl⟩)
          simp only [List.map_cons, List.cons_append, stepItems, hstep, undo1]
          refine ⟨fun h => ?_, ?_⟩
          · rw [i1 h.2]
          · intro m hm h1 h2'
            cases m with
            | zero => exact absurd ⟨hfit, by unfold Fits1; trivial⟩ h2'
            | succ m =>
              simp only [List.take_succ_cons, Fits1] at h1 h2'
              rw [i2 m (by simpa using hm) h1.2 (fun h => h2' ⟨hfit, h⟩)]
              rfl
        · have hstep : (Diff1.step s (.normal d) : Outcome Empty _) = .panic := by
            unfold Diff1.step
            simp only [hc]
            rw [checkI32_panic hfit]; rfl
          simp only [List.map_cons, List.cons_append, stepItems, hstep]
          refine ⟨fun h => absurd h.1 hfit, ?_⟩
          intro m hm h1 h2'
          cases m with
          | zero => rfl
          | succ m =>
            simp only [List.take_succ_cons, Fits1] at h1
            exact absurd h1.1 hfit
    | missing1 =>
      obtain ⟨i1, i2⟩ := ih s prev hs
      simp only [List.map_cons, List.cons_append, stepItems, Diff1.step]
      have hu : undo1 first prev (.missing1 :: xs) = .missing1 :: undo1 first prev xs := by cases prev <;> rfl
      have hF : ∀ ys, Fits1 first prev (.missing1 :: ys) ↔ Fits1 first prev ys := by intro ys; cases prev <;> exact Iff.rfl
      rw [hu, hF]
      refine ⟨fun h => by rw [i1 h]; rfl, ?_⟩
      intro m hm h1 h2'
      cases m with
      | zero => rw [List.take_succ_cons, List.take_zero, hF] at h2'; exact absurd h1 h2'
      | succ m =>
        rw [List.take_succ_cons, hF] at h1 h2'
        rw [i2 m (by simpa using hm) h1 h2']; rfl
    | missing2 =>
      obtain ⟨i1, i2⟩ := ih s prev hs
      simp only [List.map_cons, List.cons_append, stepItems, Diff1.step]
      have hu : undo1 first prev (.missing2 :: xs) = .missing2 :: undo1 first prev xs := by cases prev <;> rfl
      have hF : ∀ ys, Fits1 first prev (.missing2 :: ys) ↔ Fits1 first prev ys := by intro ys; cases prev <;> exact Iff.rfl
      rw [hu, hF]
      refine ⟨fun h => by rw [i1 h]; rfl, ?_⟩
      intro m hm h1 h2'
      cases m with
      | zero => rw [List.take_succ_cons, List.take_zero, hF] at h2'; exact absurd h1 h2'
      | succ m =>
        rw [List.take_succ_cons, hF] at h1 h2'
        rw [i2 m (by simpa using hm) h1 h2']; rfl

/-- Second-order differences. -/
theorem stepItems_undo2 (first second : Int) (xs : List DecodedValue) (tail : Items DecodedValue)
    (ht : tail = [] ∨ tail = [.panic]) (s : Diff2) (prev : List Int)
    (hs : (prev = [] ∧ s.count = 0 ∧ s.firstValues = [first, second]) ∨
      (s.count = 1 ∧ prev = [s.prev2] ∧ s.firstValues = [second]) ∨ (2 ≤ s.count ∧ prev = [s.prev1, s.prev2])) :
    (Fits2 first second prev xs →
      stepItems Diff2.step s (xs.map .ok ++ tail) = (undo2 first second prev xs).map .ok ++ tail) ∧
    ∀ m < xs.length, Fits2 first second prev (xs.take m) → ¬ Fits2 first second prev (xs.take (m + 1)) →
      stepItems Diff2.step s (xs.map .ok ++ tail) = ((undo2 first second prev xs).take m).map .ok ++ [.panic] := by
  have nilF : ∀ p, Fits2 first second p [] := by intro p; unfold Fits2; trivial
  induction xs generalizing s prev with
  | nil =>
    refine ⟨fun _ => ?_, fun m hm => absurd hm (by simp)⟩
    have : undo2 first second prev [] = [] := by unfold undo2; rfl
    rw [this]
    rcases ht with rfl | rfl <;> rfl
  | cons x xs ih =>
    have miss : ∀ x : DecodedValue, (∀ s : Diff2, (Diff2.step s x : Outcome Empty _) = .ok (x, s)) →
        (undo2 first second prev (x :: xs) = x :: undo2 first second prev xs) →
        (∀ ys, Fits2 first second prev (x :: ys) ↔ Fits2 first second prev ys) →
        (Fits2 first second prev (x :: xs) →
          stepItems Diff2.step s ((x :: xs).map .ok ++ tail) = (undo2 first second prev (x :: xs)).map .ok ++ tail) ∧
        ∀ m < (x :: xs).length, Fits2 first second prev ((x :: xs).take m) → ¬ Fits2 first second prev ((x :: xs).take (m + 1)) →
          stepItems Diff2.step s ((x :: xs).map .ok ++ tail) = ((undo2 first second prev (x :: xs)).take m).map .ok ++ [.panic] := by
      intro x hstep hu hF
      obtain ⟨i1, i2⟩ := ih s prev hs
      simp only [List.map_cons, List.cons_append, stepItems, hstep]
      rw [hu, hF]
      refine ⟨fun h => by rw [i1 h]; rfl, ?_⟩
      intro m hm h1 h2'
      cases m with
      | zero => rw [List.take_succ_cons, List.take_zero, hF] at h2'; exact absurd h1 h2'
      | succ m =>
        rw [List.take_succ_cons, hF] at h1 h2'
        rw [i2 m (by simpa using hm) h1 h2']; rfl
    cases x with
    | normal d =>
      rcases hs with ⟨rfl, h2, hf⟩ | ⟨h2, rfl, hf⟩ | ⟨h1, rfl⟩
      · have hstep : (Diff2.step s (.normal d) : Outcome Empty _) =
            .ok (.normal first, { s with firstValues := [second], count := s.count + 1, prev2 := first }) := by
          unfold Diff2.step
          simp only [h2, hf]
        obtain ⟨i1, i2⟩ := ih { s with firstValues := [second], count := s.count + 1, prev2 := first } [first]
          (.inr (.inl ⟨by simp [h2], rfl, rfl⟩))
        simp only [List.map_cons, List.cons_append, stepItems, hstep, undo2]
        refine ⟨fun h => by rw [i1 h], ?_⟩
        intro m hm h1 h2'
        cases m with
        | zero => exact absurd (nilF [first]) h2'
        | succ m =>
          simp only [List.take_succ_cons, Fits2] at h1 h2'
          rw [i2 m (by simpa using hm) h1 h2']
          rfl
      · have hstep : (Diff2.step s (.normal d) : Outcome Empty _) =
            .ok (.normal second, { s with firstValues := [], count := s.count + 1, prev1 := second }) := by
          unfold Diff2.step
          simp only [h2, hf]
        obtain ⟨i1, i2⟩ := ih { s with firstValues := [], count := s.count + 1, prev1 := second } [second, s.prev2]
          (.inr (.inr ⟨by simp [h2], rfl⟩))
        simp only [List.map_cons, List.cons_append, stepItems, hstep, undo2]
        refine ⟨fun h => by rw [i1 h], ?_⟩
        intro m hm h1 h2'
        cases m with
        | zero => exact absurd (nilF [second, s.prev2]) h2'
        | succ m =>
          simp only [List.take_succ_cons, Fits2] at h1 h2'
          rw [i2 m (by simpa using hm) h1 h2']
          rfl
      · obtain ⟨c, hc⟩ : ∃ c, s.count = c + 2 := ⟨s.count - 2, by omega⟩
        rcases Classical.em (FitsI32 (2 * s.prev1) ∧ FitsI32 (d + 2 * s.prev1) ∧ FitsI32 (d + 2 * s.prev1 - s.prev2)) with
          hfit | hfit
        · have hstep : (Diff2.step s (.normal d) : Outcome Empty _) =
              .ok (.normal (d + 2 * s.prev1 - s.prev2), { s with prev2 := s.prev1, prev1 := d + 2 * s.prev1 - s.prev2 }) := by
            unfold Diff2.step
            simp only [hc]
            rw [checkI32_fits hfit.1, Outcome.bind_ok, checkI32_fits hfit.2.1, Outcome.bind_ok, checkI32_fits hfit.2.2]; rfl
          obtain ⟨i1, i2⟩ := ih { s with prev2 := s.prev1, prev1 := d + 2 * s.prev1 - s.prev2 }
            [d + 2 * s.prev1 - s.prev2, s.prev1] (.inr (.inr ⟨h1, rfl⟩))
          simp only [List.map_cons, List.cons_append, stepItems, hstep, undo2]
          refine ⟨fun h => by rw [i1 h.2], ?_⟩
          intro m hm h1 h2'
          cases m with
          | zero => exact absurd ⟨hfit, nilF _⟩ h2'
          | succ m =>
            simp only [List.take_succ_cons, Fits2] at h1 h2'
            rw [i2 m (by simpa using hm) h1.2 (fun h => h2' ⟨hfit, h⟩)]
            rfl
        · have hstep : (Diff2.step s (.normal d) : Outcome Empty _) = .panic := by
            unfold Diff2.step
            simp only [hc]
            rcases Classical.em (FitsI32 (2 * s.prev1)) with f1 | f1
            · rw [checkI32_fits f1, Outcome.bind_ok]
              rcases Classical.em (FitsI32 (d + 2 * s.prev1)) with f2 | f2
              · rw [checkI32_fits f2, Outcome.bind_ok, checkI32_panic (fun f3 => hfit ⟨f1, f2, f3⟩)]; rfl
              · rw [checkI32_panic f2]; rfl
            · rw [checkI32_panic f1]; rfl
          simp only [List.map_cons, List.cons_append, stepItems, hstep]
          refine ⟨fun h => absurd h.1 hfit, ?_⟩
          intro m hm h1 h2'
          cases m with
          | zero => rfl
          | succ m =>
            simp only [List.take_succ_cons, Fits2] at h1
            exact absurd h1.1 hfit
    | missing1 =>
      refine miss .missing1 (fun _ => rfl) ?_ ?_
      · rcases hs with ⟨rfl, -⟩ | ⟨-, rfl, -⟩ | ⟨-, rfl⟩ <;> rfl
      · intro ys; rcases hs with ⟨rfl, -⟩ | ⟨-, rfl, -⟩ | ⟨-, rfl⟩ <;> exact Iff.rfl
    | missing2 =>
      refine miss .missing2 (fun _ => rfl) ?_ ?_
      · rcases hs with ⟨rfl, -⟩ | ⟨-, rfl, -⟩ | ⟨-, rfl⟩ <;> rfl
      · intro ys; rcases hs with ⟨rfl, -⟩ | ⟨-, rfl, -⟩ | ⟨-, rfl⟩ <;> exact Iff.rfl

end Grib.Model
