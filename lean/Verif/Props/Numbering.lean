import Verif.Props.Parser

/-! # C13: numbering, also before an error -/

namespace Grib.Props
open Grib.Model Grib.Spec

/-- A call of the validator leaves the counters alone, except that a section 8 comes with the counters and moves on to the next
submessage of the same message or the first of the next one. -/
theorem validator_counts {v v' : Validator} {x : VItem} (h : v.next = (.ok (some x), v')) :
    (x.sect.num ≠ 8 ∧ v'.messageCount = v.messageCount ∧ v'.submessageCount = v.submessageCount) ∨
    (x.sect.num = 8 ∧ x.msg = v.messageCount ∧ x.sub = v.submessageCount ∧
      ((v'.messageCount = v.messageCount ∧ v'.submessageCount = v.submessageCount + 1) ∨
        (v'.messageCount = v.messageCount + 1 ∧ v'.submessageCount = 0))) := by
  have num : ∀ (w : Validator) (n : Nat), n ≠ 8 → w.ensureSectNum n = (.ok (some x), v') →
      x.sect.num ≠ 8 ∧ v'.messageCount = w.messageCount ∧ v'.submessageCount = w.submessageCount := by
    intro w n hn hw
    unfold Validator.ensureSectNum at hw
    split at hw
    · cases hw
    · cases hw
    · cases hw
    · dsimp only at hw
      split at hw
      · rename_i e; cases hw; exact ⟨by rw [e]; exact hn, rfl, rfl⟩
      · cases hw
  have s234 : v.ensureSect234 = (.ok (some x), v') →
      x.sect.num ≠ 8 ∧ v'.messageCount = v.messageCount ∧ v'.submessageCount = v.submessageCount := by
    intro hw
    unfold Validator.ensureSect234 at hw
    split at hw
    · cases hw
    · cases hw
    · cases hw
    · dsimp only at hw
      split at hw
      · rename_i e; cases hw; exact ⟨by rw [e]; decide, rfl, rfl⟩
      · split at hw
        · rename_i e; cases hw; exact ⟨by rw [e]; decide, rfl, rfl⟩
        · split at hw
          · rename_i e
            split at hw
            · cases hw; exact ⟨by rw [e]; decide, rfl, rfl⟩
            · cases hw
          · cases hw
  unfold Validator.next at h
  split at h
  · cases h
  · left
    unfold Validator.ensureSect0 at h
    split at h
    · cases h
    · cases h
    · cases h
    · dsimp only at h
      split at h
      · rename_i e; cases h; exact ⟨by rw [e]; decide, rfl, rfl⟩
      · cases h
  · exact .inl (num _ 1 (by decide) h)
  · exact .inl (s234 h)
  · exact .inl (s234 h)
  · exact .inl (num { v with hasSect3 := true } 3 (by decide) h)
  · exact .inl (num _ 4 (by decide) h)
  · exact .inl (num _ 5 (by decide) h)
  · exact .inl (num _ 6 (by decide) h)
  · exact .inl (num _ 7 (by decide) h)
  · right
    unfold Validator.ensureSect8 at h
    split at h
    · cases h
    · cases h
    · cases h
    · split at h
      · rename_i e; cases h; exact ⟨e, rfl, rfl, .inr ⟨rfl, rfl⟩⟩
      · cases h; exact ⟨rfl, rfl, rfl, .inl ⟨rfl, rfl⟩⟩
  · cases h

/-- The index after `a`: the next submessage of the same message or the first of the next one. -/
def NextIndex (a b : Nat × Nat) : Prop := b = (a.1, a.2 + 1) ∨ b = (a.1 + 1, 0)

theorem loop_counts (fuel : Nat) (st : IdxStream) (s4 s5 s6 s7 : Nat) {y : Submsg Nat} {st' : IdxStream}
    (h : IdxStream.loop fuel st s4 s5 s6 s7 = (.ok (some y), st')) :
    (y.msg, y.sub) = (st.iter.messageCount, st.iter.submessageCount) ∧
    NextIndex (y.msg, y.sub) (st'.iter.messageCount, st'.iter.submessageCount) := by
  induction fuel generalizing st s4 s5 s6 s7 with
  | zero => cases h
  | succ fuel ih =>
    unfold IdxStream.loop at h
    rcases hn : st.iter.next with ⟨o, v⟩
    rw [hn] at h
    match o, h, hn with
    | .ok none, h, _ => cases h
    | .err e, h, _ => cases h
    | .panic, h, _ => cases h
    | .ok (some x), h, hn =>
      dsimp only at h
      rcases validator_counts hn with ⟨h8, hm, hs⟩ | ⟨h8, hm, hs, hnext⟩
      · rw [← hm, ← hs]
        split at h
        all_goals first
          | exact ih _ _ _ _ _ h
          | (rename_i e; exact absurd e h8)
          | cases h
      · rw [h8] at h
        have h1 := Option.some.inj (Outcome.ok.inj (Prod.mk.inj h).1)
        have h2 := (Prod.mk.inj h).2
        have e2 : st'.iter = v := by rw [← h2]; split <;> rfl
        subst h1
        rw [e2, hm, hs]
        refine ⟨rfl, ?_⟩
        rcases hnext with ⟨a, b⟩ | ⟨a, b⟩
        · exact .inl (by rw [a, b])
        · exact .inr (by rw [a, b])

/-- The submessages a stream reports. -/
def reported {α : Type} (items : List (Outcome ParseError (Submsg α))) : List (Nat × Nat) :=
  items.filterMap fun x => x.ok?.map fun y => (y.msg, y.sub)

theorem collect_counts (fuel : Nat) (st : IdxStream) :
    (∀ a, (reported (IdxStream.collectN fuel st).1).head? = some a → a = (st.iter.messageCount, st.iter.submessageCount)) ∧
    ∀ k a b, (reported (IdxStream.collectN fuel st).1)[k]? = some a → (reported (IdxStream.collectN fuel st).1)[k + 1]? = some b →
      NextIndex a b := by
  induction fuel generalizing st with
  | zero => exact ⟨fun a h => (by cases h), fun k a b h => (by cases k <;> cases h)⟩
  | succ fuel ih =>
    unfold IdxStream.collectN
    rcases hn : st.next with ⟨o, st'⟩
    match o, hn with
    | .ok none, hn => exact ⟨fun a h => (by cases h), fun k a b h => (by cases k <;> cases h)⟩
    | .err e, hn => exact ⟨fun a h => (by cases h), fun k a b h => (by cases k <;> cases h)⟩
    | .panic, hn => exact ⟨fun a h => (by cases h), fun k a b h => (by cases k <;> cases h)⟩
    | .ok (some y), hn =>
      obtain ⟨h1, h2⟩ := loop_counts _ _ _ _ _ _ hn
      obtain ⟨i1, i2⟩ := ih st'
      dsimp only
      have e : reported (.ok y :: (IdxStream.collectN fuel st').1) = (y.msg, y.sub) :: reported (IdxStream.collectN fuel st').1 := rfl
      rw [e]
      refine ⟨fun a h => ?_, ?_⟩
      · rw [List.head?_cons] at h; rw [← Option.some.inj h]; exact h1
      · intro k a b ha hb
        cases k with
        | zero =>
          rw [List.getElem?_cons_succ, ← List.head?_eq_getElem?] at hb
          rw [List.getElem?_cons_zero] at ha
          rw [← i1 b hb] at h2
          rw [← Option.some.inj ha]
          exact h2
        | succ k =>
          rw [List.getElem?_cons_succ] at ha hb
          exact i2 k a b ha hb

/-- C13: also before an error, and whatever the error is: the submessages reported by either stream start with (0, 0), and each has
the index after the one before. -/
theorem C13_before_error (items : List Item) :
    (∀ a, (reported (subStreamItems items)).head? = some a → a = (0, 0)) ∧
    (∀ k a b, (reported (subStreamItems items))[k]? = some a → (reported (subStreamItems items))[k + 1]? = some b → NextIndex a b) ∧
    reported (idxStreamItems items).1 = reported (subStreamItems items) := by
  have e : reported (idxStreamItems items).1 = reported (subStreamItems items) := by
    rw [subStreamItems_eq, (idxStreamItems_eq _).1]
    unfold reported
    rw [List.filterMap_map, List.filterMap_map]
    congr 1
    funext x
    cases x <;> rfl
  rw [← e]
  have hc := collect_counts (items.length + 2) (IdxStream.new items)
  exact ⟨hc.1, hc.2, rfl⟩

-- an error in the third message
example : reported (subStreamItems ((sampleMessages.flatMap Message.sections ++ [sec 0, sec 1, sec 4]).map .ok)) = 
    reported (subStreamItems ((sampleMessages.flatMap Message.sections).map .ok)) ∧ 
    2 ≤ (reported (subStreamItems ((sampleMessages.flatMap Message.sections).map .ok))).length := by decide

end Grib.Props
