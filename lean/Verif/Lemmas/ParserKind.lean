import Verif.Lemmas.ParserDfa

/-! # Every reported submessage refers to sections of the right kind -/

namespace Grib.Model

open Grib.Spec

/-- `p` is the section with number `n` at its position in the input. -/
def Good (all : List Item) (n : Nat) (p : P) : Prop := all[p.1]? = some (.ok p.2) ∧ p.2.num = n

structure LInv (all : List Item) (st : PStream) (s4 s5 s6 s7 : P) : Prop where
  items : st.iter.items = all.drop st.iter.idx
  s0 : st.iter.state ≠ .startOfMessage → Good all 0 st.sect0
  s1 : st.iter.state ≠ .startOfMessage → st.iter.state ≠ .endOfSect 0 → Good all 1 st.sect1
  s2 : ∀ p, st.sect2 = some p → Good all 2 p
  s3 : st.iter.hasSect3 = true → Good all 3 st.sect3
  has : ∀ n, st.iter.state = .endOfSect n → 3 ≤ n → st.iter.hasSect3 = true
  s4 : ∀ n, st.iter.state = .endOfSect n → 4 ≤ n → Good all 4 s4
  s5 : ∀ n, st.iter.state = .endOfSect n → 5 ≤ n → Good all 5 s5
  s6 : ∀ n, st.iter.state = .endOfSect n → 6 ≤ n → Good all 6 s6
  s7 : ∀ n, st.iter.state = .endOfSect n → 7 ≤ n → Good all 7 s7

/-- What a reported submessage satisfies. -/
structure GoodSub (all : List Item) (s : Submsg P) : Prop where
  s0 : Good all 0 s.sects.s0
  s1 : Good all 1 s.sects.s1
  s2 : ∀ p, s.sects.s2 = some p → Good all 2 p
  s3 : Good all 3 s.sects.s3
  s4 : Good all 4 s.sects.s4
  s5 : Good all 5 s.sects.s5
  s6 : Good all 6 s.sects.s6
  s7 : Good all 7 s.sects.s7
  s8 : Good all 8 s.sects.s8 ∨ s.sects.s8 = P.dummy8

theorem good_of_cons {all : List Item} {i : Nat} {s : SectionInfo} {rest : List Item}
    (h : .ok s :: rest = all.drop i) : Good all s.num (i, s) ∧ rest = all.drop (i + 1) := by
  have hlt : i < all.length := by
    by_cases hl : i < all.length
    · exact hl
    · rw [List.drop_eq_nil_of_le (by omega)] at h; simp at h
  rw [List.drop_eq_getElem_cons hlt] at h
  simp only [List.cons.injEq] at h
  exact ⟨⟨by simp [hlt, ← h.1], rfl⟩, h.2⟩

theorem loop_kind {all : List Item} (fuel : Nat) (st : PStream) (s4 s5 s6 s7 : P) (hi : LInv all st s4 s5 s6 s7) :
    ∀ x st', PStream.loop fuel st s4 s5 s6 s7 = (.ok (some x), st') →
      GoodSub all x ∧ ∀ t4 t5 t6 t7, LInv all st' t4 t5 t6 t7 := by
  induction fuel generalizing st s4 s5 s6 s7 with
  | zero => simp [PStream.loop]
  | succ f ih =>
    intro y st' h
    rw [PStream.loop] at h
    rcases hx : st.iter.next with ⟨o, v⟩
    rw [hx] at h
    rcases o with o | e | _
    · cases o with
      | none => simp at h
      | some x =>
        unfold Validator.next at hx
        split at hx
        · simp at hx
        · rename_i hst
          obtain ⟨rest, e, n, hxx, rfl⟩ := ensureSect0_some hx
          obtain ⟨pos, msg, sub, sect⟩ := x
          simp only [VItem.mk.injEq, and_true] at hxx
          obtain ⟨rfl, rfl, rfl⟩ := hxx
          simp only at n e h
          rw [n] at h
          simp only at h
          have hit := hi.items
          rw [e] at hit
          obtain ⟨g1, g2⟩ := good_of_cons hit
          rw [n] at g1
          refine ih _ _ _ _ _ ?_ y st' h
          constructor
          all_goals simp only
          all_goals first
            | exact g2
            | exact fun _ => g1
            | exact fun _ _ => g1
            | exact fun _ _ _ => g1
            | (intros; trivial)
            | (intro p hp; cases hp; exact g1)
            | (intro m hm hle; cases hm; first | rfl | omega)
            | (intro hm; simp at hm; done)
            | (intro _ hm; simp at hm; done)
            | exact hi.s2
            | exact hi.s3
            | exact fun _ _ _ => hi.has _ hst (by omega)
            | exact fun _ _ _ => hi.s4 _ hst (by omega)
            | exact fun _ _ _ => hi.s5 _ hst (by omega)
            | exact fun _ _ _ => hi.s6 _ hst (by omega)
            | (intro _; apply hi.s0; rw [hst]; simp; done)
            | (intro _ _; apply hi.s1 <;> (rw [hst]; simp; done))
            | exact fun _ => hi.s3 (by assumption)
            | (intros; assumption)
        · rename_i hst
          obtain ⟨rest, e, n, hxx, rfl⟩ := ensureSectNum_some hx
          obtain ⟨pos, msg, sub, sect⟩ := x
          simp only [VItem.mk.injEq, and_true] at hxx
          obtain ⟨rfl, rfl, rfl⟩ := hxx
          simp only at n e h
          rw [n] at h
          simp only at h
          have hit := hi.items
          rw [e] at hit
          obtain ⟨g1, g2⟩ := good_of_cons hit
          rw [n] at g1
          refine ih _ _ _ _ _ ?_ y st' h
          constructor
          all_goals simp only
          all_goals first
            | exact g2
            | exact fun _ => g1
            | exact fun _ _ => g1
            | exact fun _ _ _ => g1
            | (intros; trivial)
            | (intro p hp; cases hp; exact g1)
            | (intro m hm hle; cases hm; first | rfl | omega)
            | (intro hm; simp at hm; done)
            | (intro _ hm; simp at hm; done)
            | exact hi.s2
            | exact hi.s3
            | exact fun _ _ _ => hi.has _ hst (by omega)
            | exact fun _ _ _ => hi.s4 _ hst (by omega)
            | exact fun _ _ _ => hi.s5 _ hst (by omega)
            | exact fun _ _ _ => hi.s6 _ hst (by omega)
            | (intro _; apply hi.s0; rw [hst]; simp; done)
            | (intro _ _; apply hi.s1 <;> (rw [hst]; simp; done))
            | exact fun _ => hi.s3 (by assumption)
            | (intros; assumption)
        · rename_i hst
          obtain ⟨rest, has', e, n, hxx, rfl⟩ := ensureSect234_some hx
          obtain ⟨pos, msg, sub, sect⟩ := x
          simp only [VItem.mk.injEq, and_true] at hxx
          obtain ⟨rfl, rfl, rfl⟩ := hxx
          simp only at n e h
          rcases n with ⟨n, rfl⟩ | ⟨n, rfl⟩ | ⟨n, rfl, h3⟩
          · rw [n] at h
            simp only at h
            have hit := hi.items
            rw [e] at hit
            obtain ⟨g1, g2⟩ := good_of_cons hit
            rw [n] at g1
            refine ih _ _ _ _ _ ?_ y st' h
            constructor
            all_goals simp only
            all_goals first
              | exact g2
              | exact fun _ => g1
              | exact fun _ _ => g1
              | exact fun _ _ _ => g1
              | (intros; trivial)
              | (intro p hp; cases hp; exact g1)
              | (intro m hm hle; cases hm; first | rfl | omega)
              | (intro hm; simp at hm; done)
              | (intro _ hm; simp at hm; done)
              | exact hi.s2
              | exact hi.s3
              | exact fun _ _ _ => hi.has _ hst (by omega)
              | exact fun _ _ _ => hi.s4 _ hst (by omega)
              | exact fun _ _ _ => hi.s5 _ hst (by omega)
              | exact fun _ _ _ => hi.s6 _ hst (by omega)
              | (intro _; apply hi.s0; rw [hst]; simp; done)
              | (intro _ _; apply hi.s1 <;> (rw [hst]; simp; done))
              | exact fun _ => hi.s3 (by assumption)
              | (intros; assumption)
          · rw [n] at h
            simp only at h
            have hit := hi.items
            rw [e] at hit
            obtain ⟨g1, g2⟩ := good_of_cons hit
            rw [n] at g1
            refine ih _ _ _ _ _ ?_ y st' h
            constructor
            all_goals simp only
            all_goals first
              | exact g2
              | exact fun _ => g1
              | exact fun _ _ => g1
              | exact fun _ _ _ => g1
              | (intros; trivial)
              | (intro p hp; cases hp; exact g1)
              | (intro m hm hle; cases hm; first | rfl | omega)
              | (intro hm; simp at hm; done)
              | (intro _ hm; simp at hm; done)
              | exact hi.s2
              | exact hi.s3
              | exact fun _ _ _ => hi.has _ hst (by omega)
              | exact fun _ _ _ => hi.s4 _ hst (by omega)
              | exact fun _ _ _ => hi.s5 _ hst (by omega)
              | exact fun _ _ _ => hi.s6 _ hst (by omega)
              | (intro _; apply hi.s0; rw [hst]; simp; done)
              | (intro _ _; apply hi.s1 <;> (rw [hst]; simp; done))
              | exact fun _ => hi.s3 (by assumption)
              | (intros; assumption)
          · rw [n] at h
            simp only at h
            have hit := hi.items
            rw [e] at hit
            obtain ⟨g1, g2⟩ := good_of_cons hit
            rw [n] at g1
            refine ih _ _ _ _ _ ?_ y st' h
            constructor
            all_goals simp only
            all_goals first
              | exact g2
              | exact fun _ => g1
              | exact fun _ _ => g1
              | exact fun _ _ _ => g1
              | (intros; trivial)
              | (intro p hp; cases hp; exact g1)
              | (intro m hm hle; cases hm; first | rfl | omega)
              | (intro hm; simp at hm; done)
              | (intro _ hm; simp at hm; done)
              | exact hi.s2
              | exact hi.s3
              | exact fun _ _ _ => hi.has _ hst (by omega)
              | exact fun _ _ _ => hi.s4 _ hst (by omega)
              | exact fun _ _ _ => hi.s5 _ hst (by omega)
              | exact fun _ _ _ => hi.s6 _ hst (by omega)
              | (intro _; apply hi.s0; rw [hst]; simp; done)
              | (intro _ _; apply hi.s1 <;> (rw [hst]; simp; done))
              | exact fun _ => hi.s3 (by assumption)
              | (intros; assumption)
        · rename_i hst
          obtain ⟨rest, has', e, n, hxx, rfl⟩ := ensureSect234_some hx
          obtain ⟨pos, msg, sub, sect⟩ := x
          simp only [VItem.mk.injEq, and_true] at hxx
          obtain ⟨rfl, rfl, rfl⟩ := hxx
          simp only at n e h
          rcases n with ⟨n, rfl⟩ | ⟨n, rfl⟩ | ⟨n, rfl, h3⟩
          · rw [n] at h
            simp only at h
            have hit := hi.items
            rw [e] at hit
            obtain ⟨g1, g2⟩ := good_of_cons hit
            rw [n] at g1
            refine ih _ _ _ _ _ ?_ y st' h
            constructor
            all_goals simp only
            all_goals first
              | exact g2
              | exact fun _ => g1
              | exact fun _ _ => g1
              | exact fun _ _ _ => g1
              | (intros; trivial)
              | (intro p hp; cases hp; exact g1)
              | (intro m hm hle; cases hm; first | rfl | omega)
              | (intro hm; simp at hm; done)
              | (intro _ hm; simp at hm; done)
              | exact hi.s2
              | exact hi.s3
              | exact fun _ _ _ => hi.has _ hst (by omega)
              | exact fun _ _ _ => hi.s4 _ hst (by omega)
              | exact fun _ _ _ => hi.s5 _ hst (by omega)
              | exact fun _ _ _ => hi.s6 _ hst (by omega)
              | (intro _; apply hi.s0; rw [hst]; simp; done)
              | (intro _ _; apply hi.s1 <;> (rw [hst]; simp; done))
              | exact fun _ => hi.s3 (by assumption)
              | (intros; assumption)
          · rw [n] at h
            simp only at h
            have hit := hi.items
            rw [e] at hit
            obtain ⟨g1, g2⟩ := good_of_cons hit
            rw [n] at g1
            refine ih _ _ _ _ _ ?_ y st' h
            constructor
            all_goals simp only
            all_goals first
              | exact g2
              | exact fun _ => g1
              | exact fun _ _ => g1
              | exact fun _ _ _ => g1
              | (intros; trivial)
              | (intro p hp; cases hp; exact g1)
              | (intro m hm hle; cases hm; first | rfl | omega)
              | (intro hm; simp at hm; done)
              | (intro _ hm; simp at hm; done)
              | exact hi.s2
              | exact hi.s3
              | exact fun _ _ _ => hi.has _ hst (by omega)
              | exact fun _ _ _ => hi.s4 _ hst (by omega)
              | exact fun _ _ _ => hi.s5 _ hst (by omega)
              | exact fun _ _ _ => hi.s6 _ hst (by omega)
              | (intro _; apply hi.s0; rw [hst]; simp; done)
              | (intro _ _; apply hi.s1 <;> (rw [hst]; simp; done))
              | exact fun _ => hi.s3 (by assumption)
              | (intros; assumption)
          · rw [n] at h
            simp only at h
            have hit := hi.items
            rw [e] at hit
            obtain ⟨g1, g2⟩ := good_of_cons hit
            rw [n] at g1
            refine ih _ _ _ _ _ ?_ y st' h
            constructor
            all_goals simp only
            all_goals first
              | exact g2
              | exact fun _ => g1
              | exact fun _ _ => g1
              | exact fun _ _ _ => g1
              | (intros; trivial)
              | (intro p hp; cases hp; exact g1)
              | (intro m hm hle; cases hm; first | rfl | omega)
              | (intro hm; simp at hm; done)
              | (intro _ hm; simp at hm; done)
              | exact hi.s2
              | exact hi.s3
              | exact fun _ _ _ => hi.has _ hst (by omega)
              | exact fun _ _ _ => hi.s4 _ hst (by omega)
              | exact fun _ _ _ => hi.s5 _ hst (by omega)
              | exact fun _ _ _ => hi.s6 _ hst (by omega)
              | (intro _; apply hi.s0; rw [hst]; simp; done)
              | (intro _ _; apply hi.s1 <;> (rw [hst]; simp; done))
              | exact fun _ => hi.s3 (by assumption)
              | (intros; assumption)
        · rename_i hst
          obtain ⟨rest, e, n, hxx, rfl⟩ := ensureSectNum_some hx
          obtain ⟨pos, msg, sub, sect⟩ := x
          simp only [VItem.mk.injEq, and_true] at hxx
          obtain ⟨rfl, rfl, rfl⟩ := hxx
          simp only at n e h
          rw [n] at h
          simp only at h
          have hit := hi.items
          rw [e] at hit
          obtain ⟨g1, g2⟩ := good_of_cons hit
          rw [n] at g1
          refine ih _ _ _ _ _ ?_ y st' h
          constructor
          all_goals simp only
          all_goals first
            | exact g2
            | exact fun _ => g1
            | exact fun _ _ => g1
            | exact fun _ _ _ => g1
            | (intros; trivial)
            | (intro p hp; cases hp; exact g1)
            | (intro m hm hle; cases hm; first | rfl | omega)
            | (intro hm; simp at hm; done)
            | (intro _ hm; simp at hm; done)
            | exact hi.s2
            | exact hi.s3
            | exact fun _ _ _ => hi.has _ hst (by omega)
            | exact fun _ _ _ => hi.s4 _ hst (by omega)
            | exact fun _ _ _ => hi.s5 _ hst (by omega)
            | exact fun _ _ _ => hi.s6 _ hst (by omega)
            | (intro _; apply hi.s0; rw [hst]; simp; done)
            | (intro _ _; apply hi.s1 <;> (rw [hst]; simp; done))
            | exact fun _ => hi.s3 (by assumption)
            | (intros; assumption)
        · rename_i hst
          obtain ⟨rest, e, n, hxx, rfl⟩ := ensureSectNum_some hx
          obtain ⟨pos, msg, sub, sect⟩ := x
          simp only [VItem.mk.injEq, and_true] at hxx
          obtain ⟨rfl, rfl, rfl⟩ := hxx
          simp only at n e h
          rw [n] at h
          simp only at h
          have hit := hi.items
          rw [e] at hit
          obtain ⟨g1, g2⟩ := good_of_cons hit
          rw [n] at g1
          refine ih _ _ _ _ _ ?_ y st' h
          constructor
          all_goals simp only
          all_goals first
            | exact g2
            | exact fun _ => g1
            | exact fun _ _ => g1
            | exact fun _ _ _ => g1
            | (intros; trivial)
            | (intro p hp; cases hp; exact g1)
            | (intro m hm hle; cases hm; first | rfl | omega)
            | (intro hm; simp at hm; done)
            | (intro _ hm; simp at hm; done)
            | exact hi.s2
            | exact hi.s3
            | exact fun _ _ _ => hi.has _ hst (by omega)
            | exact fun _ _ _ => hi.s4 _ hst (by omega)
            | exact fun _ _ _ => hi.s5 _ hst (by omega)
            | exact fun _ _ _ => hi.s6 _ hst (by omega)
            | (intro _; apply hi.s0; rw [hst]; simp; done)
            | (intro _ _; apply hi.s1 <;> (rw [hst]; simp; done))
            | exact fun _ => hi.s3 (by assumption)
            | (intros; assumption)
        · rename_i hst
          obtain ⟨rest, e, n, hxx, rfl⟩ := ensureSectNum_some hx
          obtain ⟨pos, msg, sub, sect⟩ := x
          simp only [VItem.mk.injEq, and_true] at hxx
          obtain ⟨rfl, rfl, rfl⟩ := hxx
          simp only at n e h
          rw [n] at h
          simp only at h
          have hit := hi.items
          rw [e] at hit
          obtain ⟨g1, g2⟩ := good_of_cons hit
          rw [n] at g1
          refine ih _ _ _ _ _ ?_ y st' h
          constructor
          all_goals simp only
          all_goals first
            | exact g2
            | exact fun _ => g1
            | exact fun _ _ => g1
            | exact fun _ _ _ => g1
            | (intros; trivial)
            | (intro p hp; cases hp; exact g1)
            | (intro m hm hle; cases hm; first | rfl | omega)
            | (intro hm; simp at hm; done)
            | (intro _ hm; simp at hm; done)
            | exact hi.s2
            | exact hi.s3
            | exact fun _ _ _ => hi.has _ hst (by omega)
            | exact fun _ _ _ => hi.s4 _ hst (by omega)
            | exact fun _ _ _ => hi.s5 _ hst (by omega)
            | exact fun _ _ _ => hi.s6 _ hst (by omega)
            | (intro _; apply hi.s0; rw [hst]; simp; done)
            | (intro _ _; apply hi.s1 <;> (rw [hst]; simp; done))
            | exact fun _ => hi.s3 (by assumption)
            | (intros; assumption)
        · rename_i hst
          obtain ⟨rest, e, n, hxx, rfl⟩ := ensureSectNum_some hx
          obtain ⟨pos, msg, sub, sect⟩ := x
          simp only [VItem.mk.injEq, and_true] at hxx
          obtain ⟨rfl, rfl, rfl⟩ := hxx
          simp only at n e h
          rw [n] at h
          simp only at h
          have hit := hi.items
          rw [e] at hit
          obtain ⟨g1, g2⟩ := good_of_cons hit
          rw [n] at g1
          refine ih _ _ _ _ _ ?_ y st' h
          constructor
          all_goals simp only
          all_goals first
            | exact g2
            | exact fun _ => g1
            | exact fun _ _ => g1
            | exact fun _ _ _ => g1
            | (intros; trivial)
            | (intro p hp; cases hp; exact g1)
            | (intro m hm hle; cases hm; first | rfl | omega)
            | (intro hm; simp at hm; done)
            | (intro _ hm; simp at hm; done)
            | exact hi.s2
            | exact hi.s3
            | exact fun _ _ _ => hi.has _ hst (by omega)
            | exact fun _ _ _ => hi.s4 _ hst (by omega)
            | exact fun _ _ _ => hi.s5 _ hst (by omega)
            | exact fun _ _ _ => hi.s6 _ hst (by omega)
            | (intro _; apply hi.s0; rw [hst]; simp; done)
            | (intro _ _; apply hi.s1 <;> (rw [hst]; simp; done))
            | exact fun _ => hi.s3 (by assumption)
            | (intros; assumption)
        · rename_i hst
          obtain ⟨rest, e, n, hxx, rfl⟩ := ensureSectNum_some hx
          obtain ⟨pos, msg, sub, sect⟩ := x
          simp only [VItem.mk.injEq, and_true] at hxx
          obtain ⟨rfl, rfl, rfl⟩ := hxx
          simp only at n e h
          rw [n] at h
          simp only at h
          have hit := hi.items
          rw [e] at hit
          obtain ⟨g1, g2⟩ := good_of_cons hit
          rw [n] at g1
          refine ih _ _ _ _ _ ?_ y st' h
          constructor
          all_goals simp only
          all_goals first
            | exact g2
            | exact fun _ => g1
            | exact fun _ _ => g1
            | exact fun _ _ _ => g1
            | (intros; trivial)
            | (intro p hp; cases hp; exact g1)
            | (intro m hm hle; cases hm; first | rfl | omega)
            | (intro hm; simp at hm; done)
            | (intro _ hm; simp at hm; done)
            | exact hi.s2
            | exact hi.s3
            | exact fun _ _ _ => hi.has _ hst (by omega)
            | exact fun _ _ _ => hi.s4 _ hst (by omega)
            | exact fun _ _ _ => hi.s5 _ hst (by omega)
            | exact fun _ _ _ => hi.s6 _ hst (by omega)
            | (intro _; apply hi.s0; rw [hst]; simp; done)
            | (intro _ _; apply hi.s1 <;> (rw [hst]; simp; done))
            | exact fun _ => hi.s3 (by assumption)
            | (intros; assumption)
        · rename_i hst
          obtain ⟨s, rest, e, hh⟩ := ensureSect8_some hx
          rcases hh with ⟨n, rfl, rfl⟩ | ⟨n, rfl, rfl⟩
          · simp only at h
            rw [n] at h
            have hit := hi.items
            rw [e] at hit
            obtain ⟨g1, g2⟩ := good_of_cons hit
            rw [n] at g1
            simp only [Prod.mk.injEq, Outcome.ok.injEq, Option.some.injEq] at h
            obtain ⟨rfl, rfl⟩ := h
            refine ⟨⟨hi.s0 (by simp [hst]), hi.s1 (by simp [hst]) (by simp [hst]), hi.s2,
              hi.s3 (hi.has _ hst (by omega)), hi.s4 _ hst (by omega), hi.s5 _ hst (by omega),
              hi.s6 _ hst (by omega), hi.s7 _ hst (by omega), Or.inl g1⟩, ?_⟩
            intro t4 t5 t6 t7
            split
            · exact ⟨g2, by simp [PStream.clear], by simp [PStream.clear], by simp [PStream.clear],
                by simp [PStream.clear], by simp [PStream.clear], by simp [PStream.clear], by simp [PStream.clear],
                by simp [PStream.clear], by simp [PStream.clear]⟩
            · exact ⟨g2, by simp, by simp, hi.s2, by simp, by simp, by simp, by simp, by simp, by simp⟩
          · simp only [SectionInfo.new8] at h
            simp only [ne_eq, not_true_eq_false, if_false, Prod.mk.injEq, Outcome.ok.injEq, Option.some.injEq] at h
            obtain ⟨rfl, rfl⟩ := h
            refine ⟨⟨hi.s0 (by simp [hst]), hi.s1 (by simp [hst]) (by simp [hst]), hi.s2,
              hi.s3 (hi.has _ hst (by omega)), hi.s4 _ hst (by omega), hi.s5 _ hst (by omega),
              hi.s6 _ hst (by omega), hi.s7 _ hst (by omega), Or.inr rfl⟩, ?_⟩
            intro t4 t5 t6 t7
            exact ⟨hi.items, fun _ => hi.s0 (by simp [hst]), fun _ _ => hi.s1 (by simp [hst]) (by simp [hst]), hi.s2,
              hi.s3, by simp, by simp, by simp, by simp, by simp⟩
        · simp at hx
    · simp at h
    · simp at h

theorem collect_kind {all : List Item} (fuel : Nat) (st : PStream) (hi : ∀ t4 t5 t6 t7, LInv all st t4 t5 t6 t7) :
    ∀ x, .ok x ∈ (PStream.collectN fuel st).1 → GoodSub all x := by
  induction fuel generalizing st with
  | zero => simp [PStream.collectN]
  | succ f ih =>
    intro x hx
    rw [PStream.collectN] at hx
    have := loop_kind (st.iter.items.length + 2) st .default .default .default .default (hi _ _ _ _)
    rcases hn : st.next with ⟨o, st'⟩
    rw [hn] at hx
    rw [PStream.next] at hn
    rcases o with o | e | _
    · cases o with
      | none => simp at hx
      | some y =>
        obtain ⟨h1, h2⟩ := this _ _ hn
        simp only [List.mem_cons, Outcome.ok.injEq] at hx
        rcases hx with rfl | hx
        · exact h1
        · exact ih _ h2 x hx
    · simp at hx
    · simp at hx

theorem LInv.init (items : List Item) (t4 t5 t6 t7 : P) : LInv items { iter := Validator.new items } t4 t5 t6 t7 := by
  constructor <;> simp [Validator.new]

end Grib.Model
