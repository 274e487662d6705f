import Verif.Lemmas.Serialize
import Verif.Lemmas.FromSub
import Verif.Props.File

/-! # The octets of the sections of a written file -/

namespace Grib.Spec

open Grib.Model

/-- The octets of a recorded section. -/
def octetsAt (data : List UInt8) (s : SectionInfo) : List UInt8 := (data.drop s.offset).take s.size

/-- A group with the complete octets of its sections. -/
def Group.octets (g : Group (List UInt8)) : Group (List UInt8) :=
  ⟨g.loc.map (sectBytes 2), g.grid.map (sectBytes 3), sectBytes 4 g.prod, sectBytes 5 g.repr, sectBytes 6 g.bitmap,
    sectBytes 7 g.data⟩

/-- A message with the complete octets of its sections. -/
def RawMessage.octets (m : RawMessage) : Message (List UInt8) :=
  ⟨m.head, sectBytes 1 m.ident, m.first.octets, m.rest.map Group.octets, [0x37, 0x37, 0x37, 0x37]⟩

end Grib.Spec

namespace Grib.Model

open Grib.Spec Grib.Props

theorem take_drop_mid (A B C : List UInt8) : ((A ++ (B ++ C)).drop A.length).take B.length = B := by simp

theorem octetsAt_place (A C : List UInt8) (off n : Nat) (p : List UInt8) (h : off = A.length) :
    octetsAt (A ++ (sectBytes n p ++ C)) (place off n p) = sectBytes n p := by
  subst h
  unfold octetsAt place
  simp only
  rw [← sectBytes_length n p]
  exact take_drop_mid _ _ _

theorem locate_octets (A C : List UInt8) (off : Nat) (g : Group (List UInt8)) (h : off = A.length) :
    (g.locate off).map (octetsAt (A ++ (rawBytes (rawGroup g) ++ C))) = g.octets := by
  obtain ⟨loc, grid, prod, repr, bitmap, data⟩ := g
  have key : ∀ (l grid' : List UInt8) (o3 : Nat), o3 = off + l.length →
      let D := A ++ (l ++ (grid' ++ (sectBytes 4 prod ++ (sectBytes 5 repr ++ (sectBytes 6 bitmap ++ (sectBytes 7 data ++ C))))))
      let o4 := o3 + grid'.length
      octetsAt D (place o4 4 prod) = sectBytes 4 prod ∧
      octetsAt D (place (o4 + (prod.length + 5)) 5 repr) = sectBytes 5 repr ∧
      octetsAt D (place (o4 + (prod.length + 5) + (repr.length + 5)) 6 bitmap) = sectBytes 6 bitmap ∧
      octetsAt D (place (o4 + (prod.length + 5) + (repr.length + 5) + (bitmap.length + 5)) 7 data) = sectBytes 7 data := by
    intro l grid' o3 ho D o4
    refine ⟨?_, ?_, ?_, ?_⟩
    · have := octetsAt_place (A ++ l ++ grid') (sectBytes 5 repr ++ (sectBytes 6 bitmap ++ (sectBytes 7 data ++ C))) o4 4 prod
        (by simp [o4]; omega)
      simpa [D] using this
    · have := octetsAt_place (A ++ l ++ grid' ++ sectBytes 4 prod) (sectBytes 6 bitmap ++ (sectBytes 7 data ++ C))
        (o4 + (prod.length + 5)) 5 repr (by simp [o4, sectBytes_length]; omega)
      simpa [D] using this
    · have := octetsAt_place (A ++ l ++ grid' ++ sectBytes 4 prod ++ sectBytes 5 repr) (sectBytes 7 data ++ C)
        (o4 + (prod.length + 5) + (repr.length + 5)) 6 bitmap (by simp [o4, sectBytes_length]; omega)
      simpa [D] using this
    · have := octetsAt_place (A ++ l ++ grid' ++ sectBytes 4 prod ++ sectBytes 5 repr ++ sectBytes 6 bitmap) C
        (o4 + (prod.length + 5) + (repr.length + 5) + (bitmap.length + 5)) 7 data (by simp [o4, sectBytes_length]; omega)
      simpa [D] using this
  have hraw : rawBytes (rawGroup ⟨loc, grid, prod, repr, bitmap, data⟩) ++ C =
      (loc.map (sectBytes 2)).getD [] ++ ((grid.map (sectBytes 3)).getD [] ++ (sectBytes 4 prod ++ (sectBytes 5 repr ++
        (sectBytes 6 bitmap ++ (sectBytes 7 data ++ C))))) := by
    cases loc <;> cases grid <;> simp [rawBytes, rawGroup]
  have l2 : ((loc.map (sectBytes 2)).getD []).length = optSize loc := by
    cases loc <;> simp [optSize, sectBytes_length]
  have l3 : ((grid.map (sectBytes 3)).getD []).length = optSize grid := by
    cases grid <;> simp [optSize, sectBytes_length]
  rw [hraw]
  obtain ⟨k4, k5, k6, k7⟩ := key ((loc.map (sectBytes 2)).getD []) ((grid.map (sectBytes 3)).getD []) (off + optSize loc) (by omega)
  rw [l3] at k4 k5 k6 k7
  unfold Group.map Group.locate Group.octets
  simp only [Group.mk.injEq]
  refine ⟨?_, ?_, k4, k5, k6, k7⟩
  · cases loc with
    | none => rfl
    | some p =>
      simp only [Option.map_some, Option.some.injEq, Option.getD_some]
      exact octetsAt_place A _ off 2 p h
  · cases grid with
    | none => rfl
    | some p =>
      simp only [Option.map_some, Option.some.injEq, Option.getD_some]
      rw [← List.append_assoc A]
      exact octetsAt_place _ _ _ 3 p (by simp only [List.length_append]; omega)

theorem locateGroups_octets (A C : List UInt8) (off : Nat) (gs : List (Group (List UInt8))) (h : off = A.length) :
    (locateGroups off gs).map (Group.map (octetsAt (A ++ (rawBytes (gs.flatMap rawGroup) ++ C)))) = gs.map Group.octets := by
  induction gs generalizing A off with
  | nil => rfl
  | cons g gs ih =>
    simp only [locateGroups, List.map_cons, List.cons.injEq]
    have e : rawBytes ((g :: gs).flatMap rawGroup) = rawBytes (rawGroup g) ++ rawBytes (gs.flatMap rawGroup) := by
      simp [rawBytes]
    rw [e]
    refine ⟨?_, ?_⟩
    · have := locate_octets A (rawBytes (gs.flatMap rawGroup) ++ C) off g h
      simpa using this
    · have := ih (A ++ rawBytes (rawGroup g)) (off + (rawBytes (rawGroup g)).length) (by simp; omega)
      simpa using this

theorem locate_message_octets (A C : List UInt8) (off : Nat) (m : RawMessage) (h : off = A.length) :
    (m.locate off).map (octetsAt (A ++ (m.bytes ++ C))) = m.octets := by
  have e : m.bytes ++ C = m.head ++ (sectBytes 1 m.ident ++ (rawBytes (rawGroup m.first) ++
      (rawBytes (m.rest.flatMap rawGroup) ++ ([0x37, 0x37, 0x37, 0x37] ++ C)))) := by
    simp [RawMessage.bytes, RawMessage.raw, RawMessage.groups, rawBytes]
  have et : m.total = 16 + (m.ident.length + 5) + (rawBytes (rawGroup m.first)).length +
      (rawBytes (m.rest.flatMap rawGroup)).length + 4 := by
    simp [RawMessage.total, RawMessage.raw, RawMessage.groups, rawBytes, sectBytes_length]; omega
  unfold Message.map RawMessage.locate RawMessage.octets
  simp only [Message.mk.injEq]
  have hh := head_length m
  rw [e]
  refine ⟨?_, ?_, ?_, ?_, ?_⟩
  · simp only [octetsAt]
    rw [h, ← hh]
    exact take_drop_mid _ _ _
  · rw [← List.append_assoc A]
    exact octetsAt_place _ _ _ 1 _ (by simp; omega)
  · rw [← List.append_assoc A, ← List.append_assoc (A ++ m.head)]
    exact locate_octets _ _ _ _ (by simp [sectBytes_length]; omega)
  · rw [← List.append_assoc A, ← List.append_assoc (A ++ m.head), ← List.append_assoc (A ++ m.head ++ _)]
    exact locateGroups_octets _ _ _ _ (by simp [sectBytes_length]; omega)
  · simp only [octetsAt]
    rw [← List.append_assoc A, ← List.append_assoc (A ++ m.head), ← List.append_assoc (A ++ m.head ++ _),
      ← List.append_assoc (A ++ m.head ++ sectBytes 1 m.ident ++ _)]
    have := take_drop_mid (A ++ m.head ++ sectBytes 1 m.ident ++ rawBytes (rawGroup m.first) ++
      rawBytes (m.rest.flatMap rawGroup)) [0x37, 0x37, 0x37, 0x37] C
    rw [show (A ++ m.head ++ sectBytes 1 m.ident ++ rawBytes (rawGroup m.first) ++
      rawBytes (m.rest.flatMap rawGroup)).length = off + m.total - 4 by
        simp [sectBytes_length]; omega] at this
    exact this

theorem locateMessages_octets (A C : List UInt8) (off : Nat) (l : List (List UInt8 × RawMessage)) (h : off = A.length) :
    (locateMessages off l).map (Message.map (octetsAt (A ++ (messagesBytes l ++ C)))) = l.map (·.2.octets) := by
  induction l generalizing A off with
  | nil => rfl
  | cons x l ih =>
    have e : messagesBytes (x :: l) ++ C = x.1 ++ (x.2.bytes ++ (messagesBytes l ++ C)) := by simp [messagesBytes]
    rw [e]
    simp only [locateMessages, List.map_cons, List.cons.injEq]
    refine ⟨?_, ?_⟩
    · rw [← List.append_assoc A]
      exact locate_message_octets _ _ _ _ (by simp; omega)
    · have := ih (A ++ x.1 ++ x.2.bytes) (off + x.1.length + x.2.total) (by simp [bytes_length]; omega)
      simpa using this

end Grib.Model
