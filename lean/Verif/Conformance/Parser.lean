import Verif.Model.Parser

/-! # The unit tests of src/parser.rs (lines 526 to the end), run against the model

Each example is one `#[test]` of the repository, transliterated: the same section numbers (with the position as offset),
and the same expected items.  They are evidence that the model behaves as the code does, not proofs of properties. -/

namespace Grib.Conformance

open Grib Grib.Model

/-- `new_sect_vec_with_dummy_offset_and_errors` (src/parser.rs, tests). -/
def sects (xs : List (Outcome ParseError Nat)) : List Item :=
  xs.zipIdx.map fun p => (fun n => (⟨n, p.2, 0, none⟩ : SectionInfo)) <$> p.1

/-- `new_sect_vec_with_dummy_offset` (src/parser.rs, tests). -/
def nums (xs : List Nat) : List Item := sects (xs.map .ok)

/-- `digest_submessage_iter_item` (src/parser.rs, tests). -/
def digest (x : Submsg SectionInfo) : Submsg Nat :=
  let s := x.sects
  ⟨x.msg, x.sub, ⟨s.s0.offset, s.s1.offset, s.s2.map (·.offset), s.s3.offset, s.s4.offset, s.s5.offset, s.s6.offset,
    s.s7.offset, s.s8.offset⟩⟩

/-- What the by-value stream yields, digested. -/
def items (xs : List Item) : List (Outcome ParseError (Submsg Nat)) := (subStreamItems xs).map (digest <$> ·)

/-- "failed to fill whole buffer" -/
def eof : Outcome ParseError α := .err (.readError .unexpectedEof)

/-- src/parser.rs:592 `submessage_stream_from_1_message`. -/
example : items (nums [0, 1, 2, 3, 4, 5, 6, 7, 8]) =
    [.ok ⟨0, 0, ⟨0, 1, some 2, 3, 4, 5, 6, 7, 8⟩⟩] := by decide +kernel

/-- src/parser.rs:604 `submessage_stream_from_multiple_messages`. -/
example : items (nums [0, 1, 2, 3, 4, 5, 6, 7, 8, 0, 1, 2, 3, 4, 5, 6, 7, 8]) =
    [.ok ⟨0, 0, ⟨0, 1, some 2, 3, 4, 5, 6, 7, 8⟩⟩, .ok ⟨1, 0, ⟨9, 10, some 11, 12, 13, 14, 15, 16, 17⟩⟩] := by decide +kernel

/-- src/parser.rs:621 `submessage_stream_empty`. -/
example : items (nums []) =
    [] := by decide +kernel

/-- src/parser.rs:633 `submessage_stream_from_multiple_messages_without_sect2`. -/
example : items (nums [0, 1, 3, 4, 5, 6, 7, 8, 0, 1, 3, 4, 5, 6, 7, 8]) =
    [.ok ⟨0, 0, ⟨0, 1, none, 2, 3, 4, 5, 6, 7⟩⟩, .ok ⟨1, 0, ⟨8, 9, none, 10, 11, 12, 13, 14, 15⟩⟩] := by decide +kernel

/-- src/parser.rs:649 `submessage_stream_from_1_message_with_multiple_submessages_from_sect2`. -/
example : items (nums [0, 1, 2, 3, 4, 5, 6, 7, 2, 3, 4, 5, 6, 7, 8]) =
    [.ok ⟨0, 0, ⟨0, 1, some 2, 3, 4, 5, 6, 7, 0⟩⟩, .ok ⟨0, 1, ⟨0, 1, some 8, 9, 10, 11, 12, 13, 14⟩⟩] := by decide +kernel

/-- src/parser.rs:665 `submessage_stream_from_1_message_with_multiple_submessages_from_sect2_with_sect2_toggled`. -/
example : items (nums [0, 1, 3, 4, 5, 6, 7, 2, 3, 4, 5, 6, 7, 8]) =
    [.ok ⟨0, 0, ⟨0, 1, none, 2, 3, 4, 5, 6, 0⟩⟩, .ok ⟨0, 1, ⟨0, 1, some 7, 8, 9, 10, 11, 12, 13⟩⟩] := by decide +kernel

/-- src/parser.rs:680 `submessage_stream_from_1_message_with_multiple_submessages_from_sect3`. -/
example : items (nums [0, 1, 2, 3, 4, 5, 6, 7, 3, 4, 5, 6, 7, 8]) =
    [.ok ⟨0, 0, ⟨0, 1, some 2, 3, 4, 5, 6, 7, 0⟩⟩, .ok ⟨0, 1, ⟨0, 1, some 2, 8, 9, 10, 11, 12, 13⟩⟩] := by decide +kernel

/-- src/parser.rs:695 `submessage_stream_from_1_message_with_multiple_submessages_from_sect3_without_sect2`. -/
example : items (nums [0, 1, 3, 4, 5, 6, 7, 3, 4, 5, 6, 7, 8]) =
    [.ok ⟨0, 0, ⟨0, 1, none, 2, 3, 4, 5, 6, 0⟩⟩, .ok ⟨0, 1, ⟨0, 1, none, 7, 8, 9, 10, 11, 12⟩⟩] := by decide +kernel

/-- src/parser.rs:709 `submessage_stream_from_1_message_with_multiple_submessages_from_sect4`. -/
example : items (nums [0, 1, 2, 3, 4, 5, 6, 7, 4, 5, 6, 7, 8]) =
    [.ok ⟨0, 0, ⟨0, 1, some 2, 3, 4, 5, 6, 7, 0⟩⟩, .ok ⟨0, 1, ⟨0, 1, some 2, 3, 8, 9, 10, 11, 12⟩⟩] := by decide +kernel

/-- src/parser.rs:724 `submessage_stream_from_1_message_with_multiple_submessages_from_sect4_without_sect2`. -/
example : items (nums [0, 1, 3, 4, 5, 6, 7, 4, 5, 6, 7, 8]) =
    [.ok ⟨0, 0, ⟨0, 1, none, 2, 3, 4, 5, 6, 0⟩⟩, .ok ⟨0, 1, ⟨0, 1, none, 2, 7, 8, 9, 10, 11⟩⟩] := by decide +kernel

/-- src/parser.rs:739 `submessage_stream_from_multiple_messages_and_submessages_with_sect2_toggled`. -/
example : items (nums [0, 1, 2, 3, 4, 5, 6, 7, 2, 3, 4, 5, 6, 7, 8, 0, 1, 3, 4, 5, 6, 7, 8]) =
    [.ok ⟨0, 0, ⟨0, 1, some 2, 3, 4, 5, 6, 7, 0⟩⟩, .ok ⟨0, 1, ⟨0, 1, some 8, 9, 10, 11, 12, 13, 14⟩⟩, .ok ⟨1, 0, ⟨15, 16, none, 17, 18, 19, 20, 21, 22⟩⟩] := by decide +kernel

/-- src/parser.rs:758 `submessage_stream_ending_with_sect0`. -/
example : items (nums [0]) =
    [.err (.unexpectedEndOfData 0)] := by decide +kernel

/-- src/parser.rs:770 `submessage_stream_ending_with_sect1`. -/
example : items (nums [0, 1]) =
    [.err (.unexpectedEndOfData 1)] := by decide +kernel

/-- src/parser.rs:782 `submessage_stream_ending_with_sect2`. -/
example : items (nums [0, 1, 2]) =
    [.err (.unexpectedEndOfData 2)] := by decide +kernel

/-- src/parser.rs:794 `submessage_stream_ending_with_sect3`. -/
example : items (nums [0, 1, 2, 3]) =
    [.err (.unexpectedEndOfData 3)] := by decide +kernel

/-- src/parser.rs:806 `submessage_stream_ending_with_sect3_without_sect2`. -/
example : items (nums [0, 1, 3]) =
    [.err (.unexpectedEndOfData 2)] := by decide +kernel

/-- src/parser.rs:818 `submessage_stream_ending_with_sect4`. -/
example : items (nums [0, 1, 2, 3, 4]) =
    [.err (.unexpectedEndOfData 4)] := by decide +kernel

/-- src/parser.rs:830 `submessage_stream_ending_with_sect4_without_sect2`. -/
example : items (nums [0, 1, 3, 4]) =
    [.err (.unexpectedEndOfData 3)] := by decide +kernel

/-- src/parser.rs:842 `submessage_stream_ending_with_sect7`. -/
example : items (nums [0, 1, 2, 3, 4, 5, 6, 7]) =
    [.err (.unexpectedEndOfData 7)] := by decide +kernel

/-- src/parser.rs:854 `submessage_stream_from_submessage_without_sect3`. -/
example : items (nums [0, 1, 4, 5, 6, 7, 8]) =
    [.err (.noGridDefinition 2)] := by decide +kernel

/-- src/parser.rs:866 `submessage_stream_wrongly_ordered_from_the_beginning`. -/
example : items (nums [1, 0, 2, 3, 4, 5, 6, 7, 8]) =
    [.err (.invalidSectionOrder 0)] := by decide +kernel

/-- src/parser.rs:878 `submessage_stream_wrongly_ordered_after_sect0`. -/
example : items (nums [0, 2, 1, 3, 4, 5, 6, 7, 8]) =
    [.err (.invalidSectionOrder 1)] := by decide +kernel

/-- src/parser.rs:890 `submessage_stream_wrongly_ordered_after_sect1`. -/
example : items (nums [0, 1, 5, 2, 3, 4, 6, 7, 8]) =
    [.err (.invalidSectionOrder 2)] := by decide +kernel

/-- src/parser.rs:902 `submessage_stream_wrongly_ordered_after_sect2`. -/
example : items (nums [0, 1, 2, 4, 3, 5, 6, 7, 8]) =
    [.err (.invalidSectionOrder 3)] := by decide +kernel

/-- src/parser.rs:914 `submessage_stream_wrongly_ordered_after_sect3`. -/
example : items (nums [0, 1, 2, 3, 5, 4, 6, 7, 8]) =
    [.err (.invalidSectionOrder 4)] := by decide +kernel

/-- src/parser.rs:926 `submessage_stream_wrongly_ordered_after_sect3_without_sect2`. -/
example : items (nums [0, 1, 3, 5, 4, 6, 7, 8]) =
    [.err (.invalidSectionOrder 3)] := by decide +kernel

/-- src/parser.rs:938 `submessage_stream_wrongly_ordered_after_sect4`. -/
example : items (nums [0, 1, 2, 3, 4, 6, 5, 7, 8]) =
    [.err (.invalidSectionOrder 5)] := by decide +kernel

/-- src/parser.rs:950 `submessage_stream_wrongly_ordered_after_sect4_without_sect2`. -/
example : items (nums [0, 1, 3, 4, 6, 5, 7, 8]) =
    [.err (.invalidSectionOrder 4)] := by decide +kernel

/-- src/parser.rs:962 `submessage_stream_wrongly_ordered_after_sect5`. -/
example : items (nums [0, 1, 2, 3, 4, 5, 7, 6, 8]) =
    [.err (.invalidSectionOrder 6)] := by decide +kernel

/-- src/parser.rs:974 `submessage_stream_wrongly_ordered_after_sect6`. -/
example : items (nums [0, 1, 2, 3, 4, 5, 6, 8, 7]) =
    [.err (.invalidSectionOrder 7)] := by decide +kernel

/-- src/parser.rs:986 `submessage_stream_with_2nd_submessage_wrongly_ordered_from_the_beginning`. -/
example : items (nums [0, 1, 2, 3, 4, 5, 6, 7, 0, 8]) =
    [.ok ⟨0, 0, ⟨0, 1, some 2, 3, 4, 5, 6, 7, 0⟩⟩, .err (.invalidSectionOrder 8)] := by decide +kernel

/-- src/parser.rs:1001 `submessage_stream_with_2nd_submessage_wrongly_ordered_after_sect2`. -/
example : items (nums [0, 1, 2, 3, 4, 5, 6, 7, 2, 8]) =
    [.ok ⟨0, 0, ⟨0, 1, some 2, 3, 4, 5, 6, 7, 0⟩⟩, .err (.invalidSectionOrder 9)] := by decide +kernel

/-- src/parser.rs:1016 `submessage_stream_with_2nd_submessage_wrongly_ordered_after_sect4_without_sect2_and_sect3`. -/
example : items (nums [0, 1, 2, 3, 4, 5, 6, 7, 4, 8]) =
    [.ok ⟨0, 0, ⟨0, 1, some 2, 3, 4, 5, 6, 7, 0⟩⟩, .err (.invalidSectionOrder 9)] := by decide +kernel

/-- src/parser.rs:1046 `submessage_stream_with_sect_stream_error_at_sect0_in_1st_submessage`. -/
example : items (sects [eof]) =
    [eof] := by decide +kernel

/-- src/parser.rs:1062 `submessage_stream_with_sect_stream_error_at_sect1_in_1st_submessage`. -/
example : items (sects [.ok 0, eof]) =
    [eof] := by decide +kernel

/-- src/parser.rs:1081 `submessage_stream_with_sect_stream_error_at_sect2_in_1st_submessage`. -/
example : items (sects [.ok 0, .ok 1, eof]) =
    [eof] := by decide +kernel

/-- src/parser.rs:1101 `submessage_stream_with_sect_stream_error_at_sect3_in_1st_submessage`. -/
example : items (sects [.ok 0, .ok 1, .ok 2, eof]) =
    [eof] := by decide +kernel

/-- src/parser.rs:1122 `submessage_stream_with_sect_stream_error_at_sect4_in_1st_submessage`. -/
example : items (sects [.ok 0, .ok 1, .ok 2, .ok 3, eof]) =
    [eof] := by decide +kernel

/-- src/parser.rs:1144 `submessage_stream_with_sect_stream_error_at_sect5_in_1st_submessage`. -/
example : items (sects [.ok 0, .ok 1, .ok 2, .ok 3, .ok 4, eof]) =
    [eof] := by decide +kernel

/-- src/parser.rs:1167 `submessage_stream_with_sect_stream_error_at_sect6_in_1st_submessage`. -/
example : items (sects [.ok 0, .ok 1, .ok 2, .ok 3, .ok 4, .ok 5, eof]) =
    [eof] := by decide +kernel

/-- src/parser.rs:1191 `submessage_stream_with_sect_stream_error_at_sect7_in_1st_submessage`. -/
example : items (sects [.ok 0, .ok 1, .ok 2, .ok 3, .ok 4, .ok 5, .ok 6, eof]) =
    [eof] := by decide +kernel

/-- src/parser.rs:1216 `submessage_stream_with_sect_stream_error_at_sect8_in_1st_submessage`. -/
example : items (sects [.ok 0, .ok 1, .ok 2, .ok 3, .ok 4, .ok 5, .ok 6, .ok 7, eof]) =
    [eof] := by decide +kernel

/-- src/parser.rs:1242 `submessage_index_stream_from_multiple_messages_and_submessages_with_sect2_toggled`. -/
example : idxStreamItems (nums [0, 1, 2, 3, 4, 5, 6, 7, 2, 3, 4, 5, 6, 7, 8, 0, 1, 3, 4, 5, 6, 7, 8]) =
    ([.ok ⟨0, 0, ⟨0, 1, some 2, 3, 4, 5, 6, 7, 0⟩⟩, .ok ⟨0, 1, ⟨0, 1, some 8, 9, 10, 11, 12, 13, 14⟩⟩, .ok ⟨1, 0, ⟨15, 16, none, 17, 18, 19, 20, 21, 22⟩⟩], (nums [0, 1, 2, 3, 4, 5, 6, 7, 2, 3, 4, 5, 6, 7, 8, 0, 1, 3, 4, 5, 6, 7, 8]).filterMap fun x => match x with | .ok s => some s | _ => none) := by decide +kernel

end Grib.Conformance
