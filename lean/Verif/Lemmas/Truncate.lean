import Verif.Lemmas.Serialize

/-! # Reading messages whose end is missing -/

namespace Grib.Model

open Grib.Spec

theorem rdRead_cursor {data : List UInt8} {pos n : Nat} (hn : n ≤ 16) :
    rdRead n ⟨data, pos, []⟩ = (.ok ((data.drop pos).take n), ⟨data, pos + min n (data.length - pos), []⟩) := by
  obtain ⟨es, h1, h2⟩ := rdRead_small hn ⟨data, pos, []⟩ Benign.nil
  have : es = [] := List.suffix_nil.1 h1
  subst this
  exact h2

theorem rdReadExact_cursor_short {data : List UInt8} {pos n : Nat} (h : data.length - pos < n) :
    ∃ r', rdReadExact n ⟨data, pos, []⟩ = (.err (.readError .unexpectedEof), r') := by
  obtain ⟨es, h1, h2⟩ := rdReadExact_char n ⟨data, pos, []⟩ (by simp)
  rw [h2, if_neg (by simp only; omega)]
  exact ⟨_, rfl⟩

/-- A header that is not complete. -/
theorem readSectHeader_cursor_short {data : List UInt8} {pos : Nat} (h : data.length < pos + 5) :
    ∃ r', readSectHeader ⟨data, pos, []⟩ = (.ok none, r') ∨
      readSectHeader ⟨data, pos, []⟩ = (.err (.readError .unexpectedEof), r') := by
  unfold readSectHeader
  rw [RM.bind_apply, rdRead_cursor (by omega)]
  simp only
  have hl : ((data.drop pos).take 5).length = min 5 (data.length - pos) := by simp
  by_cases h0 : ((data.drop pos).take 5).length = 0
  · rw [if_pos h0]; exact ⟨_, Or.inl rfl⟩
  · rw [if_neg h0, if_pos (by omega)]; exact ⟨_, Or.inr rfl⟩

/-- An end section that is not complete. -/
theorem readSect8_cursor_short {data : List UInt8} {pos : Nat} (h : data.length < pos + 4) :
    ∃ r', readSect8 ⟨data, pos, []⟩ = (.ok none, r') ∨
      readSect8 ⟨data, pos, []⟩ = (.err (.readError .unexpectedEof), r') := by
  unfold readSect8
  rw [RM.bind_apply, rdRead_cursor (by omega)]
  simp only
  have hl : ((data.drop pos).take 4).length = min 4 (data.length - pos) := by simp
  by_cases h0 : ((data.drop pos).take 4).length = 0
  · rw [if_pos h0]; exact ⟨_, Or.inl rfl⟩
  · rw [if_neg h0, if_pos (by omega)]; exact ⟨_, Or.inr rfl⟩

/-- A payload that is not complete, other than that of section 7. -/
theorem readSectPayload_cursor_short {data : List UInt8} {pos num size : Nat} (h1 : 1 ≤ num) (h6 : num ≤ 6)
    (hs : 5 ≤ size) (hlen : data.length - pos < size - 5) :
    ∃ r', readSectPayload size num ⟨data, pos, []⟩ = (.err (.readError .unexpectedEof), r') := by
  unfold readSectPayload
  rw [if_neg (by omega)]
  obtain ⟨r', hr'⟩ := rdReadExact_cursor_short hlen
  have hc : num = 1 ∨ num = 2 ∨ num = 3 ∨ num = 4 ∨ num = 5 ∨ num = 6 := by omega
  rcases hc with rfl | rfl | rfl | rfl | rfl | rfl
  · exact ⟨r', by simp only [RM.bind_apply, hr']⟩
  · exact ⟨r', by simp only [RM.bind_apply, hr']⟩
  · exact ⟨r', by simp only [RM.bind_apply, hr']⟩
  · exact ⟨r', by simp only [RM.bind_apply, hr']⟩
  · exact ⟨r', by simp only [RM.bind_apply, hr']⟩
  · show ∃ r', readSect6Payload (size - 5) ⟨data, pos, []⟩ = (.err (.readError .unexpectedEof), r')
    unfold readSect6Payload
    by_cases h : data.length - pos < 1
    · obtain ⟨r1, hr1⟩ := rdReadExact_cursor_short h
      exact ⟨r1, by simp only [RM.bind_apply, hr1]⟩
    · rw [RM.bind_apply, rdReadExact_cursor (by omega)]
      simp only
      rw [if_neg (by omega), if_pos (by omega)]
      obtain ⟨r1, hr1⟩ := rdReadExact_cursor_short (data := data) (pos := pos + 1) (n := size - 5 - 1) (by omega)
      exact ⟨r1, by simp only [RM.bind_apply, hr1]⟩

/-- Inside a message but behind the end of the data the stream is over. -/
theorem nextR_beyond {data : List UInt8} {pos w rest : Nat} (h : data.length ≤ pos) (hr : rest ≠ 0) :
    ∃ r', nextR w rest ⟨data, pos, []⟩ = (.ok none, r') := by
  have hd : data.drop pos = [] := List.drop_of_length_le h
  unfold nextR
  rw [if_neg hr]
  by_cases h4 : rest = 4
  · rw [if_pos h4]
    unfold nextR8 readSect8
    rw [RM.bind_apply, RM.bind_apply, rdRead_cursor (by omega), hd]
    exact ⟨_, rfl⟩
  · rw [if_neg h4]
    unfold nextRS readSectHeader
    rw [RM.bind_apply, RM.bind_apply, rdRead_cursor (by omega), hd]
    exact ⟨_, rfl⟩

theorem collectR_none {w rest fuel : Nat} {r r' : Rdr} (h : nextR w rest r = (.ok none, r')) :
    collectR (fuel + 1) w rest r = ([], r') := by rw [collectR, h]

theorem collectR_err {w rest fuel : Nat} {r r' : Rdr} {e : ParseError} (h : nextR w rest r = (.err e, r')) :
    collectR (fuel + 1) w rest r = ([.err e], r') := by rw [collectR, h]

/-- The items of a truncated message: sections other than 8, then nothing or an error. -/
def Cut (items : List Item) : Prop :=
  ∃ (ys : List SectionInfo) (tail : List Item), (∀ y ∈ ys, y.num ≠ 8) ∧ (tail = [] ∨ ∃ e, tail = [.err e]) ∧
    items = ys.map .ok ++ tail

theorem Cut.nil : Cut [] := ⟨[], [], by simp, Or.inl rfl, rfl⟩

theorem Cut.err (e : ParseError) : Cut [.err e] := ⟨[], [.err e], by simp, Or.inr ⟨e, rfl⟩, rfl⟩

theorem Cut.cons {s : SectionInfo} {items : List Item} (hs : s.num ≠ 8) (h : Cut items) : Cut (.ok s :: items) := by
  obtain ⟨ys, tail, h1, h2, h3⟩ := h
  refine ⟨s :: ys, tail, ?_, h2, by rw [h3]; rfl⟩
  intro y hy
  rcases List.mem_cons.1 hy with rfl | hy
  · exact hs
  · exact h1 y hy

theorem cut_sects (l : List (Nat × List UInt8)) (hl : ∀ x ∈ l, 1 ≤ x.1 ∧ x.1 ≤ 7 ∧ RawOk x)
    (A : List UInt8) (w rest k fuel : Nat) (hrest : (rawBytes l).length + 4 = rest) (hw : w = A.length + rest)
    (hk : k < rest) :
    Cut (collectR (fuel + l.length + 2) w rest ⟨A ++ (rawBytes l ++ [0x37, 0x37, 0x37, 0x37]).take k, A.length, []⟩).1 := by
  induction l generalizing A rest k fuel with
  | nil =>
    simp only [rawBytes, List.flatMap_nil, List.length_nil, Nat.zero_add, List.nil_append] at hrest ⊢
    subst hrest
    obtain ⟨r', hr'⟩ := readSect8_cursor_short (data := A ++ ([0x37, 0x37, 0x37, 0x37] : List UInt8).take k)
      (pos := A.length) (by simp; omega)
    have hn : nextR w 4 ⟨A ++ ([0x37, 0x37, 0x37, 0x37] : List UInt8).take k, A.length, []⟩ = (.ok none, r') ∨
        nextR w 4 ⟨A ++ ([0x37, 0x37, 0x37, 0x37] : List UInt8).take k, A.length, []⟩ =
          (.err (.readError .unexpectedEof), r') := by
      unfold nextR
      rw [if_neg (by omega), if_pos rfl, nextR8, RM.bind_apply]
      rcases hr' with hr' | hr' <;> rw [hr']
      · exact Or.inl rfl
      · exact Or.inr rfl
    rcases hn with hn | hn
    · rw [collectR_none hn]; exact Cut.nil
    · rw [collectR_err hn]; exact Cut.err _
  | cons x xs ih =>
    obtain ⟨num, payload⟩ := x
    obtain ⟨h1, h7, hok⟩ := hl (num, payload) (by simp)
    simp only at h1 h7
    have hsl := sectBytes_length num payload
    have hlen : (rawBytes ((num, payload) :: xs)).length = payload.length + 5 + (rawBytes xs).length := by
      rw [rawBytes_cons, List.length_append, hsl]
    rw [hlen] at hrest
    have e : rawBytes ((num, payload) :: xs) ++ [0x37, 0x37, 0x37, 0x37] =
        sectBytes num payload ++ (rawBytes xs ++ [0x37, 0x37, 0x37, 0x37]) := by
      rw [rawBytes_cons, List.append_assoc]
    rw [e, List.take_append, hsl, List.length_cons, show fuel + (xs.length + 1) + 2 = (fuel + xs.length + 2) + 1 by omega]
    by_cases hfull : payload.length + 5 ≤ k
    · rw [List.take_of_length_le (by omega)]
      have hstep := nextR_sect (A := A)
        (C := (rawBytes xs ++ [0x37, 0x37, 0x37, 0x37]).take (k - (payload.length + 5))) (w := w) (rest := rest) h1 h7 hok
        (by omega) hw
      rw [collectR, hstep]
      refine Cut.cons (by simp only [place]; omega) ?_
      have := ih (fun y hy => hl y (List.mem_cons_of_mem _ hy)) (A ++ sectBytes num payload) (rest - (payload.length + 5))
        (k - (payload.length + 5)) fuel (by omega) (by rw [List.length_append, hsl]; omega) (by omega)
      rw [List.length_append, hsl, List.append_assoc] at this
      exact this
    · rw [show k - (payload.length + 5) = 0 by omega, List.take_zero, List.append_nil]
      have hpl : (A ++ (sectBytes num payload).take k).length = A.length + k := by
        rw [List.length_append, List.length_take, hsl]; omega
      have hns : nextR w rest ⟨A ++ (sectBytes num payload).take k, A.length, []⟩ =
          nextRS w rest ⟨A ++ (sectBytes num payload).take k, A.length, []⟩ := by
        unfold nextR
        rw [if_neg (by omega), if_neg (by omega)]
      by_cases h5 : k < 5
      · obtain ⟨r', hr'⟩ := readSectHeader_cursor_short (data := A ++ (sectBytes num payload).take k)
          (pos := A.length) (by omega)
        have hn : nextR w rest ⟨A ++ (sectBytes num payload).take k, A.length, []⟩ = (.ok none, r') ∨
            nextR w rest ⟨A ++ (sectBytes num payload).take k, A.length, []⟩ =
              (.err (.readError .unexpectedEof), r') := by
          rw [hns, nextRS, RM.bind_apply]
          rcases hr' with hr' | hr' <;> rw [hr']
          · exact Or.inl rfl
          · exact Or.inr rfl
        rcases hn with hn | hn
        · rw [collectR_none hn]; exact Cut.nil
        · rw [collectR_err hn]; exact Cut.err _
      · have hb4 : (beBytes 4 (payload.length + 5)).length = 4 := beBytes_length _ _
        have et : (sectBytes num payload).take k =
            beBytes 4 (payload.length + 5) ++ (UInt8.ofNat num :: payload.take (k - 5)) := by
          rw [sectBytes, List.append_assoc, List.take_append, List.take_of_length_le (by omega), hb4,
            show k - 4 = (k - 5) + 1 by omega, List.singleton_append, List.take_succ_cons]
        have hsz : number (A ++ (sectBytes num payload).take k) A.length 4 = payload.length + 5 := by
          rw [et, number_append _ _ _ _ hb4, be_beBytes _ _ (by have := hok.2; simp only at this; omega)]
        have hnum : octet (A ++ (sectBytes num payload).take k) (A.length + 4) = num := by
          rw [et, ← List.append_assoc, octet_append _ _ _ _ (by simp [hb4]), UInt8.toNat_ofNat']
          omega
        by_cases hn7 : num = 7
        · subst hn7
          have hstep : nextR w rest ⟨A ++ (sectBytes 7 payload).take k, A.length, []⟩ =
              (.ok (some (⟨7, w - rest, payload.length + 5, some .section7⟩, w, rest - (payload.length + 5))),
                ⟨A ++ (sectBytes 7 payload).take k, A.length + 5 + payload.length, []⟩) := by
            rw [hns, nextRS, RM.bind_apply, readSectHeader_cursor (by omega)]
            simp only [hsz, hnum]
            have : readSectPayload (payload.length + 5) 7 ⟨A ++ (sectBytes 7 payload).take k, A.length + 5, []⟩ =
                (.ok .section7, ⟨A ++ (sectBytes 7 payload).take k, A.length + 5 + payload.length, []⟩) := by
              unfold readSectPayload
              rw [if_neg (by omega)]
              simp only [skipSect7Payload, RM.bind_apply, rdSeekCur_cursor, RM.pure_apply, Nat.add_sub_cancel]
            rw [RM.bind_apply, this]
            simp only
            rw [if_neg (by omega)]
            rfl
          rw [collectR, hstep]
          refine Cut.cons (by simp) ?_
          obtain ⟨r', hr'⟩ := nextR_beyond (data := A ++ (sectBytes 7 payload).take k)
            (pos := A.length + 5 + payload.length) (w := w) (rest := rest - (payload.length + 5)) (by omega) (by omega)
          rw [collectR_none hr']
          exact Cut.nil
        · obtain ⟨r', hr'⟩ := readSectPayload_cursor_short (data := A ++ (sectBytes num payload).take k)
            (pos := A.length + 5) (num := num) (size := payload.length + 5) h1 (by omega) (by omega) (by omega)
          have hn : nextR w rest ⟨A ++ (sectBytes num payload).take k, A.length, []⟩ =
              (.err (.readError .unexpectedEof), r') := by
            rw [hns, nextRS, RM.bind_apply, readSectHeader_cursor (by omega)]
            simp only [hsz, hnum]
            rw [RM.bind_apply, hr']
          rw [collectR_err hn]
          exact Cut.err _

/-- An accepted sequence is empty or ends with a section 8. -/
theorem accepted_last {sects : List SectionInfo} (h : Accepted sects) (s : SectionInfo) (hs : sects.getLast? = some s) :
    s.num = 8 := by
  obtain ⟨ms, hm, rfl⟩ := h
  rcases List.eq_nil_or_concat ms with rfl | ⟨ms', m, rfl⟩
  · simp at hs
  · have := (hm m (by simp)).fin
    rw [List.concat_eq_append, List.flatMap_append] at hs
    simp only [List.flatMap_cons, List.flatMap_nil, List.append_nil, Message.sections] at hs
    rw [List.getLast?_append] at hs
    have h8 : (m.indicator :: m.ident :: (m.groups.flatMap Group.sections ++ [m.fin])).getLast? = some m.fin := by
      rw [show m.indicator :: m.ident :: (m.groups.flatMap Group.sections ++ [m.fin]) =
        (m.indicator :: m.ident :: m.groups.flatMap Group.sections) ++ [m.fin] by simp, List.getLast?_concat]
    rw [h8] at hs
    simp only [Option.some_or, Option.some.injEq] at hs
    rw [← hs]; exact this

end Grib.Model
