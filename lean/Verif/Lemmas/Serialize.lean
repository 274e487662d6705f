import Verif.Lemmas.ReaderBenign
import Verif.Spec.Serialize

/-! # Reading what was written -/

namespace Grib.Model

open Grib.Spec

/-! ## Octets -/

theorem beBytes_length (n v : Nat) : (beBytes n v).length = n := by
  induction n generalizing v with
  | zero => rfl
  | succ n ih => simp [beBytes, ih]

theorem be_append_single (bs : List UInt8) (b : UInt8) : be (bs ++ [b]) = be bs * 256 + b.toNat := by
  simp [be, List.foldl_append]

theorem be_beBytes (n v : Nat) (h : v < 256 ^ n) : be (beBytes n v) = v := by
  induction n generalizing v with
  | zero => simp at h; subst h; rfl
  | succ n ih =>
    rw [beBytes, be_append_single, ih (v / 256) (by rw [Nat.pow_succ] at h; omega)]
    have : (UInt8.ofNat (v % 256)).toNat = v % 256 := by
      rw [UInt8.toNat_ofNat']; omega
    omega

theorem sectBytes_length (num : Nat) (p : List UInt8) : (sectBytes num p).length = p.length + 5 := by
  simp [sectBytes, beBytes_length]; omega

theorem number_append (A B C : List UInt8) (n : Nat) (hn : B.length = n) :
    number (A ++ (B ++ C)) A.length n = be B := by
  rw [number_eq _ _ _ (by simp; omega), List.drop_left, ← hn, List.take_left]

theorem octet_append (A : List UInt8) (b : UInt8) (C : List UInt8) (p : Nat) (hp : p = A.length) :
    octet (A ++ (b :: C)) p = b.toNat := by
  subst hp
  simp [octet]

/-! ## Steps of the stream -/

/-- The stream reports the sections `ss` one after the other. -/
inductive Steps : (w rest : Nat) → Rdr → List SectionInfo → (w' rest' : Nat) → Rdr → Prop
  | nil (w rest : Nat) (r : Rdr) : Steps w rest r [] w rest r
  | cons {w rest w1 rest1 w2 rest2 : Nat} {r r1 r2 : Rdr} {s : SectionInfo} {ss : List SectionInfo} :
      nextR w rest r = (.ok (some (s, w1, rest1)), r1) → Steps w1 rest1 r1 ss w2 rest2 r2 →
      Steps w rest r (s :: ss) w2 rest2 r2

theorem Steps.append {w rest w1 rest1 w2 rest2 : Nat} {r r1 r2 : Rdr} {a b : List SectionInfo}
    (h1 : Steps w rest r a w1 rest1 r1) (h2 : Steps w1 rest1 r1 b w2 rest2 r2) :
    Steps w rest r (a ++ b) w2 rest2 r2 := by
  induction h1 with
  | nil => exact h2
  | cons h _ ih => exact Steps.cons h (ih h2)

theorem Steps.collect {w rest w' rest' : Nat} {r r' : Rdr} {ss : List SectionInfo}
    (h : Steps w rest r ss w' rest' r') (f : Nat) :
    collectR (ss.length + f) w rest r =
      (ss.map .ok ++ (collectR f w' rest' r').1, (collectR f w' rest' r').2) := by
  induction h with
  | nil => simp
  | cons h _ ih =>
    rw [List.length_cons, show ∀ n, n + 1 + f = (n + f) + 1 by omega, collectR, h]
    simp only [ih, List.map_cons, List.cons_append]

/-! ## Characterisations on a cursor -/

theorem readSectHeader_cursor {data : List UInt8} {pos : Nat} (h : pos + 5 ≤ data.length) :
    readSectHeader ⟨data, pos, []⟩ = (.ok (some (number data pos 4, octet data (pos + 4))), ⟨data, pos + 5, []⟩) := by
  obtain ⟨es, h1, h2⟩ := rdRead_small (n := 5) (by omega) ⟨data, pos, []⟩ Benign.nil
  have : es = [] := List.suffix_nil.1 h1
  subst this
  unfold readSectHeader
  rw [RM.bind_apply, h2]
  simp only
  have hl : ((data.drop pos).take 5).length = 5 := by rw [List.length_take, List.length_drop]; omega
  rw [if_neg (by omega), if_neg (by omega)]
  have e0 : readBE? ((data.drop pos).take 5) 0 4 = some (number data pos 4) := by
    simp only [readBE?, slice?, hl, Option.map_eq_some_iff, ite_cond_eq_true, Nat.reduceLeDiff, Nat.zero_add,
      Option.some.injEq]
    refine ⟨_, rfl, ?_⟩
    rw [number_eq _ _ _ (by omega), take_drop_prefix (by omega)]
    rfl
  have hd : pos + 4 < data.length := by omega
  have e4 : ((data.drop pos).take 5)[4]? = some (data[pos + 4]'hd) := by
    rw [List.getElem?_take_of_lt (by omega), List.getElem?_drop, List.getElem?_eq_getElem]
  rw [e0, e4]
  simp only [Outcome.ofOption_some, RM.bind_apply, RM.lift, RM.pure_apply]
  rw [octet_eq _ _ hd]
  congr 2
  omega

theorem rdReadExact_cursor {data : List UInt8} {pos n : Nat} (h : n ≤ data.length - pos) :
    rdReadExact n ⟨data, pos, []⟩ = (.ok ((data.drop pos).take n), ⟨data, pos + n, []⟩) := by
  obtain ⟨es, h1, h2⟩ := rdReadExact_char n ⟨data, pos, []⟩ (by simp)
  have : es = [] := List.suffix_nil.1 h1
  subst this
  rw [h2, if_pos h]

theorem rdSeekCur_cursor {data : List UInt8} {pos : Nat} (d : Nat) :
    rdSeekCur (d : Int) ⟨data, pos, []⟩ = (.ok (), ⟨data, pos + d, []⟩) := by
  obtain ⟨es, h1, h2⟩ := rdSeekCur_char (d : Int) ⟨data, pos, []⟩ (by simp)
  have : es = [] := List.suffix_nil.1 h1
  subst this
  rw [h2, if_neg (by omega)]
  congr 2

/-- Reading the payload of a section that is there. -/
theorem readSectPayload_cursor {data payload : List UInt8} {pos num : Nat} (h1 : 1 ≤ num) (h7 : num ≤ 7)
    (hd : (data.drop pos).take payload.length = payload) (hm : minPayload num ≤ payload.length) :
    ∃ b, bodyOf num payload = some b ∧
      readSectPayload (payload.length + 5) num ⟨data, pos, []⟩ = (.ok b, ⟨data, pos + payload.length, []⟩) := by
  have hlen : payload.length ≤ data.length - pos := by
    have := congrArg List.length hd
    rw [List.length_take, List.length_drop] at this
    omega
  have hex := rdReadExact_cursor hlen
  rw [hd] at hex
  have hchk : ∀ m, m ≤ payload.length → checkPayload m payload = .ok payload := by
    intro m hm
    rw [checkPayload, if_neg (by omega)]
  unfold readSectPayload
  rw [if_neg (by omega)]
  simp only [Nat.add_sub_cancel]
  have hc : num = 1 ∨ num = 2 ∨ num = 3 ∨ num = 4 ∨ num = 5 ∨ num = 6 ∨ num = 7 := by omega
  rcases hc with rfl | rfl | rfl | rfl | rfl | rfl | rfl
  · refine ⟨_, rfl, ?_⟩
    simp only [RM.bind_apply, hex, RM.lift, hchk 16 hm, RM.pure_apply]
  · refine ⟨_, rfl, ?_⟩
    simp only [RM.bind_apply, hex, RM.pure_apply]
  · refine ⟨_, rfl, ?_⟩
    simp only [RM.bind_apply, hex, RM.lift, hchk 9 hm, RM.pure_apply]
  · refine ⟨_, rfl, ?_⟩
    simp only [RM.bind_apply, hex, RM.lift, hchk 4 hm, RM.pure_apply]
  · refine ⟨_, rfl, ?_⟩
    simp only [RM.bind_apply, hex, RM.lift, hchk 6 hm, RM.pure_apply]
  · refine ⟨_, rfl, ?_⟩
    have hm1 : 1 ≤ payload.length := hm
    have h1' := rdReadExact_cursor (data := data) (pos := pos) (n := 1) (by omega)
    have hb : be ((data.drop pos).take 1) = (payload.headD 0).toNat := by
      rw [← hd]
      cases hdr : data.drop pos with
      | nil => rw [hdr] at hd; simp at hd; rw [hd] at hm1; simp at hm1
      | cons b bs =>
        cases payload with
        | nil => simp at hm1
        | cons c cs => simp [be]
    show readSect6Payload payload.length ⟨data, pos, []⟩ = _
    unfold readSect6Payload
    rw [RM.bind_apply, h1']
    simp only
    rw [if_neg (by omega)]
    by_cases hx : payload.length - 1 > 0
    · rw [if_pos hx, RM.bind_apply, rdReadExact_cursor (by omega)]
      simp only [RM.pure_apply, hb]
      rw [show pos + 1 + (payload.length - 1) = pos + payload.length by omega]
    · rw [if_neg hx]
      simp only [RM.pure_apply, hb]
      rw [show pos + payload.length = pos + 1 by omega]
  · refine ⟨_, rfl, ?_⟩
    simp only [skipSect7Payload, RM.bind_apply, rdSeekCur_cursor, RM.pure_apply]

/-- Reading a section that was written at the position. -/
theorem nextR_sect {A C payload : List UInt8} {w rest num : Nat} (h1 : 1 ≤ num) (h7 : num ≤ 7)
    (hok : RawOk (num, payload)) (hrest : payload.length + 5 + 4 ≤ rest) (hw : w = A.length + rest) :
    nextR w rest ⟨A ++ (sectBytes num payload ++ C), A.length, []⟩ =
      (.ok (some (place A.length num payload, w, rest - (payload.length + 5))),
        ⟨A ++ (sectBytes num payload ++ C), A.length + (payload.length + 5), []⟩) := by
  obtain ⟨hm, hlt⟩ := hok
  simp only at hm hlt
  have hsz : number (A ++ (sectBytes num payload ++ C)) A.length 4 = payload.length + 5 := by
    simp only [sectBytes, List.append_assoc]
    rw [number_append _ _ _ _ (beBytes_length _ _), be_beBytes _ _ (by omega)]
  have hnum : octet (A ++ (sectBytes num payload ++ C)) (A.length + 4) = num := by
    have : A ++ (sectBytes num payload ++ C) =
        (A ++ beBytes 4 (payload.length + 5)) ++ (UInt8.ofNat num :: (payload ++ C)) := by simp [sectBytes]
    rw [this, octet_append _ _ _ _ (by simp [beBytes_length]), UInt8.toNat_ofNat']
    omega
  have hpl : ((A ++ (sectBytes num payload ++ C)).drop (A.length + 5)).take payload.length = payload := by
    have : A ++ (sectBytes num payload ++ C) =
        (A ++ beBytes 4 (payload.length + 5) ++ [UInt8.ofNat num]) ++ (payload ++ C) := by simp [sectBytes]
    rw [this, List.drop_left' (by simp [beBytes_length]), List.take_left]
  unfold nextR
  rw [if_neg (by omega), if_neg (by omega), nextRS, RM.bind_apply, readSectHeader_cursor (by
    simp [sectBytes_length]; omega)]
  simp only [hsz, hnum]
  obtain ⟨b, hb1, hb2⟩ := readSectPayload_cursor h1 h7 hpl hm
  rw [RM.bind_apply, hb2]
  simp only
  rw [if_neg (by omega)]
  simp only [RM.pure_apply, place, hb1]
  rw [show w - rest = A.length by omega, show A.length + 5 + payload.length = A.length + (payload.length + 5) by omega]

/-- The sections written one after the other from `off`. -/
def placeAll : (off : Nat) → List (Nat × List UInt8) → List SectionInfo
  | _, [] => []
  | off, x :: xs => place off x.1 x.2 :: placeAll (off + (x.2.length + 5)) xs

theorem rawBytes_cons (x : Nat × List UInt8) (xs : List (Nat × List UInt8)) :
    rawBytes (x :: xs) = sectBytes x.1 x.2 ++ rawBytes xs := by simp [rawBytes]

theorem steps_sects (l : List (Nat × List UInt8)) (hl : ∀ x ∈ l, 1 ≤ x.1 ∧ x.1 ≤ 7 ∧ RawOk x)
    (A C : List UInt8) (w rest : Nat) (hrest : (rawBytes l).length + 4 ≤ rest) (hw : w = A.length + rest) :
    Steps w rest ⟨A ++ (rawBytes l ++ C), A.length, []⟩ (placeAll A.length l) w (rest - (rawBytes l).length)
      ⟨A ++ (rawBytes l ++ C), A.length + (rawBytes l).length, []⟩ := by
  induction l generalizing A rest with
  | nil => simpa [rawBytes, placeAll] using Steps.nil w rest ⟨A ++ C, A.length, []⟩
  | cons x xs ih =>
    obtain ⟨h1, h7, hok⟩ := hl x (by simp)
    have hlen : (rawBytes (x :: xs)).length = x.2.length + 5 + (rawBytes xs).length := by
      rw [rawBytes_cons, List.length_append, sectBytes_length]
    rw [hlen] at hrest ⊢
    have e : A ++ (rawBytes (x :: xs) ++ C) = A ++ (sectBytes x.1 x.2 ++ (rawBytes xs ++ C)) := by
      rw [rawBytes_cons, List.append_assoc]
    rw [e]
    have hstep := nextR_sect (A := A) (C := rawBytes xs ++ C) (w := w) (rest := rest) h1 h7 hok (by omega) hw
    refine Steps.cons hstep ?_
    have := ih (fun y hy => hl y (List.mem_cons_of_mem _ hy)) (A ++ sectBytes x.1 x.2) (rest - (x.2.length + 5))
      (by omega) (by rw [List.length_append, sectBytes_length]; omega)
    rw [List.length_append, sectBytes_length, List.append_assoc] at this
    rw [show A.length + (x.2.length + 5 + (rawBytes xs).length) = A.length + (x.2.length + 5) + (rawBytes xs).length by
      omega, show rest - (x.2.length + 5 + (rawBytes xs).length) = rest - (x.2.length + 5) - (rawBytes xs).length by omega]
    exact this

/-! ## Messages -/

theorem head_length (m : RawMessage) : m.head.length = 16 := by simp [RawMessage.head, beBytes_length]

theorem bytes_length (m : RawMessage) : m.bytes.length = m.total := by
  simp only [RawMessage.bytes, List.length_append, head_length, RawMessage.total]; rfl

theorem head_magic (A : List UInt8) (m : RawMessage) (C : List UInt8) : MagicAt (A ++ (m.head ++ C)) A.length := by
  rw [magicAt_iff]
  refine ⟨by simp [head_length], ?_⟩
  rw [List.drop_left]
  simp [RawMessage.head, magic0]

/-- "GRIB" does not overlap itself: before a message, a gap without message start contains none. -/
theorem gap_noMagic {A gap : List UInt8} {m : RawMessage} {C : List UInt8} (hg : NoMagic gap) (q : Nat)
    (h1 : A.length ≤ q) (h2 : q < A.length + gap.length) : ¬ MagicAt (A ++ (gap ++ (m.head ++ C))) q := by
  rw [magicAt_iff]
  rintro ⟨-, h⟩
  obtain ⟨k, rfl⟩ : ∃ k, q = A.length + k := ⟨q - A.length, by omega⟩
  rw [← List.drop_drop, List.drop_left, List.drop_append_of_le_length (by omega)] at h
  have hne := hg k
  have hlen : (gap.drop k).length = gap.length - k := List.length_drop
  match hgk : gap.drop k with
  | [] => rw [hgk] at hlen; simp at hlen; omega
  | [a] =>
    rw [hgk] at h
    simp [RawMessage.head, magic0] at h
  | [a, b] =>
    rw [hgk] at h
    simp [RawMessage.head, magic0] at h
  | [a, b, c] =>
    rw [hgk] at h
    simp [RawMessage.head, magic0] at h
  | a :: b :: c :: d :: l =>
    rw [hgk] at h hne
    simp only [List.cons_append, List.take_succ_cons, List.take_zero, magic0] at h
    exact hne h

theorem firstMagic_gap {A gap : List UInt8} {m : RawMessage} {C : List UInt8} (hg : NoMagic gap) :
    FirstMagic (A ++ (gap ++ (m.head ++ C))) A.length (A.length + gap.length) := by
  refine ⟨by omega, ?_, fun q h1 h2 => gap_noMagic hg q h1 h2⟩
  have := head_magic (A ++ gap) m C
  rw [List.append_assoc, List.length_append] at this
  exact this

/-- The section 0 of a message written at `off`. -/
def sect0Of (off : Nat) (m : RawMessage) : SectionInfo := ⟨0, off, 16, some (.section0 ⟨m.discipline.toNat, m.total⟩)⟩

theorem readSect0_cursor_found {data : List UInt8} {pos p : Nat} (hm : FirstMagic data pos p)
    (he : octet data (p + 7) = 2) :
    readSect0 ⟨data, pos, []⟩ = (.ok (some (p - pos, indicatorAt data p)), ⟨data, p + 16, []⟩) := by
  obtain ⟨es, h1, h2⟩ := readSect0Loop_found (r := ⟨data, pos, []⟩) (fuel := data.length - pos + 1) (off := 0)
    (by simp only; omega) Benign.nil hm
  have : es = [] := List.suffix_nil.1 h1
  subst this
  rw [readSect0, h2, if_pos he, Nat.zero_add]

theorem readSect0_cursor_none {data : List UInt8} {pos : Nat} (hm : ∀ p, pos ≤ p → ¬ MagicAt data p) :
    readSect0 ⟨data, pos, []⟩ = (.ok none, ⟨data, pos + (data.length - pos), []⟩) := by
  obtain ⟨es, h1, h2⟩ := readSect0Loop_none (r := ⟨data, pos, []⟩) (fuel := data.length - pos + 1) (off := 0)
    (by simp only; omega) Benign.nil hm
  have : es = [] := List.suffix_nil.1 h1
  subst this
  rw [readSect0, h2]

theorem startR_cursor {data : List UInt8} {w pos : Nat} (hw : w = 0 ∨ w = pos) :
    startR w ⟨data, pos, []⟩ = (.ok pos, ⟨data, pos, []⟩) := by
  unfold startR
  by_cases h0 : w = 0
  · rw [if_pos h0]
    obtain ⟨es, h1, h2⟩ := rdPos_char ⟨data, pos, []⟩ (by simp)
    have : es = [] := List.suffix_nil.1 h1
    subst this
    rw [RM.mapErr, h2]; rfl
  · rw [if_neg h0]
    have : w = pos := by omega
    subst this; rfl

theorem nextR_head {A gap C : List UInt8} {m : RawMessage} {w : Nat} (hw : w = 0 ∨ w = A.length) (hg : NoMagic gap)
    (ht : A.length + gap.length + m.total < 2 ^ 64) :
    nextR w 0 ⟨A ++ (gap ++ (m.head ++ C)), A.length, []⟩ =
      (.ok (some (sect0Of (A.length + gap.length) m, A.length + gap.length + m.total, m.total - 16)),
        ⟨A ++ (gap ++ (m.head ++ C)), A.length + gap.length + 16, []⟩) := by
  have hassoc : A ++ (gap ++ (m.head ++ C)) = (A ++ gap) ++ (m.head ++ C) := by simp
  have hl : (A ++ gap).length = A.length + gap.length := by simp
  have h6 : octet (A ++ (gap ++ (m.head ++ C))) (A.length + gap.length + 6) = m.discipline.toNat := by
    have : A ++ (gap ++ (m.head ++ C)) = (A ++ gap ++ [0x47, 0x52, 0x49, 0x42, m.reserved.1, m.reserved.2]) ++
        (m.discipline :: ([2] ++ beBytes 8 m.total ++ C)) := by simp [RawMessage.head]
    rw [this, octet_append _ _ _ _ (by simp; omega)]
  have h7 : octet (A ++ (gap ++ (m.head ++ C))) (A.length + gap.length + 7) = 2 := by
    have : A ++ (gap ++ (m.head ++ C)) = (A ++ gap ++ [0x47, 0x52, 0x49, 0x42, m.reserved.1, m.reserved.2,
        m.discipline]) ++ (2 :: (beBytes 8 m.total ++ C)) := by simp [RawMessage.head]
    rw [this, octet_append _ _ _ _ (by simp; omega)]
    rfl
  have h8 : number (A ++ (gap ++ (m.head ++ C))) (A.length + gap.length + 8) 8 = m.total := by
    have : A ++ (gap ++ (m.head ++ C)) = (A ++ gap ++ [0x47, 0x52, 0x49, 0x42, m.reserved.1, m.reserved.2,
        m.discipline, 2]) ++ (beBytes 8 m.total ++ C) := by simp [RawMessage.head]
    have hp : A.length + gap.length + 8 = (A ++ gap ++ [0x47, 0x52, 0x49, 0x42, m.reserved.1, m.reserved.2,
        m.discipline, 2]).length := by simp; omega
    rw [this, hp, number_append _ _ _ _ (beBytes_length _ _), be_beBytes _ _ (by omega)]
  have htot : 20 ≤ m.total := by simp only [RawMessage.total]; omega
  unfold nextR
  rw [if_pos rfl, nextR0, RM.bind_apply, startR_cursor hw]
  simp only
  rw [RM.bind_apply, readSect0_cursor_found (firstMagic_gap hg) h7]
  simp only [indicatorAt, h6, h8]
  rw [show A.length + (A.length + gap.length - A.length) = A.length + gap.length by omega,
    if_neg (by simp only [USIZE]; omega)]
  simp only [RM.pure_apply, sect0Of]

theorem readSect8_cursor {A C : List UInt8} :
    readSect8 ⟨A ++ ([0x37, 0x37, 0x37, 0x37] ++ C), A.length, []⟩ =
      (.ok (some ()), ⟨A ++ ([0x37, 0x37, 0x37, 0x37] ++ C), A.length + 4, []⟩) := by
  obtain ⟨es, h1, h2⟩ := rdRead_small (n := 4) (by omega) ⟨A ++ ([0x37, 0x37, 0x37, 0x37] ++ C), A.length, []⟩ Benign.nil
  have : es = [] := List.suffix_nil.1 h1
  subst this
  unfold readSect8
  rw [RM.bind_apply, h2]
  simp only [List.drop_left]
  have ht : ([0x37, 0x37, 0x37, 0x37] ++ C).take 4 = ([0x37, 0x37, 0x37, 0x37] : List UInt8) := rfl
  rw [ht]
  have hmin : min 4 ((A ++ ([0x37, 0x37, 0x37, 0x37] ++ C)).length - A.length) = 4 := by simp
  rw [hmin]
  rfl

theorem raw_range {m : RawMessage} : ∀ x ∈ m.raw, 1 ≤ x.1 ∧ x.1 ≤ 7 := by
  intro x hx
  simp only [RawMessage.raw, List.mem_cons, List.mem_flatMap] at hx
  rcases hx with rfl | ⟨g, -, hx⟩
  · simp
  · simp only [rawGroup, List.mem_append, Option.mem_toList, Option.map_eq_some_iff, List.mem_cons,
      List.not_mem_nil, or_false] at hx
    rcases hx with (⟨p, -, rfl⟩ | ⟨p, -, rfl⟩) | rfl | rfl | rfl | rfl <;> simp

/-- Reading a message (with the gap before it). -/
theorem steps_message {A gap C : List UInt8} {m : RawMessage} {w : Nat} (hw : w = 0 ∨ w = A.length)
    (hg : NoMagic gap) (hm : m.Ok) (ht : A.length + gap.length + m.total < 2 ^ 64) :
    Steps w 0 ⟨A ++ (gap ++ (m.bytes ++ C)), A.length, []⟩
      (sect0Of (A.length + gap.length) m :: (placeAll (A.length + gap.length + 16) m.raw ++
        [⟨8, A.length + gap.length + m.total - 4, 4, none⟩]))
      (A.length + gap.length + m.total) 0 ⟨A ++ (gap ++ (m.bytes ++ C)), A.length + gap.length + m.total, []⟩ := by
  have hb : m.bytes ++ C = m.head ++ (rawBytes m.raw ++ ([0x37, 0x37, 0x37, 0x37] ++ C)) := by
    simp [RawMessage.bytes]
  rw [hb]
  refine Steps.cons (nextR_head hw hg ht) ?_
  have hX : A ++ (gap ++ (m.head ++ (rawBytes m.raw ++ ([0x37, 0x37, 0x37, 0x37] ++ C)))) =
      (A ++ gap ++ m.head) ++ (rawBytes m.raw ++ ([0x37, 0x37, 0x37, 0x37] ++ C)) := by simp
  have hlen : (A ++ gap ++ m.head).length = A.length + gap.length + 16 := by simp [head_length]; omega
  rw [hX, ← hlen]
  have htot : m.total = 16 + (rawBytes m.raw).length + 4 := rfl
  have h1 := steps_sects m.raw (fun x hx => ⟨(raw_range x hx).1, (raw_range x hx).2, hm.sects x hx⟩)
    (A ++ gap ++ m.head) ([0x37, 0x37, 0x37, 0x37] ++ C) (A.length + gap.length + m.total) (m.total - 16) (by omega)
    (by rw [hlen]; omega)
  refine Steps.append h1 ?_
  rw [show m.total - 16 - (rawBytes m.raw).length = 4 by omega]
  have hY : (A ++ gap ++ m.head) ++ (rawBytes m.raw ++ ([0x37, 0x37, 0x37, 0x37] ++ C)) =
      (A ++ gap ++ m.head ++ rawBytes m.raw) ++ ([0x37, 0x37, 0x37, 0x37] ++ C) := by simp
  have hlen2 : (A ++ gap ++ m.head).length + (rawBytes m.raw).length = (A ++ gap ++ m.head ++ rawBytes m.raw).length := by
    simp; omega
  rw [hY, hlen2]
  have hlen3 : (A ++ gap ++ m.head ++ rawBytes m.raw).length = A.length + gap.length + 16 + (rawBytes m.raw).length := by
    rw [← hlen2, hlen]
  have hstep : nextR (A.length + gap.length + m.total) 4
      ⟨(A ++ gap ++ m.head ++ rawBytes m.raw) ++ ([0x37, 0x37, 0x37, 0x37] ++ C),
        (A ++ gap ++ m.head ++ rawBytes m.raw).length, []⟩ =
      (.ok (some (⟨8, A.length + gap.length + m.total - 4, 4, none⟩, A.length + gap.length + m.total, 0)),
        ⟨(A ++ gap ++ m.head ++ rawBytes m.raw) ++ ([0x37, 0x37, 0x37, 0x37] ++ C),
          (A ++ gap ++ m.head ++ rawBytes m.raw).length + 4, []⟩) := by
    unfold nextR
    rw [if_neg (by omega), if_pos rfl, nextR8, RM.bind_apply, readSect8_cursor]
    rfl
  have := Steps.cons hstep (Steps.nil _ _ _)
  rw [show A.length + gap.length + m.total = (A ++ gap ++ m.head ++ rawBytes m.raw).length + 4 by rw [hlen3]; omega] at this ⊢
  exact this

/-! ## The located sections -/

theorem placeAll_append (off : Nat) (a b : List (Nat × List UInt8)) :
    placeAll off (a ++ b) = placeAll off a ++ placeAll (off + (rawBytes a).length) b := by
  induction a generalizing off with
  | nil => simp [placeAll, rawBytes]
  | cons x xs ih =>
    rw [List.cons_append, placeAll, ih, rawBytes_cons, List.length_append, sectBytes_length, placeAll, List.cons_append]
    congr 3
    omega

theorem locate_sections (off : Nat) (g : Group (List UInt8)) :
    (g.locate off).sections = placeAll off (rawGroup g) := by
  obtain ⟨loc, grid, prod, repr, bitmap, data⟩ := g
  cases loc <;> cases grid <;>
    simp [Group.locate, Group.sections, rawGroup, placeAll, optSize]

theorem locateGroups_sections (off : Nat) (gs : List (Group (List UInt8))) :
    (locateGroups off gs).flatMap Group.sections = placeAll off (gs.flatMap rawGroup) := by
  induction gs generalizing off with
  | nil => rfl
  | cons g gs ih =>
    rw [locateGroups, List.flatMap_cons, List.flatMap_cons, placeAll_append, ih, locate_sections]

theorem locate_message_sections (off : Nat) (m : RawMessage) :
    (m.locate off).sections =
      sect0Of off m :: (placeAll (off + 16) m.raw ++ [⟨8, off + m.total - 4, 4, none⟩]) := by
  have : placeAll (off + 16) m.raw = place (off + 16) 1 m.ident ::
      ((m.locate off).groups.flatMap Group.sections) := by
    simp only [RawMessage.raw, RawMessage.groups, placeAll, Message.groups, RawMessage.locate, List.flatMap_cons,
      placeAll_append, locate_sections, locateGroups_sections]
  rw [this]
  rfl

theorem locateGroups_ok {off : Nat} {gs : List (Group (List UInt8))}
    (h : ∀ g ∈ gs, g.loc.isSome → g.grid.isSome) : ∀ g ∈ locateGroups off gs, g.Ok := by
  induction gs generalizing off with
  | nil => simp [locateGroups]
  | cons x xs ih =>
    intro g hg
    simp only [locateGroups, List.mem_cons] at hg
    rcases hg with rfl | hg
    · constructor <;> simp [Group.locate, place]
      exact fun h' => h x (by simp) h'
    · exact ih (fun g hg => h g (List.mem_cons_of_mem _ hg)) g hg

theorem locate_ok {off : Nat} {m : RawMessage} (hm : m.Ok) : (m.locate off).Ok := by
  refine ⟨rfl, rfl, ?_, ?_, rfl⟩
  · have := locateGroups_ok (off := off + 16 + (m.ident.length + 5)) (gs := m.groups) hm.locGrid
    simpa [RawMessage.groups, locateGroups, Message.groups, RawMessage.locate] using this
  · simpa [RawMessage.locate, Group.locate] using hm.firstGrid

/-- Reading messages. -/
theorem steps_messages (l : List (List UInt8 × RawMessage)) (hl : ∀ x ∈ l, NoMagic x.1 ∧ x.2.Ok)
    (A C : List UInt8) (w : Nat) (hw : w = 0 ∨ w = A.length) (ht : (A ++ messagesBytes l).length < 2 ^ 64) :
    ∃ w', (w' = 0 ∨ w' = (A ++ messagesBytes l).length) ∧
    Steps w 0 ⟨A ++ (messagesBytes l ++ C), A.length, []⟩ ((locateMessages A.length l).flatMap Message.sections)
      w' 0 ⟨A ++ (messagesBytes l ++ C), (A ++ messagesBytes l).length, []⟩ := by
  induction l generalizing A w with
  | nil =>
    refine ⟨w, by simpa [messagesBytes] using hw, ?_⟩
    simpa [messagesBytes, locateMessages] using Steps.nil w 0 ⟨A ++ C, A.length, []⟩
  | cons x xs ih =>
    obtain ⟨gap, m⟩ := x
    obtain ⟨hg, hm⟩ := hl (gap, m) (by simp)
    simp only at hg hm
    have hmb : messagesBytes ((gap, m) :: xs) = gap ++ (m.bytes ++ messagesBytes xs) := by simp [messagesBytes]
    rw [hmb] at ht ⊢
    have hlen : (A ++ gap ++ m.bytes).length = A.length + gap.length + m.total := by simp [bytes_length]; omega
    have hl2 : (A ++ (gap ++ (m.bytes ++ messagesBytes xs))).length =
        (A ++ gap ++ m.bytes).length + (messagesBytes xs).length := by simp; omega
    have h1 := steps_message (A := A) (gap := gap) (C := messagesBytes xs ++ C) (m := m) hw hg hm (by omega)
    rw [← locate_message_sections] at h1
    obtain ⟨w', hw', h2⟩ := ih (fun y hy => hl y (List.mem_cons_of_mem _ hy)) (A ++ gap ++ m.bytes)
      (A.length + gap.length + m.total) (Or.inr hlen.symm) (by rw [List.length_append]; omega)
    have e1 : A ++ (gap ++ (m.bytes ++ messagesBytes xs) ++ C) = A ++ (gap ++ (m.bytes ++ (messagesBytes xs ++ C))) := by
      simp
    have e2 : A ++ gap ++ m.bytes ++ (messagesBytes xs ++ C) = A ++ (gap ++ (m.bytes ++ (messagesBytes xs ++ C))) := by
      simp
    have e3 : A ++ gap ++ m.bytes ++ messagesBytes xs = A ++ (gap ++ (m.bytes ++ messagesBytes xs)) := by simp
    rw [e2, e3] at h2
    rw [e3] at hw'
    rw [hlen] at h2
    refine ⟨w', hw', ?_⟩
    rw [e1]
    simp only [locateMessages, List.flatMap_cons]
    exact Steps.append h1 h2

theorem locateMessages_ok {off : Nat} {l : List (List UInt8 × RawMessage)} (hl : ∀ x ∈ l, x.2.Ok) :
    ∀ m ∈ locateMessages off l, m.Ok := by
  induction l generalizing off with
  | nil => simp [locateMessages]
  | cons x xs ih =>
    intro m hm
    simp only [locateMessages, List.mem_cons] at hm
    rcases hm with rfl | hm
    · exact locate_ok (hl x (by simp))
    · exact ih (fun y hy => hl y (List.mem_cons_of_mem _ hy)) m hm

/-- The fuel of a fresh stream can be replaced by any sufficient one. -/
theorem itemsR_fuel (r : Rdr) (fuel : Nat) (h : r.data.length + 2 ≤ fuel) : itemsR r = collectR fuel 0 0 r :=
  (collectR_fuel (fuel := r.data.length + 2) (stop := r.pos) ⟨by omega, Or.inr ⟨rfl, rfl⟩⟩ (by omega) h).symm

end Grib.Model
