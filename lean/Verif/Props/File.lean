import Verif.Lemmas.Opened

/-! # C09, C10, C17, C18, C19: whole files, submessages and templates -/

namespace Grib.Props

open Grib.Model Grib.Spec

/-! ## Samples -/

/-- A message with two submessages: the second has a local-use and a grid section of its own. -/
def sampleRaw : RawMessage :=
  { reserved := (0, 0), discipline := 0,
    ident := [0, 7, 0, 0, 2, 1, 0, 7, 228, 1, 2, 3, 4, 5, 0, 1],
    first := ⟨none, some [0, 0, 0, 0, 0, 0, 0, 0, 0], [0, 0, 0, 0], [0, 0, 0, 0, 0, 0], [255], []⟩,
    rest := [⟨some [1, 2, 3], some [0, 0, 0, 0, 1, 0, 0, 0, 30], [0, 0, 0, 8], [0, 0, 0, 1, 0, 0], [255], [9]⟩] }

theorem sampleRaw_ok : sampleRaw.Ok := by
  refine ⟨?_, ?_, by decide⟩
  · intro x hx
    have : ∀ x ∈ sampleRaw.raw, minPayload x.1 ≤ x.2.length ∧ x.2.length + 5 < 2 ^ 32 := by decide +kernel
    exact this x hx
  · decide

theorem noMagic_of_short {gap : List UInt8} (h : gap.length < 4) : NoMagic gap := by
  intro q hq
  have := congrArg List.length hq
  simp at this
  omega

/-! ## C10 -/

theorem noMagic_tail {A C : List UInt8} (h : ∀ q, ¬ MagicAt C q) : ∀ p, A.length ≤ p → ¬ MagicAt (A ++ C) p := by
  intro p hp hm
  obtain ⟨k, rfl⟩ : ∃ k, p = A.length + k := ⟨p - A.length, by omega⟩
  rw [magicAt_iff] at hm
  apply h k
  rw [magicAt_iff]
  obtain ⟨h1, h2⟩ := hm
  rw [← List.drop_drop, List.drop_left] at h2
  rw [List.length_append] at h1
  exact ⟨by omega, h2⟩

/-- The items of a file of complete messages followed by octets without a message start. -/
theorem items_messages (l : List (List UInt8 × RawMessage)) (hl : ∀ x ∈ l, NoMagic x.1 ∧ x.2.Ok) (C : List UInt8)
    (hC : ∀ q, ¬ MagicAt C q) (hlen : (messagesBytes l).length < 2 ^ 64) :
    (itemsR ⟨messagesBytes l ++ C, 0, []⟩).1 = ((locateMessages 0 l).flatMap Message.sections).map .ok := by
  obtain ⟨w', hw', hs⟩ := steps_messages l hl [] C 0 (Or.inl rfl) (by simpa using hlen)
  simp only [List.nil_append, List.length_nil] at hs hw'
  rw [itemsR_fuel _ (((locateMessages 0 l).flatMap Message.sections).length + ((messagesBytes l ++ C).length + 2))
    (by simp only; omega), hs.collect]
  have hn : nextR w' 0 ⟨messagesBytes l ++ C, (messagesBytes l).length, []⟩ =
      (.ok none, ⟨messagesBytes l ++ C, (messagesBytes l).length + ((messagesBytes l ++ C).length - (messagesBytes l).length), []⟩) := by
    unfold nextR
    rw [if_pos rfl, nextR0, RM.bind_apply, startR_cursor hw']
    simp only
    rw [RM.bind_apply, readSect0_cursor_none (noMagic_tail hC)]
    rfl
  rw [collectR_none hn]
  simp

/-- C10: a file of well-formed messages with arbitrary gaps and trailing octets opens; the recorded sections are exactly
the sections written, at their places; and a loop over the submessages yields exactly the submessages written, in order,
with their sections.  (`fileSubs dummy d start ms`: the submessages of messages, `dummy` being the end section of the
submessages that are not the last of their message and `d` a value that is not used for well-formed messages; in the code
the end section of the former is the first section of the file.) -/
theorem C10_write_then_open (l : List (List UInt8 × RawMessage)) (hl : ∀ x ∈ l, NoMagic x.1 ∧ x.2.Ok)
    (trailing : List UInt8) (ht : ∀ q, ¬ MagicAt trailing q) (hlen : (messagesBytes l).length < 2 ^ 64)
    (evs : List IoEv) (hb : Benign evs) :
    ∃ g, Grib2.read ⟨messagesBytes l ++ trailing, 0, evs⟩ = .ok g ∧
      g.sections = (locateMessages 0 l).flatMap Message.sections ∧
      (SubIter.drain (g.len + 1) g.iter).map (fun x => (⟨x.1.1, x.1.2, x.2.map Prod.snd⟩ : Submsg SectionInfo)) =
        fileSubs (g.sections.headD .default) (g.sections.headD .default) 0 (locateMessages 0 l) := by
  have hi := items_messages l hl trailing ht hlen
  have hbl : (itemsR ⟨messagesBytes l ++ trailing, 0, evs⟩).1 = (itemsR ⟨messagesBytes l ++ trailing, 0, []⟩).1 :=
    (collectR_blind ((messagesBytes l ++ trailing).length + 2) 0 0 ⟨messagesBytes l ++ trailing, 0, evs⟩ hb).1
  rw [← hbl] at hi
  have hok := locateMessages_ok (off := 0) (l := l) (fun x hx => (hl x hx).2)
  obtain ⟨h1, h2⟩ := C14_listing_by_index _ hok
  have hread : Grib2.read ⟨messagesBytes l ++ trailing, 0, evs⟩ =
      .ok ⟨(itemsR ⟨messagesBytes l ++ trailing, 0, evs⟩).2, (locateMessages 0 l).flatMap Message.sections,
        fileSubs 0 0 0 ((numberMessages 0 (locateMessages 0 l)).map (Message.map Prod.fst))⟩ := by
    rw [Grib2.read_eq, hi, h1, h2]
  refine ⟨_, hread, rfl, ?_⟩
  rw [Grib2.iter, opened_drain hread _ _ (by simp [Grib2.len])]
  rw [List.drop_zero, List.map_map]
  have e0 : ∀ ss : List SectionInfo, ss.headD .default = ss.getD 0 .default := by
    intro ss; cases ss <;> rfl
  rw [e0]
  have := opened_resolve_snd (g := ⟨(itemsR ⟨messagesBytes l ++ trailing, 0, evs⟩).2,
    (locateMessages 0 l).flatMap Message.sections,
    fileSubs 0 0 0 ((numberMessages 0 (locateMessages 0 l)).map (Message.map Prod.fst))⟩) rfl rfl
  rw [List.map_map] at this
  exact this

/-- The octets of the sample: two messages, garbage before each and at the end. -/
def sampleMessagesFile : List (List UInt8 × RawMessage) := [([1, 2, 3], sampleRaw), ([], sampleRaw)]

example : (∀ x ∈ sampleMessagesFile, NoMagic x.1 ∧ x.2.Ok) ∧ (∀ q, ¬ MagicAt [0x47, 0x52, 0x49, 0x42, 0] q) ∧
    (messagesBytes sampleMessagesFile).length < 2 ^ 64 := by
  refine ⟨?_, ?_, by decide +kernel⟩
  · intro x hx
    simp only [sampleMessagesFile, List.mem_cons, List.not_mem_nil, or_false] at hx
    rcases hx with rfl | rfl
    · exact ⟨noMagic_of_short (by simp), sampleRaw_ok⟩
    · exact ⟨noMagic_of_short (by simp), sampleRaw_ok⟩
  · rintro q ⟨-, h⟩
    simp at h

/-- The located submessages of the sample, spelled out: number, offset and size of the grid and data sections. -/
example : (fileSubs SectionInfo.default SectionInfo.default 0 (locateMessages 0 sampleMessagesFile)).map
    (fun x => (x.msg, x.sub, x.sects.s3.offset, x.sects.s7.offset, x.sects.s7.size)) =
    [(0, 0, 40, 80, 5), (0, 1, 93, 133, 6), (1, 0, 180, 220, 5), (1, 1, 233, 273, 6)] := by decide +kernel

/-! ## C09 -/

theorem read_blind (r : Rdr) (hb : Benign r.evs) (e : ParseError) (h : Grib2.read ⟨r.data, r.pos, []⟩ = .err e) :
    Grib2.read r = .err e := by
  have hbl : (itemsR r).1 = (itemsR ⟨r.data, r.pos, []⟩).1 := (collectR_blind (r.data.length + 2) 0 0 r hb).1
  rw [Grib2.read_eq] at h ⊢
  rw [hbl]
  cases hc : collectResult (idxStreamItems (itemsR ⟨r.data, r.pos, []⟩).1).1 with
  | ok subs => rw [hc] at h; cases h
  | err e' => rw [hc] at h; exact h
  | panic => rw [hc] at h; cases h

/-- C09: a file cut inside a message, at least 16 octets after its start, does not open (whatever messages come before
the cut one, and whatever the gaps are), for every reader without failures whose short reads deliver at least 16 octets. -/
theorem C09_cut_detected (l l' : List (List UInt8 × RawMessage)) (gap : List UInt8) (m : RawMessage) (k : Nat)
    (hl : ∀ x ∈ l, NoMagic x.1 ∧ x.2.Ok) (hg : NoMagic gap) (hm : m.Ok)
    (hlen : (messagesBytes (l ++ (gap, m) :: l')).length < 2 ^ 64) (h16 : 16 ≤ k) (hk : k < m.total)
    (evs : List IoEv) (hb : Benign evs) :
    ∃ e, Grib2.read ⟨(messagesBytes (l ++ (gap, m) :: l')).take ((messagesBytes l).length + gap.length + k), 0, evs⟩ =
      .err e := by
  have hbl := read_blind ⟨(messagesBytes (l ++ (gap, m) :: l')).take ((messagesBytes l).length + gap.length + k), 0, evs⟩ hb
  suffices hs : ∃ e, Grib2.read ⟨(messagesBytes (l ++ (gap, m) :: l')).take ((messagesBytes l).length + gap.length + k), 0, []⟩ =
      .err e by
    obtain ⟨e, he⟩ := hs
    exact ⟨e, hbl e he⟩
  have eb : messagesBytes (l ++ (gap, m) :: l') = messagesBytes l ++ (gap ++ (m.bytes ++ messagesBytes l')) := by
    simp [messagesBytes]
  have htake : (messagesBytes (l ++ (gap, m) :: l')).take ((messagesBytes l).length + gap.length + k) =
      messagesBytes l ++ (gap ++ (m.head ++ (rawBytes m.raw ++ [0x37, 0x37, 0x37, 0x37]).take (k - 16))) := by
    rw [eb, List.take_append, List.take_of_length_le (by omega),
      show (messagesBytes l).length + gap.length + k - (messagesBytes l).length = gap.length + k by omega,
      List.take_append, List.take_of_length_le (by omega), show gap.length + k - gap.length = k by omega,
      RawMessage.bytes, List.append_assoc, List.append_assoc, List.take_append, head_length,
      List.take_of_length_le (by rw [head_length]; omega), ← List.append_assoc (rawBytes m.raw), List.take_append]
    have : k - 16 - (rawBytes m.raw ++ [0x37, 0x37, 0x37, 0x37]).length = 0 := by
      have : m.total = 16 + (rawBytes m.raw).length + 4 := rfl
      simp; omega
    rw [this, List.take_zero, List.append_nil]
  rw [htake]
  have hA : (messagesBytes l).length < 2 ^ 64 := by rw [eb] at hlen; simp at hlen; omega
  have htot : (messagesBytes l).length + gap.length + m.total < 2 ^ 64 := by
    rw [eb] at hlen; simp [bytes_length] at hlen; omega
  generalize hT : (rawBytes m.raw ++ [0x37, 0x37, 0x37, 0x37]).take (k - 16) = T
  obtain ⟨w', hw', hs⟩ := steps_messages l hl [] (gap ++ (m.head ++ T)) 0 (Or.inl rfl) (by simpa using hA)
  simp only [List.nil_append, List.length_nil] at hs hw'
  have hhead := nextR_head (A := messagesBytes l) (gap := gap) (C := T) (m := m) hw' hg htot
  have hs2 := hs.append (Steps.cons hhead (Steps.nil _ _ _))
  have hcut := cut_sects m.raw (fun x hx => ⟨(raw_range x hx).1, (raw_range x hx).2, hm.sects x hx⟩)
    (messagesBytes l ++ gap ++ m.head) ((messagesBytes l).length + gap.length + m.total) (m.total - 16) (k - 16)
    ((messagesBytes l ++ (gap ++ (m.head ++ T))).length + 2)
    (by have : m.total = 16 + (rawBytes m.raw).length + 4 := rfl; omega)
    (by simp [head_length]; omega) (by omega)
  rw [hT] at hcut
  have e1 : messagesBytes l ++ gap ++ m.head ++ T = messagesBytes l ++ (gap ++ (m.head ++ T)) := by simp
  have e2 : (messagesBytes l ++ gap ++ m.head).length = (messagesBytes l).length + gap.length + 16 := by
    simp [head_length]; omega
  rw [e1, e2] at hcut
  obtain ⟨ys, tail, h1, h2, h3⟩ := hcut
  have hitems := itemsR_fuel ⟨messagesBytes l ++ (gap ++ (m.head ++ T)), 0, []⟩
    (((locateMessages 0 l).flatMap Message.sections ++ [sect0Of ((messagesBytes l).length + gap.length) m]).length +
      ((messagesBytes l ++ (gap ++ (m.head ++ T))).length + 2 + m.raw.length + 2)) (by simp only; omega)
  rw [hs2.collect, h3] at hitems
  have hi1 := congrArg Prod.fst hitems
  simp only at hi1
  have hpanic : ∀ x ∈ (itemsR ⟨messagesBytes l ++ (gap ++ (m.head ++ T)), 0, []⟩).1, x ≠ Outcome.panic := by
    rw [hi1]
    intro x hx
    rcases List.mem_append.1 hx with hx | hx
    · obtain ⟨s, -, rfl⟩ := List.mem_map.1 hx; simp
    · rcases List.mem_append.1 hx with hx | hx
      · obtain ⟨s, -, rfl⟩ := List.mem_map.1 hx; simp
      · rcases h2 with rfl | ⟨e, rfl⟩
        · simp at hx
        · simp only [List.mem_singleton] at hx; subst hx; simp
  rcases h2 with rfl | ⟨e, rfl⟩
  · -- the stream ends inside the message
    rw [List.append_nil, ← List.map_append] at hi1
    have hna : ¬ Accepted ((locateMessages 0 l).flatMap Message.sections ++
        [sect0Of ((messagesBytes l).length + gap.length) m] ++ ys) := by
      intro hacc
      rcases List.eq_nil_or_concat ys with rfl | ⟨ys', y, rfl⟩
      · rw [List.append_nil] at hacc
        have := accepted_last hacc _ List.getLast?_concat
        simp [sect0Of] at this
      · rw [List.concat_eq_append, ← List.append_assoc] at hacc
        have := accepted_last hacc _ List.getLast?_concat
        exact h1 y (by simp) this
    obtain ⟨e, -, h5, -⟩ := C11_first_offender _ hna
    refine ⟨e, ?_⟩
    rw [Grib2.read_eq, hi1, h5]
  · obtain ⟨-, e', he'⟩ := C15_read_error_reported _ e hpanic (by rw [hi1]; simp)
    exact ⟨e', by rw [Grib2.read_eq, he']⟩

/-- C09: cut at less than 16 octets after the start of a message (or before it, in the gap), the file opens as exactly
the complete messages before. -/
theorem C09_cut_early (l l' : List (List UInt8 × RawMessage)) (gap : List UInt8) (m : RawMessage) (k : Nat)
    (hl : ∀ x ∈ l, NoMagic x.1 ∧ x.2.Ok) (hg : NoMagic gap)
    (hlen : (messagesBytes (l ++ (gap, m) :: l')).length < 2 ^ 64) (hk : k < gap.length + 16)
    (evs : List IoEv) (hb : Benign evs) :
    ∃ g, Grib2.read ⟨(messagesBytes (l ++ (gap, m) :: l')).take ((messagesBytes l).length + k), 0, evs⟩ = .ok g ∧
      g.sections = (locateMessages 0 l).flatMap Message.sections ∧
      (SubIter.drain (g.len + 1) g.iter).map (fun x => (⟨x.1.1, x.1.2, x.2.map Prod.snd⟩ : Submsg SectionInfo)) =
        fileSubs (g.sections.headD .default) (g.sections.headD .default) 0 (locateMessages 0 l) := by
  have eb : messagesBytes (l ++ (gap, m) :: l') = messagesBytes l ++ (gap ++ (m.bytes ++ messagesBytes l')) := by
    simp [messagesBytes]
  have htake : (messagesBytes (l ++ (gap, m) :: l')).take ((messagesBytes l).length + k) =
      messagesBytes l ++ (gap ++ (m.bytes ++ messagesBytes l')).take k := by
    rw [eb, List.take_append, List.take_of_length_le (by omega),
      show (messagesBytes l).length + k - (messagesBytes l).length = k by omega]
  rw [htake]
  refine C10_write_then_open l hl _ ?_ (by rw [eb] at hlen; simp at hlen; omega) evs hb
  intro q hq
  rw [magicAt_iff] at hq
  obtain ⟨h1, h2⟩ := hq
  rw [List.length_take] at h1
  have hb : gap ++ (m.bytes ++ messagesBytes l') =
      [] ++ (gap ++ (m.head ++ (rawBytes m.raw ++ [0x37, 0x37, 0x37, 0x37] ++ messagesBytes l'))) := by
    simp [RawMessage.bytes]
  refine gap_noMagic (A := []) (C := rawBytes m.raw ++ [0x37, 0x37, 0x37, 0x37] ++ messagesBytes l') (m := m) hg q
    (by simp) (by simp; omega) ?_
  rw [magicAt_iff, ← hb]
  refine ⟨by omega, ?_⟩
  rw [List.drop_take, List.take_take, Nat.min_eq_left (by omega)] at h2
  exact h2

-- the sample cut inside its second message, and inside the first
example : ∃ e, Grib2.read ⟨(messagesBytes sampleMessagesFile).take 200, 0, [.full, .short 20]⟩ = .err e := by
  have := C09_cut_detected [([1, 2, 3], sampleRaw)] [] [] sampleRaw 57
    (by
      intro x hx
      simp only [List.mem_cons, List.not_mem_nil, or_false] at hx
      subst hx
      exact ⟨noMagic_of_short (by simp), sampleRaw_ok⟩)
    (noMagic_of_short (by simp)) sampleRaw_ok (by decide +kernel) (by omega) (by decide +kernel)
  have e : (messagesBytes [([1, 2, 3], sampleRaw)]).length + ([] : List UInt8).length + 57 = 200 := by decide +kernel
  rw [e] at this
  exact this [.full, .short 20] (by simp [Benign])

end Grib.Props
