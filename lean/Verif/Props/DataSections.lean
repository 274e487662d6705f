import Verif.Props.Locality
import Verif.Props.Concat

/-! # C79: opening does not look at packed data -/

namespace Grib.Spec

open Grib.Model

/-- Position `q` is in the packed data of one of the sections: in a section 7, after its header. -/
def InPackedData (sects : List SectionInfo) (q : Nat) : Prop :=
  ∃ s ∈ sects, s.num = 7 ∧ s.offset + 5 ≤ q ∧ q < s.offset + s.size

/-- Two files of the same length that agree outside of the packed data of the sections. -/
structure SameOutsideData (a b : List UInt8) (sects : List SectionInfo) : Prop where
  length : a.length = b.length
  octets : ∀ q, ¬ InPackedData sects q → a[q]? = b[q]?

end Grib.Spec

namespace Grib.Props

open Grib.Model Grib.Spec

variable {a b : List UInt8}

theorem octet_of_getElem? {q : Nat} (h : a[q]? = b[q]?) : octet a q = octet b q := by
  simp [octet, List.getD_eq_getElem?_getD, h]

theorem piece_of_getElem? {p n : Nat} (h : ∀ q, p ≤ q → q < p + n → a[q]? = b[q]?) :
    (a.drop p).take n = (b.drop p).take n := by
  apply List.ext_getElem?
  intro i
  rw [List.getElem?_take, List.getElem?_take]
  split
  · next hi => rw [List.getElem?_drop, List.getElem?_drop, h (p + i) (by omega) (by omega)]
  · rfl

theorem octets_of_getElem? {p : Nat} {bs : List UInt8} (hl : a.length = b.length)
    (h : ∀ q, p ≤ q → q < p + bs.length → a[q]? = b[q]?) : Octets a p bs ↔ Octets b p bs := by
  unfold Octets
  rw [piece_of_getElem? h, hl]

theorem magicAt_of_getElem? {p : Nat} (hl : a.length = b.length) (h : ∀ q, p ≤ q → q < p + 4 → a[q]? = b[q]?) :
    MagicAt a p ↔ MagicAt b p := by
  unfold MagicAt
  rw [octets_of_getElem? hl (fun q h1 h2 => h q h1 (by simpa using h2)), hl]

theorem faithful_of_getElem? {s : SectionInfo} (hl : a.length = b.length) (hs : Faithful a s)
    (h : ∀ q, s.offset ≤ q → q < s.offset + s.size → ¬ (s.num = 7 ∧ s.offset + 5 ≤ q) → a[q]? = b[q]?) : Faithful b s := by
  obtain ⟨h1, h2, h3, h4, h5, h6⟩ := hs
  have num : ∀ o n, s.offset ≤ o → o + n ≤ s.offset + s.size → (s.num = 7 → o + n ≤ s.offset + 5) →
      number b o n = number a o n := by
    intro o n k1 k2 k3
    refine number_congr fun k hk => (octet_of_getElem? (h (o + k) (by omega) (by omega) ?_)).symm
    rintro ⟨c1, c2⟩
    have := k3 c1
    omega
  have oct : ∀ o, s.offset ≤ o → o < s.offset + s.size → (s.num = 7 → o < s.offset + 5) → octet b o = octet a o := by
    intro o k1 k2 k3
    refine (octet_of_getElem? (h o k1 k2 ?_)).symm
    rintro ⟨c1, c2⟩
    have := k3 c1
    omega
  have pay : s.num ≠ 7 → 5 ≤ s.size → (b.drop (s.offset + 5)).take (s.size - 5) = (a.drop (s.offset + 5)).take (s.size - 5) := by
    intro k1 k2
    exact (piece_of_getElem? fun q q1 q2 => h q (by omega) (by omega) (by omega)).symm
  refine ⟨?_, h2, ?_, ?_, ?_, ?_⟩
  · unfold BodyAt at h1 ⊢
    split at h1
    · next hn =>
      have := (h3 hn).1
      rw [oct _ (by omega) (by omega) (by omega), num _ _ (by omega) (by omega) (by omega)]; exact h1
    · next hn => rw [pay (by omega) (h5 (by omega) (by omega)).1]; exact h1
    · next hn => rw [pay (by omega) (h5 (by omega) (by omega)).1]; exact h1
    · next hn => rw [pay (by omega) (h5 (by omega) (by omega)).1]; exact h1
    · next hn => rw [pay (by omega) (h5 (by omega) (by omega)).1]; exact h1
    · next hn => rw [pay (by omega) (h5 (by omega) (by omega)).1]; exact h1
    · next hn =>
      have k := (h6 (by omega)).2 (by omega)
      rw [hn] at k
      simp only [minPayload] at k
      rw [oct _ (by omega) (by omega) (by omega)]; exact h1
    · exact h1
    · exact h1
  · intro hn
    obtain ⟨k1, k2, k3⟩ := h3 hn
    refine ⟨k1, (magicAt_of_getElem? hl fun q q1 q2 => h q q1 (by omega) (by omega)).1 k2, ?_⟩
    rw [oct _ (by omega) (by omega) (by omega)]; exact k3
  · intro hn
    obtain ⟨k1, k2⟩ := h4 hn
    exact ⟨k1, (octets_of_getElem? hl fun q q1 q2 => h q q1 (by simp at q2; omega) (by omega)).1 k2⟩
  · intro q1 q2
    obtain ⟨k1, k2, k3, k4⟩ := h5 q1 q2
    refine ⟨k1, ?_, ?_, by omega⟩
    · rw [num _ _ (by omega) (by omega) (by omega)]; exact k2
    · rw [oct _ (by omega) (by omega) (by omega)]; exact k3
  · intro hn
    rw [← hl]
    exact h6 hn

/-- Sections of a walk start at or after the position it starts from. -/
theorem walk_offsets {data : List UInt8} {p t p' t' : Nat} {ss : List SectionInfo} (h : Walk data p t ss p' t') :
    p ≤ t → ∀ s ∈ ss, p ≤ s.offset ∧ s.offset + s.size ≤ p' := by
  induction h with
  | nil => intro _ s hs; simp at hs
  | message h1 h2 h3 h4 ih =>
    intro _ s hs
    have k := h2.1
    have := walk_stop_le h4 (by omega)
    rcases List.mem_cons.1 hs with rfl | hs
    · omega
    · have := ih (by omega) s hs; omega
  | sect h1 h2 h3 h4 h5 h6 ih =>
    intro _ s hs
    have := walk_stop_le h6 h4
    rcases List.mem_cons.1 hs with rfl | hs
    · omega
    · have := ih h4 s hs; omega

theorem walk_same {p t p' t' : Nat} {ss : List SectionInfo} (hl : a.length = b.length) (h : Walk a p t ss p' t') :
    p ≤ t → (∀ s ∈ ss, Faithful a s ∧ Addressable a s) → (∀ q, p ≤ q → ¬ InPackedData ss q → a[q]? = b[q]?) →
      Walk b p t ss p' t' ∧ ∀ s ∈ ss, Faithful b s ∧ Addressable b s := by
  induction h with
  | nil => intro _ _ _; exact ⟨Walk.nil _ _, by simp⟩
  | @message p p' t' s ss h1 h2 h3 h4 ih =>
    intro hpt hf hq
    have hk := h2.1
    have hs := (hf s List.mem_cons_self).1
    obtain ⟨z, -⟩ := hs.sect0 h1
    have before : ∀ q, p ≤ q → q < s.offset + 16 → a[q]? = b[q]? := by
      intro q q1 q2
      refine hq q q1 ?_
      rintro ⟨x, hx, x1, x2, x3⟩
      rcases List.mem_cons.1 hx with rfl | hx
      · omega
      · have := walk_offsets h4 (by omega) x hx; omega
    have hn : number b (s.offset + 8) 8 = number a (s.offset + 8) 8 :=
      number_congr fun k hk => (octet_of_getElem? (before _ (by omega) (by omega))).symm
    obtain ⟨ih1, ih2⟩ := ih (by omega) (fun x hx => hf x (List.mem_cons_of_mem _ hx)) (by
      intro q q1 q2
      refine hq q (by omega) ?_
      rintro ⟨x, hx, x1, x2, x3⟩
      rcases List.mem_cons.1 hx with rfl | hx
      · omega
      · exact q2 ⟨x, hx, x1, x2, x3⟩)
    refine ⟨Walk.message h1 ⟨h2.1, ?_, ?_⟩ (by rw [hn]; exact h3) (by rw [hn]; exact ih1), ?_⟩
    · exact (magicAt_of_getElem? hl fun q q1 q2 => before q (by omega) (by omega)).1 h2.2.1
    · intro q q1 q2 hm
      exact h2.2.2 q q1 q2 ((magicAt_of_getElem? hl fun q q1 q2 => before q (by omega) (by omega)).2 hm)
    · intro x hx
      rcases List.mem_cons.1 hx with rfl | hx
      · refine ⟨faithful_of_getElem? hl hs fun q q1 q2 _ => before q (by omega) (by omega), fun _ => ?_⟩
        rw [hn]; exact (hf x List.mem_cons_self).2 h1
      · exact ih2 x hx
  | @sect p t p' t' s ss h1 h2 h3 h4 h5 h6 ih =>
    intro hpt hf hq
    have hs := (hf s List.mem_cons_self).1
    obtain ⟨ih1, ih2⟩ := ih h4 (fun x hx => hf x (List.mem_cons_of_mem _ hx)) (by
      intro q q1 q2
      refine hq q (by omega) ?_
      rintro ⟨x, hx, x1, x2, x3⟩
      rcases List.mem_cons.1 hx with rfl | hx
      · omega
      · exact q2 ⟨x, hx, x1, x2, x3⟩)
    refine ⟨Walk.sect h1 h2 h3 h4 h5 ih1, ?_⟩
    intro x hx
    rcases List.mem_cons.1 hx with rfl | hx
    · refine ⟨faithful_of_getElem? hl hs fun q q1 q2 q3 => hq q (by omega) ?_, fun h0 => absurd h0 h2⟩
      rintro ⟨y, hy, y1, y2, y3⟩
      rcases List.mem_cons.1 hy with rfl | hy
      · exact q3 ⟨y1, y2⟩
      · have := walk_offsets h6 h4 y hy; omega
    · exact ih2 x hx

/-- What opened data list is determined by their sections. -/
theorem opened_eq {r r' : Rdr} {g g' : Grib2} (h : Grib2.read r = .ok g) (h' : Grib2.read r' = .ok g')
    (hs : g'.sections = g.sections) :
    g'.submessages = g.submessages ∧ SubIter.drain (g'.len + 1) g'.iter = SubIter.drain (g.len + 1) g.iter := by
  obtain ⟨ms, hm, hsec, hsub, -⟩ := opened_messages h
  have e := opened_submessages h' hm (hs.trans hsec)
  rw [← hsub] at e
  refine ⟨e, ?_⟩
  rw [Grib2.iter, Grib2.iter, opened_drain h _ _ (by simp [Grib2.len]), opened_drain h' _ _ (by simp [Grib2.len]), e]
  have : g'.sect = g.sect := by funext i; simp only [Grib2.sect, hs]
  rw [this]

/-- C79: a file that differs from one that opens only in packed data opens in the same way: same sections, same submessages. -/
theorem C79_opening (a b : List UInt8) (p : Nat) (ev ev' : List IoEv) (hev : Benign ev) (hev' : Benign ev') (g : Grib2)
    (h : Grib2.read ⟨a, p, ev⟩ = .ok g) (hab : SameOutsideData a b g.sections) :
    ∃ g', Grib2.read ⟨b, p, ev'⟩ = .ok g' ∧ g'.sections = g.sections ∧
      SubIter.drain (g'.len + 1) g'.iter = SubIter.drain (g.len + 1) g.iter := by
  obtain ⟨h1, h2, p', h3, h4⟩ := (C59_opens_iff ⟨a, p, ev⟩ hev g.sections).1 ⟨g, h, rfl⟩
  obtain ⟨w, hf⟩ := walk_same hab.length h3 (Nat.le_refl _) h2 fun q _ hq => hab.octets q hq
  have hgood : ∃ g', Grib2.read ⟨b, p, ev'⟩ = .ok g' ∧ g'.sections = g.sections := by
    refine (C59_opens_iff ⟨b, p, ev'⟩ hev' g.sections).2 ⟨h1, hf, p', w, fun q hq hm => h4 q hq ?_⟩
    refine (magicAt_of_getElem? hab.length fun x x1 x2 => hab.octets x ?_).2 hm
    rintro ⟨s, hs, -, -, y⟩
    have := walk_offsets h3 (Nat.le_refl _) s hs
    omega
  obtain ⟨g', hg', hs⟩ := hgood
  exact ⟨g', hg', hs, (opened_eq h hg' hs).2⟩

/-- C79: and a submessage whose own packed data are the same is set up for decoding in the same way. -/
theorem C79_decoding (a b : List UInt8) (p : Nat) (ev ev' : List IoEv) (hev : Benign ev) (hev' : Benign ev') (g : Grib2)
    (h : Grib2.read ⟨a, p, ev⟩ = .ok g) (hab : SameOutsideData a b g.sections)
    (ix : Nat × Nat) (m : SubMessage) (hm : (ix, m) ∈ SubIter.drain (g.len + 1) g.iter)
    (h7 : sectionOctets a m.s7.2 = sectionOctets b m.s7.2)
    (rd rd' : Rdr) (hr : rd.data = a) (hr' : rd'.data = b) (hb : IoEv.fail ∉ rd.evs) (hb' : IoEv.fail ∉ rd'.evs) :
    (Decoder.fromSub m rd).1 = (Decoder.fromSub m rd').1 := by
  obtain ⟨g', h', -, hl'⟩ := C79_opening a b p ev ev' hev hev' g h hab
  obtain ⟨-, -, -, -, -, hk⟩ := C17_accessors _ g h ix m hm (ε := Unit)
  obtain ⟨h1, h2, p', h3, h4⟩ := (C59_opens_iff ⟨a, p, ev⟩ hev g.sections).1 ⟨g, h, rfl⟩
  -- a section that is no section 7 has no octet in common with packed data
  have key : ∀ s ∈ g.sections, s.num ≠ 7 → sectionOctets a s = sectionOctets b s := by
    intro s hs hn
    refine piece_of_getElem? fun q q1 q2 => hab.octets q ?_
    rintro ⟨x, hx, x1, x2, x3⟩
    obtain ⟨l1, l2, hl⟩ := List.append_of_mem hs
    rw [hl] at h3 hx
    obtain ⟨p1, t1, w1, w2⟩ := Walk.append_inv h3
    have o1 := walk_offsets w1 (Nat.le_refl _)
    have hpt : p1 ≤ t1 := by
      cases w2 with
      | message => exact Nat.le_refl _
      | sect k1 k2 k3 k4 => omega
    rcases List.mem_append.1 hx with hx | hx
    · have := o1 x hx
      have := walk_offsets w2 hpt s List.mem_cons_self
      omega
    · rcases List.mem_cons.1 hx with rfl | hx
      · exact hn x1
      · cases w2 with
        | message k1 k2 k3 k4 => have := walk_offsets k4 (by omega) x hx; omega
        | sect k1 k2 k3 k4 k5 k6 => have := walk_offsets k6 k4 x hx; omega
  have k3 := hk (m.s3, 3) (by simp)
  have k5 := hk (m.s5, 5) (by simp)
  have k6 := hk (m.s6, 6) (by simp)
  simp only at k3 k5 k6
  exact C78_locality _ _ g g' h h' ix ix m m hm (by rw [hl']; exact hm) (key _ (List.mem_of_getElem? k3.2.1) (by omega))
    (key _ (List.mem_of_getElem? k5.2.1) (by omega)) (key _ (List.mem_of_getElem? k6.2.1) (by omega)) h7 rd rd' hr hr' hb hb'

/-- The sample file has packed data; with other octets in their place it still opens. -/
example : ∃ g b, Grib2.read ⟨(messagesBytes sampleMessagesFile), 0, []⟩ = .ok g ∧ b ≠ (messagesBytes sampleMessagesFile) ∧ SameOutsideData (messagesBytes sampleMessagesFile) b g.sections := by
  have key : ((Grib2.read ⟨(messagesBytes sampleMessagesFile), 0, []⟩).ok?.map fun g : Grib2 => decide (
      ∃ s ∈ g.sections, s.num = 7 ∧ s.offset + 5 < s.offset + s.size ∧ s.offset + 5 < (messagesBytes sampleMessagesFile).length ∧
        (messagesBytes sampleMessagesFile)[s.offset + 5]? ≠ some 0xAB)) = some true := by decide +kernel
  obtain ⟨g, hg, h2⟩ := Outcome.exists_of_ok? key
  obtain ⟨s, hs, h7, hlt, hl, hne⟩ := of_decide_eq_true h2
  refine ⟨g, (messagesBytes sampleMessagesFile).set (s.offset + 5) 0xAB, hg, ?_, by simp, ?_⟩
  · intro e
    rw [← e, List.getElem?_set_self hl] at hne
    exact hne rfl
  · intro q hq
    rw [List.getElem?_set_ne]
    rintro rfl
    exact hq ⟨s, hs, h7, Nat.le_refl _, hlt⟩

end Grib.Props
