import Verif.Lemmas.ReaderBenign
import Verif.Props.Parser

/-! # C03-C08, C48: reading sections

A reader `r : Rdr` has contents `r.data`, a position and a schedule `r.evs` of what its coming `read` and `seek` calls
do; `⟨data, pos, []⟩` is an in-memory cursor.  `(SectStream.new r).collect.1` are the items of the section stream. -/

namespace Grib.Props

open Grib.Model Grib.Spec

/-- A minimal file: three octets of garbage, then a message with one submessage (86 octets). -/
def sampleFile : List UInt8 :=
  [1, 2, 3] ++
  [0x47, 0x52, 0x49, 0x42, 0, 0, 0, 2, 0, 0, 0, 0, 0, 0, 0, 86] ++
  [0, 0, 0, 21, 1, 0, 7, 0, 0, 2, 1, 0, 7, 228, 1, 2, 3, 4, 5, 0, 1] ++
  [0, 0, 0, 14, 3, 0, 0, 0, 0, 0, 0, 0, 0, 0] ++
  [0, 0, 0, 9, 4, 0, 0, 0, 0] ++
  [0, 0, 0, 11, 5, 0, 0, 0, 0, 0, 0] ++
  [0, 0, 0, 6, 6, 255] ++
  [0, 0, 0, 5, 7] ++
  [0x37, 0x37, 0x37, 0x37]

/-- The sections of the sample, and that it opens. -/
theorem sampleFile_sections :
    (SectStream.new ⟨sampleFile, 0, []⟩).collect.1.map (fun x => match x with
      | .ok s => some (s.num, s.offset, s.size)
      | _ => none) =
    [some (0, 3, 16), some (1, 19, 21), some (3, 40, 14), some (4, 54, 9), some (5, 63, 11), some (6, 74, 6),
      some (7, 80, 5), some (8, 85, 4)] := by decide +kernel

theorem sampleFile_opens : ∃ g, Grib2.read ⟨sampleFile, 0, []⟩ = .ok g ∧ g.submessages.length = 1 :=
  Outcome.exists_of_ok? (by decide +kernel)

/-! ## C03 -/

/-- C03: whatever the schedule, a message start that is reported is the first one at or after the position, the distance
is exact, the indicator is decoded from the 16 octets there, and the reader is placed behind them. -/
theorem C03_reported_is_first (r r' : Rdr) (d : Nat) (ind : Indicator)
    (h : readSect0 r = (.ok (some (d, ind)), r')) :
    FirstMagic r.data r.pos (r.pos + d) ∧ r'.pos = r.pos + d + 16 ∧ r'.data = r.data ∧
      octet r.data (r.pos + d + 7) = 2 ∧
      ind.discipline = octet r.data (r.pos + d + 6) ∧ ind.totalLength = number r.data (r.pos + d + 8) 8 := by
  obtain ⟨h1, p, h2, h3, h4, h5, h6⟩ := readSect0Loop_some h
  have := h2.1
  have hp : r.pos + d = p := by omega
  rw [hp]
  exact ⟨h2, h4, h1, h5, by rw [h6]; rfl, by rw [h6]; rfl⟩

/-- C03: with reads that deliver at least 16 octets when available (in particular for a cursor or a file) the search
finds the first message start wherever it is, refuses it if its edition is not 2, and reports the end of the data when
there is none. -/
theorem C03_search (r : Rdr) (hb : Benign r.evs) :
    (∀ p, FirstMagic r.data r.pos p → octet r.data (p + 7) = 2 →
      (readSect0 r).1 = .ok (some (p - r.pos, ⟨octet r.data (p + 6), number r.data (p + 8) 8⟩)) ∧
        (readSect0 r).2.pos = p + 16) ∧
    (∀ p, FirstMagic r.data r.pos p → octet r.data (p + 7) ≠ 2 →
      (readSect0 r).1 = .err (.gribVersionMismatch (octet r.data (p + 7)))) ∧
    ((∀ p, r.pos ≤ p → ¬ MagicAt r.data p) → (readSect0 r).1 = .ok none) := by
  refine ⟨fun p hp he => ?_, fun p hp he => ?_, fun hn => ?_⟩
  · obtain ⟨es, h1, h2⟩ := readSect0Loop_found (fuel := r.data.length - r.pos + 1) (off := 0) (by omega) hb hp
    rw [readSect0, h2, if_pos he]
    simp [indicatorAt]
  · obtain ⟨es, h1, h2⟩ := readSect0Loop_found (fuel := r.data.length - r.pos + 1) (off := 0) (by omega) hb hp
    rw [readSect0, h2, if_neg he]
  · obtain ⟨es, h1, h2⟩ := readSect0Loop_none (fuel := r.data.length - r.pos + 1) (off := 0) (by omega) hb hn
    rw [readSect0, h2]

-- both cases occur
example : FirstMagic sampleFile 0 3 ∧ octet sampleFile 10 = 2 := by
  refine ⟨⟨by omega, by decide, ?_⟩, by decide⟩
  intro q _ hq
  have : q = 0 ∨ q = 1 ∨ q = 2 := by omega
  rcases this with rfl | rfl | rfl <;> decide

example : Benign [.full, .short 15, .full] := by simp [Benign]

/-! ## C04, C05 -/

/-- C04: every reported section says what the file says at its place, for every schedule. -/
theorem C04_faithful (r : Rdr) (s : SectionInfo) (h : .ok s ∈ (SectStream.new r).collect.1) : Faithful r.data s := by
  rw [(collect_new r).1] at h
  obtain ⟨sects, tail, p', t', h1, h2, h3, h4, h5⟩ := itemsR_spec r
  rw [h1] at h
  rcases List.mem_append.1 h with h | h
  · obtain ⟨s', h6, h7⟩ := List.mem_map.1 h
    cases h7
    exact h3 s h6
  · rcases h5 with rfl | ⟨e, rfl⟩ | ⟨rfl, -⟩ <;> simp at h

/-- The same for the sections of opened data. -/
theorem C04_opened (r : Rdr) (g : Grib2) (h : Grib2.read r = .ok g) : ∀ s ∈ g.sections, Faithful r.data s := by
  intro s hs
  apply C04_faithful r s
  rw [(collect_new r).1]
  rw [Grib2.read_eq] at h
  cases hc : collectResult (idxStreamItems (itemsR r).1).1 with
  | ok subs =>
    rw [hc] at h
    simp only [Outcome.ok.injEq] at h
    subst h
    have := (C16_recorded (itemsR r).1).2 ⟨subs, hc⟩
    rw [this]
    exact List.mem_map_of_mem hs
  | err e => rw [hc] at h; simp at h
  | panic => rw [hc] at h; simp at h

/-- C05: the sections that follow a section 0 up to the next one tile the message: each starts where the previous one
ended, together they stay within the stated total length, a section 8 is exactly one that ends there, and when another
message follows the message is complete. -/
theorem C05_tiles (r : Rdr) (pre body post : List SectionInfo) (m : SectionInfo) (tail : List Item)
    (h : (SectStream.new r).collect.1 = (pre ++ m :: (body ++ post)).map .ok ++ tail)
    (hm : m.num = 0) (hb : ∀ s ∈ body, s.num ≠ 0) :
    let total := number r.data (m.offset + 8) 8
    let upTo (k : Nat) := ((body.take k).map SectionInfo.size).sum
    m.size = 16 ∧
    (∀ k (hk : k < body.length), body[k].offset = m.offset + 16 + upTo k) ∧
    16 + upTo body.length ≤ total ∧
    (∀ k (hk : k < body.length), body[k].num = 8 ↔ body[k].offset + 4 = m.offset + total) ∧
    (∀ s ∈ post.head?, s.num = 0 → 16 + upTo body.length = total) := by
  have hm0 : m.size = 16 := by
    refine ((C04_faithful r m ?_).sect0 hm).1
    rw [h]; simp
  rw [(collect_new r).1] at h
  obtain ⟨sects, tail', p', t', h1, h2, h3, h4, h5⟩ := itemsR_spec r
  -- the given sections are a prefix of the walked ones
  have hpre : ∃ more, sects = (pre ++ m :: (body ++ post)) ++ more := by
    rw [h1] at h
    have key : ∀ (a b : List SectionInfo) (x y : List Item), a.map (Outcome.ok (ε := ParseError)) ++ x =
        b.map .ok ++ y → (∀ z ∈ x, ∀ s, z ≠ .ok s) → ∃ more, a = b ++ more := by
      intro a b
      induction b generalizing a with
      | nil => intro x y _ _; exact ⟨a, rfl⟩
      | cons s ss ih =>
        intro x y he hx
        cases a with
        | nil =>
          simp only [List.map_nil, List.nil_append, List.map_cons, List.cons_append] at he
          subst he
          exact absurd rfl (hx (.ok s) (by simp) s)
        | cons a as =>
          simp only [List.map_cons, List.cons_append, List.cons.injEq, Outcome.ok.injEq] at he
          obtain ⟨more, hmore⟩ := ih as x y he.2 hx
          exact ⟨more, by rw [he.1, hmore, List.cons_append]⟩
    refine key _ _ _ _ h ?_
    rcases h5 with rfl | ⟨e, rfl⟩ | ⟨rfl, -⟩ <;> simp
  obtain ⟨more, rfl⟩ := hpre
  rw [List.append_assoc] at h2
  obtain ⟨p1, t1, -, w2⟩ := Walk.append_inv h2
  rw [List.cons_append] at w2
  cases w2 with
  | sect _ h _ _ _ _ => exact absurd hm h
  | message a1 a2 a2' a3 =>
    rw [List.append_assoc] at a3
    obtain ⟨p2, t2, w3, w4⟩ := Walk.append_inv a3
    obtain ⟨b1, b2, b3, b4, b5⟩ := Walk.body hb (by omega) w3
    simp only [List.take_length]
    rw [hm0] at b2 b4
    refine ⟨hm0, b4, by omega, b5, ?_⟩
    intro s hs hs0
    cases post with
    | nil => simp at hs
    | cons x xs =>
      simp only [List.head?_cons, Option.mem_def, Option.some.injEq] at hs
      subst hs
      rw [List.cons_append] at w4
      cases w4 with
      | sect _ h _ _ _ _ => exact absurd hs0 h
      | message _ _ _ _ => omega

-- the sample's single message, as the hypotheses describe it
example : ∃ m body, (SectStream.new ⟨sampleFile, 0, []⟩).collect.1 = ([] ++ m :: (body ++ [])).map .ok ++ [] ∧
    m.num = 0 ∧ (∀ s ∈ body, s.num ≠ 0) ∧ body.length = 7 := by
  obtain ⟨sects, tail, p1, t1, h1, -, -, -, h5⟩ := itemsR_spec ⟨sampleFile, 0, []⟩
  rw [← (collect_new _).1] at h1
  have hs := sampleFile_sections
  rw [h1, List.map_append] at hs
  have ht : tail = [] := by
    rcases h5 with rfl | ⟨e, rfl⟩ | ⟨rfl, -⟩
    · rfl
    · have := congrArg List.getLast? hs; simp at this
    · have := congrArg List.getLast? hs; simp at this
  subst ht
  rw [List.map_nil, List.append_nil, List.map_map] at hs
  match sects, hs with
  | m :: body, hs =>
    simp only [List.map_cons, Function.comp_apply, List.cons.injEq, Option.some.injEq, Prod.mk.injEq] at hs
    refine ⟨m, body, by rw [h1]; simp, hs.1.1, ?_, by simpa using congrArg List.length hs.2⟩
    intro s hsm h0
    have : some (s.num, s.offset, s.size) ∈
        [some (1, 19, 21), some (3, 40, 14), some (4, 54, 9), some (5, 63, 11), some (6, 74, 6),
          some (7, 80, 5), some (8, 85, 4)] := by
      rw [← hs.2]
      exact List.mem_map.2 ⟨s, hsm, rfl⟩
    rw [h0] at this
    simp at this

/-! ## C06 -/

/-- C06 fails: a total length of 0 in the indicator section. -/
theorem C06_total_length_fails :
    Grib2.read ⟨[0x47, 0x52, 0x49, 0x42, 0, 0, 0, 2, 0, 0, 0, 0, 0, 0, 0, 0], 0, []⟩ = .panic := by decide +kernel

/-- C06 fails: a section of size 0. -/
theorem C06_short_section_fails :
    Grib2.read ⟨[0x47, 0x52, 0x49, 0x42, 0, 0, 0, 2, 0, 0, 0, 0, 0, 0, 0, 99] ++ [0, 0, 0, 0, 1], 0, []⟩ = .panic := by
  decide +kernel

/-- C06 fails: an empty bitmap section. -/
theorem C06_empty_bitmap_fails :
    Grib2.read ⟨[0x47, 0x52, 0x49, 0x42, 0, 0, 0, 2, 0, 0, 0, 0, 0, 0, 0, 99] ++ [0, 0, 0, 5, 6, 0], 0, []⟩ = .panic := by
  decide +kernel

/-- C06 fails: a section that is larger than what is left of the message. -/
theorem C06_large_section_fails :
    Grib2.read ⟨[0x47, 0x52, 0x49, 0x42, 0, 0, 0, 2, 0, 0, 0, 0, 0, 0, 0, 25] ++ [0, 0, 0, 99, 7], 0, []⟩ = .panic := by
  decide +kernel

/-- C06, the part that holds: opening panics only if the walk through the sections reaches a senseless length
(`BadLength`: one of the four kinds above, or a total length beyond the address space); everything else is `Ok` or
`Err`, for every schedule. -/
theorem C06_only_bad_lengths_partial (r : Rdr) (h : Grib2.read r = .panic) :
    ∃ sects p t, (SectStream.new r).collect.1 = sects.map .ok ++ [.panic] ∧
      Walk r.data r.pos r.pos sects p t ∧ BadLength r.data p t := by
  obtain ⟨sects, tail, p', t', h1, h2, h3, h4, h5⟩ := itemsR_spec r
  rw [(collect_new r).1]
  rw [Grib2.read_eq] at h
  have hp : Outcome.panic ∈ (itemsR r).1 := by
    apply Classical.byContradiction
    intro hn
    have := (C11_no_panic (itemsR r).1 (fun x hx => fun e => hn (e ▸ hx))).2
    cases hc : collectResult (idxStreamItems (itemsR r).1).1 with
    | ok subs => rw [hc] at h; simp at h
    | err e => rw [hc] at h; simp at h
    | panic => exact this (collectResult_mem.2 hc)
  rw [h1] at hp
  rcases h5 with rfl | ⟨e, rfl⟩ | ⟨rfl, h6⟩
  · simp at hp
  · simp at hp
  · exact ⟨sects, p', t', h1, h2, h6⟩

/-! ## C07 -/

/-- C07 fails: when the first read returns fewer than 16 octets, the file opens as empty. -/
theorem C07_short_read_fails :
    ∃ g, Grib2.read ⟨sampleFile, 0, [.full, .short 14]⟩ = .ok g ∧ g.submessages = [] ∧ g.sections = [] := by
  obtain ⟨g, h1, h2⟩ := Outcome.exists_of_ok? (x := Grib2.read ⟨sampleFile, 0, [.full, .short 14]⟩)
    (f := fun g => (g.submessages, g.sections)) (b := ([], [])) (by decide +kernel)
  exact ⟨g, h1, congrArg Prod.fst h2, congrArg Prod.snd h2⟩

/-- C07 fails: when the header of a section comes in two pieces (here the fourth call, after a seek, a block read and a
seek), a valid file is refused. -/
theorem C07_split_header_fails :
    Grib2.read ⟨sampleFile, 0, [.full, .full, .full, .short 2]⟩ = .err (.readError .unexpectedEof) := by
  decide +kernel

/-- C07, the part that holds: schedules without failures, in which reads that come short deliver at least 16 octets, give
the same result as a cursor. -/
theorem C07_benign_partial (r : Rdr) (hb : Benign r.evs) :
    (fun g : Grib2 => { g with reader := { g.reader with evs := [] } }) <$> Grib2.read r =
      Grib2.read ⟨r.data, r.pos, []⟩ := by
  rw [Grib2.read_eq, Grib2.read_eq]
  obtain ⟨h1, h2, h3⟩ := collectR_blind (r.data.length + 2) 0 0 r hb
  have i1 : (itemsR r).1 = (itemsR ⟨r.data, r.pos, []⟩).1 := h1
  have i2 : (itemsR r).2.data = r.data := h2
  have i3 : (itemsR ⟨r.data, r.pos, []⟩).2 = ⟨r.data, (itemsR r).2.pos, []⟩ := h3
  rw [i3, ← i1]
  cases hc : collectResult (idxStreamItems (itemsR r).1).1 with
  | ok subs => simp only [Outcome.map_ok, i2]
  | err e => rfl
  | panic => rfl

example : Benign [.full, .short 20, .short 15] ∧
    ∃ g, Grib2.read ⟨sampleFile, 0, [.full, .short 20, .short 15]⟩ = .ok g ∧ g.submessages.length = 1 :=
  ⟨by simp [Benign], Outcome.exists_of_ok? (by decide +kernel)⟩

/-! ## C08 -/

/-- C08: the calls made while opening are an initial segment of the schedule; if one of them fails, opening is an error. -/
theorem C08_failure_reported (r : Rdr) :
    ∃ made, r.evs = made ++ (SectStream.new r).collect.2.reader.evs ∧
      (IoEv.fail ∈ made → ∃ e, Grib2.read r = .err e) := by
  rw [(collect_new r).2]
  obtain ⟨h1, c, h2, h3⟩ := collectR_honest (r.data.length + 2) 0 0 r
  refine ⟨c, h2, fun hf => ?_⟩
  obtain ⟨pre, e, h4, h5⟩ := h3 hf
  have h4' : (itemsR r).1 = pre ++ [.err e] := h4
  obtain ⟨-, e', he'⟩ := C15_read_error_reported (itemsR r).1 e (by
    rw [h4']
    intro x hx
    rcases List.mem_append.1 hx with hx | hx
    · exact h5 x hx
    · simp only [List.mem_singleton] at hx; rw [hx]; simp) (by rw [h4']; simp)
  exact ⟨e', by rw [Grib2.read_eq, he']⟩

/-- C08: in opened data, no call made so far has failed. -/
theorem C08_success_means_no_failure (r : Rdr) (g : Grib2) (h : Grib2.read r = .ok g) :
    ∃ made, r.evs = made ++ g.reader.evs ∧ IoEv.fail ∉ made := by
  obtain ⟨made, h1, h2⟩ := C08_failure_reported r
  have hg : g.reader = (SectStream.new r).collect.2.reader := by
    rw [(collect_new r).2]
    rw [Grib2.read_eq] at h
    cases hc : collectResult (idxStreamItems (itemsR r).1).1 with
    | ok subs => rw [hc] at h; simp only [Outcome.ok.injEq] at h; rw [← h]
    | err e => rw [hc] at h; simp at h
    | panic => rw [hc] at h; simp at h
  refine ⟨made, by rw [hg]; exact h1, fun hf => ?_⟩
  obtain ⟨e, he⟩ := h2 hf
  rw [h] at he
  simp at he

-- a failing schedule: the failure is met and reported
example : Grib2.read ⟨sampleFile, 0, [.full, .full, .full, .full, .fail]⟩ = .err (.readError .io) := by decide +kernel

/-! ## C48 -/

/-- C48: the search for a message start ends by itself: the bound on its number of blocks in the model is never hit. -/
theorem C48_search_terminates (r r' : Rdr) : readSect0 r ≠ (.panic, r') := readSect0_noPanic r r'

/-- C48: the section stream ends by itself after at most a quarter as many sections as there are octets, whatever the
schedule; a larger bound on the number of calls changes nothing. -/
theorem C48_sections_bounded (r : Rdr) :
    (∀ fuel, r.data.length + 2 ≤ fuel →
      ((SectStream.new r).collectN fuel).1 = (SectStream.new r).collect.1) ∧
    4 * ((SectStream.new r).collect.1.filter Outcome.isOk).length ≤ r.data.length - r.pos := by
  refine ⟨fun fuel hf => ?_, ?_⟩
  · rw [(collect_new r).1, (SectStream.collectN_eq fuel _).1]
    have hi : Inv 0 0 r.pos r.pos := ⟨by omega, Or.inr ⟨rfl, rfl⟩⟩
    have := collectR_fuel (fuel := r.data.length + 2) (fuel' := fuel) (r := r) hi (by omega) hf
    exact congrArg Prod.fst this
  · rw [(collect_new r).1]
    obtain ⟨sects, tail, p', t', h1, h2, h3, h4, h5⟩ := itemsR_spec r
    rw [h1, List.filter_append, List.length_append]
    have ht : (tail.filter Outcome.isOk).length = 0 := by
      rcases h5 with rfl | ⟨e, rfl⟩ | ⟨rfl, -⟩ <;> simp [Outcome.isOk]
    have hs : ((sects.map (Outcome.ok (ε := ParseError))).filter Outcome.isOk).length ≤ sects.length := by
      refine Nat.le_trans (List.length_filter_le _ _) ?_
      simp
    omega

example : ((SectStream.new ⟨sampleFile, 0, []⟩).collect.1.filter Outcome.isOk).length = 8 := by decide +kernel

end Grib.Props
