import Verif.Lemmas.ReleaseOpen
import Verif.Props.Opening

/-! # C82: opening files with a release build

In a release build arithmetic wraps around instead of panicking (`Model/Release.lean`).  `Grib2.read` is opening in a debug
build, `Rel.read` in a release build. -/

namespace Grib.Props

open Grib.Model Grib.Spec

theorem inv_start (r : Rdr) : Inv 0 0 r.pos r.pos := ⟨by omega, Or.inr ⟨rfl, rfl⟩⟩

theorem rel_items (r : Rdr) (hl : r.data.length < 2 ^ 63) :
    Rel.collectQ (r.data.length + 2) 0 0 r = itemsR r ∨
      ∃ (pre : List SectionInfo) (tail : List Item), (itemsR r).1 = pre.map .ok ++ [.panic] ∧
        (Rel.collectQ (r.data.length + 2) 0 0 r).1 = pre.map .ok ++ tail ∧ Rel.AstrayTail tail :=
  Rel.collectQ_step _ (inv_start r) (Or.inl ⟨rfl, rfl⟩) hl

/-- Splits sections off in front of the items of a release build. -/
theorem items_prefix {fuel : Nat} {w rest : Nat} {r : Rdr} {pre : List SectionInfo} {t : List Item}
    (h : (Rel.collectQ fuel w rest r).1 = pre.map .ok ++ t) :
    ∃ (oks : List SectionInfo) (t' : List Item), (Rel.collectQ fuel w rest r).1 = (pre ++ oks).map .ok ++ t' ∧ NoOk t' := by
  obtain ⟨oks, t', h3, h4⟩ := Rel.collectQ_shape fuel w rest r
  have ht := Rel.noOk_tail h4
  have hpre : pre <+: oks := by
    have h3' := h3
    rw [h] at h3'
    clear h h3 h4
    induction pre generalizing oks with
    | nil => exact List.nil_prefix
    | cons x xs ih =>
      cases oks with
      | nil =>
        exfalso
        simp only [List.map_cons, List.cons_append, List.map_nil, List.nil_append] at h3'
        exact ht x (by rw [← h3']; simp)
      | cons y ys =>
        simp only [List.map_cons, List.cons_append, List.cons.injEq, Outcome.ok.injEq] at h3'
        obtain ⟨rfl, h3'⟩ := h3'
        exact List.cons_prefix_cons.2 ⟨rfl, ih ys h3'⟩
  obtain ⟨ext, rfl⟩ := hpre
  exact ⟨ext, t', h3, ht⟩

/-- C82: wherever opening with a debug build does not panic, opening with a release build has the same result: the same
sections and submessages, or the same error. -/
theorem C82_same (r : Rdr) (hl : r.data.length < 2 ^ 63) (h : Grib2.read r ≠ .panic) : Rel.read r = Grib2.read r := by
  rw [Rel.read_eq] at h ⊢
  show Rel.readN _ r = _
  rw [Rel.readN_eq]
  rcases rel_items r hl with he | ⟨pre, tail, h1, h2, -⟩
  · rw [he]
  · have hv : ¬ Viable pre := by
      intro hv
      apply h
      rw [(Rel.finish_parse _).2, h1]
      exact (pItems_viable hv).2
    have e0 : NoOk [(Outcome.panic : Item)] := by simp [NoOk]
    obtain ⟨ext, t, h3, h4⟩ := items_prefix h2
    have := Rel.finish_prefix (oks := ext) (r := (itemsR r).2) (r' := (Rel.collectQ (r.data.length + 2) 0 0 r).2) hv e0 h4
    rw [← h1, ← h3] at this
    exact this.symm

theorem rel_finish_ok {x : List Item × Rdr} {g : Grib2} (h : Rel.finish x = .ok g) :
    x.1 = g.sections.map .ok ∧ Accepted g.sections := by
  unfold Rel.finish at h
  cases hc : collectResult (idxStreamItems x.1).1 with
  | ok subs =>
    rw [hc] at h
    simp only [Outcome.ok.injEq] at h
    have e := (C16_recorded x.1).2 ⟨subs, hc⟩
    subst h
    refine ⟨e, (C11_by_index _).1 ⟨subs, ?_⟩⟩
    rw [← e]; exact hc
  | err e => rw [hc] at h; simp at h
  | panic => rw [hc] at h; simp at h

/-- C82: a release build opens nothing more than a debug build, except for files with a section 7 whose stated length is
below that of its own header. -/
theorem C82_success (r : Rdr) (hl : r.data.length < 2 ^ 63) (g : Grib2) (h : Rel.read r = .ok g) :
    Grib2.read r = .ok g ∨ (Grib2.read r = .panic ∧ ∃ s ∈ g.sections, Rel.Short r.data s) := by
  by_cases hp : Grib2.read r = .panic
  · right
    refine ⟨hp, ?_⟩
    have h' := h
    change Rel.readN _ r = _ at h'
    rw [Rel.readN_eq] at h'
    obtain ⟨h1, h2⟩ := rel_finish_ok h'
    rcases rel_items r hl with he | ⟨pre, tail, h3, h4, h5⟩
    · rw [he, ← Rel.read_eq, hp] at h'
      cases h'
    · rw [h4] at h1
      have hne : ∀ x ∈ tail, ∃ s, x = .ok s := by
        intro x hx
        have : x ∈ g.sections.map Outcome.ok := by rw [← h1]; simp [hx]
        obtain ⟨s, -, rfl⟩ := List.mem_map.1 this
        exact ⟨s, rfl⟩
      rcases h5 with rfl | ⟨e, rfl⟩ | ⟨x, t, rfl, h6, h7⟩ | ⟨h6, h7⟩
      · obtain ⟨s, h⟩ := hne .panic (by simp); cases h
      · obtain ⟨s, h⟩ := hne (.err e) (by simp); cases h
      · have hx : Outcome.ok x ∈ g.sections.map (Outcome.ok (ε := ParseError)) := by rw [← h1]; simp
        obtain ⟨s, hs, hxs⟩ := List.mem_map.1 hx
        cases hxs
        refine ⟨x, hs, ?_⟩
        have hm : Outcome.ok x ∈ (Rel.collectQ (r.data.length + 2) 0 0 r).1 := by rw [h4]; simp
        rcases Rel.collectQ_faithful (Or.inl ⟨rfl, rfl⟩) hl hm with hf | hf
        · have := (hf.header (by omega) (by omega)).1
          omega
        · exact hf
      · exfalso
        obtain ⟨init, x, rfl⟩ : ∃ init x, tail = init ++ [x] := by
          rcases List.eq_nil_or_concat tail with h | ⟨a, b, h⟩
          · exact absurd h h6
          · exact ⟨a, b, by rw [h, List.concat_eq_append]⟩
        obtain ⟨s, rfl⟩ := hne x (by simp)
        have hl8 : g.sections.getLast? = some s := by
          have : (g.sections.map (Outcome.ok (ε := ParseError))).getLast? = some (.ok s) := by
            rw [← h1, ← List.append_assoc]; simp
          rw [List.getLast?_map] at this
          cases hg : g.sections.getLast? with
          | none => rw [hg] at this; simp at this
          | some y => rw [hg] at this; simp at this; rw [this]
        exact h7 s (by simp) (accepted_last h2 s hl8)
  · left
    rw [← C82_same r hl hp]
    exact h

/-- C82: opening ends in a release build too, although the section stream need not (`C82_endless_stream`): any number of
calls of the section stream beyond the number of octets and two more gives the same result. -/
theorem C82_ends (r : Rdr) (hl : r.data.length < 2 ^ 63) (fuel : Nat) (hf : r.data.length + 2 ≤ fuel) :
    Rel.readN fuel r = Rel.read r := by
  obtain ⟨k, rfl⟩ : ∃ k, fuel = r.data.length + 2 + k := ⟨fuel - (r.data.length + 2), by omega⟩
  show _ = Rel.readN _ r
  rw [Rel.readN_eq, Rel.readN_eq]
  rcases Rel.collectQ_fuel (r.data.length + 2) k (w := 0) (rest := 0) (r := r) (Or.inl ⟨rfl, rfl⟩) hl (by omega) with
    ⟨h, -⟩ | ⟨pre, a, b, t, t', ha, hb, h1, h2⟩
  · rw [h]
  · have hv := Rel.not_viable_77 (pre := pre) ha hb
    obtain ⟨o1, t1, e1, n1⟩ := items_prefix h1
    obtain ⟨o2, t2, e2, n2⟩ := items_prefix h2
    have n0 : NoOk ([] : List Item) := by simp [NoOk]
    have f1 := Rel.finish_prefix (oks := o1) (r := r) (r' := (Rel.collectQ (r.data.length + 2 + k) 0 0 r).2) hv n0 n1
    have f2 := Rel.finish_prefix (oks := o2) (r := r) (r' := (Rel.collectQ (r.data.length + 2) 0 0 r).2) hv n0 n2
    rw [← e1] at f1
    rw [← e2] at f2
    exact f1.symm.trans f2

/-- C82: opening with a release build panics only for data that contain, somewhere, the header of a section 1 to 6 whose
stated length is below the 5 octets of the header itself, or of a section 6 without an octet after the header.  In
particular none of the other senseless lengths (of the whole message, of a section 7, beyond the end of the message) makes
it panic. -/
theorem C82_panics (r : Rdr) (hl : r.data.length < 2 ^ 63) (h : Rel.read r = .panic) :
    ∃ p, p + 5 ≤ r.data.length ∧ 1 ≤ octet r.data (p + 4) ∧ octet r.data (p + 4) ≤ 6 ∧
      (number r.data p 4 < 5 ∨ (octet r.data (p + 4) = 6 ∧ number r.data p 4 = 5)) := by
  change Rel.readN _ r = _ at h
  rw [Rel.readN_eq, (Rel.finish_parse _).2] at h
  obtain ⟨oks, t, h1, h2⟩ := Rel.collectQ_shape (r.data.length + 2) 0 0 r
  have ht : t = [.panic] := by
    apply Classical.byContradiction
    intro hne
    refine absurd (collectResult_mem.2 h) (pItems_noPanic ?_)
    rw [h1]
    intro x hx
    rcases List.mem_append.1 hx with hx | hx
    · obtain ⟨a, -, rfl⟩ := List.mem_map.1 hx; simp
    · rcases h2 with rfl | ⟨e, rfl⟩ | rfl
      · simp at hx
      · simp only [List.mem_singleton] at hx; subst hx; simp
      · exact absurd rfl hne
  subst ht
  rcases Rel.collectQ_fuel (r.data.length + 2) 0 (w := 0) (rest := 0) (r := r) (Or.inl ⟨rfl, rfl⟩) hl (by omega) with
    ⟨-, h3⟩ | ⟨pre, a, b, t, t', ha, hb, -, h4⟩
  · obtain ⟨w1, rest1, r1, r2, g1, -, g2⟩ := h3 oks h1
    have := Rel.nextQ_panic g2
    rwa [g1] at this
  · exfalso
    obtain ⟨o2, t2, e2, n2⟩ := items_prefix h4
    rw [e2] at h
    obtain ⟨e, k, he, -⟩ := pItems_not_viable n2 (fun hv => Rel.not_viable_77 (pre := pre) ha hb (Rel.Viable.of_append hv))
    rw [he] at h
    cases h

/-- C82: so where a debug build panics, a release build returns an error, unless there is such a header of a section 1 to 6
or a section 7 shorter than its header. -/
theorem C82_error (r : Rdr) (hl : r.data.length < 2 ^ 63) (h : Grib2.read r = .panic)
    (hn : ∀ p, p + 5 ≤ r.data.length → 1 ≤ octet r.data (p + 4) → octet r.data (p + 4) ≤ 7 → 5 ≤ number r.data p 4 ∧
      (octet r.data (p + 4) = 6 → number r.data p 4 ≠ 5)) :
    ∃ e, Rel.read r = .err e := by
  cases hc : Rel.read r with
  | err e => exact ⟨e, rfl⟩
  | panic =>
    exfalso
    obtain ⟨p, h1, h2, h3, h4⟩ := C82_panics r hl hc
    obtain ⟨h5, h6⟩ := hn p h1 h2 (by omega)
    rcases h4 with h4 | ⟨h4, h7⟩
    · omega
    · exact h6 h4 h7
  | ok g =>
    exfalso
    rcases C82_success r hl g hc with h1 | ⟨-, s, -, hs⟩
    · rw [h] at h1; cases h1
    · obtain ⟨g1, g2, g3⟩ := hs.header
      have := (hn s.offset g3 (by omega) (by omega)).1
      have := hs.size
      omega

/-- C82: whatever a release build opens, its sections are what the octets at their offsets say. -/
theorem C82_faithful (r : Rdr) (hl : r.data.length < 2 ^ 63) (g : Grib2) (h : Rel.read r = .ok g) :
    Accepted g.sections ∧ ∀ s ∈ g.sections, Faithful r.data s ∨ Rel.Short r.data s := by
  change Rel.readN _ r = _ at h
  rw [Rel.readN_eq] at h
  obtain ⟨h1, h2⟩ := rel_finish_ok h
  refine ⟨h2, fun s hs => ?_⟩
  have hm : Outcome.ok s ∈ (Rel.collectQ (r.data.length + 2) 0 0 r).1 := by
    rw [h1]; exact List.mem_map.2 ⟨s, hs, rfl⟩
  exact Rel.collectQ_faithful (Or.inl ⟨rfl, rfl⟩) hl hm

/-! ## Files that show the differences -/

/-- A message whose first data section states a length of 1, so that the next section begins one octet after it. -/
def overlapFile : List UInt8 :=
  [0x47, 0x52, 0x49, 0x42, 0, 0, 0, 2, 0, 0, 0, 0, 0, 0, 1, 111] ++
  [0, 0, 0, 21, 1, 0, 7, 0, 0, 2, 1, 0, 7, 228, 1, 2, 3, 4, 5, 0, 1] ++
  [0, 0, 0, 14, 3, 0, 0, 0, 0, 0, 0, 0, 0, 0] ++
  [0, 0, 0, 9, 4, 0, 0, 0, 0] ++
  [0, 0, 0, 11, 5, 0, 0, 0, 0, 0, 0] ++
  [0, 0, 0, 6, 6, 255] ++
  [0, 0, 0, 1, 7, 4] ++ List.replicate 258 0 ++
  [0, 0, 0, 11, 5, 0, 0, 0, 0, 0, 0] ++
  [0, 0, 0, 6, 6, 255] ++
  [0, 0, 0, 5, 7] ++
  [0x37, 0x37, 0x37, 0x37]

/-- C82: the exception of `C82_success` occurs: a debug build panics, a release build opens the file with two submessages,
whose sections overlap. -/
theorem C82_overlap :
    Grib2.read ⟨overlapFile, 0, []⟩ = .panic ∧
    ∃ g, Rel.read ⟨overlapFile, 0, []⟩ = .ok g ∧
      (g.submessages.length, g.sections.map fun s => (s.num, s.offset, s.size)) =
      (2, [(0, 0, 16), (1, 16, 21), (3, 37, 14), (4, 51, 9), (5, 60, 11), (6, 71, 6), (7, 77, 1), (4, 78, 263),
        (5, 341, 11), (6, 352, 6), (7, 358, 5), (8, 363, 4)]) :=
  ⟨by decide +kernel, Outcome.exists_of_ok? (f := fun g : Grib2 =>
    (g.submessages.length, g.sections.map fun s => (s.num, s.offset, s.size))) (by decide +kernel)⟩

/-- C82: the panics of `C82_panics` occur. -/
theorem C82_still_panics :
    Rel.read ⟨[0x47, 0x52, 0x49, 0x42, 0, 0, 0, 2, 0, 0, 0, 0, 0, 0, 0, 99] ++ [0, 0, 0, 0, 1], 0, []⟩ = .panic ∧
    Rel.read ⟨[0x47, 0x52, 0x49, 0x42, 0, 0, 0, 2, 0, 0, 0, 0, 0, 0, 0, 99] ++ [0, 0, 0, 5, 6, 0], 0, []⟩ = .panic := by
  decide +kernel

/-- C82: a total length of 0, and a section larger than what is left of the message: a debug build panics, a release build
returns an error. -/
theorem C82_no_panic :
    (Grib2.read ⟨[0x47, 0x52, 0x49, 0x42, 0, 0, 0, 2, 0, 0, 0, 0, 0, 0, 0, 0], 0, []⟩ = .panic ∧
      Rel.read ⟨[0x47, 0x52, 0x49, 0x42, 0, 0, 0, 2, 0, 0, 0, 0, 0, 0, 0, 0], 0, []⟩ = .err (.unexpectedEndOfData 0)) ∧
    (Grib2.read ⟨[0x47, 0x52, 0x49, 0x42, 0, 0, 0, 2, 0, 0, 0, 0, 0, 0, 0, 25] ++ [0, 0, 0, 99, 7], 0, []⟩ = .panic ∧
      Rel.read ⟨[0x47, 0x52, 0x49, 0x42, 0, 0, 0, 2, 0, 0, 0, 0, 0, 0, 0, 25] ++ [0, 0, 0, 99, 7], 0, []⟩ =
        .err (.invalidSectionOrder 1)) := by
  decide +kernel

/-- An indicator section, then a section 7 of stated length 0. -/
def endlessFile : List UInt8 := [0x47, 0x52, 0x49, 0x42, 0, 0, 0, 2, 0, 0, 0, 0, 0, 0, 0, 99] ++ [0, 0, 0, 0, 7]

/-- C82: with a release build the section stream itself never ends on that file: whatever the number of calls, all of them
yield a section.  (Opening the file is an error, as two sections 7 in a row are out of order.) -/
theorem C82_endless_stream :
    (∀ n, ∃ sects : List SectionInfo, sects.length = n ∧
      (Rel.collectN n (SectStream.new ⟨endlessFile, 0, []⟩)).1 = sects.map .ok ++ [.panic]) ∧
    Rel.read ⟨endlessFile, 0, []⟩ = .err (.invalidSectionOrder 1) := by
  refine ⟨?_, by decide +kernel⟩
  have hs : Rel.next ⟨⟨endlessFile, 16, []⟩, 99, 83⟩ =
      (.ok (some ⟨7, 16, 0, some .section7⟩), ⟨⟨endlessFile, 16, []⟩, 99, 83⟩) := by decide +kernel
  have hc : ∀ n, (Rel.collectN n ⟨⟨endlessFile, 16, []⟩, 99, 83⟩).1 =
      (List.replicate n (⟨7, 16, 0, some .section7⟩ : SectionInfo)).map .ok ++ [.panic] := by
    intro n
    induction n with
    | zero => rfl
    | succ n ih =>
      rw [Rel.collectN, hs]
      simp only [ih, List.replicate_succ, List.map_cons, List.cons_append]
  have h0 : Rel.next (SectStream.new ⟨endlessFile, 0, []⟩) =
      (.ok (some ⟨0, 0, 16, some (.section0 ⟨0, 99⟩)⟩), ⟨⟨endlessFile, 16, []⟩, 99, 83⟩) := by decide +kernel
  intro n
  cases n with
  | zero => exact ⟨[], rfl, rfl⟩
  | succ n =>
    refine ⟨⟨0, 0, 16, some (.section0 ⟨0, 99⟩)⟩ :: List.replicate n ⟨7, 16, 0, some .section7⟩, by simp, ?_⟩
    rw [Rel.collectN, h0]
    simp only [hc, List.map_cons, List.cons_append]

/-- The hypotheses of `C82_same`: the sample file opens. -/
example : ∃ g, Rel.read ⟨sampleFile, 0, []⟩ = .ok g ∧ g.submessages.length = 1 := by
  obtain ⟨g, h1, h2⟩ := sampleFile_opens
  exact ⟨g, by rw [C82_same _ (by decide) (by rw [h1]; simp), h1], h2⟩

/-- The hypotheses of `C82_error`: a total length of 0. -/
example : ∃ e, Rel.read ⟨[0x47, 0x52, 0x49, 0x42, 0, 0, 0, 2, 0, 0, 0, 0, 0, 0, 0, 0], 0, []⟩ = .err e := by
  refine C82_error _ (by decide) C06_total_length_fails ?_
  intro p hp
  have hp : p < 12 := by simp at hp; omega
  have key : ∀ p < 12, 1 ≤ octet [0x47, 0x52, 0x49, 0x42, 0, 0, 0, 2, 0, 0, 0, 0, 0, 0, 0, 0] (p + 4) →
      octet [0x47, 0x52, 0x49, 0x42, 0, 0, 0, 2, 0, 0, 0, 0, 0, 0, 0, 0] (p + 4) ≤ 7 →
      5 ≤ number [0x47, 0x52, 0x49, 0x42, 0, 0, 0, 2, 0, 0, 0, 0, 0, 0, 0, 0] p 4 ∧
        (octet [0x47, 0x52, 0x49, 0x42, 0, 0, 0, 2, 0, 0, 0, 0, 0, 0, 0, 0] (p + 4) = 6 →
          number [0x47, 0x52, 0x49, 0x42, 0, 0, 0, 2, 0, 0, 0, 0, 0, 0, 0, 0] p 4 ≠ 5) := by decide +kernel
  exact key p hp

end Grib.Props
