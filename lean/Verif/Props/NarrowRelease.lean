import Verif.Lemmas.NarrowRelease
import Verif.Props.Narrow

/-! # C93: opening files with a release build on a 32-bit platform

The demo as it is delivered (`Model/NarrowRelease.lean`).  `Grib2.read` is opening with 64 bits in a debug build, `N32.read`
with 32 bits in a debug build, `R32.read` with 32 bits in a release build. -/

namespace Grib.Props

open Grib.Model Grib.Spec

theorem r32_collect (fuel : Nat) (r : Rdr) :
    R32.readN fuel r = Rel.finish ((R32.collectN fuel (SectStream.new r)).1, (R32.collectN fuel (SectStream.new r)).2.reader) := rfl

theorem exact_new {r : Rdr} (hp : r.pos < 2 ^ 32) : R32.Exact (SectStream.new r) := Or.inl ⟨rfl, rfl, hp⟩

theorem r32_items (r : Rdr) (hl : r.data.length < 2 ^ 31) (hp : r.pos < 2 ^ 32) :
    R32.collectN (r.data.length + 2) (SectStream.new r) = N32.collectN (r.data.length + 2) (SectStream.new r) ∨
      ∃ (pre : List SectionInfo) (tail : List Item),
        (N32.collectN (r.data.length + 2) (SectStream.new r)).1 = pre.map .ok ++ [.panic] ∧
        (R32.collectN (r.data.length + 2) (SectStream.new r)).1 = pre.map .ok ++ tail ∧ R32.AstrayTail tail :=
  R32.collectN_step _ (exact_new hp) hl

theorem r32_prefix {fuel : Nat} {s : SectStream} {pre : List SectionInfo} {t : List Item}
    (h : (R32.collectN fuel s).1 = pre.map .ok ++ t) :
    ∃ (oks : List SectionInfo) (t' : List Item), (R32.collectN fuel s).1 = (pre ++ oks).map .ok ++ t' ∧ NoOk t' := by
  obtain ⟨oks, t', h3, h4⟩ := R32.collectN_shape fuel s
  have ht := Rel.noOk_tail h4
  have hpre : pre <+: oks := by
    have h3' := h3
    rw [h] at h3'
    clear h h3 h4
    induction pre generalizing oks with
    | nil => exact List.nil_prefix
    | cons x xs ih =>
      cases oks with
      | nil =>
        exfalso
        simp only [List.map_cons, List.cons_append, List.map_nil, List.nil_append] at h3'
        exact ht x (by rw [← h3']; simp)
      | cons y ys =>
        simp only [List.map_cons, List.cons_append, List.cons.injEq, Outcome.ok.injEq] at h3'
        obtain ⟨rfl, h3'⟩ := h3'
        exact List.cons_prefix_cons.2 ⟨rfl, ih ys h3'⟩
  obtain ⟨ext, rfl⟩ := hpre
  exact ⟨ext, t', h3, ht⟩

/-- C93: wherever opening in a debug build for 32 bits does not panic, a release build has the same result: the same sections
and submessages, or the same error. -/
theorem C93_same (r : Rdr) (hl : r.data.length < 2 ^ 31) (hp : r.pos < 2 ^ 32) (h : N32.read r ≠ .panic) :
    R32.read r = N32.read r := by
  have e1 : R32.read r = R32.readN (r.data.length + 2) r := rfl
  have e2 : N32.read r = N32.readN (r.data.length + 2) r := rfl
  rw [e2, (read_collect r).2] at h
  rw [e1, e2, r32_collect, (read_collect r).2]
  rcases r32_items r hl hp with he | ⟨pre, tail, h1, h2, -⟩
  · rw [he]
  · have hv : ¬ Viable pre := by
      intro hv
      apply h
      rw [(Rel.finish_parse _).2, h1]
      exact (pItems_viable hv).2
    have e0 : NoOk [(Outcome.panic : Item)] := by simp [NoOk]
    obtain ⟨ext, t, h3, h4⟩ := r32_prefix h2
    rw [h1, h3]
    exact (Rel.finish_prefix (oks := ext) hv e0 h4).symm

/-- C93: and it opens nothing else: files of less than `2^31` octets are opened by both or by none, with the same result. -/
theorem C93_opens_iff (r : Rdr) (hl : r.data.length < 2 ^ 31) (hp : r.pos < 2 ^ 32) (g : Grib2) :
    R32.read r = .ok g ↔ N32.read r = .ok g := by
  by_cases hn : N32.read r = .panic
  · rw [hn]
    refine ⟨fun h => ?_, fun h => by cases h⟩
    exfalso
    have h' := h
    change R32.readN _ r = _ at h'
    rw [r32_collect] at h'
    obtain ⟨h1, h2⟩ := rel_finish_ok h'
    rcases r32_items r hl hp with he | ⟨pre, tail, h3, h4, h5, h6⟩
    · change N32.readN _ r = _ at hn
      rw [(read_collect r).2, ← he, ← r32_collect] at hn
      change R32.read r = _ at hn
      rw [hn] at h; cases h
    · simp only [h4] at h1
      have hne : ∀ x ∈ tail, ∃ s, x = .ok s := by
        intro x hx
        have : x ∈ g.sections.map Outcome.ok := by rw [← h1]; simp [hx]
        obtain ⟨s, -, rfl⟩ := List.mem_map.1 this
        exact ⟨s, rfl⟩
      obtain ⟨init, x, rfl⟩ : ∃ init x, tail = init ++ [x] := by
        rcases List.eq_nil_or_concat tail with h | ⟨a, b, h⟩
        · exact absurd h h5
        · exact ⟨a, b, by rw [h, List.concat_eq_append]⟩
      obtain ⟨s, rfl⟩ := hne x (by simp)
      have hl8 : g.sections.getLast? = some s := by
        have : (g.sections.map (Outcome.ok (ε := ParseError))).getLast? = some (.ok s) := by
          rw [← h1, ← List.append_assoc]; simp
        rw [List.getLast?_map] at this
        cases hg : g.sections.getLast? with
        | none => rw [hg] at this; simp at this
        | some y => rw [hg] at this; simp at this; rw [this]
      exact h6 s (by simp) (accepted_last h2 s hl8)
  · rw [C93_same r hl hp hn]

/-- C93: so if no message states a total length of `2^32` or more, the release build for 32 bits opens exactly the files that a
debug build for 64 bits opens, with the same sections and submessages, whatever the reader does. -/
theorem C93_opens_64 (r : Rdr) (hl : r.data.length < 2 ^ 31) (hp : r.pos < 2 ^ 32)
    (ht : ∀ q, MagicAt r.data q → octet r.data (q + 7) = 2 → number r.data (q + 8) 8 < 2 ^ 32) (g : Grib2) :
    R32.read r = .ok g ↔ Grib2.read r = .ok g :=
  (C93_opens_iff r hl hp g).trans ⟨C88_only r hp ht g, C88_opens r hl hp g⟩

/-- C93: opening ends: more calls of the section stream than octets and two more make no difference.  (Other than on 64 bits,
where the section stream itself need not end: `C82_endless_stream`.) -/
theorem C93_ends (r : Rdr) (fuel : Nat) (hf : r.data.length + 2 ≤ fuel) : R32.readN fuel r = R32.read r := by
  obtain ⟨k, rfl⟩ : ∃ k, fuel = r.data.length + 2 + k := ⟨fuel - (r.data.length + 2), by omega⟩
  show _ = R32.readN _ r
  have : (SectStream.new r).reader = r := rfl
  rw [r32_collect, r32_collect, R32.collectN_fuel (r.data.length + 2) k (by rw [this]; omega)]

/-- C93: opening panics only for data that contain the header of a section 1 to 6, at a position where one may be expected,
whose stated length is below the 5 octets of the header itself (or a section 6 without an octet after the header), or one for
which a buffer of `2^31` octets or more would be needed. -/
theorem C93_panics (r : Rdr) (hl : r.data.length < 2 ^ 31) (h : R32.read r = .panic) :
    ∃ p, HeaderAt r.data p ∧ p + 5 ≤ r.data.length ∧ 1 ≤ octet r.data (p + 4) ∧ octet r.data (p + 4) ≤ 6 ∧
      (number r.data p 4 < 5 ∨ (octet r.data (p + 4) = 6 ∧ number r.data p 4 = 5) ∨ 2 ^ 31 + 5 ≤ number r.data p 4) := by
  change R32.readN _ r = _ at h
  rw [r32_collect, (Rel.finish_parse _).2] at h
  have hr : (SectStream.new r).reader = r := rfl
  have hm : .panic ∈ (R32.collectN (r.data.length + 2) (SectStream.new r)).1 := by
    apply Classical.byContradiction
    intro hne
    exact absurd (collectResult_mem.2 h) (pItems_noPanic fun x hx hp => hne (hp ▸ hx))
  obtain ⟨s1, s2, h1, h2, h3⟩ := R32.collectN_panic _ (by rw [hr]; omega) (fun h0 => absurd rfl h0) (by rw [hr]; exact hl) hm
  obtain ⟨h4, p, rfl, h5⟩ := R32.next_panic h2
  rw [h1, hr] at h5 h3
  rcases h3 h4 with h3 | h3
  · exact ⟨_, h3, h5⟩
  · omega

/-- C93: so all other files that a debug build panics on are refused with an error. -/
theorem C93_errors (r : Rdr) (hl : r.data.length < 2 ^ 31) (hp : r.pos < 2 ^ 32) (h : N32.read r = .panic)
    (hn : ∀ p, HeaderAt r.data p → p + 5 ≤ r.data.length → 1 ≤ octet r.data (p + 4) → octet r.data (p + 4) ≤ 6 →
      5 ≤ number r.data p 4 ∧ (octet r.data (p + 4) = 6 → number r.data p 4 ≠ 5) ∧ number r.data p 4 < 2 ^ 31 + 5) :
    ∃ e, R32.read r = .err e := by
  cases hc : R32.read r with
  | err e => exact ⟨e, rfl⟩
  | panic =>
    exfalso
    obtain ⟨p, h0, h1, h2, h3, h4⟩ := C93_panics r hl hc
    obtain ⟨h5, h6, h7⟩ := hn p h0 h1 h2 h3
    rcases h4 with h4 | ⟨h4, h8⟩ | h4
    · omega
    · exact h6 h4 h8
    · omega
  | ok g =>
    exfalso
    rw [C93_opens_iff r hl hp, h] at hc
    cases hc

/-! ## Files that show the differences -/

/-- C93: the file that a release build for 64 bits opens although its sections overlap (`C82_overlap`) is refused on 32 bits;
the one on which the section stream of a release build for 64 bits never ends too, and there it ends. -/
theorem C93_overlap :
    N32.read ⟨overlapFile, 0, []⟩ = .panic ∧ (∃ e, R32.read ⟨overlapFile, 0, []⟩ = .err e) ∧
    (R32.collectN 10 (SectStream.new ⟨endlessFile, 0, []⟩)).1.length < 10 := by
  refine ⟨by decide +kernel, ⟨_, (by decide +kernel : R32.read ⟨overlapFile, 0, []⟩ = .err (.unexpectedEndOfData 6))⟩, by decide +kernel⟩

/-- The sample file with a section 1 that states the length 4. -/
def shortSection1 : List UInt8 := sampleFile.take 19 ++ [0, 0, 0, 4] ++ sampleFile.drop 23

/-- C93: such a file still panics: a buffer of `2^32 - 1` octets is asked for (`C93_panics`). -/
theorem C93_short_section : R32.read ⟨shortSection1, 0, []⟩ = .panic ∧ octet shortSection1 23 = 1 ∧ number shortSection1 19 4 = 4 := by
  decide +kernel

/-- The hypotheses of `C93_opens_64` (for the third see `C88_follows`): the sample file. -/
example : ∃ g, R32.read ⟨sampleFile, 0, []⟩ = .ok g ∧ g.submessages.length = 1 := by
  obtain ⟨g, h1, h2⟩ := sampleFile_opens
  exact ⟨g, (C93_opens_iff _ (by decide) (by decide) g).2 (C88_opens _ (by decide) (by decide) g h1), h2⟩

/-- Where headers may be expected in the file with overlapping sections: up to the first section 7, which is too short. -/
theorem overlap_headers {p : Nat} (h : HeaderAt overlapFile p) : p ∈ [16, 37, 51, 60, 71, 77] := by
  induction h with
  | first q hq =>
    have hl : overlapFile.length < 400 := by decide +kernel
    have key : ∀ q < 400, MagicAt overlapFile q → q + 16 ∈ [16, 37, 51, 60, 71, 77] := by decide +kernel
    exact key q (by have := hq.2; omega) hq
  | next p _ h1 h2 h3 h4 ih =>
    have key : ∀ p ∈ [16, 37, 51, 60, 71, 77], 5 ≤ number overlapFile p 4 →
        p + number overlapFile p 4 ∈ [16, 37, 51, 60, 71, 77] := by decide +kernel
    exact key p ih h4

/-- The hypotheses of `C93_errors`: the file with overlapping sections. -/
example : ∃ e, R32.read ⟨overlapFile, 0, []⟩ = .err e := by
  have e : overlapFile.length < 400 := by decide +kernel
  refine C93_errors _ (Nat.lt_trans e (by decide)) (by decide) C93_overlap.1 ?_
  have key : ∀ p ∈ [16, 37, 51, 60, 71, 77], octet overlapFile (p + 4) ≤ 6 →
      5 ≤ number overlapFile p 4 ∧ (octet overlapFile (p + 4) = 6 → number overlapFile p 4 ≠ 5) ∧
      number overlapFile p 4 < 2 ^ 31 + 5 := by decide +kernel
  exact fun p h _ _ h2 => key p (overlap_headers h) h2

end Grib.Props
