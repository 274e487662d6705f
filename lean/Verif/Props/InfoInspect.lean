import Verif.Props.Views
import Verif.Props.RefTime

/-! # C55, C56, C57: `info`, `inspect`, and the line counts that decide about the pager -/

namespace Grib.Cli

open Grib.Text Grib.Model Grib.Spec Grib.Props Grib.Codes

variable {ε F G : Type}

theorem drain_eq {r : Rdr} {g : Grib2} (h : Grib2.read r = .ok g) :
    SubIter.drain (g.len + 1) g.iter = g.submessages.map fun x => ((x.msg, x.sub), x.sects.map g.sect) := by
  rw [Grib2.iter, opened_drain h _ _ (by simp [Grib2.len]), List.drop_zero]

/-! ## C55 -/

/-- The six numbers of the reference time (octets 13 to 19 of section 1). -/
def timeOf (data : List UInt8) (ident : SectionInfo) : List Nat :=
  [field data ident.offset 13 14, field data ident.offset 15 15, field data ident.offset 16 16,
    field data ident.offset 17 17, field data ident.offset 18 18, field data ident.offset 19 19]

/-- What `info` should show of message number `i`, whose sections 0 and 1 are given. -/
def blockOf (k : Constants) (data : List UInt8) (i : Nat) (ind ident : SectionInfo) : InfoBlock :=
  { message := i
    discipline := tableText k .t0_0 (field data ind.offset 7 7)
    totalLength := field data ind.offset 9 16
    centre := tableText k .common11 (field data ident.offset 6 7)
    subcentre := field data ident.offset 8 9
    master := (field data ident.offset 10 10, tableText k .common00 (field data ident.offset 10 10))
    localVersion := (field data ident.offset 11 11, tableText k .t1_1 (field data ident.offset 11 11))
    significance := tableText k .t1_2 (field data ident.offset 12 12)
    refTime := timeOf data ident
    status := tableText k .t1_3 (field data ident.offset 20 20)
    dataType := tableText k .t1_4 (field data ident.offset 21 21) }

theorem infoBlock_eq (k : Constants) (validTime : List Nat → Bool) (i : Nat × Nat) (m : SubMessage) (data : List UInt8)
    (h0 : Faithful data m.s0.2) (n0 : m.s0.2.num = 0) (h1 : Faithful data m.s1.2) (n1 : m.s1.2.num = 1) :
    infoBlock k validTime i m =
      if validTime (timeOf data m.s1.2) then .ok (some (blockOf k data i.1 m.s0.2 m.s1.2)) else .err () := by
  obtain ⟨b0, -⟩ := C38_indicator data m.s0.2 h0 n0
  obtain ⟨p, b1, a1, a2, a3, a4, a5, a6, a7, a8⟩ := C38_identification (ε := Unit) data m.s1.2 h1 n1
  unfold infoBlock
  rw [b0, b1]
  dsimp only
  rw [show (Identification.mk p.payload) = p from rfl]
  simp only [a1, a2, a3, a4, a5, a6, a7, a8, Outcome.bind_ok]
  rfl

theorem infoLoop_skip (k : Constants) (validTime : List Nat → Bool) (xs ys : List ((Nat × Nat) × SubMessage))
    (h : ∀ x ∈ xs, x.1.2 ≠ 0) : infoLoop k validTime (xs ++ ys) = infoLoop k validTime ys := by
  induction xs with
  | nil => rfl
  | cons x xs ih =>
    rw [List.cons_append, infoLoop, if_neg (h x (by simp)), ih fun y hy => h y (by simp [hy])]

/-- The submessage list as the commands see it. -/
def asLoop (l : List (Submsg (Nat × SectionInfo))) : List ((Nat × Nat) × SubMessage) :=
  l.map fun x => ((x.msg, x.sub), x.sects)

theorem infoLoop_fileSubs (k : Constants) (validTime : List Nat → Bool) (data : List UInt8) (d : Nat × SectionInfo)
    (ms : List (Message (Nat × SectionInfo))) (start : Nat)
    (hf : ∀ m ∈ ms, Faithful data m.indicator.2 ∧ m.indicator.2.num = 0 ∧ Faithful data m.ident.2 ∧ m.ident.2.num = 1) :
    infoLoop k validTime (asLoop (fileSubs d d start ms)) =
      (((ms.zipIdx start).takeWhile fun p => validTime (timeOf data p.1.ident.2)).map fun p =>
          blockOf k data p.2 p.1.indicator.2 p.1.ident.2,
        if ms.all fun m => validTime (timeOf data m.ident.2) then .ok () else .err ()) := by
  induction ms generalizing start with
  | nil => rfl
  | cons m ms ih =>
    obtain ⟨f0, n0, f1, n1⟩ := hf m (by simp)
    have ih := ih (start + 1) fun m hm => hf m (by simp [hm])
    have hsubs : ∃ x xs, m.subs d d start = x :: xs ∧ x.msg = start ∧ x.sub = 0 ∧ x.sects.s0 = m.indicator ∧
        x.sects.s1 = m.ident ∧ ∀ y ∈ xs, y.sub ≠ 0 := by
      unfold Message.subs
      rw [show m.groups.length = m.rest.length + 1 from rfl, List.range_succ_eq_map, List.map_cons]
      refine ⟨_, _, rfl, rfl, rfl, rfl, rfl, ?_⟩
      intro y hy
      simp only [List.map_map, List.mem_map, Function.comp_apply] at hy
      obtain ⟨j, -, rfl⟩ := hy
      simp
    obtain ⟨x, xs, e, hx1, hx2, hx3, hx4, hxs⟩ := hsubs
    rw [fileSubs, e, asLoop, List.map_append, List.map_cons, List.cons_append, infoLoop, if_pos hx2]
    dsimp only
    rw [infoBlock_eq k validTime (x.msg, x.sub) x.sects data (by rw [hx3]; exact f0) (by rw [hx3]; exact n0)
      (by rw [hx4]; exact f1) (by rw [hx4]; exact n1), hx3, hx4, hx1]
    rw [List.zipIdx_cons, List.takeWhile_cons, List.all_cons]
    dsimp only
    by_cases hv : validTime (timeOf data m.ident.2) = true
    · simp only [hv, if_true, Bool.true_and, List.map_cons]
      rw [infoLoop_skip]
      · rw [show (List.map (fun x => ((x.msg, x.sub), x.sects)) (fileSubs d d (start + 1) ms)) =
          asLoop (fileSubs d d (start + 1) ms) from rfl, ih]
        rfl
      · intro y hy
        obtain ⟨z, hz, rfl⟩ := List.mem_map.1 hy
        exact hxs z hz
    · simp only [hv]
      rfl

/-- C55: on opened data, which are a sequence `ms` of well-ordered messages, `info` prints for every message, in order and
numbered from 0, one block with the values of its own sections 0 and 1 (however many submessages it has), up to the first
message whose reference time is not valid; if there is one, `info` fails, otherwise it succeeds. -/
theorem C55_blocks (k : Constants) (validTime : List Nat → Bool) (r : Rdr) (g : Grib2) (h : Grib2.read r = .ok g) :
    ∃ ms : List (Message SectionInfo), (∀ m ∈ ms, m.Ok) ∧ g.sections = ms.flatMap Message.sections ∧
      info k validTime g =
        ((ms.zipIdx.takeWhile fun p => validTime (timeOf r.data p.1.ident)).map fun p =>
            blockOf k r.data p.2 p.1.indicator p.1.ident,
          if ms.all fun m => validTime (timeOf r.data m.ident) then .ok () else .err ()) := by
  obtain ⟨ms, hok, hs, hsub, hf⟩ := opened_messages h
  refine ⟨ms, hok, hs, ?_⟩
  have e : SubIter.drain (g.len + 1) g.iter = asLoop (fileSubs (g.sect 0) (g.sect 0) 0 (numberMessages 0 ms)) := by
    rw [drain_eq h, ← opened_resolve hs hsub, asLoop, List.map_map]
    rfl
  have hsnd := numberMessages_snd 0 ms
  unfold info
  rw [e, infoLoop_fileSubs k validTime r.data]
  · conv => rhs; rw [← hsnd]
    rw [List.zipIdx_map, List.takeWhile_map, List.map_map, List.all_map]
    rfl
  · intro m hm
    have hm' : m.map Prod.snd ∈ ms := by rw [← hsnd]; exact List.mem_map_of_mem hm
    have ho := hok _ hm'
    have hi : ∀ s ∈ (m.map Prod.snd).sections, Faithful r.data s := fun s hs' =>
      hf s (by rw [hs]; exact List.mem_flatMap.2 ⟨_, hm', hs'⟩)
    exact ⟨hi _ (by simp [Message.sections, Message.map]), ho.indicator, hi _ (by simp [Message.sections, Message.map]), ho.ident⟩

theorem takeWhile_all {α : Type} {p : α → Bool} {l : List α} (h : ∀ a ∈ l, p a = true) : l.takeWhile p = l := by
  induction l with
  | nil => rfl
  | cons a l ih => rw [List.takeWhile_cons, if_pos (h a (by simp)), ih fun b hb => h b (by simp [hb])]

/-- C55: `info` prints at most one block per message of the file, and exactly one if it succeeds; in particular it
never panics. -/
theorem C55_count (k : Constants) (validTime : List Nat → Bool) (r : Rdr) (g : Grib2) (h : Grib2.read r = .ok g) :
    (info k validTime g).2 ≠ .panic ∧
    (info k validTime g).1.length ≤ (g.sections.filter fun s => s.num == 8).length ∧
    ((info k validTime g).2 = .ok () → (info k validTime g).1.length = (g.sections.filter fun s => s.num == 8).length) ∧
    (info k validTime g).1.map (·.message) = List.range (info k validTime g).1.length := by
  obtain ⟨ms, hok, hs, he⟩ := C55_blocks k validTime r g h
  have hcount : (g.sections.filter fun s => s.num == 8).length = ms.length := by
    rw [hs]
    clear hs he
    induction ms with
    | nil => rfl
    | cons m ms ih =>
      rw [List.flatMap_cons, List.filter_append, List.length_append, ih fun m hm => hok m (by simp [hm])]
      have ho := hok m (by simp)
      have hg : ∀ s ∈ m.groups.flatMap Group.sections, (s.num == 8) = false := by
        intro s hs
        obtain ⟨gr, hgr, hs⟩ := List.mem_flatMap.1 hs
        have hgo := ho.groups gr hgr
        simp only [Group.sections, List.mem_append, Option.mem_toList, List.mem_cons, List.not_mem_nil, or_false] at hs
        rcases hs with (hs | hs) | hs | hs | hs | hs
        · simp [hgo.loc s hs]
        · simp [hgo.grid s hs]
        · subst hs; simp [hgo.prod]
        · subst hs; simp [hgo.repr]
        · subst hs; simp [hgo.bitmap]
        · subst hs; simp [hgo.data]
      have : (m.sections.filter fun s => s.num == 8).length = 1 := by
        unfold Message.sections
        rw [List.filter_cons_of_neg (by simp [ho.indicator]), List.filter_cons_of_neg (by simp [ho.ident]),
          List.filter_append, List.filter_eq_nil_iff.2 (fun a ha => by simp [hg a ha]), List.nil_append,
          List.filter_cons_of_pos (by simp [ho.fin])]
        rfl
      rw [this, List.length_cons]; omega
  have hpre : ∀ (l : List (Message SectionInfo)) (n : Nat) (p : Message SectionInfo × Nat → Bool),
      (((l.zipIdx n).takeWhile p).map Prod.snd) = List.range' n ((l.zipIdx n).takeWhile p).length := by
    intro l
    induction l with
    | nil => intro n p; rfl
    | cons a l ih =>
      intro n p
      rw [List.zipIdx_cons, List.takeWhile_cons]
      split
      · rw [List.map_cons, ih, List.length_cons, List.range'_succ]
      · rfl
  rw [he, hcount]
  dsimp only
  refine ⟨by split <;> simp, ?_, ?_, ?_⟩
  · rw [List.length_map]
    have := (List.takeWhile_sublist (l := ms.zipIdx) fun p => validTime (timeOf r.data p.1.ident)).length_le
    simpa using this
  · intro hok'
    have hall : (ms.all fun m => validTime (timeOf r.data m.ident)) = true := by
      by_cases hc : (ms.all fun m => validTime (timeOf r.data m.ident)) = true
      · exact hc
      · rw [if_neg hc] at hok'; cases hok'
    rw [List.length_map]
    have : ∀ p ∈ ms.zipIdx, validTime (timeOf r.data p.1.ident) = true := by
      intro p hp
      exact List.all_eq_true.1 hall _ (List.fst_mem_of_mem_zipIdx hp)
    rw [takeWhile_all this, List.length_zipIdx]
  · rw [List.map_map, List.length_map, List.range_eq_range', ← hpre]
    rfl

theorem chronoValid_iff (data : List UInt8) (s : SectionInfo) :
    chronoValid (timeOf data s) = true ↔ ∃ n, Clock.after n = storedTime data s := by
  rw [← clockOk_iff]
  have e := createDateTime_eq (storedTime data s)
  have hv : chronoValid (timeOf data s) = (withYmdAndHms (storedTime data s).year (storedTime data s).month
    (storedTime data s).day (storedTime data s).hour (storedTime data s).minute (storedTime data s).second).isSome := rfl
  rw [hv]
  unfold createDateTime at e
  generalize withYmdAndHms (storedTime data s).year (storedTime data s).month
    (storedTime data s).day (storedTime data s).hour (storedTime data s).minute (storedTime data s).second = w at e
  cases w with
  | none =>
    by_cases hc : ClockOk (storedTime data s)
    · rw [if_pos hc] at e; cases e
    · simpa using hc
  | some t =>
    by_cases hc : ClockOk (storedTime data s)
    · simpa using hc
    · rw [if_neg hc] at e; cases e

/-- C55: with the calendar of C58, `info` succeeds exactly when the stored reference time of every message is a date and
time of the calendar. -/
theorem C55_succeeds (k : Constants) (r : Rdr) (g : Grib2) (h : Grib2.read r = .ok g) :
    (info k chronoValid g).2 = .ok () ↔
      ∀ s ∈ g.sections, s.num = 1 → ∃ n, Clock.after n = storedTime r.data s := by
  obtain ⟨ms, hok, hs, he⟩ := C55_blocks k chronoValid r g h
  rw [he]
  dsimp only
  have hall : (ms.all fun m => chronoValid (timeOf r.data m.ident)) = true ↔
      ∀ s ∈ g.sections, s.num = 1 → ∃ n, Clock.after n = storedTime r.data s := by
    rw [List.all_eq_true, hs]
    constructor
    · intro ha s hs1 hn
      obtain ⟨m, hm, hsm⟩ := List.mem_flatMap.1 hs1
      have ho := hok m hm
      have : s = m.ident := by
        simp only [Message.sections, List.mem_cons, List.mem_append, List.not_mem_nil, or_false] at hsm
        rcases hsm with rfl | rfl | hsm | rfl
        · have := ho.indicator; omega
        · rfl
        · exfalso
          obtain ⟨gr, hgr, hsg⟩ := List.mem_flatMap.1 hsm
          have hgo := ho.groups gr hgr
          simp only [Group.sections, List.mem_append, Option.mem_toList, List.mem_cons, List.not_mem_nil, or_false] at hsg
          rcases hsg with (hs' | hs') | hs' | hs' | hs' | hs'
          · have := hgo.loc s hs'; omega
          · have := hgo.grid s hs'; omega
          · subst hs'; have := hgo.prod; omega
          · subst hs'; have := hgo.repr; omega
          · subst hs'; have := hgo.bitmap; omega
          · subst hs'; have := hgo.data; omega
        · have := ho.fin; omega
      rw [this]
      exact (chronoValid_iff _ _).1 (ha m hm)
    · intro ha m hm
      exact (chronoValid_iff _ _).2 (ha m.ident
        (List.mem_flatMap.2 ⟨m, hm, by simp [Message.sections]⟩) (hok m hm).ident)
  by_cases hc : (ms.all fun m => chronoValid (timeOf r.data m.ident)) = true
  · rw [if_pos hc]; exact ⟨fun _ => hall.1 hc, fun _ => rfl⟩
  · rw [if_neg hc]; exact ⟨fun hx => absurd hx (by simp), fun hx => absurd (hall.2 hx) hc⟩

/-- The messages of `packedFile` shown by `info`, with every time valid, and with the times of years after 2019 not. -/
example : ∃ g, Grib2.read ⟨packedFile, 0, []⟩ = .ok g ∧
    ((info noTables (fun _ => true) g).1.map (·.message), (info noTables (fun _ => true) g).2,
     (info noTables (fun t => t.head? == some 0) g).2) = ([0, 1], .ok (), .err ()) :=
  Outcome.exists_of_ok? (f := fun g : Grib2 => ((info noTables (fun _ => true) g).1.map (·.message),
    (info noTables (fun _ => true) g).2, (info noTables (fun t => t.head? == some 0) g).2)) (by decide +kernel)

/-- The sample file of C58 has valid reference times, so `info` succeeds on it. -/
example : ∃ g, Grib2.read ⟨messagesBytes sampleMessagesFile, 0, []⟩ = .ok g ∧ (info noTables chronoValid g).2 = .ok () :=
  Outcome.exists_of_ok? (f := fun g : Grib2 => (info noTables chronoValid g).2) (by decide +kernel)

/-! ## C56 -/

/-- The value of a hexadecimal digit. -/
def hexDigit (c : Char) : Nat := "0123456789abcdef".toList.idxOf c

/-- The number a string of hexadecimal digits denotes. -/
def hexNumber (s : Str) : Nat := s.foldl (fun n c => 16 * n + hexDigit c) 0

theorem hexNumber_append (s : Str) (c : Char) : hexNumber (s ++ [c]) = 16 * hexNumber s + hexDigit c := by
  simp [hexNumber]

theorem hexDigit_digitChar : ∀ d < 16, hexDigit (Nat.digitChar d) = d := by decide

theorem hexNumber_toDigits (n : Nat) : hexNumber (Nat.toDigits 16 n) = n := by
  induction n using Nat.strongRecOn with
  | _ n ih =>
    by_cases h : n < 16
    · rw [Nat.toDigits_of_lt_base h]
      simp [hexNumber, hexDigit_digitChar n h]
    · rw [Nat.toDigits_of_base_le (by omega) (by omega), hexNumber_append, ih _ (by omega),
        hexDigit_digitChar _ (Nat.mod_lt _ (by omega))]
      omega

/-- C56: the offsets are shown with exactly 16 hexadecimal digits that denote them. -/
theorem C56_hex (n : Nat) (h : n < 2 ^ 64) : (hex16 n).length = 16 ∧ hexNumber (hex16 n) = n := by
  have hl : (Nat.toDigits 16 n).length ≤ 16 := (Nat.length_toDigits_le_iff (by omega) (by omega)).2 (by omega)
  refine ⟨?_, ?_⟩
  · unfold hex16; rw [List.length_append, List.length_replicate]; omega
  · unfold hex16
    have : ∀ k, hexNumber (List.replicate k '0' ++ Nat.toDigits 16 n) = hexNumber (Nat.toDigits 16 n) := by
      intro k
      unfold hexNumber
      rw [List.foldl_append]
      congr 1
      induction k with
      | zero => rfl
      | succ k ih => rw [List.replicate_succ, List.foldl_cons]; simpa [hexDigit] using ih
    rw [this, hexNumber_toDigits]

/-- C56: `inspect --sections` shows one line per section of the file, in file order: its rank, the offsets of its first
octet and of the octet after its last, and its number. -/
theorem C56_sections (g : Grib2) :
    (inspectSections g).length = g.sections.length ∧
    ∀ i s, g.sections[i]? = some s →
      (inspectSections g)[i]? = some (padLeft 5 (showNat i) ++ " │ ".toList ++ hex16 s.offset ++ " - ".toList ++
        hex16 (s.offset + s.size) ++ " │ Section ".toList ++ showNat s.num) := by
  refine ⟨by simp [inspectSections], ?_⟩
  intro i s h
  unfold inspectSections
  rw [List.getElem?_map, List.getElem?_zipIdx, h]
  simp [sectionLine]

theorem mapSubs_ok {α : Type} {f : Nat × Nat → SubMessage → Outcome Empty α} {g : Nat × Nat → SubMessage → α}
    {l : List ((Nat × Nat) × SubMessage)} (h : ∀ x ∈ l, f x.1 x.2 = .ok (g x.1 x.2)) :
    mapSubs f l = .ok (l.map fun x => g x.1 x.2) := by
  induction l with
  | nil => rfl
  | cons x l ih => rw [mapSubs, h x (by simp), Outcome.bind_ok, ih fun y hy => h y (by simp [hy])]; rfl

/-- The line of `inspect --submessages` for a listed submessage: its index, the ranks of its sections 2 (or "-") to 7, and
its three templates. -/
def rowOf (data : List UInt8) (ix : Nat × Nat) (m : SubMessage) : InspectRow :=
  ⟨showIndex ix,
    [(m.s2.map fun s => showNat s.1).getD ['-'], showNat m.s3.1, showNat m.s4.1, showNat m.s5.1, showNat m.s6.1, showNat m.s7.1],
    [showNat 3 ++ '.' :: showNat (field data m.s3.2.offset 13 14), showNat 4 ++ '.' :: showNat (field data m.s4.2.offset 8 9),
      showNat 5 ++ '.' :: showNat (field data m.s5.2.offset 10 11)]⟩

/-- C56: on opened data, `inspect --submessages` never fails and shows one line per listed submessage, in order. -/
theorem C56_submessages (r : Rdr) (g : Grib2) (h : Grib2.read r = .ok g) :
    inspectSubmessages g = .ok ((SubIter.drain (g.len + 1) g.iter).map fun x => rowOf r.data x.1 x.2) := by
  unfold inspectSubmessages
  apply mapSubs_ok
  intro x hx
  have hf := facts (ix := x.1) (m := x.2) h hx
  unfold inspectRow
  rw [getTmplCode_3 hf.f3.1 hf.f3.2, getTmplCode_4 hf.f4.1 hf.f4.2, getTmplCode_5 hf.f5.1 hf.f5.2]
  simp only [Outcome.bind_ok, rowOf]
  cases x.2.s2 <;> rfl

/-- C56: the ranks shown are those of sections of the file with the right numbers. -/
theorem C56_cells (r : Rdr) (g : Grib2) (h : Grib2.read r = .ok g) (ix : Nat × Nat) (m : SubMessage)
    (hm : (ix, m) ∈ SubIter.drain (g.len + 1) g.iter) :
    (∀ s, m.s2 = some s → g.sections[s.1]?.map (·.num) = some 2) ∧
    g.sections[m.s3.1]?.map (·.num) = some 3 ∧ g.sections[m.s4.1]?.map (·.num) = some 4 ∧
    g.sections[m.s5.1]?.map (·.num) = some 5 ∧ g.sections[m.s6.1]?.map (·.num) = some 6 ∧
    g.sections[m.s7.1]?.map (·.num) = some 7 := by
  have hk := (C17_accessors (ε := Unit) r g h ix m hm).2.2.2.2.2
  have key : ∀ s n, (s, n) ∈ [(m.s0, 0), (m.s1, 1), (m.s3, 3), (m.s4, 4), (m.s5, 5), (m.s6, 6), (m.s7, 7)] →
      g.sections[s.1]?.map (·.num) = some n := by
    intro s n hs
    obtain ⟨h1, h2, -⟩ := hk (s, n) hs
    dsimp only at h1 h2
    rw [h2, ← h1]; rfl
  refine ⟨?_, key _ _ (by simp), key _ _ (by simp), key _ _ (by simp), key _ _ (by simp), key _ _ (by simp)⟩
  rw [drain_eq h] at hm
  obtain ⟨x, hx, he⟩ := List.mem_map.1 hm
  simp only [Prod.mk.injEq] at he
  obtain ⟨-, rfl⟩ := he
  obtain ⟨hb, hkd⟩ := opened_kinds h hx
  intro s hs
  simp only [Nine.map, Option.map_eq_some_iff] at hs
  obtain ⟨i, hi, rfl⟩ := hs
  have h2 : (g.sect i).2.num = 2 := hkd.2.2.1 i hi
  have hlt := hb.2.2.1 i hi
  have e : (g.sect i).2 = g.sections[i] := by simp [Grib2.sect, hlt]
  rw [e] at h2
  simp [Grib2.sect, hlt, h2]

/-- C56: `inspect --templates` shows one line for each template used in the file, once each and in order, beginning with
the section and the template number, filled up to eight characters; the description after " - " is that of the template's code table. -/
theorem C56_templates (k : Constants) (r : Rdr) (g : Grib2) (h : Grib2.read r = .ok g)
    (perm : List (Nat × Nat) → List (Nat × Nat)) (hp : ∀ l, (perm l).Perm l) :
    ∃ ts : List (Nat × Nat), inspectTemplates k perm g = .ok (ts.map (templateLine k)) ∧ ts.Pairwise LexLt ∧
      (∀ c, c ∈ ts ↔ ∃ s ∈ g.sections, TemplateOf r.data s c) ∧
      ∀ c ∈ ts, ∃ (table : Table) (pad : Nat), (c.1, table) ∈ [(3, Table.t3_1), (4, .t4_0), (5, .t5_0)] ∧
        pad = 8 - (showNat c.1 ++ '.' :: showNat c.2).length ∧
        templateLine k c = showNat c.1 ++ '.' :: showNat c.2 ++ List.replicate pad ' ' ++ " - ".toList ++ tableText k table c.2 := by
  obtain ⟨ts, h1, h2, h3⟩ := C19_templates (ε := Empty) r g h perm hp
  refine ⟨ts, ?_, h2, h3, ?_⟩
  · unfold inspectTemplates; rw [h1]; rfl
  · intro c hc
    obtain ⟨a, b⟩ := c
    obtain ⟨s, -, hs1, hs2⟩ := (h3 _).1 hc
    dsimp only at hs1
    have hn : a = 3 ∨ a = 4 ∨ a = 5 := by omega
    clear hs1 hs2 hc h3
    rcases hn with rfl | rfl | rfl
    · exact ⟨.t3_1, _, by simp, rfl, rfl⟩
    · exact ⟨.t4_0, _, by simp, rfl, rfl⟩
    · exact ⟨.t5_0, _, by simp, rfl, rfl⟩

/-! ## C57 -/

theorem mapSubs_length {α : Type} {f : Nat × Nat → SubMessage → Outcome Empty α} {l : List ((Nat × Nat) × SubMessage)}
    {as : List α} (h : mapSubs f l = .ok as) : as.length = l.length := by
  induction l generalizing as with
  | nil => cases h; rfl
  | cons x l ih =>
    obtain ⟨a, -, h⟩ := Outcome.bind_eq_ok h
    obtain ⟨bs, hb, h⟩ := Outcome.bind_eq_ok h
    cases h
    simp [ih hb]

theorem sizeHint_iter (g : Grib2) : g.iter.sizeHint = .ok g.len := by
  simp [SubIter.sizeHint, Grib2.iter, Grib2.len]

/-- C57: the number of lines that `list` announces to the pager is exactly that of its output (a header line and the
rows). -/
theorem C57_list (k : Constants) (ops : FloatOps G) (showF : G → Str) (r : Rdr) (g : Grib2) (h : Grib2.read r = .ok g)
    (rows : List ListRow) (hr : listRows k ops showF g = .ok rows) : listNumLines false g = .ok (1 + rows.length) := by
  have := mapSubs_length hr
  rw [(C18_loop r g h).1] at this
  unfold listNumLines
  rw [sizeHint_iter, this]
  rfl

/-- The number of lines of a text. -/
def lineCount (s : Str) : Nat := s.count '\n'

/-- C57, failure: `list --dump` announces `10 n - 1` lines for `n` submessages, but prints at least `18 n`. -/
theorem C57_dump_fails (k : Constants) (r : Rdr) (g : Grib2) (h : Grib2.read r = .ok g) (hne : g.len ≠ 0) (text : Str)
    (hd : listDump k g = .ok text) :
    listNumLines true g = .ok (10 * g.len - 1) ∧ 18 * g.len ≤ lineCount text := by
  refine ⟨?_, ?_⟩
  · unfold listNumLines
    rw [sizeHint_iter, Outcome.bind_ok, if_pos rfl, Outcome.require, if_pos (by simp; omega)]
    rfl
  · unfold listDump at hd
    obtain ⟨parts, hp, hd'⟩ := Outcome.bind_eq_ok hd
    cases hd'
    clear hd
    rw [← (C18_loop r g h).1]
    generalize SubIter.drain (g.len + 1) g.iter = l at hp
    induction l generalizing parts with
    | nil => cases hp; simp [lineCount]
    | cons x l ih =>
      obtain ⟨a, ha, hp⟩ := Outcome.bind_eq_ok hp
      obtain ⟨bs, hb, hp⟩ := Outcome.bind_eq_ok hp
      cases hp
      obtain ⟨t, ht, ha⟩ := Outcome.bind_eq_ok ha
      cases ha
      have ih := ih bs hb
      obtain ⟨vs, hv, htt⟩ := Outcome.bind_eq_ok (show (SubMessage.describe k x.2 : Outcome Empty _) = .ok t from ht)
      obtain ⟨h1, h2, -⟩ := C54_text k x.2 vs hv
      rw [ht] at h1
      cases h1
      have h16 : 16 ≤ lineCount ((describeLabels.zip vs).flatMap fun x => x.1.toList ++ x.2 ++ ['\n']) := by
        have hz : (describeLabels.zip vs).length = 16 := by rw [List.length_zip, h2]; rfl
        rw [← hz]
        generalize describeLabels.zip vs = z
        unfold lineCount
        clear hz
        induction z with
        | nil => simp
        | cons a z ih =>
          rw [List.flatMap_cons, List.count_append, List.count_append, List.length_cons]
          simp only [List.count_singleton_self]
          omega
      unfold lineCount at *
      simp only [List.flatten_cons, List.count_append, List.length_cons, List.count_singleton_self]
      omega

/-- C57: for `inspect`, the announced number is exact unless submessages are shown. -/
theorem C57_inspect (perm : List (Nat × Nat) → List (Nat × Nat)) (g : Grib2) (flags : InspectFlags)
    (hf : flags.items.submessages = false) : inspectLines flags perm g = inspectNumLines flags perm g := by
  unfold inspectLines inspectNumLines
  simp only [hf, inspectSections]
  simp

/-- C57, failure: with submessages shown, the header line of that part is forgotten. -/
theorem C57_inspect_fails (r : Rdr) (g : Grib2) (h : Grib2.read r = .ok g) (perm : List (Nat × Nat) → List (Nat × Nat))
    (hp : ∀ l, (perm l).Perm l) (flags : InspectFlags) (hf : flags.items.submessages = true) :
    ∃ n, inspectNumLines flags perm g = .ok n ∧ inspectLines flags perm g = .ok (n + 1) := by
  obtain ⟨ts, ht, -⟩ := C19_templates (ε := Empty) r g h perm hp
  unfold inspectLines inspectNumLines
  simp only [hf, if_true, C56_submessages r g h, sizeHint_iter, Outcome.bind_ok, List.length_map, (C18_loop r g h).1, ht,
    inspectSections, List.length_zipIdx]
  cases flags.items.templates <;> simp only [if_true, Bool.false_eq_true, if_false] <;>
    exact ⟨_, rfl, by congr 1; omega⟩

/-- C57: the number of lines that `decode` announces (cli/src/commands/decode.rs:113-117: the lower bound of the zipped
iterators and the header line) is exactly that of its output, when the coordinates of the grid (with rows and columns)
are known. -/
theorem C57_decode (o : GridOps G F) (c : Codecs F) (r : Rdr) (index : Str) (rows : List ((F × F) × F))
    (h : decodeText o c r index = .ok rows) :
    ∃ latlons values vs, Prepared o c r index latlons values ∧ values.toList c.ops = .done vs ∧
      ∀ pts, latlons = .ok pts → ∀ hint, (pts.sizeHint : Outcome Empty Nat) = .ok hint →
        ∀ (d : GridDefinition) (t : GridTemplate), subLatlons o d = .ok pts → GridTemplate.tryFrom d = .ok t → 9 ≤ d.payload.length →
          0 < t.gridShape.1 → 0 < t.gridShape.2 → rows.length = min hint vs.length := by
  obtain ⟨latlons, values, vs, h1, h2, h3⟩ := C53_text o c r index rows h
  refine ⟨latlons, values, vs, h1, h2, ?_⟩
  intro pts hp hint hh d t hd ht hl n1 n2
  obtain ⟨ps, hps, hlen⟩ := C37_latlons o d t ht hl n1 n2 pts hd
  have hhint : hint = sectNumber d.payload 7 10 := by
    unfold subLatlons GridDefinition.numPoints at hd
    rw [rdAs_number (by omega), Outcome.bind_ok, ht, Outcome.bind_ok] at hd
    obtain ⟨pts', -, hd⟩ := Outcome.bind_eq_ok hd
    obtain ⟨n, hn, hd⟩ := Outcome.bind_eq_ok hd
    split at hd
    · rename_i he
      cases hd
      have : n = hint := by
        cases pts with
        | lambert ps => cases hn; cases hh; rfl
        | latLon it =>
          have a : it.ij.sizeHint = (.ok n : Outcome GribError Nat) := hn
          have b : it.ij.sizeHint = (.ok hint : Outcome Empty Nat) := hh
          unfold GridIter.sizeHint at a b
          clear hn hh hd hps
          split at a
          · cases a
          · rename_i hc
            rw [if_neg hc] at b
            split at a
            · cases a
            · rename_i hc'
              rw [if_neg hc'] at b
              cases a; cases b; rfl
      rw [← this, ← he]; rfl
    · cases hd
  rcases h3 with ⟨it, e, hrows⟩ | ⟨ps', e, hrows⟩ | ⟨e, -⟩
  · rw [e] at hp; cases hp
    rw [hrows _ _ hps, List.length_zip, hlen, hhint]
  · rw [e] at hp; cases hp
    cases hh
    rw [hrows, List.length_zip]
  · rw [e] at hp; cases hp

-- the views of `fullFile` exist, with the numbers of lines: 18 announced as 9 (`list --dump`), and 13 as 12 (`inspect`)
example : ∃ g, Grib2.read ⟨fullFile, 0, []⟩ = .ok g ∧ (inspectSubmessages g).ok? =
    some [⟨"0.0".toList, ["-".toList, "2".toList, "3".toList, "4".toList, "5".toList, "6".toList],
      ["3.0".toList, "4.0".toList, "5.0".toList]⟩] :=
  Outcome.exists_of_ok? (f := fun g : Grib2 => (inspectSubmessages g).ok?) (by decide +kernel)

/-- The numbers of lines of the views, printed and announced. -/
def lineNumbers (g : Grib2) : List (Option Nat) :=
  [some (inspectSections g).length,
    (listRows noTables FloatOps.exact showOpt g).ok?.map (·.length + 1), (listNumLines false g).ok?,
    (listDump noTables g).ok?.map lineCount, (listNumLines true g).ok?,
    (inspectLines ⟨true, true, false⟩ id g).ok?, (inspectNumLines ⟨true, true, false⟩ id g).ok?]

example : ∃ g, Grib2.read ⟨fullFile, 0, []⟩ = .ok g ∧
    lineNumbers g = [some 8, some 2, some 2, some 18, some 9, some 13, some 12] :=
  Outcome.exists_of_ok? (f := lineNumbers) (by decide +kernel)

-- coordinates are known for `fullFile`
example : ∃ d t pts, subLatlons exactOps d = .ok pts ∧ GridTemplate.tryFrom d = .ok t ∧ 9 ≤ d.payload.length ∧
    0 < t.gridShape.1 ∧ 0 < t.gridShape.2 :=
  ⟨⟨gridRaw.first.grid.getD []⟩, .template0 ⟨2, 2, 45000000, 10000000, 44000000, 11000000, 0⟩, _, rfl, by decide +kernel,
    by decide +kernel, by decide, by decide⟩

end Grib.Cli
