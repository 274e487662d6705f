import Verif.Lemmas.ParamCodes
import Verif.Lemmas.Subtitle

/-!
# C45: generated parameter codes

`Codegen.Wgrib2Table.variants` are the variants of the generated enum (name and
discriminant), `tryFrom` is the generated conversion from a code.
-/

namespace Grib
open Text Codegen Spec

/-- The table of codegen/src/param_codes.rs:215-220. -/
def exampleCodes : List Entry :=
  [⟨0, 0, 255, 0, 0, 0, 0, "TMP".toList, "Temperature".toList, "K".toList⟩,
   ⟨0, 0, 255, 0, 0, 0, 1, "VTMP".toList, "Virtual Temperature".toList, "K".toList⟩,
   ⟨0, 0, 255, 0, 0, 3, 16, "U-GWD".toList, "Zonal Flux".toList, "N/m^2".toList⟩,
   ⟨0, 0, 255, 7, 1, 3, 194, "U-GWD".toList, "Zonal Flux".toList, "N/m^2".toList⟩]

example : (exampleCodes.map Entry.id).Nodup ∧
    (Wgrib2Table.ofCodes exampleCodes).remapper = [(0x03c2, 0x0310)] ∧
    (Wgrib2Table.ofCodes exampleCodes).variants =
      [("_TMP".toList, 0), ("_VTMP".toList, 1), ("_U_GWD".toList, 0x0310)] ∧
    (Wgrib2Table.ofCodes exampleCodes).tryFrom 0x03c2 = some "_U_GWD".toList := by decide +kernel

/-- `e` is the first entry of the table with its identifier. -/
def First (codes : List Entry) (e : Entry) : Prop :=
  ∃ pre post, codes = pre ++ e :: post ∧ ∀ x ∈ pre, x.normalizedName ≠ e.normalizedName

theorem firstOf_iff {codes : List Entry} {name : Str} {f : Entry} :
    firstOf codes name = some f ↔ First codes f ∧ f.normalizedName = name := by
  unfold firstOf First
  rw [List.find?_eq_some_iff_append]
  constructor
  · rintro ⟨h, as, bs, rfl, hn⟩
    simp only [decide_eq_true_eq] at h
    refine ⟨⟨as, bs, rfl, ?_⟩, h⟩
    intro x hx
    have := hn x hx
    simpa [h] using this
  · rintro ⟨⟨as, bs, rfl, hn⟩, rfl⟩
    refine ⟨by simp, as, bs, rfl, ?_⟩
    intro x hx
    simpa using hn x hx

theorem First.mem {codes : List Entry} {e : Entry} (h : First codes e) : e ∈ codes := by
  obtain ⟨pre, post, rfl, _⟩ := h; simp

theorem exists_first {codes : List Entry} {e : Entry} (h : e ∈ codes) :
    ∃ f, First codes f ∧ f.normalizedName = e.normalizedName := by
  cases hf : firstOf codes e.normalizedName with
  | some f => exact ⟨f, firstOf_iff.1 hf⟩
  | none =>
    unfold firstOf at hf
    rw [List.find?_eq_none] at hf
    have := hf e h
    simp at this

theorem first_unique {codes : List Entry} {e f : Entry} (he : First codes e) (hf : First codes f)
    (hn : e.normalizedName = f.normalizedName) : e = f := by
  have h1 := firstOf_iff.2 ⟨he, hn⟩
  have h2 := firstOf_iff.2 ⟨hf, rfl⟩
  rw [h1] at h2
  exact Option.some.inj h2

theorem find_id {codes : List Entry} (hnd : (codes.map Entry.id).Nodup) {e : Entry} (h : e ∈ codes) :
    (codes.find? fun x => x.id = e.id) = some e := by
  induction codes with
  | nil => cases h
  | cons c cs ih =>
    rw [List.map_cons, List.nodup_cons] at hnd
    rw [List.find?_cons]
    rcases List.mem_cons.1 h with rfl | h
    · simp
    · have hne : c.id ≠ e.id := fun he => hnd.1 (he ▸ List.mem_map_of_mem h)
      simp only [hne, decide_false]
      exact ih hnd.2 h

theorem id_inj {codes : List Entry} (hnd : (codes.map Entry.id).Nodup) {e f : Entry} (he : e ∈ codes) (hf : f ∈ codes)
    (h : e.id = f.id) : e = f := by
  have h1 := find_id hnd he
  have h2 := find_id hnd hf
  rw [h] at h1
  rw [h1] at h2
  exact Option.some.inj h2

theorem remapper_eq {codes : List Entry} (hnd : (codes.map Entry.id).Nodup) {e : Entry} (he : e ∈ codes) :
    get (Wgrib2Table.ofCodes codes).remapper e.id =
      (firstOf codes e.normalizedName).bind fun f => if f.id = e.id then none else some f.id := by
  unfold Wgrib2Table.ofCodes
  rw [steps_remapper codes _ hnd, find_id hnd he]
  simp [Codegen.get]

/-- C45: if every code is listed once, the remapper sends a code to another one
iff the entry is not the first with its identifier, and then to the code of
the first. -/
theorem C45_remapper (codes : List Entry) (hnd : (codes.map Entry.id).Nodup) (e : Entry) (he : e ∈ codes) (v : Nat) :
    get (Wgrib2Table.ofCodes codes).remapper e.id = some v ↔
      ¬ First codes e ∧ ∃ f, First codes f ∧ f.normalizedName = e.normalizedName ∧ f.id = v := by
  rw [remapper_eq hnd he]
  obtain ⟨f, hf, hfn⟩ := exists_first he
  rw [firstOf_iff.2 ⟨hf, hfn⟩]
  simp only [Option.bind_some]
  constructor
  · intro h
    split at h
    · cases h
    · rename_i hne
      refine ⟨?_, f, hf, hfn, Option.some.inj h⟩
      intro hfe
      exact hne (by rw [first_unique hf hfe hfn])
  · rintro ⟨hnf, g, hg, hgn, rfl⟩
    have : f = g := first_unique hf hg (hfn.trans hgn.symm)
    subst this
    rw [if_neg]
    intro hid
    exact hnf (id_inj hnd hf.mem he hid ▸ hf)

/-- C45: if every code is listed once, the enum has exactly one variant for
each identifier, with the code of the first entry with that identifier; no two
variants have the same name or the same code. -/
theorem C45_variants (codes : List Entry) (hnd : (codes.map Entry.id).Nodup) :
    (∀ name v, (name, v) ∈ (Wgrib2Table.ofCodes codes).variants ↔
      ∃ e, First codes e ∧ e.normalizedName = name ∧ e.id = v) ∧
    ((Wgrib2Table.ofCodes codes).variants.map (·.1)).Nodup ∧
    ((Wgrib2Table.ofCodes codes).variants.map (·.2)).Nodup := by
  have hfirst : ∀ e ∈ codes, ((get (Wgrib2Table.ofCodes codes).remapper e.id).isNone = true ↔ First codes e) := by
    intro e he
    rw [Option.isNone_iff_eq_none]
    constructor
    · intro hn
      by_cases h : First codes e
      · exact h
      · obtain ⟨f, hf, hfn⟩ := exists_first he
        have := (C45_remapper codes hnd e he f.id).2 ⟨h, f, hf, hfn, rfl⟩
        rw [hn] at this; cases this
    · intro hf
      cases h : get (Wgrib2Table.ofCodes codes).remapper e.id with
      | none => rfl
      | some v => exact absurd hf ((C45_remapper codes hnd e he v).1 h).1
  have hpw : (codes.filter fun e => (get (Wgrib2Table.ofCodes codes).remapper e.id).isNone).Pairwise (fun a b => a.id ≠ b.id) := by
    refine List.Pairwise.filter _ ?_
    exact List.pairwise_map.1 hnd
  refine ⟨?_, ?_, ?_⟩
  · intro name v
    unfold Wgrib2Table.variants
    simp only [List.mem_map, List.mem_filter, Prod.mk.injEq]
    constructor
    · rintro ⟨e, ⟨he, hn⟩, h1, h2⟩
      exact ⟨e, (hfirst e he).1 hn, h1, h2⟩
    · rintro ⟨e, he, h1, h2⟩
      exact ⟨e, ⟨he.mem, (hfirst e he.mem).2 he⟩, h1, h2⟩
  · unfold Wgrib2Table.variants
    rw [List.map_map]
    refine List.pairwise_map.2 ?_
    refine List.Pairwise.imp_of_mem ?_ hpw
    intro a b ha hb hne hn
    have ha' := List.mem_filter.1 ha
    have hb' := List.mem_filter.1 hb
    exact hne (by rw [first_unique ((hfirst a ha'.1).1 ha'.2) ((hfirst b hb'.1).1 hb'.2) hn])
  · unfold Wgrib2Table.variants
    rw [List.map_map]
    exact List.pairwise_map.2 hpw

/-- C45: if every code is listed once, converting the code of any entry gives
its identifier, which is a variant of the enum; any other code is refused. -/
theorem C45_try_from (codes : List Entry) (hnd : (codes.map Entry.id).Nodup) :
    (∀ e ∈ codes, (Wgrib2Table.ofCodes codes).tryFrom e.id = some e.normalizedName ∧
      ∃ v, (e.normalizedName, v) ∈ (Wgrib2Table.ofCodes codes).variants) ∧
    (∀ v, (∀ e ∈ codes, e.id ≠ v) → (Wgrib2Table.ofCodes codes).tryFrom v = none) := by
  constructor
  · intro e he
    constructor
    · unfold Wgrib2Table.tryFrom Wgrib2Table.arms Codegen.get
      rw [List.find?_map]
      have := find_id hnd he
      simp only [Wgrib2Table.ofCodes, Function.comp_def]
      rw [this]; rfl
    · obtain ⟨f, hf, hfn⟩ := exists_first he
      exact ⟨f.id, ((C45_variants codes hnd).1 _ _).2 ⟨f, hf, hfn, rfl⟩⟩
  · intro v hv
    unfold Wgrib2Table.tryFrom Wgrib2Table.arms Codegen.get
    rw [Option.map_eq_none_iff, List.find?_eq_none]
    intro x hx
    obtain ⟨e, he, rfl⟩ := List.mem_map.1 hx
    simpa using hv e he

/-- C45: codes and (discipline, category, number) correspond one to one. -/
theorem C45_code (e f : Entry) (he : e.discipline < 256 ∧ e.paramCategory < 256 ∧ e.paramNumber < 256)
    (hf : f.discipline < 256 ∧ f.paramCategory < 256 ∧ f.paramNumber < 256) :
    e.id < 2 ^ 32 ∧
    (e.id = f.id ↔ e.discipline = f.discipline ∧ e.paramCategory = f.paramCategory ∧ e.paramNumber = f.paramNumber) := by
  simp only [Entry.id, Nat.shiftLeft_eq]
  omega

/-- C45: identifiers are an underscore followed by the name, hyphens read as
underscores. -/
theorem C45_identifier (name : Str) :
    ∃ s, normalizeName name = '_' :: s ∧ s.length = name.length ∧
      ∀ (i : Nat) (c : Char), name[i]? = some c → s[i]? = some (if c = '-' then '_' else c) := by
  refine ⟨_, rfl, by simp, ?_⟩
  intro i c h
  simp [h]

/-- C45, failure: names that differ only in hyphen and underscore are merged. -/
theorem C45_merged_fails : ∃ a b : Str, a ≠ b ∧ normalizeName a = normalizeName b :=
  ⟨"U-GWD".toList, "U_GWD".toList, by decide, by decide⟩

/-- C45, failure: a line that occurs twice removes the variant, while the
conversion still refers to it (the generated code does not compile). -/
theorem C45_repeated_fails (e : Entry) :
    (Wgrib2Table.ofCodes [e, e]).variants = [] ∧ (Wgrib2Table.ofCodes [e, e]).tryFrom e.id = some e.normalizedName := by
  constructor
  · simp [Wgrib2Table.ofCodes, Wgrib2Table.variants, Maps.step, Codegen.get]
  · simp [Wgrib2Table.ofCodes, Wgrib2Table.tryFrom, Wgrib2Table.arms, Codegen.get]

/-- C45, failure: the same local code of two centres gives two variants with
the same discriminant, and the second name cannot be reached. -/
theorem C45_centres_fails :
    let t := Wgrib2Table.ofCodes
      [⟨0, 0, 255, 7, 1, 3, 194, "UGWD".toList, [], []⟩, ⟨0, 0, 255, 98, 1, 3, 194, "FOO".toList, [], []⟩]
    t.variants = [("_UGWD".toList, 0x03c2), ("_FOO".toList, 0x03c2)] ∧ t.tryFrom 0x03c2 = some "_UGWD".toList := by
  decide +kernel

/-- The documentation rows of a variant: the first entry, then the others with
the same identifier, in file order. -/
theorem C45_documentation (codes : List Entry) (hnd : (codes.map Entry.id).Nodup) (e : Entry) (he : First codes e) (o : Entry) :
    o ∈ (Wgrib2Table.ofCodes codes).docRows e ↔ o ∈ codes ∧ o.normalizedName = e.normalizedName := by
  unfold Wgrib2Table.docRows
  rw [List.mem_cons, List.mem_filter]
  simp only [decide_eq_true_eq]
  constructor
  · rintro (rfl | ⟨ho, h⟩)
    · exact ⟨he.mem, rfl⟩
    · refine ⟨ho, ?_⟩
      obtain ⟨_, f, hf, hfn, hid⟩ := (C45_remapper codes hnd o ho e.id).1 h
      rw [← hfn, id_inj hnd hf.mem he.mem hid]
  · rintro ⟨ho, hn⟩
    by_cases hof : First codes o
    · exact Or.inl (first_unique hof he hn)
    · exact Or.inr ⟨ho, (C45_remapper codes hnd o ho e.id).2 ⟨hof, e, he, hn.symm, rfl⟩⟩

/-! ## Reading the file -/

/-- One line of a wgrib2 table. -/
def line (e : Entry) (second : Str) : Str :=
  showNat e.discipline ++ ':' :: (second ++ ':' :: (showNat e.masterTableStartVer ++ ':' ::
    (showNat e.masterTableEndVer ++ ':' :: (showNat e.centre ++ ':' :: (showNat e.localTableVer ++ ':' ::
      (showNat e.paramCategory ++ ':' :: (showNat e.paramNumber ++ ':' :: (e.name ++ ':' ::
        (e.desc ++ ':' :: e.unit)))))))))

/-- The characters with the Unicode property White_Space. -/
def whiteSpace : List Nat :=
  [0x9, 0xa, 0xb, 0xc, 0xd, 0x20, 0x85, 0xa0, 0x1680, 0x2000, 0x2001, 0x2002, 0x2003, 0x2004, 0x2005, 0x2006, 0x2007, 0x2008,
   0x2009, 0x200a, 0x2028, 0x2029, 0x202f, 0x205f, 0x3000]

theorem isSpace_iff (c : Char) : isSpace c = true ↔ c.toNat ∈ whiteSpace := by
  unfold isSpace whiteSpace
  simp only [Bool.or_eq_true, Bool.and_eq_true, decide_eq_true_eq, List.mem_cons, List.not_mem_nil, or_false]
  omega

/-- Fields that can be written in such a file. -/
def Writable (e : Entry) : Prop :=
  e.discipline < 256 ∧ e.masterTableStartVer < 256 ∧ e.masterTableEndVer < 256 ∧ e.centre < 65536 ∧
  e.localTableVer < 256 ∧ e.paramCategory < 256 ∧ e.paramNumber < 256 ∧
  ':' ∉ e.name ∧ ':' ∉ e.desc ∧ ':' ∉ e.unit ∧ '\n' ∉ e.name ∧ '\n' ∉ e.desc ∧ '\n' ∉ e.unit ∧
  (∀ c, e.unit.getLast? = some c → c.toNat ∉ whiteSpace)

theorem parse_line (e : Entry) (second : Str) (h : Writable e) (h2 : ':' ∉ second) :
    Entry.parse (line e second) = some e := by
  obtain ⟨h0, h3, h4, h5, h6, h7, h8, hn, hd, hu, _⟩ := h
  have nc : ∀ n, ':' ∉ showNat n := fun n => showNat_noChar n (by decide)
  unfold Entry.parse line
  rw [splitOn_append (nc _), splitOn_append h2, splitOn_append (nc _), splitOn_append (nc _), splitOn_append (nc _),
    splitOn_append (nc _), splitOn_append (nc _), splitOn_append (nc _), splitOn_append hn, splitOn_append hd,
    splitOn_none hu]
  simp only [parse_showNat, h0, h3, h4, h5, h6, h7, h8]
  rfl

theorem line_noNewline (e : Entry) (second : Str) (h : Writable e) (h2 : '\n' ∉ second) : '\n' ∉ line e second := by
  obtain ⟨_, _, _, _, _, _, _, _, _, _, hn, hd, hu, _⟩ := h
  have nc : ∀ n, '\n' ∉ showNat n := fun n => showNat_noChar n (by decide)
  unfold line
  simp [nc, hn, hd, hu, h2]

theorem getLast?_append_cons {α : Type} (a : List α) (x : α) (b : List α) :
    (a ++ x :: b).getLast? = some (b.getLast?.getD x) := by
  rw [List.getLast?_append, List.getLast?_cons]
  simp

theorem line_last (e : Entry) (second : Str) (h : Writable e) : trimEnd (line e second) = line e second := by
  have hl : ∀ c, (line e second).getLast? = some c → isSpace c = false := by
    intro c hc
    unfold line at hc
    simp only [getLast?_append_cons, Option.getD_some, Option.some.injEq] at hc
    obtain ⟨_, _, _, _, _, _, _, _, _, _, _, _, _, hu⟩ := h
    cases hg : e.unit.getLast? with
    | some d => rw [hg] at hc; simp at hc; subst hc; exact Bool.eq_false_iff.mpr fun hs => hu _ hg ((isSpace_iff _).mp hs)
    | none => rw [hg] at hc; simp at hc; subst hc; decide
  unfold trimEnd
  rw [show (line e second).reverse.dropWhile isSpace = (line e second).reverse from ?_, List.reverse_reverse]
  cases hr : (line e second).reverse with
  | nil => rfl
  | cons c cs =>
    have : (line e second).getLast? = some c := by
      rw [List.getLast?_eq_head?_reverse, hr]; rfl
    rw [List.dropWhile_cons, hl c this]; rfl

/-- C45: a file with one line per entry is read as exactly these entries. -/
theorem C45_file (entries : List (Entry × Str))
    (h : ∀ e ∈ entries, Writable e.1 ∧ ':' ∉ e.2 ∧ '\n' ∉ e.2) :
    Wgrib2Table.parse (entries.flatMap fun e => line e.1 e.2 ++ ['\n']) =
      some (Wgrib2Table.ofCodes (entries.map (·.1))) := by
  have hsplit : splitOn '\n' (entries.flatMap fun e => line e.1 e.2 ++ ['\n']) =
      entries.map (fun e => line e.1 e.2) ++ [[]] := by
    induction entries with
    | nil => rfl
    | cons e es ih =>
      obtain ⟨hw, _, hn⟩ := h e List.mem_cons_self
      rw [List.flatMap_cons, List.append_assoc, List.singleton_append,
        splitOn_append (line_noNewline _ _ hw hn), ih (fun e he => h e (List.mem_cons_of_mem _ he))]
      rfl
  have hlines : lines (entries.flatMap fun e => line e.1 e.2 ++ ['\n']) = entries.map (fun e => line e.1 e.2) := by
    unfold lines
    rw [hsplit]
    simp
  unfold Wgrib2Table.parse
  rw [hlines]
  have hm : ((entries.map (fun e => line e.1 e.2)).mapM fun line => Entry.parse (trimEnd line)) =
      some (entries.map (·.1)) := by
    clear hsplit hlines
    induction entries with
    | nil => rfl
    | cons e es ih =>
      obtain ⟨hw, hc, _⟩ := h e List.mem_cons_self
      rw [List.map_cons, List.mapM_cons, line_last _ _ hw, parse_line _ _ hw hc,
        ih (fun e he => h e (List.mem_cons_of_mem _ he))]
      rfl
  rw [hm]; rfl

example : ∀ e ∈ exampleCodes, Writable e := by
  have key : ∀ s : Str, s.getLast?.map isSpace = some false → ∀ c, s.getLast? = some c → c.toNat ∉ whiteSpace := by
    intro s h c hc hs
    rw [hc, Option.map_some, (isSpace_iff c).mpr hs] at h
    cases h
  intro e he
  simp only [exampleCodes, List.mem_cons, List.not_mem_nil, or_false] at he
  rcases he with rfl | rfl | rfl | rfl <;> refine ⟨by decide, by decide, by decide, by decide, by decide, by decide,
    by decide, by decide, by decide, by decide, by decide, by decide, by decide, ?_⟩ <;> exact key _ (by decide)

end Grib
