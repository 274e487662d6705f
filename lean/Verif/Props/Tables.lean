import Verif.Lemmas.Subtitle

/-!
# C42, C44: code tables

`Spec.Lists id a b` says that a code column lists the codes `a` to `b`,
`Spec.Describes` that a description is not one of the placeholders
("Reserved", "Missing", …).
-/

namespace Grib
open Text Spec Gen Codes

/-- The example file of gen/testdata/C11.csv. -/
def exampleTable : CodeTable := ⟨"Common Code Table C-11".toList,
  [("0".toList, "A".toList), ("".toList, "Comment".toList), ("1".toList, "B".toList), ("2".toList, ")".toList),
   ("3".toList, "C".toList), ("4-6".toList, "Reserved".toList), ("7-9".toList, "E".toList),
   ("10-65535".toList, "Missing value".toList), ("Not applicable".toList, "Not used".toList)]⟩

example : (exampleTable.toVec : Outcome Unit _) = .ok
    ["A".toList, "B".toList, [], "C".toList, [], [], [], "E".toList, "E".toList, "E".toList] := by
  decide +kernel

/-! ## C44: generation -/

/-- C44: the array generated from any table either is empty or is aligned with
the codes: every described row's text stands at each of the codes the row
lists; every non-empty text in the array comes from a described row listing
that code; and the array ends with the last described code. -/
theorem C44_aligned {ε : Type} (t : CodeTable) (v : List Str) (h : (t.toVec : Outcome ε _) = .ok v) (hv : v ≠ []) :
    (∀ row ∈ t.data, Describes row.2 → ∀ a b, Lists row.1 a b → ∀ k, a ≤ k → k ≤ b → v[k]? = some row.2) ∧
    (∀ k x, v[k]? = some x → x ≠ [] →
      ∃ row ∈ t.data, Describes row.2 ∧ row.2 = x ∧ ∃ a b, Lists row.1 a b ∧ a ≤ k ∧ k ≤ b) ∧
    (∃ row ∈ t.data, Describes row.2 ∧ ∃ a b, Lists row.1 a b ∧ a ≤ b ∧ v.length = b + 1) := by
  have := toVecLoop_placed Placed.init rfl h hv
  rw [List.nil_append] at this
  exact ⟨this.at_codes, this.from_row, this.last hv⟩

/-- C44: a table whose rows list the codes contiguously from 0 (placeholders
included) gives an array, and not the empty one if any row is described. -/
theorem C44_contiguous {ε : Type} (t : CodeTable) (hc : Contiguous 0 t.data)
    (hb : ∀ row ∈ t.data, ∀ a b, Lists row.1 a b → b + 1 < 2 ^ 64) :
    ∃ v, (t.toVec : Outcome ε _) = .ok v ∧
      ((∃ row ∈ t.data, Describes row.2 ∧ ∃ a b, Lists row.1 a b) → v ≠ []) := by
  obtain ⟨more, h1, h2⟩ := toVecLoop_contiguous (ε := ε) hc hb (out := []) (count := 0) (pending := 0) rfl rfl (by omega)
  exact ⟨more, h1, h2⟩

theorem dec (s : String) (n : Nat) (h : s.toList ≠ [] ∧ s.toList.all isDigit = true ∧ digits s.toList = n) :
    IsDecimal s.toList n := (IsDecimal_iff _ _).2 h

/-- The hypotheses of `C44_contiguous` are met by a table with a range, a
placeholder and a comment row. -/
example : Contiguous 0 [("0".toList, "A".toList), ("".toList, "Comment".toList), ("1-3".toList, "Reserved".toList),
    ("4".toList, "B".toList)] ∧ (∃ row ∈ [("0".toList, "A".toList)], Describes row.2 ∧ ∃ a b, Lists row.1 a b) := by
  have l1 : Lists "0".toList 0 0 := .single _ _ (dec "0" 0 (by decide)) (by omega)
  have l2 : Lists "1-3".toList 1 3 :=
    Lists.range "1".toList "3".toList [] 1 3 (dec "1" 1 (by decide)) (by omega) (dec "3" 3 (by decide)) (by omega) noDigit_nil
  have l3 : Lists "4".toList 4 4 := .single _ _ (dec "4" 4 (by decide)) (by omega)
  refine ⟨?_, _, List.mem_singleton_self _, ?_, 0, 0, l1⟩
  · refine .row 0 0 _ _ _ l1 (by omega) (.comment _ _ _ _ ?_ (.row 1 3 _ _ _ l2 (by omega) (.row 4 4 _ _ _ l3 (by omega) (.nil _))))
    exact parse_error (e := .numberNotFound) rfl
  · rw [← noEntry_iff]; decide

/-- C44, failure: a table with a gap that is not filled by a placeholder row
(the test file's own Table 4.2-3-2 has codes 0 and 30) loses all its entries. -/
theorem C44_sparse_fails :
    (CodeTable.toVec ⟨[], [("0".toList, "Clear sky probability".toList), ("30".toList, "Measurement cost".toList)]⟩
      : Outcome Unit _) = .ok [] := by decide +kernel

/-- C44, failure: a reversed range makes the generator panic. -/
theorem C44_reversed_fails :
    (CodeTable.toVec ⟨[], [("0".toList, "A".toList), ("3-1".toList, "Reserved".toList)]⟩ : Outcome Unit _) = .panic := by
  decide +kernel

/-- C44: the code column is understood exactly as specified. -/
theorem C44_column (s : Str) (a b : Nat) : CodeRange.parse s = .ok ⟨a, b⟩ ↔ Lists s a b := parse_iff s ⟨a, b⟩

/-- C44: loading a file `GRIB2_CodeFlag_<s>_<n>…` all of whose subtitles are
understood and whose categories are not interleaved gives, for each category,
exactly the rows of the records of that category, in file order; tables with
other numbers are unaffected. -/
theorem C44_grouping (db : CodeDB) (stem : Str) (records : List Record) (s n : Nat)
    (hs : (splitOn '_' stem).take 4 = ["GRIB2".toList, "CodeFlag".toList, showNat s, showNat n])
    (hs256 : s < 256) (hn256 : n < 256)
    (hp : ∀ r ∈ records, (OptArg.parse r.subtitle).isSome)
    (hg : Grouped (records.map fun r => OptArg.parse r.subtitle)) :
    ∃ db', CodeDB.load db stem records = some db' ∧
    (∀ cat, (∃ r ∈ records, OptArg.parse r.subtitle = some cat) →
      (CodeDB.get db' (s, n, cat)).map (·.data) =
        some ((records.filter fun r => OptArg.parse r.subtitle = some cat).map fun r => (r.codeFlag, r.description))) ∧
    (∀ id : TableId, (s, n) ≠ (id.1, id.2.1) → CodeDB.get db' id = CodeDB.get db id) := by
  obtain ⟨tables, hp⟩ := parseRecords_isSome hp []
  have hrows := parseRecords_rows hp
  have hrows0 : rowsOf [] = [] := rfl
  rw [hrows0, List.map_nil, List.nil_append] at hrows
  have hruns := parseRecords_runs hp ⟨by simp, by simp⟩
  have hnd : (tables.map (·.1)).Nodup := by
    refine tables_nodup hruns ?_
    intro p q r a b hl ha
    have h1 := congrArg (List.map some) hl
    have h2 : (records.map fun r => OptArg.parse r.subtitle) = ((rowsOf tables).map (·.1)).map some := by
      have := congrArg (List.map (·.1)) hrows
      simpa [Function.comp_def] using this.symm
    rw [← h2] at h1
    have := hg (p.map some) (q.map some) (r.map some) (some a) (some b) (by rw [h1]; simp) (List.mem_map_of_mem ha)
    exact Option.some.inj this
  refine ⟨tables.foldl (fun db t => ((s, n, t.1), t.2) :: db) db, ?_, ?_, ?_⟩
  · unfold CodeDB.load
    rw [hs]
    simp only [and_self, if_true, parse_showNat hs256, parse_showNat hn256, hp]
  · rintro cat ⟨r, hr, hrc⟩
    have h2 := find_foldl s n tables db cat
    have h3 := rows_nodup hnd hruns cat
    rw [h2]
    have hfilter : ((rowsOf tables).filter (fun r => r.1 = cat)).map (·.2) =
        (records.filter fun r => OptArg.parse r.subtitle = some cat).map fun r => (r.codeFlag, r.description) := by
      have h4 := congrArg (fun l => (l.filter (fun x => decide (x.1 = some cat))).map (·.2)) hrows
      simp only [List.filter_map, List.map_map, Function.comp_def, Option.some.injEq] at h4
      exact h4
    have hne : ((rowsOf tables).filter (fun r => r.1 = cat)).map (·.2) ≠ [] := by
      rw [hfilter]
      intro hnil
      rw [List.map_eq_nil_iff, List.filter_eq_nil_iff] at hnil
      exact hnil r hr (by simp [hrc])
    dsimp only at h3
    rw [if_neg hne] at h3
    cases hf : tables.reverse.find? (fun t => t.1 = cat) with
    | none => rw [hf] at h3; cases h3
    | some x =>
      rw [hf] at h3
      simp only [Option.map_some, Option.some.injEq] at h3
      rw [Option.map_some, Option.some_or, Option.map_some, h3, hfilter]
  · intro id hid
    exact get_other s n tables db id hid

/-- The hypotheses of `C44_grouping` are met by a file with two categories. -/
example : (splitOn '_' "GRIB2_CodeFlag_4_1_CodeTable_en".toList).take 4 =
      ["GRIB2".toList, "CodeFlag".toList, showNat 4, showNat 1] ∧
    (["Product discipline 0 - Meteorological products".toList, "Product discipline 0 - Meteorological products".toList,
      "Product discipline 3 - Space products".toList].map OptArg.parse) =
      [some (.l1 0), some (.l1 0), some (.l1 3)] ∧
    Grouped [some (OptArg.l1 0), some (.l1 0), some (.l1 3)] := by
  refine ⟨by decide +kernel, by decide +kernel, ?_⟩
  intro p q r a b h ha
  have hl := congrArg List.length h
  have hr := List.length_pos_of_mem ha
  simp only [List.length_append, List.length_cons, List.length_nil] at hl
  have hp : p = [] := List.length_eq_zero_iff.1 (by omega)
  have hq : q = [] := List.length_eq_zero_iff.1 (by omega)
  subst hp; subst hq
  simp only [List.nil_append, List.cons.injEq] at h
  rw [← h.1, ← h.2.1]

/-- C44, failure: if the records of a category are not adjacent, only the last
group of them is kept. -/
theorem C44_interleaved_fails :
    ((CodeDB.load [] "GRIB2_CodeFlag_4_1".toList
      [⟨[], "Product discipline 0".toList, "0".toList, "A".toList⟩,
       ⟨[], "Product discipline 1".toList, "0".toList, "B".toList⟩,
       ⟨[], "Product discipline 0".toList, "1".toList, "C".toList⟩]).bind
        fun db => CodeDB.get db (4, 1, .l1 0)) = some ⟨[], [("1".toList, "C".toList)]⟩ := by
  decide +kernel

/-- C44: subtitles naming a discipline, or a discipline and a category, are
understood, whatever text follows the numbers (the discipline's name must not
contain a comma, which separates the two parts). -/
theorem C44_subtitle (d c : Nat) (hd : d < 256) (hc : c < 256) (name more : Str) (hn : ',' ∉ name) :
    OptArg.parse [] = some .none ∧
    OptArg.parse ("Product discipline ".toList ++ showNat d ++ " - ".toList ++ name) = some (.l1 d) ∧
    OptArg.parse ("Product discipline ".toList ++ showNat d ++ " - ".toList ++ name ++
      ", parameter category ".toList ++ showNat c ++ ":".toList ++ more) = some (.l2 d c) := by
  refine ⟨rfl, ?_, ?_⟩
  · rw [← parse_l1 hd (tail := " - ".toList ++ name) (Or.inr ⟨"- ".toList ++ name, by rfl⟩) (by simp [hn])]
    unfold productDiscipline
    simp [show "Product discipline ".toList = "Product".toList ++ ' ' :: ("discipline".toList ++ [' ']) from rfl]
  · rw [← parse_l2 hd hc (tail := " - ".toList ++ name) (tail2 := ':' :: more)
      (Or.inr ⟨"- ".toList ++ name, by rfl⟩) (by simp [hn]) (Or.inr ⟨more, rfl⟩)]
    unfold productDiscipline parameterCategory
    simp [show "Product discipline ".toList = "Product".toList ++ ' ' :: ("discipline".toList ++ [' ']) from rfl,
      show ", parameter category ".toList = ',' :: ' ' :: ("parameter".toList ++ ' ' :: ("category".toList ++ [' '])) from rfl]

example : OptArg.parse "Product discipline 0 - Meteorological products, parameter category 0: temperature".toList
    = some (.l2 0 0) := by decide +kernel

/-- C44: different tables get different constant names. -/
theorem C44_names (a b : TableId) (h : variableName a = variableName b) : a = b := variableName_inj h

/-- C44: the names are "CODE_TABLE" and the numbers of section, table and, if any, discipline and category, each behind an
underscore; the source refers to the generated tables by these names. -/
theorem C44_names_spelled (s n d c : Nat) :
    let name (ids : List Nat) := "CODE_TABLE".toList ++ ids.flatMap fun i => '_' :: Nat.toDigits 10 i
    variableName (s, n, .none) = name [s, n] ∧ variableName (s, n, .l1 d) = name [s, n, d] ∧
      variableName (s, n, .l2 d c) = name [s, n, d, c] := by
  have h : tablePrefix = "CODE_TABLE".toList ++ ['_'] := by decide
  simp only [variableName, h, List.flatMap_cons, List.flatMap_nil, List.append_nil, List.append_assoc, List.cons_append,
    List.nil_append, showNat, and_self]

example : variableName (4, 2, .l2 0 191) = "CODE_TABLE_4_2_0_191".toList := by decide +kernel

/-- C44: likewise for the common code tables. -/
theorem C44_common_names (a b : Nat) (h : commonVariableName a = commonVariableName b) : a = b := by
  unfold commonVariableName at h
  have h := List.append_cancel_left h
  have hd : ∀ n, IsDecimal (if (showNat n).length < 2 then '0' :: showNat n else showNat n) n := by
    intro n
    split
    · rw [IsDecimal_iff]
      obtain ⟨_, h2, h3⟩ := (IsDecimal_iff _ _).1 (showNat_decimal n)
      refine ⟨by simp, ?_, ?_⟩
      · rw [List.all_cons, h2]; rfl
      · exact Eq.trans rfl h3
    · exact showNat_decimal n
  exact (hd a).unique (h ▸ hd b)

example : commonVariableName 0 = "COMMON_CODE_TABLE_00".toList := by decide +kernel

/-- C44: the table of a common code table file has the rows of the file, all of them, in the order of the file. -/
theorem C44_common_rows (desc : Str) (records : List (Str × Str)) :
    (parseCommon desc records).data = records ∧ (parseCommon desc records).desc = desc := by
  have key : ∀ (rs : List (Str × Str)) (t : CodeTable),
      (rs.foldl (fun t r => { t with data := t.data ++ [r] }) t : CodeTable) = { t with data := t.data ++ rs } := by
    intro rs
    induction rs with
    | nil => intro t; simp
    | cons r rs ih => intro t; rw [List.foldl_cons, ih]; simp
  unfold parseCommon
  rw [key]
  exact ⟨rfl, rfl⟩

example : ((parseCommon [] [("0".toList, "a".toList), ("1".toList, "b".toList)]).toVec : Outcome Unit _) =
    .ok ["a".toList, "b".toList] := by decide +kernel

/-! ## C42: lookup -/

/-- C42: whatever the table file and the code, the lookup in the generated
array gives either a text or "unimplemented" with the very code asked for; a
non-empty text is that of a described row listing that code; and a code at or
below the last one of a table that was not given up always has a text. -/
theorem C42_lookup {ε : Type} (t : CodeTable) (v : List Str) (h : (t.toVec : Outcome ε _) = .ok v) (code : Nat) :
    (∀ s, lookup v code = .ok s → s ≠ [] →
      ∃ row ∈ t.data, Describes row.2 ∧ row.2 = s ∧ ∃ a b, Lists row.1 a b ∧ a ≤ code ∧ code ≤ b) ∧
    (∀ e, lookup v code = .error e → e = .unimplemented code) ∧
    (v ≠ [] → ∀ row ∈ t.data, Describes row.2 → ∀ a b, Lists row.1 a b → a ≤ code → code ≤ b →
      lookup v code = .ok row.2) := by
  refine ⟨?_, ?_, ?_⟩
  · intro s hs hne
    unfold lookup at hs
    cases hg : v[code]? with
    | none => rw [hg] at hs; cases hs
    | some x =>
      rw [hg] at hs
      cases hs
      have hv : v ≠ [] := by rintro rfl; simp at hg
      exact (C44_aligned t v h hv).2.1 code _ hg hne
  · intro e he
    unfold lookup at he
    cases hg : v[code]? with
    | none => rw [hg] at he; cases he; rfl
    | some x => rw [hg] at he; cases he
  · intro hv row hr hd a b hl h1 h2
    have := (C44_aligned t v h hv).1 row hr hd a b hl code h1 h2
    unfold lookup; rw [this]

/-- C42: for a table file listing its codes contiguously, each described code
has its own description. -/
theorem C42_described {ε : Type} (t : CodeTable) (hc : Contiguous 0 t.data)
    (hb : ∀ row ∈ t.data, ∀ a b, Lists row.1 a b → b + 1 < 2 ^ 64) :
    ∃ v, (t.toVec : Outcome ε _) = .ok v ∧
      ∀ row ∈ t.data, Describes row.2 → ∀ a b, Lists row.1 a b → ∀ code, a ≤ code → code ≤ b →
        description (lookup v code) = some row.2 ∧ display (lookup v code) = row.2 := by
  obtain ⟨v, hv, hne⟩ := C44_contiguous (ε := ε) t hc hb
  refine ⟨v, hv, ?_⟩
  intro row hr hd a b hl code h1 h2
  have := (C42_lookup t v hv code).2.2 (hne ⟨row, hr, hd, a, b, hl⟩) row hr hd a b hl h1 h2
  rw [this]
  exact ⟨rfl, rfl⟩

/-- C42: every table of the crate reads its own generated array: two different
tables never read the same one, and the tables 4.1 and 4.2 of an unsupported
discipline or category answer "unimplemented" to every code. -/
theorem C42_own_array (t u : Table) (h : t.source = u.source) (hs : t.source ≠ .unsupported) : t = u := by
  cases t <;> cases u <;> simp only [Table.source] at h hs <;> (try split at h) <;> (try split at h) <;> simp_all

theorem C42_unsupported (k : Constants) (d c code : Nat) :
    (d ∉ [0, 1, 2, 3, 4, 10, 20] →
      ((Table.t4_1 d).data k).map (lookup · code) = some (.error (.unimplemented code))) ∧
    ((Table.t4_2 d c).source = .unsupported →
      ((Table.t4_2 d c).data k).map (lookup · code) = some (.error (.unimplemented code))) := by
  constructor
  · intro h
    have : (Table.t4_1 d).source = .unsupported := by
      simp only [Table.source, disciplines41]; simp only [h, if_false]
    simp only [Table.data, this]; rfl
  · intro h
    simp only [Table.data, h]; rfl

example : (Table.t4_2 0 8).source = .unsupported ∧ (Table.t4_2 0 191).source = .grib2 (4, 2, .l2 0 191) := by decide

/-- C42: the text shown for an unknown code names the code. -/
theorem C42_display (v : List Str) (code : Nat) (h : v.length ≤ code) :
    description (lookup v code) = none ∧
    ∃ s, IsDecimal s code ∧ display (lookup v code) = "code '".toList ++ s ++ "' is not implemented".toList := by
  have hg : v[code]? = none := List.getElem?_eq_none h
  unfold lookup; rw [hg]
  exact ⟨rfl, showNat code, showNat_decimal code, rfl⟩

/-- C42, failure: a code inside the array whose row is a placeholder is not
reported as unimplemented: its text is empty (while a placeholder code after
the last described one is reported). -/
theorem C42_reserved_fails :
    ∃ v, (exampleTable.toVec : Outcome Unit _) = .ok v ∧ description (lookup v 5) = some [] ∧
      description (lookup v 10) = none := by
  refine ⟨["A".toList, "B".toList, [], "C".toList, [], [], [], "E".toList, "E".toList, "E".toList], ?_, ?_, ?_⟩ <;>
    decide +kernel

end Grib
