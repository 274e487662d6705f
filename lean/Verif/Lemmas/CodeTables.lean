import Verif.Lemmas.Text

/-! # Lemmas: generated code tables -/

namespace Grib
open Text Spec Gen

/-- What the vector built from the rows read so far says. -/
structure Placed (rows : List (Str × Str)) (out : List Str) : Prop where
  at_codes : ∀ row ∈ rows, Describes row.2 → ∀ a b, Lists row.1 a b → ∀ k, a ≤ k → k ≤ b → out[k]? = some row.2
  from_row : ∀ k x, out[k]? = some x → x ≠ [] →
    ∃ row ∈ rows, Describes row.2 ∧ row.2 = x ∧ ∃ a b, Lists row.1 a b ∧ a ≤ k ∧ k ≤ b
  last : out ≠ [] → ∃ row ∈ rows, Describes row.2 ∧ ∃ a b, Lists row.1 a b ∧ a ≤ b ∧ out.length = b + 1

theorem Placed.skip {rows : List (Str × Str)} {out : List Str} (h : Placed rows out) {id text : Str}
    (hn : Describes text → ¬ ∃ a b, Lists id a b) : Placed (rows ++ [(id, text)]) out where
  at_codes := by
    intro row hr hd a b hl
    rcases List.mem_append.1 hr with hr | hr
    · exact h.at_codes row hr hd a b hl
    · simp only [List.mem_singleton] at hr
      subst hr
      exact absurd ⟨a, b, hl⟩ (hn hd)
  from_row := by
    intro k x hk hx
    obtain ⟨row, hr, h1⟩ := h.from_row k x hk hx
    exact ⟨row, List.mem_append_left _ hr, h1⟩
  last := by
    intro ho
    obtain ⟨row, hr, h1⟩ := h.last ho
    exact ⟨row, List.mem_append_left _ hr, h1⟩

theorem Placed.push {rows : List (Str × Str)} {out : List Str} (h : Placed rows out) {id text : Str}
    {a b pending : Nat} (hl : Lists id a b) (hab : a ≤ b) (hd : Describes text)
    (hc : out.length + pending = a) :
    Placed (rows ++ [(id, text)]) (out ++ List.replicate pending [] ++ List.replicate (b - a + 1) text) where
  at_codes := by
    intro row hr hd' a' b' hl' k h1 h2
    rcases List.mem_append.1 hr with hr | hr
    · have := h.at_codes row hr hd' a' b' hl' k h1 h2
      rw [List.append_assoc, List.getElem?_append_left, this]
      exact (List.getElem?_eq_some_iff.1 this).1
    · simp only [List.mem_singleton] at hr
      subst hr
      obtain ⟨rfl, rfl⟩ := hl'.unique hl
      rw [List.getElem?_append_right (by simp; omega)]
      simp only [List.length_append, List.length_replicate, List.getElem?_replicate]
      rw [if_pos (by omega)]
  from_row := by
    intro k x hk hx
    by_cases h1 : k < out.length
    · rw [List.append_assoc, List.getElem?_append_left h1] at hk
      obtain ⟨row, hr, h2⟩ := h.from_row k x hk hx
      exact ⟨row, List.mem_append_left _ hr, h2⟩
    · by_cases h2 : k < out.length + pending
      · rw [List.getElem?_append_left (by simp; omega), List.getElem?_append_right (by omega),
          List.getElem?_replicate, if_pos (by omega)] at hk
        simp only [Option.some.injEq] at hk
        exact absurd hk.symm hx
      · rw [List.getElem?_append_right (by simp; omega)] at hk
        simp only [List.length_append, List.length_replicate, List.getElem?_replicate] at hk
        split at hk
        · simp only [Option.some.injEq] at hk
          subst hk
          exact ⟨(id, text), by simp, hd, rfl, a, b, hl, by omega, by omega⟩
        · cases hk
  last := by
    intro _
    refine ⟨(id, text), by simp, hd, a, b, hl, hab, ?_⟩
    simp; omega

theorem toVecLoop_placed {ε : Type} {rows : List (Str × Str)} :
    ∀ {done : List (Str × Str)} {out v : List Str} {count pending : Nat},
    Placed done out → out.length = count → (toVecLoop rows out count pending : Outcome ε _) = .ok v → v ≠ [] →
    Placed (done ++ rows) v := by
  induction rows with
  | nil =>
    intro done out v count pending hp hl h _
    simp only [toVecLoop, Outcome.ok.injEq] at h
    subst h; simpa using hp
  | cons row rows ih =>
    intro done out v count pending hp hl h hv
    obtain ⟨id, text⟩ := row
    rw [show done ++ (id, text) :: rows = (done ++ [(id, text)]) ++ rows by simp]
    unfold toVecLoop at h
    cases h1 : CodeRange.parse id with
    | error e =>
      rw [h1] at h
      exact ih (hp.skip fun _ => parse_error h1) hl h hv
    | ok range =>
      obtain ⟨a, b⟩ := range
      have hli := (parse_iff _ _).1 h1
      rw [h1] at h
      dsimp only at h hli
      cases h2 : noEntry text with
      | true =>
        rw [h2] at h
        simp only [if_true] at h
        have hnd : ¬ Describes text := by
          rw [← noEntry_iff, h2]; simp
        cases h3 : (CodeRange.size ⟨a, b⟩ : Outcome ε _) with
        | panic => rw [h3] at h; cases h
        | err e => rw [h3] at h; cases h
        | ok n =>
          rw [h3] at h
          simp only [Outcome.bind_ok] at h
          by_cases h4 : pending + n < USIZE
          · simp only [h4, decide_true, Outcome.require_true, Outcome.bind_ok] at h
            exact ih (hp.skip fun hd => absurd hd hnd) hl h hv
          · simp [h4] at h
      | false =>
        rw [h2] at h
        have hd := (noEntry_iff _).1 h2
        simp only [Bool.false_eq_true, if_false] at h
        by_cases h3 : count + pending = a
        · rw [if_neg (by simpa using h3)] at h
          unfold CodeRange.size at h
          by_cases h4 : a ≤ b ∧ b - a + 1 < USIZE
          · rw [if_pos h4] at h
            simp only [Outcome.bind_ok] at h
            by_cases h5 : count + pending + (b - a + 1) < USIZE
            · simp only [h5, decide_true, Outcome.require_true, Outcome.bind_ok] at h
              refine ih (hp.push hli h4.1 hd (pending := pending) (by omega)) ?_ h hv
              simp; omega
            · simp [h5] at h
          · rw [if_neg h4] at h; simp at h
        · rw [if_pos (by simpa using h3)] at h
          simp only [Outcome.ok.injEq] at h
          exact absurd h.symm hv

theorem Placed.init : Placed [] [] := by
  constructor <;> simp

/-- Contiguous tables are never given up. -/
theorem toVecLoop_contiguous {ε : Type} {next : Nat} {rows : List (Str × Str)} (hc : Contiguous next rows)
    (hb : ∀ row ∈ rows, ∀ a b, Lists row.1 a b → b + 1 < 2 ^ 64) :
    ∀ {out : List Str} {count pending : Nat}, out.length = count → count + pending = next → next < 2 ^ 64 →
    ∃ more, (toVecLoop rows out count pending : Outcome ε _) = .ok (out ++ more) ∧
      ((∃ row ∈ rows, Describes row.2 ∧ ∃ a b, Lists row.1 a b) → more ≠ []) := by
  induction hc with
  | nil next =>
    intro out count pending _ _ _
    exact ⟨[], by simp [toVecLoop], by simp⟩
  | comment next id text rows hn hr ih =>
    intro out count pending h1 h2 h3
    cases h4 : CodeRange.parse id with
    | ok r => exact absurd ⟨_, _, (parse_iff _ _).1 h4⟩ hn
    | error e =>
      obtain ⟨more, hm, hne⟩ := ih (fun row hr => hb row (List.mem_cons_of_mem _ hr)) h1 h2 h3
      refine ⟨more, ?_, ?_⟩
      · unfold toVecLoop; rw [h4]; exact hm
      · rintro ⟨row, hr, hd, hl⟩
        rcases List.mem_cons.1 hr with rfl | hr
        · exact absurd hl hn
        · exact hne ⟨row, hr, hd, hl⟩
  | row next b id text rows hl hle hr ih =>
    intro out count pending h1 h2 h3
    have hb1 := hb (id, text) (List.mem_cons_self) next b hl
    have ih := @ih (fun row hr => hb row (List.mem_cons_of_mem _ hr))
    have hp := (parse_iff id ⟨next, b⟩).2 hl
    have hs : (CodeRange.size ⟨next, b⟩ : Outcome ε _) = .ok (b - next + 1) := by
      unfold CodeRange.size
      rw [if_pos ⟨hle, by unfold USIZE; dsimp only; omega⟩]
    unfold toVecLoop
    rw [hp]
    dsimp only
    cases hnE : noEntry text with
    | true =>
      simp only [if_true]
      rw [hs]
      simp only [Outcome.bind_ok]
      have : pending + (b - next + 1) < USIZE := by unfold USIZE; omega
      simp only [this, decide_true, Outcome.require_true, Outcome.bind_ok]
      obtain ⟨more, hm, hne⟩ := ih (out := out) (count := count) (pending := pending + (b - next + 1)) h1
        (by omega) hb1
      refine ⟨more, hm, ?_⟩
      rintro ⟨row, hr', hd, hl'⟩
      rcases List.mem_cons.1 hr' with rfl | hr'
      · rw [← noEntry_iff, hnE] at hd; cases hd
      · exact hne ⟨row, hr', hd, hl'⟩
    | false =>
      simp only [Bool.false_eq_true, if_false]
      rw [if_neg (by simpa using h2), hs]
      simp only [Outcome.bind_ok]
      have : count + pending + (b - next + 1) < USIZE := by unfold USIZE; omega
      simp only [this, decide_true, Outcome.require_true, Outcome.bind_ok]
      obtain ⟨more, hm, hne⟩ := ih (out := out ++ List.replicate pending [] ++ List.replicate (b - next + 1) text)
        (count := count + pending + (b - next + 1)) (pending := 0)
        (by simp; omega) (by omega) hb1
      refine ⟨List.replicate pending [] ++ (List.replicate (b - next + 1) text ++ more), ?_, ?_⟩
      · rw [hm]; simp
      · intro _; simp [List.replicate_succ]

/-! ## Variable names -/

theorem showNat_noUnderscore (n : Nat) : '_' ∉ showNat n := by
  obtain ⟨_, h, _⟩ := (IsDecimal_iff _ _).1 (showNat_decimal n)
  intro hm
  have := List.all_eq_true.1 h _ hm
  revert this; decide

theorem append_sep_inj {c : Char} {a b x y : Str} (ha : c ∉ a) (hb : c ∉ b) (h : a ++ c :: x = b ++ c :: y) :
    a = b ∧ x = y := by
  induction a generalizing b with
  | nil =>
    cases b with
    | nil => simpa using h
    | cons d b =>
      simp only [List.nil_append, List.cons_append, List.cons.injEq] at h
      simp [h.1] at hb
  | cons d a ih =>
    cases b with
    | nil =>
      simp only [List.nil_append, List.cons_append, List.cons.injEq] at h
      simp [h.1] at ha
    | cons e b =>
      simp only [List.cons_append, List.cons.injEq] at h
      simp only [List.mem_cons, not_or] at ha hb
      obtain ⟨rfl, rfl⟩ := ih ha.2 hb.2 h.2
      exact ⟨by rw [h.1], rfl⟩

/-- The suffix after the section and table numbers. -/
def optSuffix : OptArg → Str
  | .none => []
  | .l1 d => '_' :: showNat d
  | .l2 d c => '_' :: (showNat d ++ '_' :: showNat c)

theorem variableName_eq (s n : Nat) (o : OptArg) :
    variableName (s, n, o) = tablePrefix ++ (showNat s ++ '_' :: (showNat n ++ optSuffix o)) := by
  cases o <;> simp only [variableName, optSuffix, List.append_assoc, List.cons_append, List.append_nil]

theorem showNat_suffix_inj {n m : Nat} {x y : Str} (hx : x = [] ∨ ∃ r, x = '_' :: r) (hy : y = [] ∨ ∃ r, y = '_' :: r)
    (h : showNat n ++ x = showNat m ++ y) : n = m ∧ x = y := by
  have nu := showNat_noUnderscore
  rcases hx with rfl | ⟨r, rfl⟩ <;> rcases hy with rfl | ⟨r', rfl⟩
  · simp only [List.append_nil] at h
    exact ⟨showNat_inj h, rfl⟩
  · have : '_' ∈ showNat n := by
      have h2 : '_' ∈ showNat n ++ [] := by rw [h]; simp
      simpa using h2
    exact absurd this (nu n)
  · have : '_' ∈ showNat m := by
      have h2 : '_' ∈ showNat m ++ [] := by rw [← h]; simp
      simpa using h2
    exact absurd this (nu m)
  · obtain ⟨h1, rfl⟩ := append_sep_inj (nu n) (nu m) h
    exact ⟨showNat_inj h1, rfl⟩

theorem optSuffix_shape (o : OptArg) : optSuffix o = [] ∨ ∃ r, optSuffix o = '_' :: r := by
  cases o <;> simp [optSuffix]

theorem optSuffix_inj {o p : OptArg} (h : optSuffix o = optSuffix p) : o = p := by
  have nu := showNat_noUnderscore
  cases o <;> cases p <;> simp only [optSuffix, List.cons.injEq, true_and, reduceCtorEq] at h ⊢
  · rw [showNat_inj h]
  · rename_i d d' c
    exact nu d (by rw [h]; simp)
  · rename_i d' c d
    exact nu d (by rw [← h]; simp)
  · obtain ⟨h1, h2⟩ := append_sep_inj (nu _) (nu _) h
    rw [showNat_inj h1, showNat_inj h2]

theorem variableName_inj {a b : TableId} (h : variableName a = variableName b) : a = b := by
  obtain ⟨s, n, o⟩ := a
  obtain ⟨s', n', o'⟩ := b
  rw [variableName_eq, variableName_eq] at h
  have h := List.append_cancel_left h
  obtain ⟨h1, h2⟩ := append_sep_inj (showNat_noUnderscore s) (showNat_noUnderscore s') h
  obtain ⟨h3, h4⟩ := showNat_suffix_inj (optSuffix_shape o) (optSuffix_shape o') h2
  rw [showNat_inj h1, h3, optSuffix_inj h4]

/-! ## Grouping of records -/

/-- All rows of the tables, with their categories, in order. -/
def rowsOf (tables : List (OptArg × CodeTable)) : List (OptArg × Str × Str) :=
  tables.flatMap fun t => t.2.data.map fun r => (t.1, r)

theorem parseRecords_rows {rs : List Record} :
    ∀ {out tables : List (OptArg × CodeTable)}, parseRecords rs out = some tables →
      (rowsOf tables).map (fun r => (some r.1, r.2)) =
        (rowsOf out).map (fun r => (some r.1, r.2)) ++
          rs.map fun r => (OptArg.parse r.subtitle, r.codeFlag, r.description) := by
  induction rs with
  | nil => intro out tables h; simp only [parseRecords, Option.some.injEq] at h; subst h; simp
  | cons r rs ih =>
    intro out tables h
    unfold parseRecords at h
    cases h1 : OptArg.parse r.subtitle with
    | none => rw [h1] at h; cases h
    | some c =>
      rw [h1] at h
      dsimp only at h
      have key : ∀ out', parseRecords rs out' = some tables →
          rowsOf out' = rowsOf out ++ [(c, r.codeFlag, r.description)] →
          (rowsOf tables).map (fun r => (some r.1, r.2)) =
            (rowsOf out).map (fun r => (some r.1, r.2)) ++
              (r :: rs).map fun r => (OptArg.parse r.subtitle, r.codeFlag, r.description) := by
        intro out' h2 h3
        rw [ih h2, h3]
        simp [h1]
      cases h2 : out.getLast? with
      | none =>
        rw [h2] at h
        have : out = [] := List.getLast?_eq_none_iff.1 h2
        subst this
        exact key _ h (by simp [rowsOf])
      | some l =>
        obtain ⟨c', t⟩ := l
        rw [h2] at h
        dsimp only at h
        have ho : out = out.dropLast ++ [(c', t)] := by
          rw [List.getLast?_eq_some_iff] at h2
          obtain ⟨ys, rfl⟩ := h2
          simp
        by_cases h3 : c = c'
        · rw [if_pos h3] at h
          refine key _ h ?_
          conv => rhs; rw [ho]
          simp [rowsOf, h3]
        · rw [if_neg h3] at h
          exact key _ h (by simp [rowsOf])

/-- Adjacent tables have different categories, and no table is empty. -/
def Runs (tables : List (OptArg × CodeTable)) : Prop :=
  (∀ t ∈ tables, t.2.data ≠ []) ∧
  (∀ i, ∀ t u, tables[i]? = some t → tables[i + 1]? = some u → t.1 ≠ u.1)

theorem parseRecords_runs {rs : List Record} :
    ∀ {out tables : List (OptArg × CodeTable)}, parseRecords rs out = some tables → Runs out → Runs tables := by
  induction rs with
  | nil => intro out tables h; simp only [parseRecords, Option.some.injEq] at h; subst h; exact id
  | cons r rs ih =>
    intro out tables h hr
    unfold parseRecords at h
    cases h1 : OptArg.parse r.subtitle with
    | none => rw [h1] at h; cases h
    | some c =>
      rw [h1] at h
      dsimp only at h
      cases h2 : out.getLast? with
      | none =>
        rw [h2] at h
        refine ih h ⟨by simp, ?_⟩
        intro i t u ht hu
        cases i <;> simp at hu
      | some l =>
        obtain ⟨c', t⟩ := l
        rw [h2] at h
        dsimp only at h
        rw [List.getLast?_eq_some_iff] at h2
        obtain ⟨ys, rfl⟩ := h2
        by_cases h3 : c = c'
        · rw [if_pos h3] at h
          rw [List.dropLast_concat] at h
          refine ih h ⟨?_, ?_⟩
          · intro t' ht'
            rcases List.mem_append.1 ht' with ht' | ht'
            · exact hr.1 t' (List.mem_append_left _ ht')
            · simp only [List.mem_singleton] at ht'; subst ht'; simp
          · intro i t1 t2 ht1 ht2
            have key : ∀ (j : Nat) (w : OptArg × CodeTable),
                (ys ++ [(c', { t with data := t.data ++ [(r.codeFlag, r.description)] })])[j]? = some w →
                ∃ w' : OptArg × CodeTable, (ys ++ [(c', t)])[j]? = some w' ∧ w'.1 = w.1 := by
              intro j w hw
              by_cases hj : j < ys.length
              · rw [List.getElem?_append_left hj] at hw ⊢
                exact ⟨w, hw, rfl⟩
              · rw [List.getElem?_append_right (by omega)] at hw ⊢
                by_cases hj0 : j - ys.length = 0
                · rw [hj0] at hw ⊢
                  simp only [List.getElem?_cons_zero, Option.some.injEq] at hw
                  subst hw; exact ⟨_, rfl, rfl⟩
                · rw [List.getElem?_eq_none (by simp; omega)] at hw; cases hw
            obtain ⟨w1, hw1, e1⟩ := key i t1 ht1
            obtain ⟨w2, hw2, e2⟩ := key (i + 1) t2 ht2
            rw [← e1, ← e2]
            exact hr.2 i w1 w2 hw1 hw2
        · rw [if_neg h3] at h
          refine ih h ⟨?_, ?_⟩
          · intro t' ht'
            rcases List.mem_append.1 ht' with ht' | ht'
            · exact hr.1 t' ht'
            · simp only [List.mem_singleton] at ht'; subst ht'; simp
          · intro i t1 t2 ht1 ht2
            by_cases hi : i + 1 < (ys ++ [(c', t)]).length
            · rw [List.getElem?_append_left hi] at ht2
              rw [List.getElem?_append_left (by omega)] at ht1
              exact hr.2 i t1 t2 ht1 ht2
            · have hlen := (List.getElem?_eq_some_iff.1 ht2).1
              simp only [List.length_append, List.length_singleton] at hlen hi
              have hi' : i = ys.length := by omega
              subst hi'
              rw [List.getElem?_append_left (by simp), List.getElem?_append_right (by omega)] at ht1
              rw [List.getElem?_append_right (by simp)] at ht2
              simp at ht1 ht2
              subst ht1; subst ht2
              exact fun hh => h3 hh.symm

theorem Grouped.tail {α : Type} {x l : List α} (h : Grouped (x ++ l)) : Grouped l := by
  intro p q r a b hl ha
  exact h (x ++ p) q r a b (by rw [hl]; simp) ha

theorem tables_nodup {tables : List (OptArg × CodeTable)} (hr : Runs tables)
    (hg : Grouped ((rowsOf tables).map (·.1))) : (tables.map (·.1)).Nodup := by
  induction tables with
  | nil => simp
  | cons t ts ih =>
    have hrow : rowsOf (t :: ts) = t.2.data.map (fun r => (t.1, r)) ++ rowsOf ts := rfl
    rw [hrow, List.map_append] at hg
    rw [List.map_cons, List.nodup_cons]
    refine ⟨?_, ih ⟨fun t' h => hr.1 t' (List.mem_cons_of_mem _ h), fun i a b ha hb => hr.2 (i + 1) a b ha hb⟩
      (Grouped.tail hg)⟩
    intro hmem
    cases ts with
    | nil => simp at hmem
    | cons u us =>
      have hne : t.1 ≠ u.1 := hr.2 0 t u rfl rfl
      rw [List.map_cons, List.mem_cons] at hmem
      rcases hmem with hmem | hmem
      · exact hne hmem
      · -- the rows of `t`, then one of `u`, then again one of `t`'s category
        obtain ⟨w, hw, hwt⟩ := List.mem_map.1 hmem
        have ht := hr.1 t List.mem_cons_self
        have hu := hr.1 u (List.mem_cons_of_mem _ List.mem_cons_self)
        have hwd := hr.1 w (List.mem_cons_of_mem _ (List.mem_cons_of_mem _ hw))
        obtain ⟨a, as, hta⟩ := List.exists_cons_of_ne_nil ht
        obtain ⟨b, bs, hub⟩ := List.exists_cons_of_ne_nil hu
        have hin : t.1 ∈ (bs.map fun _ => u.1) ++ (rowsOf us).map (·.1) := by
          refine List.mem_append_right _ ?_
          obtain ⟨c, cs, hwc⟩ := List.exists_cons_of_ne_nil hwd
          refine List.mem_map.2 ⟨(w.1, c), ?_, hwt⟩
          simp only [rowsOf, List.mem_flatMap, List.mem_map]
          exact ⟨w, hw, c, by rw [hwc]; exact List.mem_cons_self, rfl⟩
        refine hne (hg [] (as.map fun _ => t.1) _ t.1 u.1 ?_ hin).symm
        have hrow2 : rowsOf (u :: us) = u.2.data.map (fun r => (u.1, r)) ++ rowsOf us := rfl
        rw [hrow2, hta, hub]
        simp [Function.comp_def]

theorem parseRecords_isSome {rs : List Record} (h : ∀ r ∈ rs, (OptArg.parse r.subtitle).isSome) :
    ∀ out, ∃ tables, parseRecords rs out = some tables := by
  induction rs with
  | nil => intro out; exact ⟨out, rfl⟩
  | cons r rs ih =>
    intro out
    obtain ⟨c, hc⟩ := Option.isSome_iff_exists.1 (h r List.mem_cons_self)
    have ih := ih (fun r hr => h r (List.mem_cons_of_mem _ hr))
    unfold parseRecords
    rw [hc]
    dsimp only
    split
    · split
      · exact ih _
      · exact ih _
    · exact ih _

theorem find_foldl (s n : Nat) (tables : List (OptArg × CodeTable)) (db : CodeDB) (c : OptArg) :
    CodeDB.get (tables.foldl (fun db t => ((s, n, t.1), t.2) :: db) db) (s, n, c) =
      ((tables.reverse.find? (fun t => t.1 = c)).map (·.2)).or (CodeDB.get db (s, n, c)) := by
  induction tables generalizing db with
  | nil => simp
  | cons t ts ih =>
    rw [List.foldl_cons, ih]
    simp only [List.reverse_cons, List.find?_append]
    by_cases h : t.1 = c
    · cases h2 : ts.reverse.find? (fun t => t.1 = c) with
      | some x => simp
      | none => simp [CodeDB.get, h]
    · simp [CodeDB.get, h]

theorem get_other (s n : Nat) (tables : List (OptArg × CodeTable)) (db : CodeDB) (id : TableId)
    (h : ¬ ((s, n) = (id.1, id.2.1))) :
    CodeDB.get (tables.foldl (fun db t => ((s, n, t.1), t.2) :: db) db) id = CodeDB.get db id := by
  induction tables generalizing db with
  | nil => simp
  | cons t ts ih =>
    rw [List.foldl_cons, ih]
    obtain ⟨a, b, c⟩ := id
    simp only [Prod.mk.injEq] at h
    have : ¬ ((s, n, t.1) = (a, b, c)) := by
      simp only [Prod.mk.injEq]; exact fun hh => h ⟨hh.1, hh.2.1⟩
    simp [CodeDB.get, this]

theorem rows_nodup {tables : List (OptArg × CodeTable)} (hn : (tables.map (·.1)).Nodup) (hne : Runs tables)
    (c : OptArg) :
    ((tables.reverse.find? (fun t => t.1 = c)).map (fun t => t.2.data)) =
      (let rows := ((rowsOf tables).filter (fun r => r.1 = c)).map (·.2)
       if rows = [] then none else some rows) := by
  replace hne := hne.1
  induction tables with
  | nil => simp [rowsOf]
  | cons t ts ih =>
    simp only [List.map_cons, List.nodup_cons] at hn
    have ih := ih hn.2 (fun t ht => hne t (List.mem_cons_of_mem _ ht))
    have hrow : rowsOf (t :: ts) = t.2.data.map (fun r => (t.1, r)) ++ rowsOf ts := rfl
    rw [hrow, List.reverse_cons, List.find?_append]
    by_cases h : t.1 = c
    · have hno : (rowsOf ts).filter (fun r => r.1 = c) = [] := by
        rw [List.filter_eq_nil_iff]
        intro r hr
        simp only [rowsOf, List.mem_flatMap, List.mem_map] at hr
        obtain ⟨u, hu, x, _, rfl⟩ := hr
        simp only [decide_eq_true_eq]
        intro he
        exact hn.1 (by rw [h, ← he]; exact List.mem_map_of_mem hu)
      have hno2 : ts.reverse.find? (fun t => t.1 = c) = none := by
        rw [List.find?_eq_none]
        intro u hu
        simp only [decide_eq_true_eq]
        intro he
        exact hn.1 (by rw [h, ← he]; exact List.mem_map_of_mem (List.mem_reverse.1 hu))
      have hf : (t.2.data.map (fun r => (t.1, r))).filter (fun r => r.1 = c) = t.2.data.map (fun r => (t.1, r)) := by
        rw [List.filter_eq_self]
        intro r hr
        obtain ⟨x, _, rfl⟩ := List.mem_map.1 hr
        simpa using h
      rw [hno2, List.filter_append, hno, hf]
      have := hne t List.mem_cons_self
      simp [h, this, Function.comp_def]
    · have hf : (t.2.data.map (fun r => (t.1, r))).filter (fun r => r.1 = c) = [] := by
        rw [List.filter_eq_nil_iff]
        intro r hr
        obtain ⟨x, _, rfl⟩ := List.mem_map.1 hr
        simpa using h
      rw [List.filter_append, hf, List.nil_append, ← ih]
      simp [h]

end Grib
