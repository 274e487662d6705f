import Verif.Lemmas.ParserKind

/-! # Relating the streams to the grammar specification -/

namespace Grib.Model

open Grib.Spec

variable {α β : Type}

theorem Group.map_sections (f : α → β) (g : Group α) : (g.map f).sections = g.sections.map f := by
  obtain ⟨loc, grid, a, b, c, d⟩ := g
  cases loc <;> cases grid <;> rfl

theorem flatMap_groups_map (f : α → β) (gs : List (Group α)) :
    (gs.map (Group.map f)).flatMap Group.sections = (gs.flatMap Group.sections).map f := by
  induction gs with
  | nil => rfl
  | cons g gs ih => simp [List.flatMap_cons, Group.map_sections, ih]

theorem Message.map_sections (f : α → β) (m : Message α) : (m.map f).sections = m.sections.map f := by
  have := flatMap_groups_map f (m.first :: m.rest)
  simp only [List.map_cons] at this
  simp only [Message.sections, Message.groups, Message.map, List.map_cons, List.map_append, this, List.map_nil]

theorem flatMap_messages_map (f : α → β) (ms : List (Message α)) :
    (ms.map (Message.map f)).flatMap Message.sections = (ms.flatMap Message.sections).map f := by
  induction ms with
  | nil => rfl
  | cons g gs ih => simp [List.flatMap_cons, Message.map_sections, ih]

theorem subsRec_map (f : α → β) (s0 s1 fin dummy : α) (msg : Nat) (s2 : Option α) (s3 : α) (k : Nat)
    (gs : List (Group α)) :
    subsRec (f s0) (f s1) (f fin) (f dummy) msg (s2.map f) (f s3) k (gs.map (Group.map f)) =
      (subsRec s0 s1 fin dummy msg s2 s3 k gs).map (Submsg.map f) := by
  induction gs generalizing s2 s3 k with
  | nil => rfl
  | cons g gs ih =>
    rw [List.map_cons, subsRec, subsRec, List.map_cons]
    obtain ⟨loc, grid, a, b, c, d⟩ := g
    have e1 : (Group.map f ⟨loc, grid, a, b, c, d⟩).loc.or (s2.map f) = (loc.or s2).map f := by
      cases loc <;> rfl
    have e2 : (Group.map f ⟨loc, grid, a, b, c, d⟩).grid.getD (f s3) = f (grid.getD s3) := by
      cases grid <;> rfl
    rw [e1, e2, ih]
    congr 1
    cases gs <;> rfl

theorem fileSubs_map (f : α → β) (dummy d : α) (start : Nat) (ms : List (Message α)) :
    fileSubs (f dummy) (f d) start (ms.map (Message.map f)) =
      (fileSubs dummy d start ms).map (Submsg.map f) := by
  induction ms generalizing start with
  | nil => rfl
  | cons m ms ih =>
    simp only [List.map_cons, fileSubs, List.map_append, ih]
    congr 1
    rw [Message.subs_eq, Message.subs_eq]
    exact subsRec_map f m.indicator m.ident m.fin dummy start none d 0 m.groups

theorem Group.number_snd (i : Nat) (g : Group α) : (g.number i).map Prod.snd = g := by
  obtain ⟨loc, grid, a, b, c, d⟩ := g
  cases loc <;> cases grid <;> rfl

theorem numberGroups_snd (i : Nat) (gs : List (Group α)) : (numberGroups i gs).map (Group.map Prod.snd) = gs := by
  induction gs generalizing i with
  | nil => rfl
  | cons g gs ih => simp [numberGroups, Group.number_snd, ih]

theorem Message.number_snd (i : Nat) (m : Message α) : (m.number i).map Prod.snd = m := by
  simp [Message.number, Message.map, Group.number_snd, numberGroups_snd]

theorem numberMessages_snd (i : Nat) (ms : List (Message α)) :
    (numberMessages i ms).map (Message.map Prod.snd) = ms := by
  induction ms generalizing i with
  | nil => rfl
  | cons g gs ih => simp [numberMessages, Message.number_snd, ih]

theorem Group.number_length (i : Nat) (g : Group α) : (g.number i).sections.length = g.sections.length := by
  have := congrArg (fun g => (Group.sections g).length) (Group.number_snd i g)
  simpa [Group.map_sections] using this

theorem numberGroups_length (i : Nat) (gs : List (Group α)) :
    ((numberGroups i gs).flatMap Group.sections).length = (gs.flatMap Group.sections).length := by
  have h1 := congrArg (fun g => (List.flatMap Group.sections g).length) (numberGroups_snd i gs)
  simp only [flatMap_groups_map, List.length_map] at h1
  exact h1

theorem Message.number_length (i : Nat) (m : Message α) : (m.number i).sections.length = m.sections.length := by
  have h1 := congrArg (fun g => (Message.sections g).length) (Message.number_snd i m)
  simpa [Message.map_sections] using h1

theorem Group.number_numbered (i : Nat) (g : Group SectionInfo) : Numbered i (g.number i).sections := by
  obtain ⟨loc, grid, a, b, c, d⟩ := g
  cases loc <;> cases grid <;> simp [Group.number, Group.sections, Numbered]

theorem numberGroups_numbered (i : Nat) (gs : List (Group SectionInfo)) :
    Numbered i ((numberGroups i gs).flatMap Group.sections) := by
  induction gs generalizing i with
  | nil => trivial
  | cons g gs ih =>
    rw [numberGroups, List.flatMap_cons, Numbered.append, Group.number_length]
    exact ⟨Group.number_numbered i g, ih _⟩

theorem Message.number_numbered (i : Nat) (m : Message SectionInfo) : Numbered i (m.number i).sections := by
  simp only [Message.sections, Message.number, Numbered, Message.groups]
  refine ⟨trivial, trivial, ?_⟩
  rw [Numbered.append, List.flatMap_cons, Numbered.append, Group.number_length]
  refine ⟨⟨Group.number_numbered _ _, numberGroups_numbered _ _⟩, ?_⟩
  simp only [List.length_append, Group.number_length, numberGroups_length, Numbered, List.flatMap_cons, and_true]

theorem numberMessages_numbered (i : Nat) (ms : List (Message SectionInfo)) :
    Numbered i ((numberMessages i ms).flatMap Message.sections) := by
  induction ms generalizing i with
  | nil => trivial
  | cons g gs ih =>
    rw [numberMessages, List.flatMap_cons, Numbered.append, Message.number_length]
    exact ⟨Message.number_numbered i g, ih _⟩

/-- Items of the common refinement. -/
def pItems (items : List Item) : List (Outcome ParseError (Submsg P)) :=
  (PStream.collectN (items.length + 2) { iter := Validator.new items }).1

theorem subStreamItems_eq (items : List Item) :
    subStreamItems items = (pItems items).map (mapOut (Submsg.map Prod.snd)) :=
  SubStream.collectN_eq (items.length + 2) { iter := Validator.new items }

theorem idxStreamItems_eq (items : List Item) :
    (idxStreamItems items).1 = (pItems items).map (mapOut (Submsg.map Prod.fst)) ∧
    (∃ k, items.take k = (idxStreamItems items).2.map .ok) ∧
    (Clean (pItems items) → items = (idxStreamItems items).2.map .ok) := by
  have hv : CInv items [] ({ iter := Validator.new items } : PStream).iter := by
    constructor <;> simp [Validator.new]
  obtain ⟨cache', h1, h2, h3, h4⟩ := IdxStream.collectN_eq items (items.length + 2) { iter := Validator.new items } [] hv
  refine ⟨h1, ?_, ?_⟩
  · obtain ⟨k, hk⟩ := h3
    refine ⟨k, hk.trans ?_⟩
    rw [← h2]; rfl
  · intro hc
    refine (h4 hc).trans ?_
    rw [← h2]; rfl

theorem pItems_noPanic {items : List Item} (h : ∀ x ∈ items, x ≠ .panic) : .panic ∉ pItems items :=
  collect_noPanic noPanic_kept (fun _ _ => noPanic_next) _ _ ⟨h, by simp [Validator.new]⟩ (by simp [Validator.new]) (by simp [Validator.new])

theorem pItems_kind (items : List Item) : ∀ x, .ok x ∈ pItems items → GoodSub items x :=
  collect_kind _ _ (LInv.init items)

theorem collectResult_ok_iff {ε : Type} {xs : List (Outcome ε α)} {ys : List α} :
    collectResult xs = .ok ys ↔ xs = ys.map .ok := by
  induction xs generalizing ys with
  | nil => cases ys <;> simp [collectResult]
  | cons x xs ih =>
    cases x with
    | ok a =>
      simp only [collectResult]
      cases hc : collectResult xs with
      | ok zs =>
        have := (ih (ys := zs)).1 hc
        simp only [Outcome.bind_ok, Outcome.pure_eq, Outcome.ok.injEq]
        constructor
        · rintro rfl; simp [this]
        · intro h
          cases ys with
          | nil => simp at h
          | cons y ys =>
            simp only [List.map_cons, List.cons.injEq, Outcome.ok.injEq] at h
            have h3 := (ih (ys := ys)).2 h.2
            rw [hc] at h3
            simp only [Outcome.ok.injEq] at h3
            rw [h.1, h3]
      | err e =>
        simp only [Outcome.bind_err, reduceCtorEq, false_iff]
        intro h
        cases ys with
        | nil => simp at h
        | cons y ys =>
          simp only [List.map_cons, List.cons.injEq] at h
          have h3 := (ih (ys := ys)).2 h.2
          rw [hc] at h3; simp at h3
      | panic =>
        simp only [Outcome.bind_panic, reduceCtorEq, false_iff]
        intro h
        cases ys with
        | nil => simp at h
        | cons y ys =>
          simp only [List.map_cons, List.cons.injEq] at h
          have h3 := (ih (ys := ys)).2 h.2
          rw [hc] at h3; simp at h3
    | err e => cases ys <;> simp [collectResult]
    | panic => cases ys <;> simp [collectResult]

theorem collectResult_map (f : α → β) (xs : List (Outcome ParseError α)) :
    collectResult (xs.map (mapOut f)) = mapOut (List.map f) (collectResult xs) := by
  induction xs with
  | nil => rfl
  | cons x xs ih =>
    cases x with
    | ok a =>
      simp only [List.map_cons, mapOut, collectResult, ih]
      cases collectResult xs <;> simp
    | err e => rfl
    | panic => rfl

theorem collectResult_clean {xs : List (Outcome ParseError α)} : (∃ ys, collectResult xs = .ok ys) ↔ Clean xs := by
  constructor
  · rintro ⟨ys, h⟩ x hx
    rw [collectResult_ok_iff] at h
    subst h
    obtain ⟨a, -, rfl⟩ := List.mem_map.1 hx
    exact ⟨a, rfl⟩
  · intro h
    induction xs with
    | nil => exact ⟨[], rfl⟩
    | cons x xs ih =>
      obtain ⟨a, rfl⟩ := h x (by simp)
      obtain ⟨ys, hy⟩ := ih fun y hy => h y (List.mem_cons_of_mem _ hy)
      exact ⟨a :: ys, by simp [collectResult, hy]⟩

theorem collectResult_mem {ε : Type} {xs : List (Outcome ε α)} :
    (∀ e, collectResult xs = .err e → .err e ∈ xs) ∧ (collectResult xs = .panic → .panic ∈ xs) := by
  induction xs with
  | nil => simp [collectResult]
  | cons x xs ih =>
    cases x with
    | ok a =>
      simp only [collectResult]
      cases hc : collectResult xs with
      | ok ys => simp
      | err e => rw [hc] at ih; simpa using ih
      | panic => rw [hc] at ih; simpa using ih
    | err e => simp [collectResult]
    | panic => simp [collectResult]

theorem dinv_init (sects : List SectionInfo) (tail : List Item) : DInv sects tail (Validator.new (sects.map .ok ++ tail)) := by
  refine ⟨by simp [Validator.new], by simp [Validator.new], Or.inl rfl, by simp [Validator.new], rfl,
    by simp [Validator.new], by simp [Validator.new]⟩

theorem clean_of_run {sects : List SectionInfo} (h : run q0 (nums sects) = some q0) :
    Clean (pItems (sects.map .ok)) := by
  intro x hx
  cases x with
  | ok a => exact ⟨a, rfl⟩
  | err e =>
    obtain ⟨v, v', hv, hn⟩ := collect_kept (dinv_kept sects (tail := []) (by simp [NoOk])) _ _
      (by simpa using dinv_init sects []) hx
    rcases dinv_err (by simp [NoOk]) hv hn with ⟨k, -, -, -, h4⟩ | ⟨-, -, -, q, h2, h3⟩ | ⟨h2, -⟩
    · exfalso
      rw [← List.take_append_drop (k + 1) sects, nums_append] at h
      obtain ⟨q1, hq⟩ := run_prefix h
      rw [h4] at hq; simp at hq
    · rw [h] at h2; simp at h2; exact absurd h2.symm h3
    · simp at h2
  | panic => exact absurd hx (pItems_noPanic (by simp))

theorem accepted_of_clean {sects : List SectionInfo} (h : Clean (pItems (sects.map .ok))) : Accepted sects := by
  obtain ⟨ms, h1, -, h3⟩ := messages_inv _ (Nat.le_refl _) h
  refine ⟨ms.map (Message.map Prod.snd), ?_, ?_⟩
  · intro m hm
    obtain ⟨p, hp, rfl⟩ := List.mem_map.1 hm
    exact h1 p hp
  · rw [flatMap_messages_map]
    have hinj : ∀ (a b : List SectionInfo), a.map (Outcome.ok (ε := ParseError)) = b.map .ok → a = b := by
      intro a b hab
      exact (List.map_inj_right (by intro x y; simp)).1 hab
    apply hinj
    rw [h3, itemsOf, List.map_map]; rfl

theorem clean_iff_accepted {sects : List SectionInfo} : Clean (pItems (sects.map .ok)) ↔ Accepted sects :=
  ⟨accepted_of_clean, fun h => clean_of_run (run_of_accepted h)⟩

theorem viable_of_run {sects : List SectionInfo} {q : Q} (h : run q0 (nums sects) = some q) : Viable sects := by
  refine ⟨(finishFrom q.1).map fun n => { SectionInfo.default with num := n }, ?_⟩
  apply accepted_of_clean
  apply clean_of_run
  rw [nums_append, run_append, h, Option.bind_some]
  have : nums ((finishFrom q.1).map fun n => { SectionInfo.default with num := n }) = finishFrom q.1 := by
    simp [nums, Function.comp_def]
  rw [this]
  exact run_finish q (reach_run (show Reach q0 from rfl) h)

theorem run_of_viable {sects : List SectionInfo} (h : Viable sects) : ∃ q, run q0 (nums sects) = some q := by
  obtain ⟨ext, h⟩ := h
  have := run_of_accepted h
  rw [nums_append] at this
  exact run_prefix this

theorem not_clean_of_noOk {sects : List SectionInfo} {x : Item} (hx : ∀ s, x ≠ .ok s) :
    ¬ Clean (pItems (sects.map .ok ++ [x])) := by
  intro hc
  obtain ⟨ms, -, -, h3⟩ := messages_inv _ (Nat.le_refl _) hc
  have : x ∈ itemsOf (ms.flatMap Message.sections) := by rw [← h3]; simp
  obtain ⟨y, -, hy⟩ := List.mem_map.1 this
  exact hx _ hy.symm

/-- Sections in order followed by an error or panic: it is passed on. -/
theorem pItems_viable {sects : List SectionInfo} (hv : Viable sects) :
    (∀ e, collectResult (pItems (sects.map .ok ++ [.err e])) = .err e) ∧
    collectResult (pItems (sects.map .ok ++ [.panic])) = .panic := by
  obtain ⟨q, hq⟩ := run_of_viable hv
  have key : ∀ (x : Item) (hx : ∀ s, x ≠ .ok s) (e : ParseError),
      .err e ∈ pItems (sects.map .ok ++ [x]) → x = .err e := by
    intro x hx e he
    have hn : NoOk [x] := fun s hs => hx s (List.mem_singleton.1 hs).symm
    obtain ⟨v, v', hv, hnx⟩ := collect_kept (dinv_kept sects hn) _ _ (dinv_init sects [x]) he
    rcases dinv_err hn hv hnx with ⟨k, -, -, -, h4⟩ | ⟨h, -⟩ | ⟨h, -⟩
    · exfalso
      rw [← List.take_append_drop (k + 1) sects, nums_append] at hq
      obtain ⟨q1, hq1⟩ := run_prefix hq
      rw [h4] at hq1; simp at hq1
    · simp at h
    · simpa using h
  refine ⟨fun e => ?_, ?_⟩
  · cases hc : collectResult (pItems (sects.map .ok ++ [.err e])) with
    | ok ys => exact absurd (collectResult_clean.1 ⟨ys, hc⟩) (not_clean_of_noOk (by simp))
    | panic => exact absurd (collectResult_mem.2 hc) (pItems_noPanic (by
        simp only [List.mem_append, List.mem_map, List.mem_singleton]
        rintro x (⟨a, -, rfl⟩ | rfl) <;> simp))
    | err e' =>
      have := key (.err e) (by simp) e' (collectResult_mem.1 e' hc)
      simpa using this.symm
  · cases hc : collectResult (pItems (sects.map .ok ++ [.panic])) with
    | ok ys => exact absurd (collectResult_clean.1 ⟨ys, hc⟩) (not_clean_of_noOk (by simp))
    | panic => rfl
    | err e' =>
      have := key .panic (by simp) e' (collectResult_mem.1 e' hc)
      simp at this

/-- Sections out of order: an error, whatever comes afterwards. -/
theorem pItems_not_viable {sects : List SectionInfo} {tail : List Item} (hn : NoOk tail) (hv : ¬ Viable sects) :
    ∃ e k, collectResult (pItems (sects.map .ok ++ tail)) = .err e ∧
      OrderError sects k e ∧ k < sects.length ∧ Viable (sects.take k) ∧
        ¬ Viable (sects.take (k + 1)) := by
  have hnr : ∀ q, run q0 (nums sects) ≠ some q := fun q hq => hv (viable_of_run hq)
  cases hc : collectResult (pItems (sects.map .ok ++ tail)) with
  | ok ys =>
    exfalso
    obtain ⟨ms, h1, -, h3⟩ := messages_inv _ (Nat.le_refl _) (collectResult_clean.1 ⟨ys, hc⟩)
    have htl : tail = [] := by
      cases tail with
      | nil => rfl
      | cons x xs =>
        exfalso
        have : x ∈ itemsOf (ms.flatMap Message.sections) := by rw [← h3]; simp
        obtain ⟨y, -, hy⟩ := List.mem_map.1 this
        exact hn y.2 (by rw [hy]; simp)
    subst htl
    rw [List.append_nil] at hc
    have := run_of_accepted (accepted_of_clean (collectResult_clean.1 ⟨ys, hc⟩))
    exact hnr _ this
  | panic =>
    exfalso
    refine collect_noPanic (dinv_kept sects hn) (fun v v' hv h => ?_) _ _ (dinv_init sects tail) (by simp [Validator.new])
      (by simp [Validator.new]) (collectResult_mem.2 hc)
    obtain ⟨-, q, hq⟩ := dinv_panic hv h
    exact hnr q hq
  | err e =>
    obtain ⟨v, v', hv, hnx⟩ := collect_kept (dinv_kept sects hn) _ _ (dinv_init sects tail) (collectResult_mem.1 e hc)
    rcases dinv_err hn hv hnx with ⟨k, h1, h2, ⟨q, h3⟩, h4⟩ | ⟨-, -, -, q, h, -⟩ | ⟨-, q, h⟩
    · refine ⟨e, k, rfl, h1, h2, viable_of_run h3, fun hv => ?_⟩
      obtain ⟨q', hq'⟩ := run_of_viable hv
      rw [h4] at hq'; simp at hq'
    · exact absurd h (hnr q)
    · exact absurd h (hnr q)

/-- The whole run over complete messages followed by anything. -/
theorem pItems_messages (ms : List (Message SectionInfo)) (hm : ∀ m ∈ ms, m.Ok) (tail : List Item) :
    ∃ rest, pItems ((ms.flatMap Message.sections).map .ok ++ tail) =
      (fileSubs P.dummy8 P.default 0 (numberMessages 0 ms)).map .ok ++ rest ∧ (tail = [] → rest = []) := by
  have e1 : (ms.flatMap Message.sections).map Outcome.ok = itemsOf ((numberMessages 0 ms).flatMap Message.sections) := by
    rw [itemsOf]
    have := flatMap_messages_map Prod.snd (numberMessages 0 ms)
    rw [numberMessages_snd] at this
    rw [this, List.map_map]; rfl
  have hm' : ∀ m ∈ numberMessages 0 ms, MOk m := by
    intro m hmm
    apply hm
    rw [← numberMessages_snd 0 ms]
    exact List.mem_map_of_mem hmm
  rw [e1, pItems]
  have hlen : ∀ ps : List (Message P), (ps.flatMap Message.groups).length ≤ (ps.flatMap Message.sections).length := by
    intro ps
    induction ps with
    | nil => simp
    | cons p ps ih =>
      have hg : ∀ gs : List (Group P), gs.length ≤ (gs.flatMap Group.sections).length := by
        intro gs
        induction gs with
        | nil => simp
        | cons g gs ih =>
          have := @GOk.length_pos g
          rw [List.flatMap_cons, List.length_append, List.length_cons]; omega
      rw [List.flatMap_cons, List.flatMap_cons, List.length_append, List.length_append]
      have h1 := hg p.groups
      have h2 : p.sections.length = (p.groups.flatMap Group.sections).length + 3 := by
        simp only [Message.sections, List.length_cons, List.length_append, List.length_nil]
      omega
  have hl := hlen (numberMessages 0 ms)
  have e2 : (itemsOf ((numberMessages 0 ms).flatMap Message.sections) ++ tail).length + 2 =
    (((numberMessages 0 ms).flatMap Message.sections).length -
      ((numberMessages 0 ms).flatMap Message.groups).length + tail.length + 1) + 1 +
      ((numberMessages 0 ms).flatMap Message.groups).length := by
    simp only [itemsOf, List.length_append, List.length_map]; omega
  rw [e2]
  generalize hf : ((numberMessages 0 ms).flatMap Message.sections).length -
      ((numberMessages 0 ms).flatMap Message.groups).length + tail.length + 1 = fuel
  obtain ⟨pos', h⟩ := collect_messages (fuel := fuel + 1) (i := 0) (pos := 0) (mc := 0) (tail := tail) hm'
    (numberMessages_numbered 0 ms)
  rw [Validator.new, h]
  refine ⟨_, rfl, ?_⟩
  rintro rfl
  simp [PStream.collectN, PStream.next, PStream.loop, Validator.next, Validator.ensureSect0]

end Grib.Model
