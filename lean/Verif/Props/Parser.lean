import Verif.Lemmas.ParserRecent

/-! # C11-C16: section order, submessage listing

`subStreamItems` is the public by-value submessage stream over a section stream, `idxStreamItems` the index stream
used by `Grib2`, together with the list of sections it records. -/

namespace Grib.Props

open Grib.Model Grib.Spec

/-! Sample input: a message with a local-use section and two groups (the second without own grid), then a plain one. -/

/-- A bodiless section with number `n`. -/
def sec (n : Nat) : SectionInfo := ⟨n, 0, 0, none⟩

def sampleMessages : List (Message SectionInfo) :=
  [⟨sec 0, sec 1, ⟨some (sec 2), some (sec 3), sec 4, sec 5, sec 6, sec 7⟩,
      [⟨none, none, sec 4, sec 5, sec 6, sec 7⟩], sec 8⟩,
   ⟨sec 0, sec 1, ⟨none, some (sec 3), sec 4, sec 5, sec 6, sec 7⟩, [], sec 8⟩]

theorem sampleMessages_ok : ∀ m ∈ sampleMessages, m.Ok := by
  intro m hm
  simp only [sampleMessages, List.mem_cons, List.not_mem_nil, or_false] at hm
  rcases hm with rfl | rfl
  · refine ⟨rfl, rfl, ?_, rfl, rfl⟩
    intro g hg
    simp only [Message.groups, List.mem_cons, List.not_mem_nil, or_false] at hg
    rcases hg with rfl | rfl <;> constructor <;> simp [sec]
  · refine ⟨rfl, rfl, ?_, rfl, rfl⟩
    intro g hg
    simp only [Message.groups, List.mem_cons, List.not_mem_nil, or_false] at hg
    subst hg
    constructor <;> simp [sec]

/-! ## C11 -/

/-- C11: the by-value stream reports no error exactly on well-ordered section sequences. -/
theorem C11_by_value (sects : List SectionInfo) :
    (∃ subs, collectResult (subStreamItems (sects.map .ok)) = .ok subs) ↔ Accepted sects := by
  rw [← clean_iff_accepted, ← collectResult_clean, subStreamItems_eq, collectResult_map]
  cases collectResult (pItems (sects.map .ok)) <;> simp [mapOut]

/-- C11: so does the index stream. -/
theorem C11_by_index (sects : List SectionInfo) :
    (∃ subs, collectResult (idxStreamItems (sects.map .ok)).1 = .ok subs) ↔ Accepted sects := by
  rw [← clean_iff_accepted, ← collectResult_clean, (idxStreamItems_eq _).1, collectResult_map]
  cases collectResult (pItems (sects.map .ok)) <;> simp [mapOut]

/-- What a section-order error may say about a section sequence: the reported section is the first one after which no
continuation is well-ordered -- the error is a missing grid definition exactly if it is a section 4 right after a
section 1 (`OrderError`, `GridMissing`), and an invalid order otherwise --, or the sequence is an incomplete beginning of a
well-ordered one and the position is that of its last section. -/
def Offends (sects : List SectionInfo) (e : ParseError) : Prop :=
  (∃ k, OrderError sects k e ∧ k < sects.length ∧
    Viable (sects.take k) ∧ ¬ Viable (sects.take (k + 1))) ∨
  (e = .unexpectedEndOfData (sects.length - 1) ∧ sects ≠ [] ∧ Viable sects)

/-- C11: otherwise both streams report the same error, at the first offending section. -/
theorem C11_first_offender (sects : List SectionInfo) (h : ¬ Accepted sects) :
    ∃ e, collectResult (subStreamItems (sects.map .ok)) = .err e ∧
      collectResult (idxStreamItems (sects.map .ok)).1 = .err e ∧ Offends sects e := by
  rw [← clean_iff_accepted, ← collectResult_clean] at h
  rw [subStreamItems_eq, (idxStreamItems_eq _).1, collectResult_map, collectResult_map]
  cases hc : collectResult (pItems (sects.map .ok)) with
  | ok ys => exact absurd ⟨ys, hc⟩ h
  | panic =>
    exact absurd (collectResult_mem.2 hc) (pItems_noPanic (by simp))
  | err e =>
    refine ⟨e, rfl, rfl, ?_⟩
    have he := collectResult_mem.1 e hc
    obtain ⟨v, v', hv, hn⟩ := collect_kept (dinv_kept sects (tail := []) (by simp [NoOk])) _ _
      (by simpa using dinv_init sects []) he
    rcases dinv_err (by simp [NoOk]) hv hn with ⟨k, h1, h2, ⟨q, h3⟩, h4⟩ | ⟨-, h1, h2, q, h3, -⟩ | ⟨h1, -⟩
    · refine Or.inl ⟨k, h1, h2, viable_of_run h3, fun hv => ?_⟩
      obtain ⟨q', hq'⟩ := run_of_viable hv
      rw [h4] at hq'; simp at hq'
    · exact Or.inr ⟨h1, h2, viable_of_run h3⟩
    · simp at h1

/-- C11: no section sequence, even with read errors in it, makes the streams panic. -/
theorem C11_no_panic (items : List Item) (h : ∀ x ∈ items, x ≠ .panic) :
    .panic ∉ subStreamItems items ∧ .panic ∉ (idxStreamItems items).1 := by
  have := pItems_noPanic h
  rw [subStreamItems_eq, (idxStreamItems_eq _).1]
  constructor <;>
  · intro hm
    obtain ⟨y, hy, e⟩ := List.mem_map.1 hm
    cases y with
    | ok a => simp [mapOut] at e
    | err a => simp [mapOut] at e
    | panic => exact this hy

-- the hypotheses are met: an accepted and a rejected sequence
example : Accepted (sampleMessages.flatMap Message.sections) := ⟨_, sampleMessages_ok, rfl⟩

example : ¬ Accepted [sec 0, sec 1, sec 4] := by
  rw [← C11_by_index]
  rintro ⟨subs, h⟩
  have : collectResult (idxStreamItems ([sec 0, sec 1, sec 4].map .ok)).1 = .err (.noGridDefinition 2) := by decide
  rw [this] at h; simp at h

/-! ## C12 -/

/-- C12: whatever follows (end, error), each listed submessage refers to input sections of the right kind; its end
section is a section 8 or the placeholder index 0. -/
theorem C12_kinds (items : List Item) (x : Submsg Nat) (h : .ok x ∈ (idxStreamItems items).1) :
    let Is (n : Nat) (i : Nat) : Prop := ∃ s, items[i]? = some (.ok s) ∧ s.num = n
    Is 0 x.sects.s0 ∧ Is 1 x.sects.s1 ∧ (∀ i, x.sects.s2 = some i → Is 2 i) ∧ Is 3 x.sects.s3 ∧ Is 4 x.sects.s4 ∧
      Is 5 x.sects.s5 ∧ Is 6 x.sects.s6 ∧ Is 7 x.sects.s7 ∧ (Is 8 x.sects.s8 ∨ x.sects.s8 = 0) := by
  rw [(idxStreamItems_eq _).1] at h
  obtain ⟨y, hy, e⟩ := List.mem_map.1 h
  cases y with
  | err _ => simp [mapOut] at e
  | panic => simp [mapOut] at e
  | ok p =>
    simp only [mapOut, Outcome.ok.injEq] at e
    subst e
    obtain ⟨h0, h1, h2, h3, h4, h5, h6, h7, h8⟩ := pItems_kind items p hy
    have g : ∀ n q, Good items n q → ∃ s, items[q.1]? = some (.ok s) ∧ s.num = n := fun n q hq => ⟨q.2, hq⟩
    refine ⟨g _ _ h0, g _ _ h1, ?_, g _ _ h3, g _ _ h4, g _ _ h5, g _ _ h6, g _ _ h7, ?_⟩
    · intro i hi
      simp only [Submsg.map, Nine.map, Option.map_eq_some_iff] at hi
      obtain ⟨q, hq, rfl⟩ := hi
      exact g _ _ (h2 q hq)
    · rcases h8 with h8 | h8
      · exact Or.inl (g _ _ h8)
      · right; simp only [Submsg.map, Nine.map, h8]; rfl

/-- C12, C14: in an accepted section sequence, counting positions only: the sections 4-7 of a submessage are adjacent;
its indicator is the most recent section 0 before them; its grid and local-use sections are the most recent sections
3 and 2 since that indicator (no section 8 in between); its end section is the section right after its data section if
that is a section 8, and the placeholder 0 otherwise. -/
theorem C14_most_recent (sects : List SectionInfo) (subs : List (Submsg Nat))
    (h : collectResult (idxStreamItems (sects.map .ok)).1 = .ok subs) (x : Submsg Nat) (hx : x ∈ subs) :
    let s := x.sects
    let last (n : Nat) : Option Nat :=
      ((List.range s.s4).filter fun j => s.s0 ≤ j && (sects[j]?).any fun t => t.num == n).getLast?
    s.s5 = s.s4 + 1 ∧ s.s6 = s.s4 + 2 ∧ s.s7 = s.s4 + 3 ∧
    ((List.range s.s4).filter fun j => (sects[j]?).any fun t => t.num == 0).getLast? = some s.s0 ∧
    s.s1 = s.s0 + 1 ∧ last 8 = none ∧ last 3 = some s.s3 ∧ last 2 = s.s2 ∧
    ∃ t, sects[s.s7 + 1]? = some t ∧ s.s8 = if t.num = 8 then s.s7 + 1 else 0 := by
  have hacc : Accepted sects := (C11_by_index sects).1 ⟨subs, h⟩
  obtain ⟨ms, hm, rfl⟩ := hacc
  obtain ⟨rest, h1, h2⟩ := pItems_messages ms hm []
  rw [h2 rfl, List.append_nil, List.append_nil] at h1
  rw [(idxStreamItems_eq _).1, h1, collectResult_map, collectResult_ok_iff.2 rfl] at h
  simp only [mapOut, Outcome.ok.injEq] at h
  subst h
  obtain ⟨p, hp, rfl⟩ := List.mem_map.1 hx
  obtain ⟨pre, m, post, k, e, hk, rfl⟩ := mem_fileSubs hp
  have hnum := numberMessages_numbered 0 ms
  have hsects : ms.flatMap Message.sections = ((numberMessages 0 ms).flatMap Message.sections).map Prod.snd := by
    rw [← flatMap_messages_map, numberMessages_snd]
  have hmok : ∀ m' ∈ numberMessages 0 ms, MOk m' := by
    intro m' hmm
    apply hm
    rw [← numberMessages_snd 0 ms]
    exact List.mem_map_of_mem hmm
  have hmm : MOk m := hmok m (by rw [e]; simp)
  rw [hsects]
  rw [e, List.flatMap_append, List.flatMap_cons, Message.split m k hk] at hnum ⊢
  generalize hA : pre.flatMap Message.sections = A at hnum ⊢
  obtain ⟨b2, b3, b0, b8⟩ := before_filter hmm hk
  generalize hB : Message.before m k m.groups[k] = B at hnum b2 b3 b0 b8 ⊢
  generalize hT : (m.groups.drop (k + 1)).flatMap Group.sections ++ [m.fin] = T at hnum ⊢
  generalize hS : post.flatMap Message.sections = S at hnum ⊢
  obtain ⟨q3, hq3⟩ := firstGrid_mostRecent hmm (k := k)
  have hB2 : ∃ B', B = m.indicator :: m.ident :: B' := by rw [← hB]; exact ⟨_, rfl⟩
  -- positions
  have hnum1 : Numbered 0 (A ++ (B ++ ([m.groups[k].prod, m.groups[k].repr, m.groups[k].bitmap,
      m.groups[k].data] ++ (T ++ S)))) := by simpa using hnum
  have hnum' : Numbered 0 (A ++ B ++ ([m.groups[k].prod, m.groups[k].repr, m.groups[k].bitmap,
      m.groups[k].data] ++ (T ++ S))) := by simpa using hnum
  have hnumM := (Numbered.append.1 hnum').2
  rw [List.length_append, Nat.zero_add] at hnumM
  simp only [List.cons_append, List.nil_append, Numbered] at hnumM
  obtain ⟨p4, p5, p6, p7, pT⟩ := hnumM
  have p0 : m.indicator.1 = A.length ∧ m.ident.1 = A.length + 1 := by
    obtain ⟨B', hB'⟩ := hB2
    have := (Numbered.append.1 hnum1).2
    rw [hB', Nat.zero_add] at this
    exact ⟨this.1, this.2.1⟩
  have hF : A ++ (B ++ ([m.groups[k].prod, m.groups[k].repr, m.groups[k].bitmap, m.groups[k].data] ++ T) ++ S) =
      A ++ B ++ ([m.groups[k].prod, m.groups[k].repr, m.groups[k].bitmap, m.groups[k].data] ++ (T ++ S)) := by simp
  rw [hF]
  have key := fun n => filter_positions hnum' (fun t => t.num == n)
  simp only [isNum] at b2 b3 b0 b8
  simp only [Submsg.map, Nine.map, p4, p5, p6, p7, p0.1, p0.2]
  refine ⟨trivial, trivial, trivial, ?_, trivial, ?_, ?_, ?_, ?_⟩
  · -- section 0: also look before the message
    have key0 := filter_positions (A := []) (B := A ++ B) (C := [m.groups[k].prod, m.groups[k].repr,
      m.groups[k].bitmap, m.groups[k].data] ++ (T ++ S)) (by simpa using hnum') (fun t => t.num == 0)
    simp only [List.length_nil, Nat.zero_le, decide_true, Bool.true_and, List.nil_append, Nat.zero_add,
      List.length_append] at key0
    rw [key0, List.filter_append, b0]
    simp [p0.1]
  · rw [key 8, b8]; rfl
  · rw [key 3, List.getLast?_map, b3, hq3]; rfl
  · rw [key 2, List.getLast?_map, b2]
  · rw [List.getElem?_map, List.getElem?_append_right (by rw [List.length_append]; omega)]
    have : A.length + B.length + 1 + 1 + 1 + 1 - (A ++ B).length = 4 := by rw [List.length_append]; omega
    rw [this]
    simp only [List.cons_append, List.nil_append, List.getElem?_cons_succ]
    by_cases hl : k + 1 = m.groups.length
    · have hT' : T = [m.fin] := by
        rw [← hT, List.drop_eq_nil_of_le (by omega)]; rfl
      have hf8 := hmm.fin
      simp only [Message.map] at hf8
      rw [hT'] at pT ⊢
      refine ⟨m.fin.2, rfl, ?_⟩
      rw [if_pos hf8, if_pos hl, pT.1]
    · have hlt : k + 1 < m.groups.length := by omega
      rw [List.drop_eq_getElem_cons hlt, List.flatMap_cons] at hT
      have hgk := hmm.groupsOk _ (List.getElem_mem hlt)
      obtain ⟨a, rest', ha, ha8⟩ := hgk.head
      have : ∃ q Q, m.groups[k + 1].sections = q :: Q ∧ q.2 = a := by
        cases hs : m.groups[k + 1].sections with
        | nil => rw [hs] at ha; simp [itemsOf] at ha
        | cons q Q =>
          rw [hs] at ha
          simp only [itemsOf, List.map_cons, List.cons.injEq, Outcome.ok.injEq] at ha
          exact ⟨q, Q, rfl, ha.1⟩
      obtain ⟨q, Q, hq, rfl⟩ := this
      rw [hq] at hT
      rw [← hT]
      refine ⟨q.2, rfl, ?_⟩
      rw [if_neg hl, if_neg ha8]; rfl

/-! ## C13 -/

/-- C13: the submessages are numbered (message, submessage) consecutively: there are numbers of submessages per
message, all positive, such that the listed indices are (0,0), (0,1), ..., (1,0), ... in this order. -/
theorem C13_numbering (sects : List SectionInfo) (subs : List (Submsg Nat))
    (h : collectResult (idxStreamItems (sects.map .ok)).1 = .ok subs) :
    ∃ counts : List Nat, (∀ c ∈ counts, 0 < c) ∧
      counts.length = (sects.filter fun s => s.num == 8).length ∧
      subs.map (fun x => (x.msg, x.sub)) =
        counts.zipIdx.flatMap fun p => (List.range p.1).map fun k => (p.2, k) := by
  have hacc : Accepted sects := (C11_by_index sects).1 ⟨subs, h⟩
  obtain ⟨ms, hm, rfl⟩ := hacc
  obtain ⟨rest, h1, h2⟩ := pItems_messages ms hm []
  rw [h2 rfl, List.append_nil, List.append_nil] at h1
  rw [(idxStreamItems_eq _).1, h1, collectResult_map, collectResult_ok_iff.2 rfl] at h
  simp only [mapOut, Outcome.ok.injEq] at h
  subst h
  refine ⟨ms.map fun m => m.groups.length, ?_, ?_, ?_⟩
  · intro c hc
    obtain ⟨m, -, rfl⟩ := List.mem_map.1 hc
    simp [Message.groups]
  · have : ∀ (ps : List (Message P)), (∀ p ∈ ps, MOk p) →
        ((ps.flatMap Message.sections).filter fun x => isNum 8 x.2).length = ps.length := by
      intro ps hps
      induction ps with
      | nil => rfl
      | cons p ps ih =>
        have hp := hps p (by simp)
        obtain ⟨-, -, -, g8⟩ := groups_filter hp.groupsOk
        have h0 := hp.indicator
        have h1 := hp.ident
        have h8 := hp.fin
        simp only [Message.map] at h0 h1 h8
        simp only [isNum] at g8 ih
        simp only [List.flatMap_cons, List.filter_append, List.length_append, isNum,
          ih fun x hx => hps x (List.mem_cons_of_mem _ hx), List.length_cons, Message.sections, List.filter_cons, h0,
          h1, h8, g8, List.filter_nil]
        simp; omega
    have h' := this (numberMessages 0 ms) (by
      intro m' hmm
      apply hm
      rw [← numberMessages_snd 0 ms]
      exact List.mem_map_of_mem hmm)
    have hsects : ms.flatMap Message.sections = ((numberMessages 0 ms).flatMap Message.sections).map Prod.snd := by
      rw [← flatMap_messages_map, numberMessages_snd]
    have hlen : (numberMessages 0 ms).length = ms.length := by
      have := congrArg List.length (numberMessages_snd 0 ms); simpa using this
    rw [List.length_map, hsects, List.filter_map, List.length_map, ← hlen, ← h']
    rfl
  · have : ∀ (ps : List (Message P)) (start : Nat),
        ((fileSubs P.dummy8 P.default start ps).map (Submsg.map Prod.fst)).map (fun x => (x.msg, x.sub)) =
          ((ps.map fun m => m.groups.length).zipIdx start).flatMap
            fun p => (List.range p.1).map fun k => (p.2, k) := by
      intro ps
      induction ps with
      | nil => intro; rfl
      | cons p ps ih =>
        intro start
        simp only [fileSubs, List.map_append, ih, List.map_cons, List.zipIdx_cons, List.flatMap_cons]
        congr 1
        simp only [Message.subs, List.map_map]
        rfl
    rw [this]
    have hg : (numberMessages 0 ms).map (fun m => m.groups.length) = ms.map fun m => m.groups.length := by
      rw [← numberMessages_snd 0 ms, List.map_map, numberMessages_snd]
      apply List.map_congr_left
      intro m _
      simp [Message.groups, Message.map]
    rw [hg]

/-! ## Listing of a well-ordered sequence (C11-C14 together) -/

/-- The by-value stream lists exactly the submessages of the messages; a submessage that is not the last of its message
gets an end section of 4 octets at place 0 in place of the one of the message. -/
theorem C14_listing_by_value (ms : List (Message SectionInfo)) (hm : ∀ m ∈ ms, m.Ok) :
    collectResult (subStreamItems ((ms.flatMap Message.sections).map .ok)) =
      .ok (fileSubs ⟨8, 0, 4, none⟩ ⟨0, 0, 0, none⟩ 0 ms) := by
  show _ = Outcome.ok (fileSubs (SectionInfo.new8 0) SectionInfo.default 0 ms)
  obtain ⟨rest, h1, h2⟩ := pItems_messages ms hm []
  rw [h2 rfl, List.append_nil, List.append_nil] at h1
  rw [subStreamItems_eq, h1, collectResult_map, collectResult_ok_iff.2 rfl]
  simp only [mapOut, Outcome.ok.injEq]
  have := fileSubs_map Prod.snd P.dummy8 P.default 0 (numberMessages 0 ms)
  rw [numberMessages_snd] at this
  rw [← this]; rfl

/-- The index stream lists the positions of the same sections and records all sections. -/
theorem C14_listing_by_index (ms : List (Message SectionInfo)) (hm : ∀ m ∈ ms, m.Ok) :
    collectResult (idxStreamItems ((ms.flatMap Message.sections).map .ok)).1 =
      .ok (fileSubs 0 0 0 ((numberMessages 0 ms).map (Message.map Prod.fst))) ∧
    (idxStreamItems ((ms.flatMap Message.sections).map .ok)).2 = ms.flatMap Message.sections := by
  obtain ⟨rest, h1, h2⟩ := pItems_messages ms hm []
  rw [h2 rfl, List.append_nil, List.append_nil] at h1
  refine ⟨?_, ?_⟩
  · rw [(idxStreamItems_eq _).1, h1, collectResult_map, collectResult_ok_iff.2 rfl]
    simp only [mapOut, Outcome.ok.injEq]
    exact (fileSubs_map Prod.fst P.dummy8 P.default 0 (numberMessages 0 ms)).symm
  · have hc : Clean (pItems ((ms.flatMap Message.sections).map .ok)) := by
      rw [h1]; intro x hx; obtain ⟨a, -, rfl⟩ := List.mem_map.1 hx; exact ⟨a, rfl⟩
    have := (idxStreamItems_eq ((ms.flatMap Message.sections).map .ok)).2.2 hc
    exact ((List.map_inj_right (by intro x y; simp)).1 this).symm

-- the listing of the sample, by index
example : collectResult (idxStreamItems ((sampleMessages.flatMap Message.sections).map .ok)).1 =
    .ok [⟨0, 0, ⟨0, 1, some 2, 3, 4, 5, 6, 7, 0⟩⟩, ⟨0, 1, ⟨0, 1, some 2, 3, 8, 9, 10, 11, 12⟩⟩,
      ⟨1, 0, ⟨13, 14, none, 15, 16, 17, 18, 19, 20⟩⟩] := by decide

/-! ## C15 -/

theorem validator_err_ends {v v' : Validator} {e : ParseError} (h : v.next = (.err e, v')) :
    v'.state = .endOfStream := by
  have hnum : ∀ (w : Validator) n, w.ensureSectNum n = (.err e, v') → v'.state = .endOfStream := by
    intro w n hw
    obtain ⟨items, idx, pos, mc, sc, state, has⟩ := w
    match items with
    | [] => simp [Validator.ensureSectNum, Validator.unexpectedEnd] at hw; rw [← hw.2]
    | .panic :: _ => simp [Validator.ensureSectNum] at hw
    | .err _ :: _ => simp [Validator.ensureSectNum, Validator.wrapErr] at hw; rw [← hw.2]
    | .ok s :: _ =>
      simp only [Validator.ensureSectNum] at hw
      split at hw
      · simp [Validator.yield] at hw
      · simp [Validator.invalidOrder] at hw; rw [← hw.2]
  have h234 : ∀ (w : Validator), w.ensureSect234 = (.err e, v') → v'.state = .endOfStream := by
    intro w hw
    obtain ⟨items, idx, pos, mc, sc, state, has⟩ := w
    match items with
    | [] => simp [Validator.ensureSect234, Validator.unexpectedEnd] at hw; rw [← hw.2]
    | .panic :: _ => simp [Validator.ensureSect234] at hw
    | .err _ :: _ => simp [Validator.ensureSect234, Validator.wrapErr] at hw; rw [← hw.2]
    | .ok s :: _ =>
      simp only [Validator.ensureSect234] at hw
      split at hw
      · simp [Validator.yield] at hw
      · split at hw
        · simp [Validator.yield] at hw
        · split at hw
          · split at hw
            · simp [Validator.yield] at hw
            · simp [Validator.noGrid] at hw; rw [← hw.2]
          · simp [Validator.invalidOrder] at hw; rw [← hw.2]
  unfold Validator.next at h
  split at h
  · simp at h
  · obtain ⟨items, idx, pos, mc, sc, state, has⟩ := v
    match items with
    | [] => simp [Validator.ensureSect0] at h
    | .panic :: _ => simp [Validator.ensureSect0] at h
    | .err _ :: _ => simp [Validator.ensureSect0, Validator.wrapErr] at h; rw [← h.2]
    | .ok s :: _ =>
      simp only [Validator.ensureSect0] at h
      split at h
      · simp [Validator.yield] at h
      · simp [Validator.invalidOrder] at h; rw [← h.2]
  · exact hnum _ _ h
  · exact h234 _ h
  · exact h234 _ h
  · exact hnum _ _ h
  · exact hnum _ _ h
  · exact hnum _ _ h
  · exact hnum _ _ h
  · exact hnum _ _ h
  · obtain ⟨items, idx, pos, mc, sc, state, has⟩ := v
    match items with
    | [] => simp [Validator.ensureSect8, Validator.unexpectedEnd] at h; rw [← h.2]
    | .panic :: _ => simp [Validator.ensureSect8] at h
    | .err _ :: _ => simp [Validator.ensureSect8, Validator.wrapErr] at h; rw [← h.2]
    | .ok s :: _ =>
      simp only [Validator.ensureSect8] at h
      split at h <;> simp at h
  · simp at h

theorem SubStream.loop_err_state (fuel : Nat) (st st' : SubStream) (s4 s5 s6 s7 : SectionInfo) (e : ParseError)
    (h : SubStream.loop fuel st s4 s5 s6 s7 = (.err e, st')) : st'.iter.state = .endOfStream := by
  induction fuel generalizing st s4 s5 s6 s7 with
  | zero => simp [SubStream.loop] at h
  | succ f ih =>
    rw [SubStream.loop] at h
    rcases hx : st.iter.next with ⟨o, v⟩
    rw [hx] at h
    rcases o with o | e' | _
    · cases o with
      | none => simp at h
      | some x =>
        simp only at h
        split at h
        all_goals first | exact ih _ _ _ _ _ h | simp at h
    · simp only [Prod.mk.injEq, Outcome.err.injEq] at h
      rw [← h.2]
      exact validator_err_ends hx
    · simp at h

theorem IdxStream.loop_err_state (fuel : Nat) (st st' : IdxStream) (s4 s5 s6 s7 : Nat) (e : ParseError)
    (h : IdxStream.loop fuel st s4 s5 s6 s7 = (.err e, st')) : st'.iter.state = .endOfStream := by
  induction fuel generalizing st s4 s5 s6 s7 with
  | zero => simp [IdxStream.loop] at h
  | succ f ih =>
    rw [IdxStream.loop] at h
    rcases hx : st.iter.next with ⟨o, v⟩
    rw [hx] at h
    rcases o with o | e' | _
    · cases o with
      | none => simp at h
      | some x =>
        simp only at h
        split at h
        all_goals first | exact ih _ _ _ _ _ h | simp at h
    · simp only [Prod.mk.injEq, Outcome.err.injEq] at h
      rw [← h.2]
      exact validator_err_ends hx
    · simp at h

/-- C15: after an error, the by-value stream and the index stream report their end, whatever the state in which the
error occurred, and stay there. -/
theorem C15_over_after_error :
    (∀ (s s' : SubStream) (e : ParseError), s.next = (.err e, s') → s'.next = (.ok none, s')) ∧
    (∀ (s s' : IdxStream) (e : ParseError), s.next = (.err e, s') → s'.next = (.ok none, s')) := by
  constructor
  · intro s s' e h
    have h1 := SubStream.loop_err_state _ _ _ _ _ _ _ _ h
    rw [SubStream.next, SubStream.loop, Validator.next, h1]
  · intro s s' e h
    have h1 := IdxStream.loop_err_state _ _ _ _ _ _ _ _ h
    rw [IdxStream.next, IdxStream.loop, Validator.next, h1]

/-- C15: the submessages of complete messages are reported identically whatever follows them (nothing, other
sections, an error, a panic). -/
theorem C15_prefix_unaffected (ms : List (Message SectionInfo)) (hm : ∀ m ∈ ms, m.Ok) (tail : List Item) :
    ((fileSubs (SectionInfo.new8 0) SectionInfo.default 0 ms).map .ok <+:
      subStreamItems ((ms.flatMap Message.sections).map .ok ++ tail)) ∧
    ((fileSubs 0 0 0 ((numberMessages 0 ms).map (Message.map Prod.fst))).map .ok <+:
      (idxStreamItems ((ms.flatMap Message.sections).map .ok ++ tail)).1) := by
  obtain ⟨rest, h1, -⟩ := pItems_messages ms hm tail
  constructor
  · have := fileSubs_map Prod.snd P.dummy8 P.default 0 (numberMessages 0 ms)
    rw [numberMessages_snd] at this
    rw [subStreamItems_eq, h1, List.map_append]
    refine ⟨rest.map (mapOut (Submsg.map Prod.snd)), ?_⟩
    rw [show fileSubs (SectionInfo.new8 0) SectionInfo.default 0 ms = _ from this, List.map_map, List.map_map]; rfl
  · rw [(idxStreamItems_eq _).1, h1, List.map_append]
    refine ⟨rest.map (mapOut (Submsg.map Prod.fst)), ?_⟩
    rw [show fileSubs 0 0 0 ((numberMessages 0 ms).map (Message.map Prod.fst)) = _ from
      fileSubs_map Prod.fst P.dummy8 P.default 0 (numberMessages 0 ms), List.map_map, List.map_map]; rfl

/-- C15: a read error of the section stream is never swallowed by the submessage streams: they report an error, too. -/
theorem C15_read_error_reported (items : List Item) (e : ParseError) (hp : ∀ x ∈ items, x ≠ .panic)
    (he : .err e ∈ items) : (∃ e', collectResult (subStreamItems items) = .err e') ∧
      (∃ e', collectResult (idxStreamItems items).1 = .err e') := by
  rw [subStreamItems_eq, (idxStreamItems_eq _).1, collectResult_map, collectResult_map]
  cases hc : collectResult (pItems items) with
  | ok ys =>
    exfalso
    obtain ⟨ms, h1, -, h3⟩ := messages_inv _ (Nat.le_refl _) ((collectResult_clean).1 ⟨ys, hc⟩)
    rw [h3] at he
    obtain ⟨y, -, hy⟩ := List.mem_map.1 he
    simp at hy
  | panic => exact absurd (collectResult_mem.2 hc) (pItems_noPanic hp)
  | err e' => exact ⟨⟨e', rfl⟩, ⟨e', rfl⟩⟩

/-- C15: after sections in order, the very error of the section stream is passed on; a section out of order is reported
whatever the section stream would have delivered later. -/
theorem C15_first_problem (sects : List SectionInfo) (e : ParseError) :
    (Viable sects → collectResult (subStreamItems (sects.map .ok ++ [.err e])) = .err e ∧
      collectResult (idxStreamItems (sects.map .ok ++ [.err e])).1 = .err e) ∧
    (¬ Viable sects → ∃ e', Offends sects e' ∧
      collectResult (subStreamItems (sects.map .ok ++ [.err e])) = .err e' ∧
      collectResult (idxStreamItems (sects.map .ok ++ [.err e])).1 = .err e') := by
  rw [subStreamItems_eq, (idxStreamItems_eq _).1, collectResult_map, collectResult_map]
  refine ⟨fun hv => ?_, fun hv => ?_⟩
  · rw [(pItems_viable hv).1 e]
    exact ⟨rfl, rfl⟩
  · obtain ⟨e', k, h1, h2⟩ := pItems_not_viable (tail := [.err e]) (by simp [NoOk]) hv
    rw [h1]
    exact ⟨e', Or.inl ⟨k, h2⟩, rfl, rfl⟩

/-- Both cases occur. -/
example : Viable [sec 0, sec 1] ∧ ¬ Viable [sec 1] := by
  refine ⟨viable_of_run (q := (.endOfSect 1, false)) rfl, fun h => ?_⟩
  obtain ⟨q, hq⟩ := run_of_viable h
  simp [nums, sec, run, delta, q0] at hq

/-! ## C16 -/

/-- An index item and a by-value item denote the same submessage of `items`. -/
def SameSub (items : List Item) (x : Submsg Nat) (v : Submsg SectionInfo) : Prop :=
  let At (i : Nat) (s : SectionInfo) : Prop := items[i]? = some (.ok s)
  x.msg = v.msg ∧ x.sub = v.sub ∧ At x.sects.s0 v.sects.s0 ∧ At x.sects.s1 v.sects.s1 ∧
    (x.sects.s2.isSome = v.sects.s2.isSome ∧ ∀ i s, x.sects.s2 = some i → v.sects.s2 = some s → At i s) ∧
    At x.sects.s3 v.sects.s3 ∧ At x.sects.s4 v.sects.s4 ∧ At x.sects.s5 v.sects.s5 ∧ At x.sects.s6 v.sects.s6 ∧
    At x.sects.s7 v.sects.s7 ∧
    (At x.sects.s8 v.sects.s8 ∨ (x.sects.s8 = 0 ∧ v.sects.s8 = SectionInfo.new8 0))

/-- C16: item by item, the two streams report the same errors and the same submessages. -/
theorem C16_streams_agree (items : List Item) :
    (subStreamItems items).length = (idxStreamItems items).1.length ∧
    ∀ k : Nat, match (idxStreamItems items).1[k]?, (subStreamItems items)[k]? with
      | some (.ok x), some (.ok v) => SameSub items x v
      | some (.err e), some (.err e') => e = e'
      | some .panic, some .panic => True
      | none, none => True
      | _, _ => False := by
  rw [subStreamItems_eq, (idxStreamItems_eq _).1]
  refine ⟨by simp, fun k => ?_⟩
  rw [List.getElem?_map, List.getElem?_map]
  cases hk : (pItems items)[k]? with
  | none => trivial
  | some y =>
    cases y with
    | err e => simp [mapOut]
    | panic => simp [mapOut]
    | ok p =>
      obtain ⟨h0, h1, h2, h3, h4, h5, h6, h7, h8⟩ := pItems_kind items p (List.mem_of_getElem? hk)
      simp only [Option.map_some, mapOut]
      refine ⟨rfl, rfl, h0.1, h1.1, ⟨by simp [Submsg.map, Nine.map], ?_⟩, h3.1, h4.1, h5.1, h6.1, h7.1, ?_⟩
      · intro i s hi hs
        simp only [Submsg.map, Nine.map, Option.map_eq_some_iff] at hi hs
        obtain ⟨q, hq, rfl⟩ := hi
        obtain ⟨q', hq', rfl⟩ := hs
        rw [hq] at hq'
        cases hq'
        exact (h2 q hq).1
      · rcases h8 with h8 | h8
        · exact Or.inl h8.1
        · right; simp only [Submsg.map, Nine.map, h8]; exact ⟨rfl, rfl⟩

/-- C16: the recorded list is a prefix of the input, and the whole input if no error is reported. -/
theorem C16_recorded (items : List Item) :
    ((idxStreamItems items).2.map .ok <+: items) ∧
    ((∃ subs, collectResult (idxStreamItems items).1 = .ok subs) → items = (idxStreamItems items).2.map .ok) := by
  obtain ⟨h1, ⟨k, h2⟩, h3⟩ := idxStreamItems_eq items
  refine ⟨h2 ▸ List.take_prefix k items, ?_⟩
  rintro ⟨subs, hs⟩
  apply h3
  rw [h1, collectResult_map] at hs
  rw [← collectResult_clean]
  cases hc : collectResult (pItems items) with
  | ok ys => exact ⟨ys, rfl⟩
  | err e => rw [hc] at hs; simp [mapOut] at hs
  | panic => rw [hc] at hs; simp [mapOut] at hs

end Grib.Props
