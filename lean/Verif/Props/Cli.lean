import Verif.Model.Cli
import Verif.Lemmas.Text
import Verif.Lemmas.Subtitle
import Verif.Props.Listing

/-! # C46, C52, C53: message indices and the `decode` command -/

namespace Grib.Cli

open Grib.Text Grib.Model Grib.Spec Grib.Props

/-! ## C46 -/

theorem noDigit_dot (s : Str) : NoDigitFirst ('.' :: s) := by
  rw [NoDigitFirst_iff]; intro c hc; cases hc; decide

/-- The captures of the regular expression are the two parts of the text. -/
theorem captures_iff (s a b : Str) :
    indexCaptures s = some (a, b) ↔
      s = a ++ '.' :: b ∧ a ≠ [] ∧ b ≠ [] ∧ a.all isDigit = true ∧ b.all isDigit = true := by
  constructor
  · intro h
    have htd := (List.takeWhile_append_dropWhile (p := isDigit) (l := s))
    unfold indexCaptures at h
    split at h
    · cases h
    · rename_i x xs rest h1 h2
      split at h
      · rename_i hc
        cases h
        refine ⟨?_, ?_, hc.1, takeWhile_all s, hc.2⟩
        · conv => lhs; rw [← htd, h2]
        · rw [h1]; simp
      · cases h
    · cases h
  · rintro ⟨rfl, ha, hb, had, hbd⟩
    obtain ⟨h1, h2⟩ := takeWhile_digits had (noDigit_dot b)
    unfold indexCaptures
    rw [h1, h2]
    cases a with
    | nil => exact absurd rfl ha
    | cons x xs => simp only [hb, hbd, ne_eq, not_false_eq_true, and_self, if_true]

/-- C46: the argument is accepted exactly when it is two decimal numbers below `2^64` separated by a full stop, and gives
these numbers. -/
theorem C46_accepts (s : Str) (n m : Nat) :
    parseIndex s = .ok (n, m) ↔
      ∃ a b, s = a ++ '.' :: b ∧ IsDecimal a n ∧ IsDecimal b m ∧ n < 2 ^ 64 ∧ m < 2 ^ 64 := by
  unfold parseIndex
  constructor
  · intro h
    cases hc : indexCaptures s with
    | none => rw [hc] at h; cases h
    | some p =>
      obtain ⟨a, b⟩ := p
      rw [hc] at h
      obtain ⟨h1, h2, h3, h4, h5⟩ := (captures_iff s a b).1 hc
      have ha : IsDecimal a (digits a) := (IsDecimal_iff _ _).2 ⟨h2, h4, rfl⟩
      have hb : IsDecimal b (digits b) := (IsDecimal_iff _ _).2 ⟨h3, h5, rfl⟩
      dsimp only at h
      rw [parseUnsigned_digits h4, parseUnsigned_digits h5] at h
      by_cases l1 : digits a < USIZE
      · by_cases l2 : digits b < USIZE
        · simp only [h2, h3, l1, l2, ne_eq, not_false_eq_true, and_self, if_true, Outcome.ofOption_some, Outcome.bind_ok,
            Outcome.ok.injEq, Prod.mk.injEq] at h
          obtain ⟨rfl, rfl⟩ := h
          exact ⟨a, b, h1, ha, hb, l1, l2⟩
        · simp only [h2, h3, l1, l2, ne_eq, not_false_eq_true, and_true, and_false, if_true, if_false, Outcome.ofOption_some,
            Outcome.bind_ok, Outcome.ofOption_none, Outcome.bind_panic] at h
          cases h
      · simp only [l1, and_false, if_false, Outcome.ofOption_none, Outcome.bind_panic] at h
        cases h
  · rintro ⟨a, b, rfl, ha, hb, hn, hm⟩
    obtain ⟨a1, a2, -⟩ := (IsDecimal_iff _ _).1 ha
    obtain ⟨b1, b2, -⟩ := (IsDecimal_iff _ _).1 hb
    rw [(captures_iff _ a b).2 ⟨rfl, a1, b1, a2, b2⟩]
    dsimp only
    rw [ha.parse (show n < USIZE from hn), hb.parse (show m < USIZE from hm)]
    rfl

/-- C46: the argument is refused with an error exactly when it does not have that form. -/
theorem C46_rejects (s : Str) :
    parseIndex s = .err () ↔ ¬ ∃ a b n m, s = a ++ '.' :: b ∧ IsDecimal a n ∧ IsDecimal b m := by
  unfold parseIndex
  constructor
  · rintro h ⟨a, b, n, m, rfl, ha, hb⟩
    obtain ⟨a1, a2, -⟩ := (IsDecimal_iff _ _).1 ha
    obtain ⟨b1, b2, -⟩ := (IsDecimal_iff _ _).1 hb
    rw [(captures_iff _ a b).2 ⟨rfl, a1, b1, a2, b2⟩] at h
    dsimp only at h
    cases h1 : parseUnsigned USIZE a <;> cases h2 : parseUnsigned USIZE b <;> rw [h1] at h <;> (try rw [h2] at h) <;> cases h
  · intro h
    cases hc : indexCaptures s with
    | none => rfl
    | some p =>
      obtain ⟨a, b⟩ := p
      obtain ⟨h1, h2, h3, h4, h5⟩ := (captures_iff s a b).1 hc
      exact absurd ⟨a, b, _, _, h1, (IsDecimal_iff _ _).2 ⟨h2, h4, rfl⟩, (IsDecimal_iff _ _).2 ⟨h3, h5, rfl⟩⟩ h

/-- C46, failure: a number of the right form that is too large makes the tool panic instead of reporting an error. -/
theorem C46_overflow_fails (a b : Str) (n m : Nat) (ha : IsDecimal a n) (hb : IsDecimal b m) (h : 2 ^ 64 ≤ n ∨ 2 ^ 64 ≤ m) :
    parseIndex (a ++ '.' :: b) = .panic := by
  cases hp : parseIndex (a ++ '.' :: b) with
  | panic => rfl
  | err e => exact absurd ⟨a, b, n, m, rfl, ha, hb⟩ ((C46_rejects _).1 hp)
  | ok p =>
    obtain ⟨n', m'⟩ := p
    obtain ⟨a', b', he, ha', hb', hn', hm'⟩ := (C46_accepts _ _ _).1 hp
    obtain ⟨a1, a2, -⟩ := (IsDecimal_iff _ _).1 ha
    obtain ⟨b1, b2, -⟩ := (IsDecimal_iff _ _).1 hb
    obtain ⟨a1', a2', -⟩ := (IsDecimal_iff _ _).1 ha'
    obtain ⟨b1', b2', -⟩ := (IsDecimal_iff _ _).1 hb'
    have h1 := (captures_iff _ a b).2 ⟨rfl, a1, b1, a2, b2⟩
    have h2 := (captures_iff _ a' b').2 ⟨he, a1', b1', a2', b2'⟩
    rw [h1] at h2
    cases h2
    have := ha.unique ha'
    have := hb.unique hb'
    omega

example : parseIndex "18446744073709551616.0".toList = .panic := by decide +kernel
example : parseIndex "18446744073709551615.0".toList = .ok (18446744073709551615, 0) := by decide +kernel
example : parseIndex "1.1".toList = .ok (1, 1) ∧ parseIndex "+1.1".toList = .err () ∧ parseIndex "1.1\n".toList = .err () ∧
    parseIndex "1.".toList = .err () := by decide +kernel

/-- C46: every index the tool prints parses back to itself. -/
theorem C46_round_trip (n m : Nat) (hn : n < 2 ^ 64) (hm : m < 2 ^ 64) : parseIndex (showIndex (n, m)) = .ok (n, m) :=
  (C46_accepts _ _ _).2 ⟨showNat n, showNat m, rfl, showNat_decimal n, showNat_decimal m, hn, hm⟩

/-- C46: two indices are printed alike only if they are equal. -/
theorem C46_distinct (i j : Nat × Nat) (h : showIndex i = showIndex j) : i = j := by
  have hc : ∀ i : Nat × Nat, indexCaptures (showIndex i) = some (showNat i.1, showNat i.2) := by
    intro i
    obtain ⟨a1, a2, -⟩ := (IsDecimal_iff _ _).1 (showNat_decimal i.1)
    obtain ⟨b1, b2, -⟩ := (IsDecimal_iff _ _).1 (showNat_decimal i.2)
    exact (captures_iff _ _ _).2 ⟨rfl, a1, b1, a2, b2⟩
  have := hc i
  rw [h, hc j] at this
  simp only [Option.some.injEq, Prod.mk.injEq] at this
  exact Prod.ext (showNat_inj this.1.symm) (showNat_inj this.2.symm)

theorem findIndex_drain (ix : Nat × Nat) (fuel : Nat) (it : SubIter) :
    findIndex ix fuel it = (SubIter.drain fuel it).find? (fun x => x.1 = ix) := by
  induction fuel generalizing it with
  | zero => rfl
  | succ fuel ih =>
    unfold findIndex SubIter.drain
    rcases hn : it.next false with ⟨o, it'⟩
    match o with
    | .ok (some x) =>
      dsimp only
      rw [List.find?_cons, ih]
      by_cases hx : x.1 = ix <;> simp [hx]
    | .ok none => rfl
    | .panic => rfl

/-- C46: on opened data, looking for the index of a listed submessage finds that very submessage, and looking for an index
that is not listed finds nothing. -/
theorem C46_selects (r : Rdr) (g : Grib2) (h : Grib2.read r = .ok g) (ix : Nat × Nat) (m : SubMessage) :
    findIndex ix (g.len + 1) g.iter = some (ix, m) ↔ (ix, m) ∈ SubIter.drain (g.len + 1) g.iter := by
  rw [findIndex_drain]
  constructor
  · intro hf; exact List.mem_of_find?_eq_some hf
  · intro hm
    have hp := (C18_loop r g h).2.1
    generalize SubIter.drain (g.len + 1) g.iter = l at hm hp
    induction l with
    | nil => cases hm
    | cons x l ih =>
      rw [List.map_cons, List.pairwise_cons] at hp
      rw [List.find?_cons]
      rcases List.mem_cons.1 hm with rfl | hm
      · simp
      · have hlt := hp.1 ix (List.mem_map.2 ⟨_, hm, rfl⟩)
        have : x.1 ≠ ix := by rintro rfl; unfold LexLt at hlt; omega
        simp only [this, decide_false]
        exact ih hm hp.2

theorem C46_absent (r : Rdr) (g : Grib2) (_h : Grib2.read r = .ok g) (ix : Nat × Nat) :
    findIndex ix (g.len + 1) g.iter = none ↔ ∀ x ∈ SubIter.drain (g.len + 1) g.iter, x.1 ≠ ix := by
  rw [findIndex_drain, List.find?_eq_none]
  simp

/-! ## C52: flat binary export -/

theorem sink_write_cases (s : Sink) (buf : List UInt8) (hb : buf ≠ []) :
    (∃ k s', s.write buf = (.ok k, s') ∧ 0 < k ∧ k ≤ buf.length ∧ s'.written = s.written ++ buf.take k ∧
      s'.sched = s.sched.tail) ∨
    (∃ s', s.write buf = (.err (), s') ∧ s'.written = s.written ∧ s'.sched = s.sched.tail ∧
      (s.sched.head? = some none ∨ s.sched.head? = some (some 0))) := by
  have hl : 0 < buf.length := List.length_pos_iff.2 hb
  obtain ⟨w, sched⟩ := s
  match sched with
  | [] => exact Or.inl ⟨_, _, rfl, hl, Nat.le_refl _, by simp, rfl⟩
  | none :: rest => exact Or.inr ⟨_, rfl, rfl, rfl, Or.inl rfl⟩
  | some 0 :: rest => exact Or.inr ⟨_, rfl, rfl, rfl, Or.inr rfl⟩
  | some (n + 1) :: rest =>
    exact Or.inl ⟨min (n + 1) buf.length, _, rfl, by omega, Nat.min_le_right _ _, rfl, rfl⟩

/-- A schedule without failures. -/
def Benign (sched : List (Option Nat)) : Prop := ∀ x ∈ sched, ∃ n, x = some (n + 1)

theorem flushBuf_spec (fuel : Nat) (w : BufWriter) :
    (flushBuf fuel w).2.sink.written ++ (flushBuf fuel w).2.buf = w.sink.written ++ w.buf ∧
    (w.buf.length < fuel → (flushBuf fuel w).1 = .ok () → (flushBuf fuel w).2.buf = []) ∧
    (Benign w.sink.sched → (flushBuf fuel w).1 = .ok () ∧ Benign (flushBuf fuel w).2.sink.sched) ∧
    (flushBuf fuel w).1 ≠ .panic := by
  induction fuel generalizing w with
  | zero => exact ⟨rfl, by omega, fun h => ⟨rfl, h⟩, by simp [flushBuf]⟩
  | succ fuel ih =>
    unfold flushBuf
    by_cases hb : w.buf = []
    · rw [if_pos hb]
      exact ⟨rfl, fun _ _ => hb, fun h => ⟨rfl, h⟩, by simp⟩
    · rw [if_neg hb]
      rcases sink_write_cases w.sink w.buf hb with ⟨k, s', h1, h2, h3, h4, h5⟩ | ⟨s', h1, h2, h3, h4⟩
      · rw [h1]
        dsimp only
        obtain ⟨i1, i2, i3, i4⟩ := ih ⟨w.buf.drop k, s'⟩
        refine ⟨?_, ?_, ?_, i4⟩
        · rw [i1]; simp only [h4, List.append_assoc, List.take_append_drop]
        · intro hf; apply i2; simp only [List.length_drop]; omega
        · intro hbn; apply i3
          intro x hx; rw [h5] at hx; exact hbn x (List.mem_of_mem_tail hx)
      · rw [h1]
        dsimp only
        refine ⟨by rw [h2], (fun _ h => by cases h), ?_, by simp⟩
        intro hbn
        exfalso
        rcases h4 with h4 | h4
        · obtain ⟨n, hn⟩ := hbn _ (List.mem_of_head? h4); cases hn
        · obtain ⟨n, hn⟩ := hbn _ (List.mem_of_head? h4); cases hn

theorem writeAll_spec (w : BufWriter) (d : List UInt8) :
    ((w.writeAll d).1 = .ok () →
      (w.writeAll d).2.sink.written ++ (w.writeAll d).2.buf = w.sink.written ++ w.buf ++ d) ∧
    ((w.writeAll d).1 ≠ .ok () →
      (w.writeAll d).2.sink.written ++ (w.writeAll d).2.buf = w.sink.written ++ w.buf) ∧
    (Benign w.sink.sched → (w.writeAll d).1 = .ok () ∧ Benign (w.writeAll d).2.sink.sched) ∧
    (w.writeAll d).1 ≠ .panic ∧
    (w.buf.length ≤ bufCapacity → d.length ≤ bufCapacity → (w.writeAll d).1 = .ok () →
      (w.writeAll d).2.buf.length ≤ bufCapacity) := by
  unfold BufWriter.writeAll
  dsimp only
  split
  · refine ⟨by simp, by simp, fun h => ⟨rfl, h⟩, by simp, ?_⟩
    intro _ _ _; simp only [List.length_append]; omega
  · split
    · obtain ⟨f1, f2, f3, f4⟩ := flushBuf_spec (w.buf.length + 1) w
      have hfl : w.flush = flushBuf (w.buf.length + 1) w := rfl
      rw [hfl]
      rcases hr : flushBuf (w.buf.length + 1) w with ⟨o, w'⟩
      rw [hr] at f1 f2 f3 f4
      cases o with
      | ok u =>
        dsimp only at *
        have := f2 (by omega) rfl
        refine ⟨?_, by simp, fun h => ⟨rfl, (f3 h).2⟩, by simp, ?_⟩
        · intro _; rw [← List.append_assoc, f1]
        · intro _ hd _; rw [this]; simpa using hd
      | err e =>
        dsimp only at *
        exact ⟨fun h => by (cases h), fun _ => f1, fun h => absurd (f3 h).1 (by simp), by simp, fun _ _ h => by cases h⟩
      | panic => exact absurd rfl f4
    · refine ⟨by simp, by simp, fun h => ⟨rfl, h⟩, by simp, ?_⟩
      intro _ _ _; simp only [List.length_append]; omega

theorem writeEach_spec (ds : List (List UInt8)) (w : BufWriter) :
    (∃ n, (writeEach ds w).2.sink.written ++ (writeEach ds w).2.buf = w.sink.written ++ w.buf ++ (ds.take n).flatten ∧
      ((writeEach ds w).1 = .ok () → n = ds.length)) ∧
    (Benign w.sink.sched → (writeEach ds w).1 = .ok () ∧ Benign (writeEach ds w).2.sink.sched) ∧
    (writeEach ds w).1 ≠ .panic ∧
    (w.buf.length ≤ bufCapacity → (∀ d ∈ ds, d.length ≤ bufCapacity) → (writeEach ds w).1 = .ok () →
      (writeEach ds w).2.buf.length ≤ bufCapacity) := by
  induction ds generalizing w with
  | nil => exact ⟨⟨0, by simp [writeEach]⟩, fun h => ⟨rfl, h⟩, by simp [writeEach], fun h _ _ => h⟩
  | cons d ds ih =>
    obtain ⟨a1, a2, a3, a4, a5⟩ := writeAll_spec w d
    unfold writeEach
    rcases hr : w.writeAll d with ⟨o, w'⟩
    rw [hr] at a1 a2 a3 a4 a5
    cases o with
    | ok u =>
      dsimp only at *
      obtain ⟨⟨n, i1, i1'⟩, i2, i3, i4⟩ := ih w'
      refine ⟨⟨n + 1, ?_, ?_⟩, fun h => i2 (a3 h).2, i3, ?_⟩
      · rw [i1, a1 rfl, List.take_succ_cons, List.flatten_cons, List.append_assoc]
      · intro h; rw [i1' h]; rfl
      · intro h1 h2 h3
        exact i4 (a5 h1 (h2 _ (List.mem_cons_self)) rfl) (fun d hd => h2 d (List.mem_cons_of_mem _ hd)) h3
    | err e =>
      dsimp only at *
      refine ⟨⟨0, ?_, by simp⟩, fun h => absurd (a3 h).1 (by simp), by simp, fun _ _ h => by cases h⟩
      rw [a2 (by simp)]; simp
    | panic => exact absurd rfl a4

/-- C52: whatever the file system does, the file holds a prefix of the octets of the values in order (no reordering, no
gaps, no garbage), and the export does not panic. -/
theorem C52_prefix (sched : List (Option Nat)) (values : List (List UInt8)) :
    (writeOutput sched values).2 <+: values.flatten ∧ (writeOutput sched values).1 ≠ .panic := by
  unfold writeOutput
  obtain ⟨⟨n, h1, -⟩, -, h3, -⟩ := writeEach_spec values ⟨[], ⟨[], sched⟩⟩
  rcases hr : writeEach values ⟨[], ⟨[], sched⟩⟩ with ⟨o, w⟩
  rw [hr] at h1 h3
  obtain ⟨f1, -, -, -⟩ := flushBuf_spec (w.buf.length + 1) w
  refine ⟨?_, h3⟩
  dsimp only at *
  have e : w.drop.written ++ (flushBuf (w.buf.length + 1) w).2.buf = (values.take n).flatten := by
    have : w.drop.written = (flushBuf (w.buf.length + 1) w).2.sink.written := rfl
    rw [this, f1, h1]; rfl
  refine List.IsPrefix.trans ⟨_, e⟩ ?_
  conv => rhs; rw [← List.take_append_drop n values, List.flatten_append]
  exact List.prefix_append _ _

/-- C52: if no write fails (however little each one accepts), success is reported and the file holds exactly the octets of
all values. -/
theorem C52_complete (sched : List (Option Nat)) (h : Benign sched) (values : List (List UInt8)) :
    writeOutput sched values = (.ok (), values.flatten) := by
  unfold writeOutput
  obtain ⟨⟨n, h1, h1'⟩, h2, h3, -⟩ := writeEach_spec values ⟨[], ⟨[], sched⟩⟩
  rcases hr : writeEach values ⟨[], ⟨[], sched⟩⟩ with ⟨o, w⟩
  rw [hr] at h1 h1' h2 h3
  obtain ⟨hok, hben⟩ := h2 h
  dsimp only at hok hben h1 h1'
  subst hok
  obtain ⟨f1, f2, f3, -⟩ := flushBuf_spec (w.buf.length + 1) w
  have hb := f2 (by omega) (f3 hben).1
  have e : w.drop.written = values.flatten := by
    have : w.drop.written = (flushBuf (w.buf.length + 1) w).2.sink.written := rfl
    rw [hb, List.append_nil] at f1
    rw [this, f1, h1, h1' rfl, List.take_length]; rfl
  dsimp only
  rw [e]

/-- C52: when success is reported, at most the last 8192 octets are missing from the file. -/
theorem C52_success_partial (sched : List (Option Nat)) (values : List (List UInt8)) (h4 : ∀ d ∈ values, d.length = 4)
    (h : (writeOutput sched values).1 = .ok ()) : 4 * values.length ≤ (writeOutput sched values).2.length + 8192 := by
  unfold writeOutput at h ⊢
  obtain ⟨⟨n, h1, h1'⟩, -, -, hcap⟩ := writeEach_spec values ⟨[], ⟨[], sched⟩⟩
  rcases hr : writeEach values ⟨[], ⟨[], sched⟩⟩ with ⟨o, w⟩
  rw [hr] at h h1 h1' hcap
  dsimp only at h h1 h1' hcap
  have hn := h1' h
  have hc := hcap (by simp) (fun d hd => by rw [h4 d hd]; decide) h
  subst hn
  rw [List.take_length] at h1
  have hlen : ∀ vs : List (List UInt8), (∀ d ∈ vs, d.length = 4) → vs.flatten.length = 4 * vs.length := by
    intro vs hv
    induction vs with
    | nil => rfl
    | cons v vs ih =>
      rw [List.flatten_cons, List.length_append, ih (fun d hd => hv d (List.mem_cons_of_mem _ hd)), hv v List.mem_cons_self,
        List.length_cons]; omega
  have h1l := congrArg List.length h1
  have hd : w.sink.written.length ≤ w.drop.written.length := by
    have mono : ∀ fuel w, (w : BufWriter).sink.written.length ≤ (flushBuf fuel w).2.sink.written.length := by
      intro fuel
      induction fuel with
      | zero => intro w; exact Nat.le_refl _
      | succ fuel ih =>
        intro w
        unfold flushBuf
        by_cases hb : w.buf = []
        · simp only [hb, if_true]; exact Nat.le_refl _
        · simp only [hb, if_false]
          rcases sink_write_cases w.sink w.buf hb with ⟨k, s', e1, e2, e3, e4, e5⟩ | ⟨s', e1, e2, e3, e4⟩
          · rw [e1]; dsimp only
            have := ih ⟨w.buf.drop k, s'⟩
            rw [e4, List.length_append] at this; omega
          · rw [e1]; dsimp only; rw [e2]; exact Nat.le_refl _
    exact mono _ _
  simp only [List.length_append, List.length_nil, Nat.zero_add] at h1l
  rw [hlen values h4] at h1l
  unfold bufCapacity at hc
  dsimp only
  omega

/-- C52, failure: success is reported although nothing reached the file, because the only write, made when the buffer is
dropped, failed. -/
theorem C52_silent_loss_fails (v : List UInt8) (h : v.length = 4) : writeOutput [none] [v] = (.ok (), []) := by
  obtain ⟨a, b, c, d, rfl⟩ : ∃ a b c d, v = [a, b, c, d] := by
    match v, h with
    | [a, b, c, d], _ => exact ⟨a, b, c, d, rfl⟩
  unfold writeOutput writeEach BufWriter.writeAll
  simp [bufCapacity, writeEach, BufWriter.drop, BufWriter.flush, flushBuf, Sink.write]

/-- The hypotheses of the export theorems are met: a disk that accepts 3 octets, then one octet, then everything. -/
example : Benign [some 3, some 1] ∧ writeOutput [some 3, some 1] [[1, 2, 3, 4], [5, 6, 7, 8]] = (.ok (), [1, 2, 3, 4, 5, 6, 7, 8]) := by
  have h : Benign [some 3, some 1] := by
    intro x hx
    rcases List.mem_cons.1 hx with rfl | hx
    · exact ⟨2, rfl⟩
    · rcases List.mem_cons.1 hx with rfl | hx
      · exact ⟨0, rfl⟩
      · cases hx
  exact ⟨h, C52_complete _ h _⟩

/-- C52: the big-endian octets of a value are its 32 bits, most significant first; the little-endian ones are the same
reversed. -/
theorem C52_octets (bits : BitVec 32) :
    (toBeBytes bits).length = 4 ∧ be (toBeBytes bits) = bits.toNat ∧ toLeBytes bits = (toBeBytes bits).reverse := by
  refine ⟨rfl, ?_, rfl⟩
  have := bits.isLt
  simp only [toBeBytes, be, List.map_cons, List.map_nil, List.foldl_cons, List.foldl_nil, UInt8.toNat_ofNat']
  simp only [Nat.shiftRight_eq_div_pow]
  omega

end Grib.Cli
