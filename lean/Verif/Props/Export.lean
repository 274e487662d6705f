import Verif.Props.DecodeCmd
import Verif.Spec.Export

/-! # C73: what the flat binary export does with every file that refuses, shortens or fails writes -/

namespace Grib.Cli

open Grib.Text Grib.Model Grib.Spec Grib.Props

theorem pour_le (sched : List (Option Nat)) (n : Nat) : (pour sched n).1 ≤ n := by
  induction sched generalizing n with
  | nil => cases n <;> simp [pour]
  | cons x sched ih =>
    cases n with
    | zero => simp [pour]
    | succ n =>
      match x with
      | none => simp [pour]
      | some 0 => simp [pour]
      | some (k + 1) =>
        simp only [pour]
        have := ih (n - k)
        omega

theorem pour_all {sched : List (Option Nat)} {n : Nat} (h : (pour sched n).2.1 = true) : (pour sched n).1 = n := by
  induction sched generalizing n with
  | nil => cases n <;> simp [pour]
  | cons x sched ih =>
    cases n with
    | zero => simp [pour]
    | succ n =>
      match x with
      | none => simp [pour] at h
      | some 0 => simp [pour] at h
      | some (k + 1) =>
        simp only [pour] at h ⊢
        rw [ih h]
        omega

theorem pour_not_all {sched : List (Option Nat)} {n : Nat} (h : (pour sched n).2.1 = false) : (pour sched n).1 < n := by
  induction sched generalizing n with
  | nil => cases n <;> simp [pour] at h
  | cons x sched ih =>
    cases n with
    | zero => simp [pour] at h
    | succ n =>
      match x with
      | none => simp [pour]
      | some 0 => simp [pour]
      | some (k + 1) =>
        simp only [pour] at h ⊢
        have := ih h
        omega

/-- Success or failure of a write. -/
def okIf (b : Bool) : Outcome Unit Unit := if b then .ok () else .err ()

theorem flushBuf_pour (sched : List (Option Nat)) (fuel : Nat) (buf written : List UInt8) (hf : buf.length < fuel) :
    flushBuf fuel ⟨buf, ⟨written, sched⟩⟩ =
      (okIf (pour sched buf.length).2.1, ⟨buf.drop (pour sched buf.length).1,
        ⟨written ++ buf.take (pour sched buf.length).1, (pour sched buf.length).2.2⟩⟩) := by
  induction sched generalizing fuel buf written with
  | nil =>
    cases fuel with
    | zero => omega
    | succ fuel =>
      cases buf with
      | nil => simp [flushBuf, pour, okIf]
      | cons a buf =>
        cases fuel with
        | zero => simp at hf
        | succ fuel => simp [flushBuf, Sink.write, pour, okIf]
  | cons x sched ih =>
    cases fuel with
    | zero => omega
    | succ fuel =>
      cases buf with
      | nil => simp [flushBuf, pour, okIf]
      | cons a buf =>
        match x with
        | none => simp [flushBuf, Sink.write, pour, okIf]
        | some 0 => simp [flushBuf, Sink.write, pour, okIf]
        | some (k + 1) =>
          unfold flushBuf
          rw [if_neg (by simp)]
          simp only [Sink.write]
          have hd : ((a :: buf).drop (min (k + 1) (a :: buf).length)).length = buf.length - k := by
            simp only [List.length_drop, List.length_cons]; omega
          rw [ih fuel _ _ (by rw [hd]; simp only [List.length_cons] at hf; omega), hd]
          simp only [List.length_cons, pour]
          refine Prod.ext rfl ?_
          simp only [List.drop_drop, List.append_assoc]
          rw [List.take_add]

theorem writeEach_small (ds : List (List UInt8)) (w : BufWriter) (h : w.buf.length + ds.flatten.length ≤ bufCapacity) :
    writeEach ds w = (.ok (), { w with buf := w.buf ++ ds.flatten }) := by
  induction ds generalizing w with
  | nil => simp [writeEach]
  | cons d ds ih =>
    rw [List.flatten_cons, List.length_append] at h
    have hw : w.writeAll d = (.ok (), { w with buf := w.buf ++ d }) := by
      unfold BufWriter.writeAll
      dsimp only
      by_cases h1 : d.length < bufCapacity - w.buf.length
      · rw [if_pos h1]
      · rw [if_neg h1, if_neg (by omega)]
    unfold writeEach
    rw [hw]
    dsimp only
    rw [ih _ (by simp only [List.length_append]; omega)]
    simp only [List.flatten_cons, List.append_assoc]

theorem writeEach_append (a b : List (List UInt8)) (w w' : BufWriter) (h : writeEach a w = (.ok (), w')) :
    writeEach (a ++ b) w = writeEach b w' := by
  induction a generalizing w with
  | nil => simp only [writeEach, Prod.mk.injEq, true_and] at h; rw [h]; rfl
  | cons d a ih =>
    rw [List.cons_append]
    unfold writeEach at h
    rw [show writeEach (d :: (a ++ b)) w = match w.writeAll d with
      | (.ok (), w) => writeEach (a ++ b) w
      | (.err e, w) => (.err e, w)
      | (.panic, w) => (.panic, w) from rfl]
    rcases hr : w.writeAll d with ⟨o, w1⟩
    rw [hr] at h
    cases o with
    | ok u => exact ih _ h
    | err e => cases h
    | panic => cases h

/-- A full buffer is flushed when the next value comes. -/
theorem writeEach_full (d : List UInt8) (ds : List (List UInt8)) (hd0 : 0 < d.length) (hd : d.length < bufCapacity)
    (w : BufWriter) (hw : w.buf.length = bufCapacity) :
    writeEach (d :: ds) w =
      match w.flush with
      | (.ok (), w') => writeEach (d :: ds) w'
      | (.err e, w') => (.err e, w')
      | (.panic, w') => (.panic, w') := by
  have hfl : w.flush = _ := flushBuf_pour w.sink.sched (w.buf.length + 1) w.buf w.sink.written (by omega)
  have h1 : w.writeAll d = match w.flush with
    | (.ok (), w) => (.ok (), { w with buf := w.buf ++ d })
    | (.err e, w) => (.err e, w)
    | (.panic, w) => (.panic, w) := by
    unfold BufWriter.writeAll
    dsimp only
    rw [if_neg (by omega), if_pos (by omega)]
    rfl
  conv => lhs; unfold writeEach; rw [h1]
  rw [hfl]
  cases hok : (pour w.sink.sched w.buf.length).2.1 with
  | false => rfl
  | true =>
    simp only [okIf, if_true]
    rw [pour_all hok, List.drop_length]
    conv => rhs; unfold writeEach
    simp only [BufWriter.writeAll, List.length_nil, Nat.sub_zero, if_pos hd]

theorem drop_written (buf written : List UInt8) (sched : List (Option Nat)) :
    (BufWriter.mk buf ⟨written, sched⟩).drop.written = written ++ buf.take (pour sched buf.length).1 := by
  have hfl : (BufWriter.mk buf ⟨written, sched⟩).flush = _ :=
    flushBuf_pour sched (buf.length + 1) buf written (by omega)
  rw [BufWriter.drop, hfl]

theorem flatten_length4 (vs : List (List UInt8)) (hv : ∀ d ∈ vs, d.length = 4) : vs.flatten.length = 4 * vs.length := by
  induction vs with
  | nil => rfl
  | cons v vs ih =>
    rw [List.flatten_cons, List.length_append, ih (fun d hd => hv d (List.mem_cons_of_mem _ hd)), hv v List.mem_cons_self,
      List.length_cons]; omega

theorem export_from (b : Nat) : ∀ (last : Nat) (sched : List (Option Nat)) (written : List UInt8) (values : List (List UInt8)),
    (∀ d ∈ values, d.length = 4) → 4 * values.length = 8192 * b + last → last ≤ 8192 → (b ≠ 0 → 0 < last) →
    ((writeEach values ⟨[], ⟨written, sched⟩⟩).1, (writeEach values ⟨[], ⟨written, sched⟩⟩).2.drop.written) =
      (okIf (exportOctets b last sched).1, written ++ values.flatten.take (exportOctets b last sched).2) := by
  induction b with
  | zero =>
    intro last sched written values h4 hl hle _
    have hfl := flatten_length4 values h4
    rw [writeEach_small values _ (by simp only [List.length_nil, bufCapacity]; omega)]
    simp only [List.nil_append, drop_written, exportOctets, okIf, if_true]
    rw [show values.flatten.length = last by omega]
  | succ b ih =>
    intro last sched written values h4 hl hle hpos
    have hfl := flatten_length4 values h4
    have hpos := hpos (by omega)
    -- the first 2048 values fill the buffer
    have h41 : ∀ d ∈ values.take 2048, d.length = 4 := fun d hd => h4 d (List.mem_of_mem_take hd)
    have h42 : ∀ d ∈ values.drop 2048, d.length = 4 := fun d hd => h4 d (List.mem_of_mem_drop hd)
    have hl1 : (values.take 2048).flatten.length = 8192 := by
      rw [flatten_length4 _ h41, List.length_take]; omega
    have hsplit : values.flatten = (values.take 2048).flatten ++ (values.drop 2048).flatten := by
      rw [← List.flatten_append, List.take_append_drop]
    have hfill := writeEach_small (values.take 2048) ⟨[], ⟨written, sched⟩⟩
      (by simp only [List.length_nil, bufCapacity]; omega)
    obtain ⟨d, ds, hds⟩ : ∃ d ds, values.drop 2048 = d :: ds := by
      cases hdrop : values.drop 2048 with
      | nil =>
        have := congrArg List.length hdrop
        simp only [List.length_drop, List.length_nil] at this
        omega
      | cons d ds => exact ⟨d, ds, rfl⟩
    have hdl : d.length = 4 := h42 d (by rw [hds]; exact List.mem_cons_self)
    rw [show writeEach values ⟨[], ⟨written, sched⟩⟩ =
        writeEach (values.take 2048 ++ values.drop 2048) ⟨[], ⟨written, sched⟩⟩ by rw [List.take_append_drop],
      writeEach_append _ _ _ _ hfill, hds, writeEach_full d ds (by omega) (by rw [hdl]; decide) _
        (by simp only [List.nil_append]; exact hl1)]
    simp only [List.nil_append]
    have hflush : (BufWriter.mk (values.take 2048).flatten ⟨written, sched⟩).flush = _ :=
      flushBuf_pour sched ((values.take 2048).flatten.length + 1) _ written (by omega)
    rw [hflush, hl1]
    simp only [exportOctets]
    rcases hp : pour sched 8192 with ⟨k, ok, rest⟩
    cases ok with
    | true =>
      have hk : k = 8192 := by have := pour_all (sched := sched) (n := 8192) (by rw [hp]); rw [hp] at this; exact this
      subst hk
      simp only [okIf, if_true]
      rw [List.drop_of_length_le (by omega), List.take_of_length_le (by omega)]
      have := ih last rest (written ++ (values.take 2048).flatten) (values.drop 2048) h42
        (by rw [List.length_drop]; omega) hle (fun _ => hpos)
      rw [hds] at this
      rw [this, hsplit, hds]
      simp only [okIf, List.append_assoc]
      rw [List.take_append, hl1, List.take_of_length_le (l := (values.take 2048).flatten) (by omega),
        show 8192 + (exportOctets b last rest).2 - 8192 = (exportOctets b last rest).2 by omega]
    | false =>
      have hk : k < 8192 := by have := pour_not_all (sched := sched) (n := 8192) (by rw [hp]); rw [hp] at this; exact this
      simp only [okIf, Bool.false_eq_true, if_false, drop_written, List.length_drop, hl1]
      have hle2 := pour_le rest (8192 - k)
      rw [hsplit, List.take_append_of_le_length (by omega), List.append_assoc, ← List.take_add]

/-- C73: exactly what is reported and what is in the file afterwards, for every file behaviour.  The octets go out in blocks of
8192; the file ends up with the first `k` octets, and success is reported or not, as specified by `exportOctets`. -/
theorem C73_export (sched : List (Option Nat)) (values : List (List UInt8)) (h4 : ∀ d ∈ values, d.length = 4) (b last : Nat)
    (hl : 4 * values.length = 8192 * b + last) (hle : last ≤ 8192) (hpos : b ≠ 0 → 0 < last) :
    writeOutput sched values =
      (if (exportOctets b last sched).1 then .ok () else .err (), values.flatten.take (exportOctets b last sched).2) := by
  have := export_from b last sched [] values h4 hl hle hpos
  rw [List.nil_append] at this
  exact this

/-- Every number of values has such a division into blocks. -/
theorem blocks_exist (n : Nat) : ∃ b last, 4 * n = 8192 * b + last ∧ last ≤ 8192 ∧ (b ≠ 0 → 0 < last) := by
  by_cases h : n = 0
  · exact ⟨0, 0, by omega, by omega, by omega⟩
  · exact ⟨(4 * n - 1) / 8192, (4 * n - 1) % 8192 + 1, by omega, by omega, by omega⟩

/-- Handing over `b` full blocks one after the other, each of them completely: the reactions left, if no request fails. -/
def pourBlocks : Nat → List (Option Nat) → Option (List (Option Nat))
  | 0, sched => some sched
  | b + 1, sched => if (pour sched 8192).2.1 then pourBlocks b (pour sched 8192).2.2 else none

theorem exportOctets_success (b last : Nat) (sched : List (Option Nat)) :
    (∀ rest, pourBlocks b sched = some rest → exportOctets b last sched = (true, 8192 * b + (pour rest last).1)) ∧
    (pourBlocks b sched = none → (exportOctets b last sched).1 = false ∧ (exportOctets b last sched).2 ≤ 8192 * b) := by
  induction b generalizing sched with
  | zero => simp [pourBlocks, exportOctets]
  | succ b ih =>
    simp only [pourBlocks, exportOctets]
    rcases hp : pour sched 8192 with ⟨k, ok, r⟩
    cases ok with
    | true =>
      simp only [if_true]
      obtain ⟨i1, i2⟩ := ih r
      refine ⟨fun rest hr => ?_, fun hn => ?_⟩
      · rw [i1 rest hr]; simp only [Prod.mk.injEq, true_and]; omega
      · obtain ⟨j1, j2⟩ := i2 hn; exact ⟨j1, by omega⟩
    | false =>
      simp only [Bool.false_eq_true, if_false]
      refine ⟨(fun _ h => by cases h), fun _ => ⟨trivial, ?_⟩⟩
      have h1 := pour_le sched 8192
      rw [hp] at h1
      have h2 := pour_le r (8192 - k)
      dsimp only at h1
      omega

/-- C73: success is reported exactly if all blocks but the last were taken without a failure; then the file holds all of them
and as much of the last one as the file accepted. -/
theorem C73_success_iff (sched : List (Option Nat)) (values : List (List UInt8)) (h4 : ∀ d ∈ values, d.length = 4) (b last : Nat)
    (hl : 4 * values.length = 8192 * b + last) (hle : last ≤ 8192) (hpos : b ≠ 0 → 0 < last) :
    ((writeOutput sched values).1 = .ok () ↔ ∃ rest, pourBlocks b sched = some rest) ∧
    (∀ rest, pourBlocks b sched = some rest →
      writeOutput sched values = (.ok (), values.flatten.take (8192 * b + (pour rest last).1)) ∧
      ((writeOutput sched values).2 = values.flatten ↔ (pour rest last).2.1 = true)) ∧
    (pourBlocks b sched = none → (writeOutput sched values).1 = .err () ∧ (writeOutput sched values).2.length ≤ 8192 * b) := by
  have hfl := flatten_length4 values h4
  obtain ⟨s1, s2⟩ := exportOctets_success b last sched
  have key := C73_export sched values h4 b last hl hle hpos
  have hsome : ∀ rest, pourBlocks b sched = some rest →
      writeOutput sched values = (.ok (), values.flatten.take (8192 * b + (pour rest last).1)) := by
    intro rest hr
    rw [key, s1 rest hr]; rfl
  have hnone : pourBlocks b sched = none → (writeOutput sched values).1 = .err () ∧
      (writeOutput sched values).2.length ≤ 8192 * b := by
    intro hn
    obtain ⟨a1, a2⟩ := s2 hn
    rw [key, a1]
    refine ⟨rfl, ?_⟩
    simp only [List.length_take]; omega
  refine ⟨⟨fun h => ?_, fun ⟨rest, hr⟩ => by rw [hsome rest hr]⟩, fun rest hr => ⟨hsome rest hr, ?_⟩, hnone⟩
  · cases hp : pourBlocks b sched with
    | some rest => exact ⟨rest, rfl⟩
    | none => rw [(hnone hp).1] at h; cases h
  · rw [hsome rest hr]
    dsimp only
    cases hok : (pour rest last).2.1 with
    | true =>
      rw [pour_all hok, List.take_of_length_le (by omega)]; simp
    | false =>
      have := pour_not_all hok
      constructor
      · intro h
        have := congrArg List.length h
        rw [List.length_take] at this
        omega
      · intro h; cases h

/-- C73: success is reported with an incomplete file exactly if a request of the last block failed: the last block is then cut
short, everything before it is there. -/
theorem C73_silent_loss_iff (sched : List (Option Nat)) (values : List (List UInt8)) (h4 : ∀ d ∈ values, d.length = 4)
    (b last : Nat) (hl : 4 * values.length = 8192 * b + last) (hle : last ≤ 8192) (hpos : b ≠ 0 → 0 < last) :
    ((writeOutput sched values).1 = .ok () ∧ (writeOutput sched values).2 ≠ values.flatten) ↔
      ∃ rest, pourBlocks b sched = some rest ∧ (pour rest last).2.1 = false := by
  obtain ⟨h1, h2, -⟩ := C73_success_iff sched values h4 b last hl hle hpos
  constructor
  · rintro ⟨ho, hne⟩
    obtain ⟨rest, hr⟩ := h1.1 ho
    refine ⟨rest, hr, ?_⟩
    cases hok : (pour rest last).2.1 with
    | false => rfl
    | true => exact absurd ((h2 rest hr).2.2 hok) hne
  · rintro ⟨rest, hr, hf⟩
    exact ⟨h1.2 ⟨rest, hr⟩, fun he => by rw [(h2 rest hr).2.1 he] at hf; cases hf⟩

/-- C73: no more than 2048 values: success is always reported, whatever the file does. -/
theorem C73_small_always_succeeds (sched : List (Option Nat)) (values : List (List UInt8)) (h4 : ∀ d ∈ values, d.length = 4)
    (hs : values.length ≤ 2048) :
    writeOutput sched values = (.ok (), values.flatten.take (pour sched (4 * values.length)).1) := by
  have := ((C73_success_iff sched values h4 0 (4 * values.length) (by omega) (by omega) (by simp)).2.1 sched rfl).1
  simpa using this

/-- A full disk: nothing is accepted any more after three octets. -/
example : writeOutput [some 3, none, none] [[1, 2, 3, 4], [5, 6, 7, 8]] = (.ok (), [1, 2, 3]) := by
  rw [C73_small_always_succeeds _ _ (by simp) (by simp)]; rfl

/-- More than one block: the second request of the first block fails, the rest of that block is tried again. -/
example (values : List (List UInt8)) (h4 : ∀ d ∈ values, d.length = 4) (h : values.length = 2049) :
    writeOutput [some 5000, none, some 1000, none] values = (.err (), values.flatten.take 6000) := by
  rw [C73_export _ _ h4 1 4 (by omega) (by omega) (by omega)]; rfl

end Grib.Cli
