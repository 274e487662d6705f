import Verif.Lemmas.Reader
import Verif.Spec.File

/-! # What successful reader operations say about the octets (all schedules), and progress -/

namespace Grib.Model

open Grib.Spec

variable {α β : Type}

theorem RM.bind_ok_inv {x : RM α} {f : α → RM β} {r r' : Rdr} {b : β} (h : (x >>= f) r = (.ok b, r')) :
    ∃ a r1, x r = (.ok a, r1) ∧ f a r1 = (.ok b, r') := by
  rw [RM.bind_apply] at h
  rcases hx : x r with ⟨o, r1⟩
  rw [hx] at h
  cases o with
  | ok a => exact ⟨a, r1, rfl, h⟩
  | err e => simp at h
  | panic => simp at h

theorem RM.bind_panic_inv {x : RM α} {f : α → RM β} {r r' : Rdr} (h : (x >>= f) r = (.panic, r')) :
    x r = (.panic, r') ∨ ∃ a r1, x r = (.ok a, r1) ∧ f a r1 = (.panic, r') := by
  rw [RM.bind_apply] at h
  rcases hx : x r with ⟨o, r1⟩
  rw [hx] at h
  cases o with
  | ok a => exact Or.inr ⟨a, r1, rfl, h⟩
  | err e => simp at h
  | panic => left; simpa using h

theorem be_eq_foldl (bs : List UInt8) : be bs = bs.foldl (fun acc b => acc * 256 + b.toNat) 0 := rfl

theorem number_eq (data : List UInt8) (p n : Nat) (h : p + n ≤ data.length) :
    number data p n = be ((data.drop p).take n) := by
  induction n with
  | zero => simp [number, be]
  | succ n ih =>
    have hn := ih (by omega)
    have hlt : p + n < data.length := by omega
    have : (data.drop p).take (n + 1) = (data.drop p).take n ++ [data[p + n]] := by
      rw [List.take_add_one, List.getElem?_drop, List.getElem?_eq_getElem hlt]; rfl
    rw [this, be, List.foldl_append, ← be_eq_foldl, ← hn]
    simp [number, List.range_succ, octet, List.foldl_append, hlt]

theorem octet_eq (data : List UInt8) (p : Nat) (h : p < data.length) : octet data p = (data[p]).toNat := by
  simp [octet, h]

/-! ## Primitive operations -/

theorem rdRead_ok {n : Nat} {r r' : Rdr} {buf : List UInt8} (h : rdRead n r = (.ok buf, r')) :
    r'.data = r.data ∧ r'.pos = r.pos + buf.length ∧ buf = (r.data.drop r.pos).take buf.length ∧ buf.length ≤ n ∧
      buf.length ≤ r.data.length - r.pos := by
  have key : ∀ m, m ≤ n → ∀ es, r.deliver m es = (.ok buf, r') →
      r'.data = r.data ∧ r'.pos = r.pos + buf.length ∧ buf = (r.data.drop r.pos).take buf.length ∧ buf.length ≤ n ∧
      buf.length ≤ r.data.length - r.pos := by
    intro m hm es hd
    simp only [Rdr.deliver, Prod.mk.injEq, Outcome.ok.injEq] at hd
    obtain ⟨rfl, rfl⟩ := hd
    refine ⟨rfl, rfl, ?_, ?_, ?_⟩
    · rw [List.length_take, List.length_drop, ← List.length_drop, ← List.take_take, List.take_length]
    · rw [List.length_take]; omega
    · rw [List.length_take, List.length_drop]; omega
  unfold rdRead at h
  split at h
  · exact key _ (Nat.le_refl _) _ h
  · exact key _ (Nat.le_refl _) _ h
  · exact key _ (Nat.min_le_left _ _) _ h
  · simp at h

theorem rdRead_noPanic (n : Nat) (r r' : Rdr) : rdRead n r ≠ (.panic, r') := by
  unfold rdRead
  split <;> simp [Rdr.deliver]

theorem rdReadExactLoop_ok {fuel n : Nat} {r r' : Rdr} {buf : List UInt8} (hf : n ≤ fuel)
    (h : rdReadExactLoop fuel n r = (.ok buf, r')) :
    r'.data = r.data ∧ r'.pos = r.pos + n ∧ buf = (r.data.drop r.pos).take n ∧ buf.length = n := by
  induction fuel generalizing n r r' buf with
  | zero =>
    have : n = 0 := by omega
    subst this
    simp only [rdReadExactLoop, RM.pure_apply, Prod.mk.injEq, Outcome.ok.injEq] at h
    obtain ⟨rfl, rfl⟩ := h
    simp
  | succ f ih =>
    rw [rdReadExactLoop] at h
    split at h
    · rename_i h0
      subst h0
      simp only [RM.pure_apply, Prod.mk.injEq, Outcome.ok.injEq] at h
      obtain ⟨rfl, rfl⟩ := h
      simp
    · obtain ⟨chunk, r1, h1, h2⟩ := RM.bind_ok_inv h
      obtain ⟨a1, a2, a3, a4, a5⟩ := rdRead_ok h1
      split at h2
      · simp [RM.throw] at h2
      · obtain ⟨rest, r2, h3, h4⟩ := RM.bind_ok_inv h2
        obtain ⟨b1, b2, b3, b4⟩ := ih (n := n - chunk.length) (by omega) h3
        simp only [RM.pure_apply, Prod.mk.injEq, Outcome.ok.injEq] at h4
        obtain ⟨rfl, rfl⟩ := h4
        refine ⟨b1.trans a1, by omega, ?_, by rw [List.length_append]; omega⟩
        rw [a1, a2] at b3
        have hn : n = chunk.length + (n - chunk.length) := by omega
        have e : (r.data.drop r.pos).take n =
            (r.data.drop r.pos).take chunk.length ++ (r.data.drop (r.pos + chunk.length)).take (n - chunk.length) := by
          rw [← List.drop_drop, ← List.take_add, ← hn]
        rw [e, ← b3, ← a3]

theorem rdReadExact_ok {n : Nat} {r r' : Rdr} {buf : List UInt8} (h : rdReadExact n r = (.ok buf, r')) :
    r'.data = r.data ∧ r'.pos = r.pos + n ∧ buf = (r.data.drop r.pos).take n ∧ buf.length = n ∧
      (n = 0 ∨ r.pos + n ≤ r.data.length) := by
  obtain ⟨h1, h2, h3, h4⟩ := rdReadExactLoop_ok (Nat.le_refl _) h
  refine ⟨h1, h2, h3, h4, ?_⟩
  rw [h3, List.length_take, List.length_drop] at h4
  omega

theorem rdReadExactLoop_noPanic (fuel n : Nat) (r r' : Rdr) : rdReadExactLoop fuel n r ≠ (.panic, r') := by
  induction fuel generalizing n r with
  | zero => simp [rdReadExactLoop, RM.pure_apply]
  | succ f ih =>
    intro h
    rw [rdReadExactLoop] at h
    split at h
    · simp [RM.pure_apply] at h
    · rcases RM.bind_panic_inv h with h | ⟨a, r1, h1, h2⟩
      · exact rdRead_noPanic _ _ _ h
      · split at h2
        · simp [RM.throw] at h2
        · rcases RM.bind_panic_inv h2 with h | ⟨a, r2, h3, h4⟩
          · exact ih _ _ h
          · simp [RM.pure_apply] at h4

theorem rdReadExact_noPanic (n : Nat) (r r' : Rdr) : rdReadExact n r ≠ (.panic, r') := rdReadExactLoop_noPanic _ _ _ _

theorem rdSeekTo_ok {t : Int} {r r' : Rdr} {u : Unit} (h : rdSeekTo t r = (.ok u, r')) :
    r'.data = r.data ∧ r'.pos = t.toNat ∧ 0 ≤ t := by
  unfold rdSeekTo at h
  split at h
  · simp at h
  · split at h
    · simp at h
    · simp only [Prod.mk.injEq] at h
      obtain ⟨-, rfl⟩ := h
      exact ⟨rfl, rfl, by omega⟩

theorem rdSeekTo_noPanic (t : Int) (r r' : Rdr) : rdSeekTo t r ≠ (.panic, r') := by
  unfold rdSeekTo
  split
  · simp
  · split <;> simp

theorem rdSeekCur_ok {d : Int} {r r' : Rdr} {u : Unit} (h : rdSeekCur d r = (.ok u, r')) :
    r'.data = r.data ∧ (r'.pos : Int) = r.pos + d := by
  obtain ⟨h1, h2, h3⟩ := rdSeekTo_ok h
  exact ⟨h1, by omega⟩

theorem rdSeekCur_noPanic (d : Int) (r r' : Rdr) : rdSeekCur d r ≠ (.panic, r') := rdSeekTo_noPanic _ _ _

theorem rdPos_ok {r r' : Rdr} {p : Nat} (h : rdPos r = (.ok p, r')) :
    r'.data = r.data ∧ r'.pos = r.pos ∧ p = r.pos := by
  unfold rdPos at h
  rcases hc : rdSeekCur 0 r with ⟨o, r1⟩
  rw [hc] at h
  cases o with
  | ok u =>
    simp only [Prod.mk.injEq, Outcome.ok.injEq] at h
    obtain ⟨rfl, rfl⟩ := h
    have := rdSeekCur_ok hc
    exact ⟨this.1, by omega, by omega⟩
  | err e => simp at h
  | panic => simp at h

theorem rdPos_noPanic (r r' : Rdr) : rdPos r ≠ (.panic, r') := by
  intro h
  unfold rdPos at h
  rcases hc : rdSeekCur 0 r with ⟨o, r1⟩
  rw [hc] at h
  cases o with
  | ok u => simp at h
  | err e => simp at h
  | panic => exact rdSeekCur_noPanic _ _ _ hc

/-! ## Looking for a message start -/

theorem findMagic_some {buf : List UInt8} {p : Nat} (hb : 16 ≤ buf.length) (h : findMagic buf = some p) :
    p + 16 ≤ buf.length ∧ (buf.drop p).take 4 = magic0 ∧ ∀ q, q < p → (buf.drop q).take 4 ≠ magic0 := by
  unfold findMagic at h
  rw [List.find?_eq_some_iff_getElem] at h
  obtain ⟨h1, i, hi, h2, h3⟩ := h
  simp only [List.length_range] at hi
  simp only [List.getElem_range] at h2
  subst h2
  refine ⟨by omega, by simpa using h1, ?_⟩
  intro q hq
  have := h3 q hq
  simpa using this

theorem findMagic_none {buf : List UInt8} (h : findMagic buf = none) :
    ∀ q, q + 16 ≤ buf.length → (buf.drop q).take 4 ≠ magic0 := by
  unfold findMagic at h
  rw [List.find?_eq_none] at h
  intro q hq
  have := h q (by rw [List.mem_range]; omega)
  simpa using this

theorem take_drop_prefix {d : List UInt8} {pos m q k : Nat} (h : q + k ≤ m) :
    (((d.drop pos).take m).drop q).take k = (d.drop (pos + q)).take k := by
  rw [List.drop_take, List.take_take, List.drop_drop, Nat.min_eq_left (by omega)]

theorem magicAt_iff {data : List UInt8} {p : Nat} :
    MagicAt data p ↔ p + 16 ≤ data.length ∧ (data.drop p).take 4 = magic0 := by
  simp only [MagicAt, Octets, magic0]
  constructor
  · rintro ⟨⟨-, h1⟩, h2⟩; exact ⟨h2, h1⟩
  · rintro ⟨h1, h2⟩; exact ⟨⟨by simp; omega, h2⟩, h1⟩

theorem fromSlice_ok {s : List UInt8} {ind : Indicator} (h : Indicator.fromSlice s = .ok ind) :
    octet s 7 = 2 ∧ ind = ⟨octet s 6, number s 8 8⟩ := by
  unfold Indicator.fromSlice at h
  cases h6 : s[6]? with
  | none => rw [h6] at h; simp at h
  | some a =>
    cases h7 : s[7]? with
    | none => rw [h6, h7] at h; simp at h
    | some b =>
      rw [h6, h7] at h
      simp only [Outcome.ofOption_some, Outcome.bind_ok] at h
      split at h
      · simp at h
      · rename_i hb
        cases h8 : readBE? s 8 8 with
        | none => rw [h8] at h; simp at h
        | some c =>
          rw [h8] at h
          simp only [Outcome.ofOption_some, Outcome.bind_ok, Outcome.ok.injEq] at h
          simp only [readBE?, slice?] at h8
          split at h8
          · rename_i hl
            simp only [Option.map_some, Option.some.injEq] at h8
            rw [number_eq s 8 8 hl, h8, ← h]
            simp only [octet, List.getD_eq_getElem?_getD, h6, h7, Option.getD_some]
            refine ⟨by omega, ?_⟩
            first | trivial | rfl
          · simp at h8

theorem octet_take_drop {d : List UInt8} {pos m q : Nat} (h : q < m) :
    octet ((d.drop pos).take m) q = octet d (pos + q) := by
  simp only [octet, List.getD_eq_getElem?_getD, List.getElem?_take, h, if_true, List.getElem?_drop]

theorem number_take_drop {d : List UInt8} {pos m q n : Nat} (h : q + n ≤ m) :
    number ((d.drop pos).take m) q n = number d (pos + q) n := by
  induction n with
  | zero => rfl
  | succ n ih =>
    have := ih (by omega)
    simp only [number, List.range_succ, List.foldl_append] at this ⊢
    rw [this]
    simp only [List.foldl_cons, List.foldl_nil]
    rw [octet_take_drop (by omega), Nat.add_assoc]

/-- The indicator the octets at `p` denote. -/
def indicatorAt (data : List UInt8) (p : Nat) : Indicator := ⟨octet data (p + 6), number data (p + 8) 8⟩

theorem readSect0Loop_some {fuel off : Nat} {r r' : Rdr} {o : Nat} {ind : Indicator}
    (h : readSect0Loop fuel off r = (.ok (some (o, ind)), r')) :
    r'.data = r.data ∧ ∃ p, FirstMagic r.data r.pos p ∧ o = off + (p - r.pos) ∧ r'.pos = p + 16 ∧
      octet r.data (p + 7) = 2 ∧ ind = indicatorAt r.data p := by
  induction fuel generalizing off r with
  | zero => simp [readSect0Loop, RM.panic] at h
  | succ f ih =>
    rw [readSect0Loop] at h
    obtain ⟨buf, r1, h1, h2⟩ := RM.bind_ok_inv h
    obtain ⟨a1, a2, a3, a4, a5⟩ := rdRead_ok h1
    simp only at h2
    split at h2
    · simp [RM.pure_apply] at h2
    · rename_i hb
      have trans : ∀ q, q + 16 ≤ buf.length →
          ((buf.drop q).take 4 = magic0 ↔ MagicAt r.data (r.pos + q)) := by
        intro q hq
        rw [a3, take_drop_prefix (by omega), magicAt_iff]
        constructor
        · exact fun h => ⟨by omega, h⟩
        · exact fun h => h.2
      cases hm : findMagic buf with
      | some p =>
        rw [hm] at h2
        obtain ⟨m1, m2, m3⟩ := findMagic_some (by omega) hm
        obtain ⟨u, r2, h3, h4⟩ := RM.bind_ok_inv h2
        obtain ⟨b1, b2⟩ := rdSeekCur_ok h3
        obtain ⟨ind', r3, h5, h6⟩ := RM.bind_ok_inv h4
        simp only [RM.lift, Prod.mk.injEq] at h5
        obtain ⟨h5, rfl⟩ := h5
        simp only [RM.pure_apply, Prod.mk.injEq, Outcome.ok.injEq, Option.some.injEq] at h6
        obtain ⟨⟨rfl, rfl⟩, rfl⟩ := h6
        obtain ⟨c1, c2⟩ := fromSlice_ok h5
        rw [a3, take_drop_prefix (by omega), octet_take_drop (by omega)] at c1
        rw [a3, take_drop_prefix (by omega), octet_take_drop (by omega), number_take_drop (by omega)] at c2
        refine ⟨b1.trans a1, r.pos + p, ⟨by omega, (trans p m1).1 m2, ?_⟩, by omega, by omega, c1, c2⟩
        intro q hq1 hq2 hq3
        have := (trans (q - r.pos) (by omega)).2 (by rw [show r.pos + (q - r.pos) = q by omega]; exact hq3)
        exact m3 _ (by omega) this
      | none =>
        rw [hm] at h2
        have m := findMagic_none hm
        obtain ⟨u, r2, h3, h4⟩ := RM.bind_ok_inv h2
        obtain ⟨b1, b2⟩ := rdSeekCur_ok h3
        obtain ⟨e1, p, ⟨e2, e2', e2''⟩, e3, e4, e5, e6⟩ := ih h4
        have hd : r2.data = r.data := b1.trans a1
        rw [hd] at e2' e2'' e5 e6 e1
        refine ⟨e1, p, ⟨by omega, e2', ?_⟩, by omega, e4, e5, e6⟩
        intro q hq1 hq2 hq3
        by_cases hc : q < r2.pos
        · have := (trans (q - r.pos) (by omega)).2 (by rw [show r.pos + (q - r.pos) = q by omega]; exact hq3)
          exact m _ (by omega) this
        · exact e2'' q (by omega) hq2 hq3

theorem readSect0Loop_data {fuel off : Nat} {r : Rdr} : (readSect0Loop fuel off r).2.data = r.data :=
  (readSect0Loop_honest fuel off r).1

/-- The fuel given to `read_sect0` is enough: each block of at least 16 octets moves the position forward. -/
theorem readSect0Loop_noPanic {fuel off : Nat} {r r' : Rdr} (hf : r.data.length - r.pos < fuel) :
    readSect0Loop fuel off r ≠ (.panic, r') := by
  induction fuel generalizing off r with
  | zero => omega
  | succ f ih =>
    intro h
    rw [readSect0Loop] at h
    rcases RM.bind_panic_inv h with h | ⟨buf, r1, h1, h2⟩
    · exact rdRead_noPanic _ _ _ h
    · obtain ⟨a1, a2, a3, a4, a5⟩ := rdRead_ok h1
      simp only at h2
      split at h2
      · simp [RM.pure_apply] at h2
      · cases hm : findMagic buf with
        | some p =>
          rw [hm] at h2
          rcases RM.bind_panic_inv h2 with h | ⟨u, r2, h3, h4⟩
          · exact rdSeekCur_noPanic _ _ _ h
          · obtain ⟨m1, -, -⟩ := findMagic_some (by omega) hm
            rcases RM.bind_panic_inv h4 with h | ⟨i, r3, h5, h6⟩
            · simp only [RM.lift, Prod.mk.injEq] at h
              obtain ⟨h, -⟩ := h
              unfold Indicator.fromSlice at h
              have hl : ((buf.drop p).take 16).length = 16 := by
                rw [List.length_take, List.length_drop]; omega
              rw [List.getElem?_eq_getElem (by omega), List.getElem?_eq_getElem (by omega)] at h
              simp only [Outcome.ofOption_some, Outcome.bind_ok, readBE?, slice?, hl] at h
              split at h <;> simp at h
            · simp [RM.pure_apply] at h6
        | none =>
          rw [hm] at h2
          rcases RM.bind_panic_inv h2 with h | ⟨u, r2, h3, h4⟩
          · exact rdSeekCur_noPanic _ _ _ h
          · obtain ⟨b1, b2⟩ := rdSeekCur_ok h3
            refine ih ?_ h4
            rw [b1, a1]; omega

theorem readSect0_noPanic (r r' : Rdr) : readSect0 r ≠ (.panic, r') := readSect0Loop_noPanic (by omega)

/-! ## Other sections -/

theorem readSect8_ok {r r' : Rdr} {u : Unit} (h : readSect8 r = (.ok (some u), r')) :
    r'.data = r.data ∧ r'.pos = r.pos + 4 ∧ Octets r.data r.pos [0x37, 0x37, 0x37, 0x37] := by
  unfold readSect8 at h
  obtain ⟨buf, r1, h1, h2⟩ := RM.bind_ok_inv h
  obtain ⟨a1, a2, a3, a4, a5⟩ := rdRead_ok h1
  split at h2
  · simp [RM.pure_apply] at h2
  · split at h2
    · simp [RM.throw] at h2
    · split at h2
      · simp [RM.throw] at h2
      · rename_i h3 h4 h5
        simp only [RM.pure_apply, Prod.mk.injEq] at h2
        obtain ⟨-, rfl⟩ := h2
        have hb : buf = magic8 := by simpa using h5
        have hl : buf.length = 4 := by simpa using h4
        refine ⟨a1, by omega, by simp; omega, ?_⟩
        rw [hb] at a3
        exact a3.symm

theorem readSect8_noPanic (r r' : Rdr) : readSect8 r ≠ (.panic, r') := by
  intro h
  unfold readSect8 at h
  rcases RM.bind_panic_inv h with h | ⟨buf, r1, h1, h2⟩
  · exact rdRead_noPanic _ _ _ h
  · split at h2
    · simp [RM.pure_apply] at h2
    · split at h2
      · simp [RM.throw] at h2
      · split at h2
        · simp [RM.throw] at h2
        · simp [RM.pure_apply] at h2

theorem readSectHeader_ok {r r' : Rdr} {size num : Nat} (h : readSectHeader r = (.ok (some (size, num)), r')) :
    r'.data = r.data ∧ r'.pos = r.pos + 5 ∧ r.pos + 5 ≤ r.data.length ∧ number r.data r.pos 4 = size ∧
      octet r.data (r.pos + 4) = num := by
  unfold readSectHeader at h
  obtain ⟨buf, r1, h1, h2⟩ := RM.bind_ok_inv h
  obtain ⟨a1, a2, a3, a4, a5⟩ := rdRead_ok h1
  split at h2
  · simp [RM.pure_apply] at h2
  · split at h2
    · simp [RM.throw] at h2
    · rename_i h3 h4
      have hl : buf.length = 5 := by simpa using h4
      have e0 : readBE? buf 0 4 = some (number r.data r.pos 4) := by
        simp only [readBE?, slice?, hl, Option.map_eq_some_iff, ite_cond_eq_true, Nat.reduceLeDiff, Nat.zero_add,
          Option.some.injEq]
        refine ⟨_, rfl, ?_⟩
        rw [number_eq _ _ _ (by omega), a3, hl, take_drop_prefix (by omega)]
        rfl
      have hd : r.pos + 4 < r.data.length := by omega
      have e4 : buf[4]? = some (r.data[r.pos + 4]'hd) := by
        rw [a3, hl, List.getElem?_take_of_lt (by omega), List.getElem?_drop, List.getElem?_eq_getElem]
      rw [e0, e4] at h2
      simp only [Outcome.ofOption_some, RM.bind_apply, RM.lift, RM.pure_apply, Prod.mk.injEq, Outcome.ok.injEq,
        Option.some.injEq] at h2
      obtain ⟨⟨rfl, rfl⟩, rfl⟩ := h2
      exact ⟨a1, by omega, by omega, rfl, by rw [octet_eq]⟩

theorem readSectHeader_noPanic (r r' : Rdr) : readSectHeader r ≠ (.panic, r') := by
  intro h
  unfold readSectHeader at h
  rcases RM.bind_panic_inv h with h | ⟨buf, r1, h1, h2⟩
  · exact rdRead_noPanic _ _ _ h
  · split at h2
    · simp [RM.pure_apply] at h2
    · split at h2
      · simp [RM.throw] at h2
      · rename_i h3 h4
        have hl : buf.length = 5 := by simpa using h4
        rw [List.getElem?_eq_getElem (by omega)] at h2
        simp only [readBE?, slice?, hl] at h2
        simp [RM.bind_apply, RM.lift, RM.pure_apply] at h2

/-- What a payload read says. -/
theorem readSectPayload_ok {size num : Nat} {r r' : Rdr} {body : SectionBody} {p : Nat} (hp : r.pos = p + 5)
    (h : readSectPayload size num r = (.ok body, r')) :
    r'.data = r.data ∧ r'.pos = p + size ∧ 5 ≤ size ∧ 1 ≤ num ∧ num ≤ 7 ∧
      BodyAt r.data p size num (some body) ∧
      (num ≤ 6 → (size = 5 ∨ p + size ≤ r.data.length) ∧ minPayload num ≤ size - 5) := by
  unfold readSectPayload at h
  split at h
  · simp [RM.panic] at h
  · rename_i hs
    have full : ∀ {buf : List UInt8} {r1 : Rdr}, rdReadExact (size - 5) r = (.ok buf, r1) →
        r1.data = r.data ∧ r1.pos = p + size ∧ buf = (r.data.drop (p + 5)).take (size - 5) ∧
          buf.length = size - 5 ∧ (size = 5 ∨ p + size ≤ r.data.length) := by
      intro buf r1 h1
      obtain ⟨b1, b2, b3, b4, b5⟩ := rdReadExact_ok h1
      rw [hp] at b3
      exact ⟨b1, by omega, b3, b4, by omega⟩
    have checked : ∀ {m : Nat} {f : List UInt8 → SectionBody}, (do
        let p ← rdReadExact (size - 5)
        let p ← RM.lift (checkPayload m p)
        pure (f p) : RM SectionBody) r = (.ok body, r') →
        r'.data = r.data ∧ r'.pos = p + size ∧ body = f ((r.data.drop (p + 5)).take (size - 5)) ∧
          (size = 5 ∨ p + size ≤ r.data.length) ∧ m ≤ size - 5 := by
      intro m f h
      obtain ⟨buf, r1, h1, h2⟩ := RM.bind_ok_inv h
      obtain ⟨a1, a2, a3, a4, a5⟩ := full h1
      obtain ⟨buf2, r2, h3, h4⟩ := RM.bind_ok_inv h2
      simp only [RM.lift, Prod.mk.injEq] at h3
      obtain ⟨h3, rfl⟩ := h3
      unfold checkPayload at h3
      split at h3
      · simp at h3
      · simp only [Outcome.ok.injEq] at h3
        subst h3
        simp only [RM.pure_apply, Prod.mk.injEq, Outcome.ok.injEq] at h4
        obtain ⟨rfl, rfl⟩ := h4
        exact ⟨a1, a2, by rw [a3], a5, by omega⟩
    simp only at h
    split at h
    · obtain ⟨a1, a2, a3, a4, a5⟩ := checked h
      exact ⟨a1, a2, by omega, by omega, by omega, by rw [a3]; rfl, fun _ => ⟨a4, a5⟩⟩
    · obtain ⟨buf, r1, h1, h2⟩ := RM.bind_ok_inv h
      obtain ⟨a1, a2, a3, a4, a5⟩ := full h1
      simp only [RM.pure_apply, Prod.mk.injEq, Outcome.ok.injEq] at h2
      obtain ⟨rfl, rfl⟩ := h2
      exact ⟨a1, a2, by omega, by omega, by omega, by rw [a3]; rfl, fun _ => ⟨a5, Nat.zero_le _⟩⟩
    · obtain ⟨a1, a2, a3, a4, a5⟩ := checked h
      exact ⟨a1, a2, by omega, by omega, by omega, by rw [a3]; rfl, fun _ => ⟨a4, a5⟩⟩
    · obtain ⟨a1, a2, a3, a4, a5⟩ := checked h
      exact ⟨a1, a2, by omega, by omega, by omega, by rw [a3]; rfl, fun _ => ⟨a4, a5⟩⟩
    · obtain ⟨a1, a2, a3, a4, a5⟩ := checked h
      exact ⟨a1, a2, by omega, by omega, by omega, by rw [a3]; rfl, fun _ => ⟨a4, a5⟩⟩
    · unfold readSect6Payload at h
      obtain ⟨buf, r1, h1, h2⟩ := RM.bind_ok_inv h
      obtain ⟨b1, b2, b3, b4, b5⟩ := rdReadExact_ok h1
      have hbe : be buf = octet r.data (p + 5) := by
        rw [b3, hp, ← number_eq _ _ _ (by omega)]
        simp [number]
      split at h2
      · simp [RM.panic] at h2
      · simp only at h2
        split at h2
        · obtain ⟨buf2, r2, h3, h4⟩ := RM.bind_ok_inv h2
          obtain ⟨c1, c2, c3, c4, c5⟩ := rdReadExact_ok h3
          simp only [RM.pure_apply, Prod.mk.injEq, Outcome.ok.injEq] at h4
          obtain ⟨rfl, rfl⟩ := h4
          rw [b1] at c5
          exact ⟨c1.trans b1, by omega, by omega, by omega, by omega, by rw [hbe]; rfl,
            fun _ => ⟨by omega, by simp [minPayload]; omega⟩⟩
        · simp only [RM.pure_apply, Prod.mk.injEq, Outcome.ok.injEq] at h2
          obtain ⟨rfl, rfl⟩ := h2
          exact ⟨b1, by omega, by omega, by omega, by omega, by rw [hbe]; rfl,
            fun _ => ⟨by omega, by simp [minPayload]; omega⟩⟩
    · unfold skipSect7Payload at h
      obtain ⟨u, r1, h1, h2⟩ := RM.bind_ok_inv h
      obtain ⟨b1, b2⟩ := rdSeekCur_ok h1
      simp only [RM.pure_apply, Prod.mk.injEq, Outcome.ok.injEq] at h2
      obtain ⟨rfl, rfl⟩ := h2
      exact ⟨b1, by omega, by omega, by omega, by omega, rfl, fun h => by omega⟩
    · simp [RM.throw] at h

/-- When a payload read panics. -/
theorem readSectPayload_panic {size num : Nat} {r r' : Rdr} (h : readSectPayload size num r = (.panic, r')) :
    size < 5 ∨ (num = 6 ∧ size = 5) := by
  unfold readSectPayload at h
  split at h
  · left; assumption
  · rename_i hs
    have checked : ∀ {m : Nat} {f : List UInt8 → SectionBody}, (do
        let p ← rdReadExact (size - 5)
        let p ← RM.lift (checkPayload m p)
        pure (f p) : RM SectionBody) r ≠ (.panic, r') := by
      intro m f h
      rcases RM.bind_panic_inv h with h | ⟨buf, r1, h1, h2⟩
      · exact rdReadExact_noPanic _ _ _ h
      · rcases RM.bind_panic_inv h2 with h | ⟨buf, r1, h1, h2⟩
        · simp only [RM.lift, checkPayload, Prod.mk.injEq] at h
          obtain ⟨h, -⟩ := h
          split at h <;> simp at h
        · simp [RM.pure_apply] at h2
    simp only at h
    split at h
    · exact absurd h checked
    · rcases RM.bind_panic_inv h with h | ⟨buf, r1, h1, h2⟩
      · exact absurd h (rdReadExact_noPanic _ _ _)
      · simp [RM.pure_apply] at h2
    · exact absurd h checked
    · exact absurd h checked
    · exact absurd h checked
    · unfold readSect6Payload at h
      rcases RM.bind_panic_inv h with h | ⟨buf, r1, h1, h2⟩
      · exact absurd h (rdReadExact_noPanic _ _ _)
      · split at h2
        · right; exact ⟨rfl, by omega⟩
        · simp only at h2
          split at h2
          · rcases RM.bind_panic_inv h2 with h | ⟨buf, r1, h1, h2⟩
            · exact absurd h (rdReadExact_noPanic _ _ _)
            · simp [RM.pure_apply] at h2
          · simp [RM.pure_apply] at h2
    · unfold skipSect7Payload at h
      rcases RM.bind_panic_inv h with h | ⟨buf, r1, h1, h2⟩
      · exact absurd h (rdSeekCur_noPanic _ _ _)
      · simp [RM.pure_apply] at h2
    · simp [RM.throw] at h

end Grib.Model
