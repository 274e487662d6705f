import Verif.Lemmas.ReaderWalk

/-! # Schedules without failures whose short reads deliver at least 16 octets look like an in-memory cursor -/

namespace Grib.Model

open Grib.Spec

variable {α β : Type}

/-- No failure, and every short read delivers at least 16 octets (if that many are asked for and left). -/
def Benign (evs : List IoEv) : Prop := ∀ e ∈ evs, e = .full ∨ ∃ k, 15 ≤ k ∧ e = .short k

theorem Benign.nil : Benign [] := by simp [Benign]

theorem Benign.suffix {a b : List IoEv} (h : Benign b) (hs : a <:+ b) : Benign a :=
  fun e he => h e (hs.subset he)

theorem Benign.noFail {a : List IoEv} (h : Benign a) : IoEv.fail ∉ a := by
  intro hf
  rcases h _ hf with h | ⟨k, -, h⟩ <;> simp at h

theorem min_take (l : List UInt8) (n : Nat) : (l.take n).length = min n l.length := by simp

/-- A read delivers between `min n 16` and `n` octets, as far as the data goes. -/
theorem rdRead_benign (n : Nat) (r : Rdr) (hb : Benign r.evs) :
    ∃ m es, min n 16 ≤ m ∧ m ≤ n ∧ es <:+ r.evs ∧
      rdRead n r = (.ok ((r.data.drop r.pos).take m), ⟨r.data, r.pos + min m (r.data.length - r.pos), es⟩) := by
  unfold rdRead
  split
  · rename_i he
    exact ⟨n, [], Nat.min_le_left _ _, Nat.le_refl _, by rw [he]; exact List.suffix_refl _,
      by simp [Rdr.deliver]⟩
  · rename_i es he
    exact ⟨n, es, Nat.min_le_left _ _, Nat.le_refl _, by rw [he]; exact List.suffix_cons _ _,
      by simp [Rdr.deliver]⟩
  · rename_i k es he
    have hk : 15 ≤ k := by
      rcases hb (.short k) (by rw [he]; simp) with h | ⟨k', h1, h2⟩
      · simp at h
      · cases h2; exact h1
    exact ⟨min n (k + 1), es, by omega, Nat.min_le_left _ _, by rw [he]; exact List.suffix_cons _ _,
      by simp [Rdr.deliver]⟩
  · rename_i es he
    exact absurd (by rw [he]; simp) hb.noFail

theorem take_min_length (l : List UInt8) (m n : Nat) (h1 : min n 16 ≤ m) (h2 : m ≤ n) (h3 : n ≤ 16) :
    m = n := by omega

/-- A small read is exact. -/
theorem rdRead_small {n : Nat} (hn : n ≤ 16) (r : Rdr) (hb : Benign r.evs) :
    ∃ es, es <:+ r.evs ∧
      rdRead n r = (.ok ((r.data.drop r.pos).take n), ⟨r.data, r.pos + min n (r.data.length - r.pos), es⟩) := by
  obtain ⟨m, es, h1, h2, h3, h4⟩ := rdRead_benign n r hb
  have : m = n := by omega
  subst this
  exact ⟨es, h3, h4⟩

theorem rdReadExactLoop_char (fuel n : Nat) (r : Rdr) (hf : n ≤ fuel) (hb : IoEv.fail ∉ r.evs) :
    ∃ es, es <:+ r.evs ∧ rdReadExactLoop fuel n r =
      if n ≤ r.data.length - r.pos then (.ok ((r.data.drop r.pos).take n), ⟨r.data, r.pos + n, es⟩)
      else (.err (.readError .unexpectedEof), ⟨r.data, r.pos + (r.data.length - r.pos), es⟩) := by
  induction fuel generalizing n r with
  | zero =>
    have : n = 0 := by omega
    subst this
    exact ⟨r.evs, List.suffix_refl _, by simp [rdReadExactLoop, RM.pure_apply]⟩
  | succ f ih =>
    rw [rdReadExactLoop]
    split
    · rename_i h0
      subst h0
      exact ⟨r.evs, List.suffix_refl _, by simp [RM.pure_apply]⟩
    · rename_i h0
      have hread : ∃ m es, 1 ≤ m ∧ m ≤ n ∧ es <:+ r.evs ∧
          rdRead n r = (.ok ((r.data.drop r.pos).take m), ⟨r.data, r.pos + min m (r.data.length - r.pos), es⟩) := by
        unfold rdRead
        split
        · rename_i he
          exact ⟨n, [], by omega, Nat.le_refl _, by rw [he]; exact List.suffix_refl _, by simp [Rdr.deliver]⟩
        · rename_i es he
          exact ⟨n, es, by omega, Nat.le_refl _, by rw [he]; exact List.suffix_cons _ _, by simp [Rdr.deliver]⟩
        · rename_i k es he
          exact ⟨min n (k + 1), es, by omega, Nat.min_le_left _ _, by rw [he]; exact List.suffix_cons _ _,
            by simp [Rdr.deliver]⟩
        · rename_i es he
          exact absurd (by rw [he]; simp) hb
      obtain ⟨m, es, m1, m2, m3, m4⟩ := hread
      rw [RM.bind_apply, m4]
      simp only [List.length_take, List.length_drop]
      by_cases hz : r.data.length - r.pos = 0
      · refine ⟨es, m3, ?_⟩
        rw [if_pos (by omega), if_neg (by omega)]
        simp [RM.throw, hz]
      · rw [if_neg (by omega), RM.bind_apply]
        obtain ⟨es', e1, e2⟩ := ih (n - min m (r.data.length - r.pos))
          ⟨r.data, r.pos + min m (r.data.length - r.pos), es⟩ (by omega) (fun h => hb (m3.subset h))
        refine ⟨es', e1.trans m3, ?_⟩
        rw [e2]
        by_cases hle : n ≤ r.data.length - r.pos
        · rw [if_pos (by simp only; omega), if_pos hle]
          simp only [RM.pure_apply, Prod.mk.injEq, Outcome.ok.injEq, Rdr.mk.injEq, true_and, and_true]
          refine ⟨?_, by omega⟩
          have hm : min m (r.data.length - r.pos) = m := by omega
          rw [hm, ← List.drop_drop, ← List.take_add]
          congr 1; omega
        · rw [if_neg (by simp only; omega), if_neg hle]
          simp only [Prod.mk.injEq, Rdr.mk.injEq, true_and, and_true]
          omega

theorem rdReadExact_char (n : Nat) (r : Rdr) (hb : IoEv.fail ∉ r.evs) :
    ∃ es, es <:+ r.evs ∧ rdReadExact n r =
      if n ≤ r.data.length - r.pos then (.ok ((r.data.drop r.pos).take n), ⟨r.data, r.pos + n, es⟩)
      else (.err (.readError .unexpectedEof), ⟨r.data, r.pos + (r.data.length - r.pos), es⟩) :=
  rdReadExactLoop_char n n r (Nat.le_refl _) hb

theorem rdSeekTo_char (t : Int) (r : Rdr) (hb : IoEv.fail ∉ r.evs) :
    ∃ es, es <:+ r.evs ∧ rdSeekTo t r =
      if t < 0 then (.err (.readError .io), ⟨r.data, r.pos, es⟩) else (.ok (), ⟨r.data, t.toNat, es⟩) := by
  unfold rdSeekTo
  split
  · rename_i es he
    exact absurd (by rw [he]; simp) hb
  · exact ⟨r.evs.tail, List.tail_suffix _, rfl⟩

theorem rdSeekCur_char (d : Int) (r : Rdr) (hb : IoEv.fail ∉ r.evs) :
    ∃ es, es <:+ r.evs ∧ rdSeekCur d r =
      if r.pos + d < 0 then (.err (.readError .io), ⟨r.data, r.pos, es⟩)
      else (.ok (), ⟨r.data, (r.pos + d).toNat, es⟩) :=
  rdSeekTo_char _ r hb

theorem rdSeekStart_char (p : Nat) (r : Rdr) (hb : IoEv.fail ∉ r.evs) :
    ∃ es, es <:+ r.evs ∧ rdSeekStart p r = (.ok (), ⟨r.data, p, es⟩) := by
  obtain ⟨es, h1, h2⟩ := rdSeekTo_char p r hb
  refine ⟨es, h1, ?_⟩
  rw [rdSeekStart, h2, if_neg (by omega)]
  simp

theorem rdPos_char (r : Rdr) (hb : IoEv.fail ∉ r.evs) :
    ∃ es, es <:+ r.evs ∧ rdPos r = (.ok r.pos, ⟨r.data, r.pos, es⟩) := by
  obtain ⟨es, h1, h2⟩ := rdSeekCur_char 0 r hb
  refine ⟨es, h1, ?_⟩
  unfold rdPos
  rw [h2, if_neg (by omega)]
  simp

theorem fromSlice_char {data : List UInt8} {p : Nat} (h : p + 16 ≤ data.length) :
    Indicator.fromSlice ((data.drop p).take 16) =
      if octet data (p + 7) = 2 then .ok (indicatorAt data p) else .err (.gribVersionMismatch (octet data (p + 7))) := by
  have hl : ((data.drop p).take 16).length = 16 := by rw [List.length_take, List.length_drop]; omega
  have h6 : ((data.drop p).take 16)[6]? = some (data[p + 6]'(by omega)) := by
    rw [List.getElem?_take_of_lt (by omega), List.getElem?_drop, List.getElem?_eq_getElem]
  have h7 : ((data.drop p).take 16)[7]? = some (data[p + 7]'(by omega)) := by
    rw [List.getElem?_take_of_lt (by omega), List.getElem?_drop, List.getElem?_eq_getElem]
  have h8 : readBE? ((data.drop p).take 16) 8 8 = some (number data (p + 8) 8) := by
    simp only [readBE?, slice?, hl, Nat.reduceAdd, Nat.le_refl, if_true, Option.map_some, Option.some.injEq]
    rw [number_eq _ _ _ (by omega), take_drop_prefix (by omega)]
  unfold Indicator.fromSlice
  rw [h6, h7, h8]
  simp only [Outcome.ofOption_some, Outcome.bind_ok]
  rw [octet_eq _ _ (by omega)]
  by_cases hv : data[p + 7].toNat = 2
  · rw [if_neg (by simpa using hv), if_pos hv, indicatorAt, octet_eq _ _ (by omega)]
  · rw [if_pos hv, if_neg hv]

/-- Looking for a message start, when there is one. -/
theorem readSect0Loop_found {fuel off p : Nat} {r : Rdr} (hf : r.data.length - r.pos < fuel) (hb : Benign r.evs)
    (hm : FirstMagic r.data r.pos p) :
    ∃ es, es <:+ r.evs ∧ readSect0Loop fuel off r =
      (if octet r.data (p + 7) = 2 then .ok (some (off + (p - r.pos), indicatorAt r.data p))
        else .err (.gribVersionMismatch (octet r.data (p + 7))), ⟨r.data, p + 16, es⟩) := by
  induction fuel generalizing off r with
  | zero => omega
  | succ f ih =>
    obtain ⟨h1, h2, h3⟩ := hm
    have h2' := h2.2
    rw [readSect0Loop]
    obtain ⟨m, es, m1, m2, m3, m4⟩ := rdRead_benign 4096 r hb
    have hblen : ((r.data.drop r.pos).take m).length = min m (r.data.length - r.pos) := by
      rw [List.length_take, List.length_drop]
    rw [RM.bind_apply, m4]
    simp only [hblen]
    rw [if_neg (by omega)]
    have trans : ∀ q, q + 16 ≤ min m (r.data.length - r.pos) →
        ((((r.data.drop r.pos).take m).drop q).take 4 = magic0 ↔ MagicAt r.data (r.pos + q)) := by
      intro q hq
      rw [take_drop_prefix (by omega), magicAt_iff]
      constructor
      · exact fun h => ⟨by omega, h⟩
      · exact fun h => h.2
    cases hfm : findMagic ((r.data.drop r.pos).take m) with
    | some q =>
      obtain ⟨q1, q2, q3⟩ := findMagic_some (by omega) hfm
      rw [hblen] at q1
      have hq : r.pos + q = p := by
        have hmq := (trans q q1).1 q2
        rcases Nat.lt_trichotomy (r.pos + q) p with hlt | heq | hgt
        · exact absurd hmq (h3 _ (by omega) hlt)
        · exact heq
        · exfalso
          refine q3 (p - r.pos) (by omega) ((trans _ (by omega)).2 ?_)
          rw [show r.pos + (p - r.pos) = p by omega]; exact h2
      simp only
      rw [RM.bind_apply]
      obtain ⟨es', e1, e2⟩ := rdSeekCur_char (((q + 16 : Nat) : Int) - ((min m (r.data.length - r.pos) : Nat) : Int))
        ⟨r.data, r.pos + min m (r.data.length - r.pos), es⟩ (hb.suffix m3).noFail
      rw [e2, if_neg (by simp only; omega)]
      refine ⟨es', e1.trans m3, ?_⟩
      simp only [RM.bind_apply, RM.lift]
      rw [take_drop_prefix (by omega), hq, fromSlice_char h2']
      have hpos : ((r.pos + min m (r.data.length - r.pos) : Nat) + (((q + 16 : Nat) : Int) -
          ((min m (r.data.length - r.pos) : Nat) : Int))).toNat = p + 16 := by omega
      rw [hpos]
      by_cases hv : octet r.data (p + 7) = 2
      · rw [if_pos hv, if_pos hv]
        simp only [RM.pure_apply]
        rw [show p - r.pos = q by omega]
      · rw [if_neg hv, if_neg hv]
    | none =>
      have hn := findMagic_none hfm
      rw [hblen] at hn
      simp only
      rw [RM.bind_apply]
      obtain ⟨es', e1, e2⟩ := rdSeekCur_char
        (((min m (r.data.length - r.pos) - 16 + 1 : Nat) : Int) - ((min m (r.data.length - r.pos) : Nat) : Int))
        ⟨r.data, r.pos + min m (r.data.length - r.pos), es⟩ (hb.suffix m3).noFail
      rw [e2, if_neg (by simp only; omega)]
      simp only
      have hpos : ((r.pos + min m (r.data.length - r.pos) : Nat) + (((min m (r.data.length - r.pos) - 16 + 1 : Nat) : Int) -
          ((min m (r.data.length - r.pos) : Nat) : Int))).toNat = r.pos + (min m (r.data.length - r.pos) - 15) := by
        omega
      rw [hpos]
      have hge : r.pos + (min m (r.data.length - r.pos) - 15) ≤ p := by
        apply Nat.le_of_not_lt
        intro hlt
        refine hn (p - r.pos) (by omega) ((trans _ (by omega)).2 ?_)
        rw [show r.pos + (p - r.pos) = p by omega]; exact h2
      obtain ⟨es'', f1, f2⟩ := ih (off := off + (min m (r.data.length - r.pos) - 16 + 1))
        (r := ⟨r.data, r.pos + (min m (r.data.length - r.pos) - 15), es'⟩) (by simp only; omega)
        (hb.suffix (e1.trans m3)) ⟨hge, h2, fun q hq1 hq2 => h3 q (by simp only at hq1; omega) hq2⟩
      refine ⟨es'', f1.trans (e1.trans m3), ?_⟩
      rw [f2]
      simp only
      rw [show off + (min m (r.data.length - r.pos) - 16 + 1) + (p - (r.pos + (min m (r.data.length - r.pos) - 15))) =
        off + (p - r.pos) by omega]

/-- Looking for a message start, when there is none. -/
theorem readSect0Loop_none {fuel off : Nat} {r : Rdr} (hf : r.data.length - r.pos < fuel) (hb : Benign r.evs)
    (hm : ∀ p, r.pos ≤ p → ¬ MagicAt r.data p) :
    ∃ es, es <:+ r.evs ∧ readSect0Loop fuel off r =
      (.ok none, ⟨r.data, r.pos + (r.data.length - r.pos), es⟩) := by
  induction fuel generalizing off r with
  | zero => omega
  | succ f ih =>
    rw [readSect0Loop]
    obtain ⟨m, es, m1, m2, m3, m4⟩ := rdRead_benign 4096 r hb
    have hblen : ((r.data.drop r.pos).take m).length = min m (r.data.length - r.pos) := by
      rw [List.length_take, List.length_drop]
    rw [RM.bind_apply, m4]
    simp only [hblen]
    by_cases hs : min m (r.data.length - r.pos) < 16
    · rw [if_pos hs]
      exact ⟨es, m3, by simp only [RM.pure_apply, Prod.mk.injEq, true_and, Rdr.mk.injEq, and_true]; omega⟩
    · rw [if_neg hs]
      cases hfm : findMagic ((r.data.drop r.pos).take m) with
      | some q =>
        exfalso
        obtain ⟨q1, q2, q3⟩ := findMagic_some (by omega) hfm
        rw [hblen] at q1
        rw [take_drop_prefix (by omega)] at q2
        exact hm (r.pos + q) (by omega) (magicAt_iff.2 ⟨by omega, q2⟩)
      | none =>
        simp only
        rw [RM.bind_apply]
        obtain ⟨es', e1, e2⟩ := rdSeekCur_char
          (((min m (r.data.length - r.pos) - 16 + 1 : Nat) : Int) - ((min m (r.data.length - r.pos) : Nat) : Int))
          ⟨r.data, r.pos + min m (r.data.length - r.pos), es⟩ (hb.suffix m3).noFail
        rw [e2, if_neg (by simp only; omega)]
        simp only
        have hpos : ((r.pos + min m (r.data.length - r.pos) : Nat) +
            (((min m (r.data.length - r.pos) - 16 + 1 : Nat) : Int) -
            ((min m (r.data.length - r.pos) : Nat) : Int))).toNat = r.pos + (min m (r.data.length - r.pos) - 15) := by
          omega
        rw [hpos]
        obtain ⟨es'', f1, f2⟩ := ih (off := off + (min m (r.data.length - r.pos) - 16 + 1))
          (r := ⟨r.data, r.pos + (min m (r.data.length - r.pos) - 15), es'⟩) (by simp only; omega)
          (hb.suffix (e1.trans m3)) (fun q hq => hm q (by simp only at hq; omega))
        refine ⟨es'', f1.trans (e1.trans m3), ?_⟩
        rw [f2]
        simp only [Prod.mk.injEq, true_and, Rdr.mk.injEq, and_true]
        omega

theorem firstMagic_or_none (data : List UInt8) (pos : Nat) :
    (∃ p, FirstMagic data pos p) ∨ ∀ p, pos ≤ p → ¬ MagicAt data p := by
  cases h : (List.range' pos (data.length - pos)).find? (fun q => decide (MagicAt data q)) with
  | some p =>
    left
    rw [List.find?_eq_some_iff_getElem] at h
    obtain ⟨h1, i, hi, h2, h3⟩ := h
    simp only [List.getElem_range', Nat.one_mul] at h2 h3
    refine ⟨p, by omega, by simpa using h1, ?_⟩
    intro q hq1 hq2
    have := h3 (q - pos) (by omega)
    rw [show pos + (q - pos) = q by omega] at this
    simpa using this
  | none =>
    right
    intro p hp hm
    rw [List.find?_eq_none] at h
    have := hm.2
    exact h p (by rw [List.mem_range'_1]; omega) (by simpa using hm)

/-! ## Blindness to benign schedules -/

/-- The operation does the same on a benign schedule as on a cursor. -/
def Blind (x : RM α) : Prop :=
  ∀ r, Benign r.evs → (x r).1 = (x ⟨r.data, r.pos, []⟩).1 ∧ (x r).2.data = r.data ∧
    (x ⟨r.data, r.pos, []⟩).2 = ⟨r.data, (x r).2.pos, []⟩ ∧ (x r).2.evs <:+ r.evs

theorem Blind.of_char {x : RM α} (o : Rdr → Outcome ParseError α) (p : Rdr → Nat)
    (ho : ∀ r es, o ⟨r.data, r.pos, es⟩ = o r) (hp : ∀ r es, p ⟨r.data, r.pos, es⟩ = p r)
    (h : ∀ r, Benign r.evs → ∃ es, es <:+ r.evs ∧ x r = (o r, ⟨r.data, p r, es⟩)) : Blind x := by
  intro r hb
  obtain ⟨es, h1, h2⟩ := h r hb
  obtain ⟨es', h3, h4⟩ := h ⟨r.data, r.pos, []⟩ Benign.nil
  have : es' = [] := List.suffix_nil.1 h3
  subst this
  rw [h2, h4, ho r [], hp r []]
  exact ⟨rfl, rfl, rfl, h1⟩

theorem Blind.pure (a : α) : Blind (pure a : RM α) := fun _ _ => ⟨rfl, rfl, rfl, List.suffix_refl _⟩

theorem Blind.lift (x : Outcome ParseError α) : Blind (RM.lift x) := fun _ _ => ⟨rfl, rfl, rfl, List.suffix_refl _⟩

theorem Blind.throw (e : ParseError) : Blind (RM.throw e : RM α) := fun _ _ => ⟨rfl, rfl, rfl, List.suffix_refl _⟩

theorem Blind.panic : Blind (RM.panic : RM α) := fun _ _ => ⟨rfl, rfl, rfl, List.suffix_refl _⟩

theorem Blind.mapErr {x : RM α} (hx : Blind x) (f : ParseError → ParseError) : Blind (RM.mapErr f x) := by
  intro r hb
  obtain ⟨h1, h2, h3, h4⟩ := hx r hb
  exact ⟨by simp only [RM.mapErr, h1], h2, h3, h4⟩

theorem Blind.ite {c : Prop} [Decidable c] {x y : RM α} (hx : Blind x) (hy : Blind y) :
    Blind (if c then x else y) := by
  split
  · exact hx
  · exact hy

theorem Blind.bind {x : RM α} {f : α → RM β} (hx : Blind x) (hf : ∀ a, Blind (f a)) : Blind (x >>= f) := by
  intro r hb
  rw [RM.bind_apply, RM.bind_apply]
  obtain ⟨h1, h2, h3, h4⟩ := hx r hb
  rcases hr : x r with ⟨o, r'⟩
  rcases hc : x ⟨r.data, r.pos, []⟩ with ⟨o', c'⟩
  rw [hr] at h1 h2 h3 h4
  rw [hc] at h1 h3
  simp only at h1 h2 h3 h4
  subst h1
  subst h3
  cases o with
  | ok a =>
    obtain ⟨g1, g2, g3, g4⟩ := hf a r' (hb.suffix h4)
    rw [h2] at g1 g2 g3
    exact ⟨g1, g2, g3, g4.trans h4⟩
  | err e => exact ⟨rfl, h2, rfl, h4⟩
  | panic => exact ⟨rfl, h2, rfl, h4⟩

theorem rdRead_blind {n : Nat} (hn : n ≤ 16) : Blind (rdRead n) :=
  Blind.of_char (fun r => .ok ((r.data.drop r.pos).take n)) (fun r => r.pos + min n (r.data.length - r.pos))
    (fun _ _ => rfl) (fun _ _ => rfl) (fun r hb => rdRead_small hn r hb)

theorem rdReadExact_blind (n : Nat) : Blind (rdReadExact n) := by
  refine Blind.of_char
    (fun r => if n ≤ r.data.length - r.pos then .ok ((r.data.drop r.pos).take n) else .err (.readError .unexpectedEof))
    (fun r => if n ≤ r.data.length - r.pos then r.pos + n else r.pos + (r.data.length - r.pos))
    (fun _ _ => rfl) (fun _ _ => rfl) (fun r hb => ?_)
  obtain ⟨es, h1, h2⟩ := rdReadExact_char n r hb.noFail
  refine ⟨es, h1, ?_⟩
  rw [h2]
  split <;> rfl

theorem rdSeekCur_blind (d : Int) : Blind (rdSeekCur d) := by
  refine Blind.of_char
    (fun r => if r.pos + d < 0 then .err (.readError .io) else .ok ())
    (fun r => if r.pos + d < 0 then r.pos else (r.pos + d).toNat)
    (fun _ _ => rfl) (fun _ _ => rfl) (fun r hb => ?_)
  obtain ⟨es, h1, h2⟩ := rdSeekCur_char d r hb.noFail
  refine ⟨es, h1, ?_⟩
  rw [h2]
  split <;> rfl

theorem rdSeekStart_blind (p : Nat) : Blind (rdSeekStart p) :=
  Blind.of_char (fun _ => .ok ()) (fun _ => p) (fun _ _ => rfl) (fun _ _ => rfl)
    (fun r hb => rdSeekStart_char p r hb.noFail)

theorem rdPos_blind : Blind rdPos :=
  Blind.of_char (fun r => .ok r.pos) (fun r => r.pos) (fun _ _ => rfl) (fun _ _ => rfl)
    (fun r hb => rdPos_char r hb.noFail)

theorem readSect0_blind : Blind readSect0 := by
  intro r hb
  unfold readSect0
  rcases firstMagic_or_none r.data r.pos with ⟨p, hp⟩ | hn
  · obtain ⟨es, h1, h2⟩ := readSect0Loop_found (fuel := r.data.length - r.pos + 1) (off := 0) (by omega) hb hp
    obtain ⟨es', h3, h4⟩ := readSect0Loop_found (r := ⟨r.data, r.pos, []⟩) (fuel := r.data.length - r.pos + 1) (off := 0)
      (by simp only; omega) Benign.nil hp
    have : es' = [] := List.suffix_nil.1 h3
    subst this
    simp only at h4
    rw [h2, h4]
    exact ⟨rfl, rfl, rfl, h1⟩
  · obtain ⟨es, h1, h2⟩ := readSect0Loop_none (fuel := r.data.length - r.pos + 1) (off := 0) (by omega) hb hn
    obtain ⟨es', h3, h4⟩ := readSect0Loop_none (r := ⟨r.data, r.pos, []⟩) (fuel := r.data.length - r.pos + 1) (off := 0)
      (by simp only; omega) Benign.nil hn
    have : es' = [] := List.suffix_nil.1 h3
    subst this
    simp only at h4
    rw [h2, h4]
    exact ⟨rfl, rfl, rfl, h1⟩

theorem readSect8_blind : Blind readSect8 := by
  unfold readSect8
  exact Blind.bind (rdRead_blind (by omega)) fun buf => Blind.ite (Blind.pure _)
    (Blind.ite (Blind.throw _) (Blind.ite (Blind.throw _) (Blind.pure _)))

theorem readSectHeader_blind : Blind readSectHeader := by
  unfold readSectHeader
  exact Blind.bind (rdRead_blind (by omega)) fun buf => Blind.ite (Blind.pure _)
    (Blind.ite (Blind.throw _) (Blind.bind (Blind.lift _) fun _ => Blind.bind (Blind.lift _) fun _ => Blind.pure _))

theorem readSectPayload_blind (size num : Nat) : Blind (readSectPayload size num) := by
  unfold readSectPayload
  refine Blind.ite Blind.panic ?_
  simp only
  split
  · exact Blind.bind (rdReadExact_blind _) fun _ => Blind.bind (Blind.lift _) fun _ => Blind.pure _
  · exact Blind.bind (rdReadExact_blind _) fun _ => Blind.pure _
  · exact Blind.bind (rdReadExact_blind _) fun _ => Blind.bind (Blind.lift _) fun _ => Blind.pure _
  · exact Blind.bind (rdReadExact_blind _) fun _ => Blind.bind (Blind.lift _) fun _ => Blind.pure _
  · exact Blind.bind (rdReadExact_blind _) fun _ => Blind.bind (Blind.lift _) fun _ => Blind.pure _
  · exact Blind.bind (rdReadExact_blind _) fun _ => Blind.ite Blind.panic
      (Blind.ite (Blind.bind (rdReadExact_blind _) fun _ => Blind.pure _) (Blind.pure _))
  · exact Blind.bind (rdSeekCur_blind _) fun _ => Blind.pure _
  · exact Blind.throw _

theorem readSectPayloadAsSlice_blind (s : SectionInfo) : Blind (readSectPayloadAsSlice s) := by
  unfold readSectPayloadAsSlice
  exact Blind.bind (rdSeekStart_blind _) fun _ => Blind.ite Blind.panic (rdReadExact_blind _)

theorem nextR_blind (w rest : Nat) : Blind (nextR w rest) := by
  unfold nextR
  refine Blind.ite ?_ (Blind.ite ?_ ?_)
  · unfold nextR0 startR
    refine Blind.bind (Blind.ite (Blind.mapErr rdPos_blind _) (Blind.pure _)) fun w1 =>
      Blind.bind readSect0_blind fun x => ?_
    cases x with
    | none => exact Blind.pure _
    | some q => exact Blind.ite Blind.panic (Blind.pure _)
  · unfold nextR8
    refine Blind.bind readSect8_blind fun x => ?_
    cases x with
    | none => exact Blind.pure _
    | some q => exact Blind.pure _
  · unfold nextRS
    refine Blind.bind readSectHeader_blind fun x => ?_
    cases x with
    | none => exact Blind.pure _
    | some q => exact Blind.bind (readSectPayload_blind _ _) fun _ => Blind.ite Blind.panic (Blind.pure _)

theorem collectR_blind (fuel w rest : Nat) (r : Rdr) (hb : Benign r.evs) :
    (collectR fuel w rest r).1 = (collectR fuel w rest ⟨r.data, r.pos, []⟩).1 ∧
    (collectR fuel w rest r).2.data = r.data ∧
    (collectR fuel w rest ⟨r.data, r.pos, []⟩).2 = ⟨r.data, (collectR fuel w rest r).2.pos, []⟩ := by
  induction fuel generalizing w rest r with
  | zero => exact ⟨rfl, rfl, rfl⟩
  | succ f ih =>
    rw [collectR, collectR]
    obtain ⟨h1, h2, h3, h4⟩ := nextR_blind w rest r hb
    rcases hr : nextR w rest r with ⟨o, r'⟩
    rcases hc : nextR w rest ⟨r.data, r.pos, []⟩ with ⟨o', c'⟩
    rw [hr] at h1 h2 h3 h4
    rw [hc] at h1 h3
    simp only at h1 h2 h3 h4
    subst h1
    subst h3
    cases o with
    | err e => exact ⟨rfl, h2, rfl⟩
    | panic => exact ⟨rfl, h2, rfl⟩
    | ok x =>
      cases x with
      | none => exact ⟨rfl, h2, rfl⟩
      | some q =>
        obtain ⟨s, w', rest'⟩ := q
        obtain ⟨i1, i2, i3⟩ := ih w' rest' r' (hb.suffix h4)
        rw [h2] at i1 i2 i3
        exact ⟨by simp only [i1], i2, i3⟩

end Grib.Model
