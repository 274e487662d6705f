import Verif.Lemmas.Truncate
import Verif.Lemmas.ReaderWalk

/-! # Exactly what the section stream does on a cursor -/

namespace Grib.Model

open Grib.Spec

theorem firstMagic_unique {data : List UInt8} {p q q' : Nat} (h : FirstMagic data p q) (h' : FirstMagic data p q') :
    q = q' := by
  rcases Nat.lt_trichotomy q q' with hl | he | hl
  · exact absurd h.2.1 (h'.2.2 q h.1 hl)
  · exact he
  · exact absurd h'.2.1 (h.2.2 q' h'.1 hl)

theorem readSect0_cursor_edition {data : List UInt8} {pos p : Nat} (hm : FirstMagic data pos p)
    (he : octet data (p + 7) ≠ 2) : ∃ e r', readSect0 ⟨data, pos, []⟩ = (.err e, r') := by
  obtain ⟨es, h1, h2⟩ := readSect0Loop_found (r := ⟨data, pos, []⟩) (fuel := data.length - pos + 1) (off := 0)
    (by simp only; omega) Benign.nil hm
  rw [readSect0, h2, if_neg he]
  exact ⟨_, _, rfl⟩

/-- What reading a payload does. -/
theorem payload_cursor (data : List UInt8) (p size num : Nat) (hp : p + 5 ≤ data.length) :
    (size < 5 → ∃ r', readSectPayload size num ⟨data, p + 5, []⟩ = (.panic, r')) ∧
    (5 ≤ size → num = 7 → readSectPayload size num ⟨data, p + 5, []⟩ = (.ok .section7, ⟨data, p + size, []⟩)) ∧
    (num = 6 → size = 5 → p + 6 ≤ data.length → ∃ r', readSectPayload size num ⟨data, p + 5, []⟩ = (.panic, r')) ∧
    (num = 6 → size = 5 → ¬ p + 6 ≤ data.length → ∃ e r', readSectPayload size num ⟨data, p + 5, []⟩ = (.err e, r')) ∧
    (5 ≤ size → 1 ≤ num → num ≤ 6 → p + size ≤ data.length → minPayload num ≤ size - 5 →
      ∃ b, BodyAt data p size num (some b) ∧
        readSectPayload size num ⟨data, p + 5, []⟩ = (.ok b, ⟨data, p + size, []⟩)) ∧
    (5 ≤ size → 1 ≤ num → num ≤ 6 → ¬ (num = 6 ∧ size = 5) → ¬ (p + size ≤ data.length ∧ minPayload num ≤ size - 5) →
      ∃ e r', readSectPayload size num ⟨data, p + 5, []⟩ = (.err e, r')) ∧
    (5 ≤ size → num = 0 ∨ 8 ≤ num → ∃ e r', readSectPayload size num ⟨data, p + 5, []⟩ = (.err e, r')) := by
  refine ⟨?_, ?_, ?_, ?_, ?_, ?_, ?_⟩
  · intro h
    rw [readSectPayload, if_pos h]
    exact ⟨_, rfl⟩
  · rintro h rfl
    rw [readSectPayload, if_neg (by omega)]
    simp only [skipSect7Payload, RM.bind_apply, rdSeekCur_cursor, RM.pure_apply]
    rw [show p + 5 + (size - 5) = p + size by omega]
  · rintro rfl rfl h
    rw [readSectPayload, if_neg (by omega)]
    simp only [readSect6Payload, RM.bind_apply]
    rw [rdReadExact_cursor (by omega)]
    exact ⟨_, rfl⟩
  · rintro rfl rfl h
    rw [readSectPayload, if_neg (by omega)]
    simp only [readSect6Payload, RM.bind_apply]
    obtain ⟨r', hr'⟩ := rdReadExact_cursor_short (data := data) (pos := p + 5) (n := 1) (by omega)
    rw [hr']
    exact ⟨_, _, rfl⟩
  · intro h5 h1 h6 hl hm
    have hlen : ((data.drop (p + 5)).take (size - 5)).length = size - 5 := by
      rw [List.length_take, List.length_drop]; omega
    obtain ⟨b, hb1, hb2⟩ := readSectPayload_cursor (data := data) (payload := (data.drop (p + 5)).take (size - 5))
      (pos := p + 5) (num := num) h1 (by omega) (by rw [hlen]) (by rw [hlen]; exact hm)
    rw [hlen, show size - 5 + 5 = size by omega, show p + 5 + (size - 5) = p + size by omega] at hb2
    refine ⟨b, ?_, hb2⟩
    have hc : num = 1 ∨ num = 2 ∨ num = 3 ∨ num = 4 ∨ num = 5 ∨ num = 6 := by omega
    rcases hc with rfl | rfl | rfl | rfl | rfl | rfl
    all_goals (simp only [bodyOf] at hb1; simp only [BodyAt])
    iterate 5 exact hb1.symm
    rw [← hb1]
    have hm1 : 1 ≤ size - 5 := hm
    have hlt : p + 5 < data.length := by omega
    rw [octet_eq _ _ hlt, List.drop_eq_getElem_cons hlt]
    obtain ⟨k, hk⟩ : ∃ k, size - 5 = k + 1 := ⟨size - 6, by omega⟩
    rw [hk]
    rfl
  · intro h5 h1 h6 hne hbad
    by_cases hl : p + size ≤ data.length
    · have hm : ¬ minPayload num ≤ size - 5 := fun h => hbad ⟨hl, h⟩
      have hex := rdReadExact_cursor (data := data) (pos := p + 5) (n := size - 5) (by omega)
      have hlen : ((data.drop (p + 5)).take (size - 5)).length = size - 5 := by
        rw [List.length_take, List.length_drop]; omega
      have hchk : ∀ m, ¬ m ≤ size - 5 → ∃ e, checkPayload m ((data.drop (p + 5)).take (size - 5)) = .err e := by
        intro m hm
        rw [checkPayload, hlen, if_pos (by omega)]
        exact ⟨_, rfl⟩
      rw [readSectPayload, if_neg (by omega)]
      have hc : num = 1 ∨ num = 2 ∨ num = 3 ∨ num = 4 ∨ num = 5 ∨ num = 6 := by omega
      rcases hc with rfl | rfl | rfl | rfl | rfl | rfl
      · obtain ⟨e, he⟩ := hchk 16 hm
        simp only [RM.bind_apply, hex, RM.lift, he]
        exact ⟨_, _, rfl⟩
      · simp [minPayload] at hm
      · obtain ⟨e, he⟩ := hchk 9 hm
        simp only [RM.bind_apply, hex, RM.lift, he]
        exact ⟨_, _, rfl⟩
      · obtain ⟨e, he⟩ := hchk 4 hm
        simp only [RM.bind_apply, hex, RM.lift, he]
        exact ⟨_, _, rfl⟩
      · obtain ⟨e, he⟩ := hchk 6 hm
        simp only [RM.bind_apply, hex, RM.lift, he]
        exact ⟨_, _, rfl⟩
      · simp only [minPayload] at hm
        omega
    · obtain ⟨r', hr'⟩ := readSectPayload_cursor_short (data := data) (pos := p + 5) (num := num) (size := size) h1 h6 h5
        (by omega)
      exact ⟨_, _, hr'⟩
  · intro h5 hn
    rw [readSectPayload, if_neg (by omega)]
    match num, hn with
    | 0, _ => exact ⟨_, _, rfl⟩
    | n + 8, _ => exact ⟨_, _, rfl⟩

/-- A step of the stream on a cursor panics exactly on the lengths of `Crash`. -/
theorem nextR_crash_iff {data : List UInt8} {w rest p t : Nat} (hi : Inv w rest p t) :
    (∃ r', nextR w rest ⟨data, p, []⟩ = (.panic, r')) ↔ Crash data p t := by
  have ht := hi.1
  unfold nextR Crash
  by_cases h0 : rest = 0
  · subst h0
    have htp : p = t := by omega
    rw [if_pos rfl, if_pos htp, nextR0, RM.bind_apply, startR_cursor (by rcases hi.2 with h | h <;> omega)]
    simp only
    rw [RM.bind_apply]
    rcases firstMagic_or_none data p with ⟨q, hq⟩ | hn
    · by_cases he : octet data (q + 7) = 2
      · rw [readSect0_cursor_found hq he]
        have etl : (indicatorAt data q).totalLength = number data (q + 8) 8 := rfl
        dsimp only
        have := hq.1
        rw [show p + (q - p) = q by omega]
        constructor
        · rintro ⟨r', h⟩
          refine ⟨q, hq, he, ?_⟩
          split at h
          · rename_i hc; simp only [USIZE, etl] at hc; omega
          · simp [RM.pure_apply] at h
        · rintro ⟨q', hq', he', hb⟩
          obtain rfl := firstMagic_unique hq hq'
          rw [if_pos (by simp only [USIZE, etl]; omega)]
          exact ⟨_, rfl⟩
      · obtain ⟨e, r', hr'⟩ := readSect0_cursor_edition hq he
        rw [hr']
        constructor
        · rintro ⟨r', h⟩; simp at h
        · rintro ⟨q', hq', he', -⟩
          obtain rfl := firstMagic_unique hq hq'
          exact absurd he' he
    · rw [readSect0_cursor_none hn]
      constructor
      · rintro ⟨r', h⟩; simp [RM.pure_apply] at h
      · rintro ⟨q, hq, -⟩
        exact absurd hq.2.1 (hn q hq.1)
  · rw [if_neg h0, if_neg (show ¬ p = t by omega)]
    by_cases h4 : rest = 4
    · rw [if_pos h4, nextR8, RM.bind_apply]
      constructor
      · rintro ⟨r', h⟩
        exfalso
        rcases h8 : readSect8 ⟨data, p, []⟩ with ⟨o, r1⟩
        rw [h8] at h
        cases o with
        | ok x => cases x <;> simp [RM.pure_apply] at h
        | err e => simp at h
        | panic => exact readSect8_noPanic _ _ h8
      · rintro ⟨h, -⟩; omega
    · rw [if_neg h4, nextRS, RM.bind_apply]
      by_cases hl : p + 5 ≤ data.length
      · rw [readSectHeader_cursor hl]
        simp only
        rw [RM.bind_apply]
        obtain ⟨c1, c2, c3, c4, c5, c6, c7⟩ := payload_cursor data p (number data p 4) (octet data (p + 4)) hl
        generalize number data p 4 = size at *
        generalize octet data (p + 4) = num at *
        by_cases s5 : size < 5
        · obtain ⟨r', hr'⟩ := c1 s5
          rw [hr']
          exact ⟨fun _ => ⟨by omega, hl, Or.inl s5⟩, fun _ => ⟨_, rfl⟩⟩
        · have s5' : 5 ≤ size := by omega
          by_cases n7 : num = 7
          · rw [c2 s5' n7]
            simp only
            split
            · exact ⟨fun _ => ⟨by omega, hl, Or.inr (Or.inr ⟨by omega, Or.inl n7⟩)⟩, fun _ => ⟨_, rfl⟩⟩
            · constructor
              · rintro ⟨r', h⟩; simp [RM.pure_apply] at h
              · rintro ⟨-, -, h⟩; omega
          · by_cases n6 : num = 6 ∧ size = 5
            · by_cases hl6 : p + 6 ≤ data.length
              · obtain ⟨r', hr'⟩ := c3 n6.1 n6.2 hl6
                rw [hr']
                exact ⟨fun _ => ⟨by omega, hl, Or.inr (Or.inl ⟨n6.1, n6.2, hl6⟩)⟩, fun _ => ⟨_, rfl⟩⟩
              · obtain ⟨e, r', hr'⟩ := c4 n6.1 n6.2 hl6
                rw [hr']
                constructor
                · rintro ⟨r', h⟩; simp at h
                · rintro ⟨-, -, h | h | ⟨-, h | ⟨-, -, -, h⟩⟩⟩
                  · omega
                  · omega
                  · omega
                  · rw [n6.1, n6.2] at h; simp [minPayload] at h
            · by_cases hn : num = 0 ∨ 8 ≤ num
              · obtain ⟨e, r', hr'⟩ := c7 s5' hn
                rw [hr']
                constructor
                · rintro ⟨r', h⟩; simp at h
                · rintro ⟨-, -, h⟩; omega
              · by_cases hg : p + size ≤ data.length ∧ minPayload num ≤ size - 5
                · obtain ⟨b, -, hb⟩ := c5 s5' (by omega) (by omega) hg.1 hg.2
                  rw [hb]
                  simp only
                  split
                  · exact ⟨fun _ => ⟨by omega, hl, Or.inr (Or.inr ⟨by omega, Or.inr ⟨by omega, by omega, hg⟩⟩)⟩, fun _ => ⟨_, rfl⟩⟩
                  · constructor
                    · rintro ⟨r', h⟩; simp [RM.pure_apply] at h
                    · rintro ⟨-, -, h⟩; omega
                · obtain ⟨e, r', hr'⟩ := c6 s5' (by omega) (by omega) n6 hg
                  rw [hr']
                  constructor
                  · rintro ⟨r', h⟩; simp at h
                  · rintro ⟨-, -, h | h | ⟨-, h | ⟨-, -, h⟩⟩⟩
                    · omega
                    · omega
                    · omega
                    · exact absurd h hg
      · constructor
        · rintro ⟨r', h⟩
          exfalso
          obtain ⟨r1, h1 | h1⟩ := readSectHeader_cursor_short (data := data) (pos := p) (by omega)
          · rw [h1] at h; simp [RM.pure_apply] at h
          · rw [h1] at h; simp at h
        · rintro ⟨-, h, -⟩; exact absurd h hl


theorem nextR_walk8 {data : List UInt8} {w rest off : Nat} (f2 : Octets data off [0x37, 0x37, 0x37, 0x37]) (h4 : rest = 4) :
    nextR w rest ⟨data, off, []⟩ = (.ok (some (⟨8, w - 4, 4, none⟩, w, rest - 4)), ⟨data, off + 4, []⟩) := by
  subst h4
  obtain ⟨g1, g2⟩ := f2
  simp only [List.length_cons, List.length_nil, Nat.zero_add] at g1 g2
  have h8 : readSect8 ⟨data, off, []⟩ = (.ok (some ()), ⟨data, off + 4, []⟩) := by
    unfold readSect8
    rw [RM.bind_apply, rdRead_cursor (by omega), show off + min 4 (data.length - off) = off + 4 by omega]
    have : (data.drop off).take 4 = magic8 := g2
    simp only
    rw [this]
    rfl
  unfold nextR
  rw [if_neg (by omega), if_pos rfl, nextR8, RM.bind_apply, h8]
  rfl

theorem nextR_walkS {data : List UInt8} {w rest num off size : Nat} {body : Option SectionBody}
    (hf : Faithful data ⟨num, off, size, body⟩) (h2 : num ≠ 0) (h7 : num ≤ 7) (h0 : rest ≠ 0) (hne : rest ≠ 4)
    (hr : size ≤ rest) :
    nextR w rest ⟨data, off, []⟩ = (.ok (some (⟨num, w - rest, size, body⟩, w, rest - size)), ⟨data, off + size, []⟩) := by
  obtain ⟨f1, f2, f3, f4⟩ := hf.header (by simp only; omega) h7
  simp only at f1 f2 f3 f4
  obtain ⟨-, c2, -, -, c5, -, -⟩ := payload_cursor data off size num f4
  have hpay : ∃ b, body = some b ∧ readSectPayload size num ⟨data, off + 5, []⟩ = (.ok b, ⟨data, off + size, []⟩) := by
    by_cases h77 : num = 7
    · refine ⟨_, ?_, c2 f1 h77⟩
      have hb := hf.body
      simp only [h77, BodyAt] at hb
      exact hb
    · obtain ⟨w1, w2⟩ := hf.whole (by simp only; omega)
      simp only at w1 w2
      obtain ⟨b, hb1, hb2⟩ := c5 f1 (by omega) (by omega) w1 (w2 h2)
      refine ⟨b, ?_, hb2⟩
      have hb := hf.body
      simp only at hb
      have hc : num = 1 ∨ num = 2 ∨ num = 3 ∨ num = 4 ∨ num = 5 ∨ num = 6 := by omega
      rcases hc with rfl | rfl | rfl | rfl | rfl | rfl <;> exact Eq.trans hb (Eq.symm hb1)
  clear c2 c5
  obtain ⟨b, rfl, hb2⟩ := hpay
  unfold nextR
  rw [if_neg h0, if_neg hne, nextRS, RM.bind_apply, readSectHeader_cursor f4]
  simp only [f2, f3]
  rw [RM.bind_apply, hb2]
  simp only
  rw [if_neg (by omega)]
  rfl

/-- A section that is next in the walk is the one the stream reports. -/
theorem nextR_walk {data : List UInt8} {w rest p t p' t' : Nat} {s : SectionInfo} {ss : List SectionInfo}
    (hi : Inv w rest p t) (hw : Walk data p t (s :: ss) p' t') (hf : Faithful data s) (ha : Addressable data s) :
    ∃ w' rest' t1, nextR w rest ⟨data, p, []⟩ = (.ok (some (s, w', rest')), ⟨data, s.offset + s.size, []⟩) ∧
      Inv w' rest' (s.offset + s.size) t1 ∧ Walk data (s.offset + s.size) t1 ss p' t' := by
  have ht := hi.1
  obtain ⟨num, off, size, body⟩ := s
  cases hw with
  | message h1 h2 h3 h4 =>
    simp only at h1 h2 h3 h4
    subst h1
    obtain ⟨f1, f2, f3⟩ := hf.sect0 rfl
    simp only at f1 f2 f3
    subst f1
    have hb := hf.body
    simp only [BodyAt] at hb
    have hA := ha rfl
    simp only at hA
    have h0 : rest = 0 := by omega
    subst h0
    refine ⟨off + number data (off + 8) 8, number data (off + 8) 8 - 16, off + number data (off + 8) 8, ?_, ?_, h4⟩
    · unfold nextR
      rw [if_pos rfl, nextR0, RM.bind_apply, startR_cursor (by rcases hi.2 with h | h <;> omega)]
      simp only
      rw [RM.bind_apply, readSect0_cursor_found h2 f3]
      have etl : (indicatorAt data off).totalLength = number data (off + 8) 8 := rfl
      dsimp only
      have := h2.1
      rw [show p + (off - p) = off by omega, if_neg (by simp only [USIZE, etl]; omega)]
      rw [hb]
      rfl
    · exact ⟨by simp only; omega, Or.inl rfl⟩
  | sect h1 h2 h3 h4 h5 h6 =>
    simp only at h2 h3 h4 h5 h6
    subst h3
    have h0 : rest ≠ 0 := by omega
    have hw' : w = t := by rcases hi.2 with h | h <;> omega
    by_cases h8 : num = 8
    · subst h8
      have h4' : rest = 4 := by have := h5.1 rfl; omega
      obtain ⟨f1, f2⟩ := hf.sect8 rfl
      simp only at f1 f2
      subst f1
      refine ⟨w, rest - 4, t, ?_, ⟨by simp only; omega, Or.inl hw'⟩, h6⟩
      have hb := hf.body
      simp only [BodyAt] at hb
      rw [nextR_walk8 f2 h4', hb, show w - 4 = off by omega]
    · have h7 : num ≤ 7 := by have := hf.num; simp only at this; omega
      have hne : rest ≠ 4 := by intro h; exact h8 (h5.2 (by omega))
      refine ⟨w, rest - size, t, ?_, ⟨by simp only; omega, Or.inl hw'⟩, h6⟩
      rw [nextR_walkS (rest := rest) hf h2 h7 h0 hne (by omega)]
      rw [show w - rest = off by omega]

theorem steps_walk {data : List UInt8} {w rest p t p' t' : Nat} {sects : List SectionInfo} (hi : Inv w rest p t)
    (hw : Walk data p t sects p' t') (hf : ∀ s ∈ sects, Faithful data s ∧ Addressable data s) :
    ∃ w' rest', Steps w rest ⟨data, p, []⟩ sects w' rest' ⟨data, p', []⟩ ∧ Inv w' rest' p' t' := by
  induction sects generalizing w rest p t with
  | nil => cases hw; exact ⟨w, rest, Steps.nil _ _ _, hi⟩
  | cons s ss ih =>
    obtain ⟨h1, h2⟩ := hf s (by simp)
    obtain ⟨w1, rest1, t1, a1, a2, a3⟩ := nextR_walk hi hw h1 h2
    obtain ⟨w', rest', b1, b2⟩ := ih a2 a3 fun x hx => hf x (List.mem_cons_of_mem _ hx)
    exact ⟨w', rest', Steps.cons a1 b1, b2⟩

/-- The data end here: between messages no message start follows, inside a message no octet is left. -/
def EndsAt (data : List UInt8) (p t : Nat) : Prop :=
  if p = t then ∀ q, p ≤ q → ¬ MagicAt data q else data.length ≤ p

theorem nextR_none_iff {data : List UInt8} {w rest p t : Nat} (hi : Inv w rest p t) :
    (∃ r', nextR w rest ⟨data, p, []⟩ = (.ok none, r')) ↔ EndsAt data p t := by
  have ht := hi.1
  unfold nextR EndsAt
  by_cases h0 : rest = 0
  · subst h0
    have htp : p = t := by omega
    rw [if_pos rfl, if_pos htp, nextR0, RM.bind_apply, startR_cursor (by rcases hi.2 with h | h <;> omega)]
    simp only
    rw [RM.bind_apply]
    rcases firstMagic_or_none data p with ⟨q, hq⟩ | hn
    · refine ⟨?_, fun h => absurd hq.2.1 (h q hq.1)⟩
      rintro ⟨r', h⟩
      exfalso
      by_cases he : octet data (q + 7) = 2
      · rw [readSect0_cursor_found hq he] at h
        dsimp only at h
        split at h
        · simp [RM.panic] at h
        · simp [RM.pure_apply] at h
      · obtain ⟨e, r', hr'⟩ := readSect0_cursor_edition hq he
        rw [hr'] at h
        simp at h
    · rw [readSect0_cursor_none hn]
      exact ⟨fun _ => hn, fun _ => ⟨_, rfl⟩⟩
  · rw [if_neg h0, if_neg (show ¬ p = t by omega)]
    constructor
    · rintro ⟨r', h⟩
      by_cases h4 : rest = 4
      · rw [if_pos h4, nextR8, RM.bind_apply, readSect8, RM.bind_apply, rdRead_cursor (by omega)] at h
        simp only at h
        have hl : ((data.drop p).take 4).length = min 4 (data.length - p) := by simp
        rw [hl] at h
        by_cases hz : min 4 (data.length - p) = 0
        · omega
        · rw [if_neg hz] at h
          by_cases hz2 : min 4 (data.length - p) ≠ 4
          · rw [if_pos hz2] at h; simp [RM.throw] at h
          · rw [if_neg hz2] at h
            split at h
            · rename_i x heq
              split at heq
              · simp [RM.throw] at heq
              · simp only [RM.pure_apply, Prod.mk.injEq, Outcome.ok.injEq] at heq
                obtain ⟨rfl, rfl⟩ := heq
                simp [RM.pure_apply] at h
            · simp at h
            · simp at h
      · rw [if_neg h4, nextRS, RM.bind_apply] at h
        by_cases hl : p + 5 ≤ data.length
        · exfalso
          rw [readSectHeader_cursor hl] at h
          simp only at h
          rw [RM.bind_apply] at h
          rcases hx : readSectPayload (number data p 4) (octet data (p + 4)) ⟨data, p + 5, []⟩ with ⟨o, r1⟩
          rw [hx] at h
          cases o with
          | ok b =>
            simp only at h
            split at h
            · simp [RM.panic] at h
            · simp [RM.pure_apply] at h
          | err e => simp at h
          | panic => simp at h
        · rw [readSectHeader, RM.bind_apply, rdRead_cursor (by omega)] at h
          have hlen : ((data.drop p).take 5).length = min 5 (data.length - p) := by simp
          simp only [hlen] at h
          by_cases hz : min 5 (data.length - p) = 0
          · omega
          · rw [if_neg hz, if_pos (by omega)] at h
            simp [RM.throw] at h
    · intro h
      obtain ⟨r', hr'⟩ := nextR_beyond (w := w) h h0
      unfold nextR at hr'
      rw [if_neg h0] at hr'
      exact ⟨r', hr'⟩

/-- Everything the stream does on a cursor. -/
theorem collectR_cursor {data : List UInt8} {fuel w rest p t : Nat} (hi : Inv w rest p t)
    (hf : (data.length - p) / 4 < fuel) :
    ∃ sects tail p' t', (collectR fuel w rest ⟨data, p, []⟩).1 = sects.map .ok ++ tail ∧
      Walk data p t sects p' t' ∧ (∀ s ∈ sects, Faithful data s ∧ Addressable data s) ∧
      ((tail = [] ∧ EndsAt data p' t') ∨ (∃ e, tail = [.err e]) ∨ (tail = [.panic] ∧ Crash data p' t')) := by
  induction fuel generalizing w rest p t with
  | zero => omega
  | succ f ih =>
    rw [collectR]
    rcases hn : nextR w rest ⟨data, p, []⟩ with ⟨o, r'⟩
    cases o with
    | err e => exact ⟨[], [.err e], _, _, rfl, Walk.nil _ _, by simp, Or.inr (Or.inl ⟨e, rfl⟩)⟩
    | panic =>
      exact ⟨[], [.panic], _, _, rfl, Walk.nil _ _, by simp, Or.inr (Or.inr ⟨rfl, (nextR_crash_iff hi).1 ⟨_, hn⟩⟩)⟩
    | ok x =>
      cases x with
      | none => exact ⟨[], [], _, _, rfl, Walk.nil _ _, by simp, Or.inl ⟨rfl, (nextR_none_iff hi).1 ⟨_, hn⟩⟩⟩
      | some q =>
        obtain ⟨s, w', rest'⟩ := q
        obtain ⟨a1, a2, a3, a4, a5, stop', a6, a7⟩ := nextR_some (r := ⟨data, p, []⟩) hi hn
        simp only at a1 a2 a3 a4 a5 a6 a7
        have hev : r' = ⟨data, r'.pos, []⟩ := by
          obtain ⟨-, c, h2, -⟩ := nextR_honest w rest ⟨data, p, []⟩
          rw [hn] at h2
          simp only at h2
          have : r'.evs = [] := (List.append_eq_nil_iff.1 h2.symm).2
          obtain ⟨d, q, es⟩ := r'
          simp only at a1 this
          rw [a1, this]
        have hadd : Addressable data s := by
          intro hs0
          have hw1 := a7 [] _ _ (Walk.nil _ _)
          have hnc : ¬ Crash data p t := by
            intro hc
            obtain ⟨r1, hr1⟩ := (nextR_crash_iff hi).2 hc
            rw [hn] at hr1
            simp at hr1
          cases hw1 with
          | sect _ h _ _ _ _ => exact absurd hs0 h
          | message h1 h2 h3 h4 =>
            unfold Crash at hnc
            rw [if_pos rfl] at hnc
            apply Nat.lt_of_not_le
            intro hle
            exact hnc ⟨_, h2, (a5.sect0 hs0).2.2, Or.inr hle⟩
        obtain ⟨sects, tail, p', t', b1, b2, b3, b4⟩ := ih a6 (by omega)
        rw [hev]
        refine ⟨s :: sects, tail, p', t', by simp [b1], a7 _ _ _ b2, ?_, b4⟩
        intro x hx
        rcases List.mem_cons.1 hx with rfl | hx
        · exact ⟨a5, hadd⟩
        · exact b3 x hx

theorem inv_start (p : Nat) : Inv 0 0 p p := ⟨by omega, Or.inr ⟨rfl, rfl⟩⟩

theorem itemsR_cursor (data : List UInt8) (p : Nat) :
    ∃ sects tail p' t', (itemsR ⟨data, p, []⟩).1 = sects.map .ok ++ tail ∧
      Walk data p p sects p' t' ∧ (∀ s ∈ sects, Faithful data s ∧ Addressable data s) ∧
      ((tail = [] ∧ EndsAt data p' t') ∨ (∃ e, tail = [.err e]) ∨ (tail = [.panic] ∧ Crash data p' t')) :=
  collectR_cursor (fuel := data.length + 2) (inv_start p) (by omega)

/-- The stream follows any walk over sections that are what the file says. -/
theorem itemsR_of_walk {data : List UInt8} {p p' t' : Nat} {sects : List SectionInfo} (hw : Walk data p p sects p' t')
    (hf : ∀ s ∈ sects, Faithful data s ∧ Addressable data s) :
    (EndsAt data p' t' → (itemsR ⟨data, p, []⟩).1 = sects.map .ok) ∧
    (Crash data p' t' → (itemsR ⟨data, p, []⟩).1 = sects.map .ok ++ [.panic]) := by
  obtain ⟨w', rest', h1, h2⟩ := steps_walk (inv_start p) hw hf
  have hc := h1.collect (data.length + 2)
  rw [collectR_fuel (fuel := data.length + 2) (r := ⟨data, p, []⟩) (inv_start p) (by simp only; omega)
    (Nat.le_add_left _ _)] at hc
  have hi : (itemsR ⟨data, p, []⟩).1 = sects.map .ok ++ (collectR (data.length + 2) w' rest' ⟨data, p', []⟩).1 := by
    show (collectR (data.length + 2) 0 0 ⟨data, p, []⟩).1 = _
    rw [hc]
  rw [hi]
  refine ⟨fun he => ?_, fun he => ?_⟩
  · obtain ⟨r', hr'⟩ := (nextR_none_iff h2).2 he
    rw [collectR_none hr', List.append_nil]
  · obtain ⟨r', hr'⟩ := (nextR_crash_iff h2).2 he
    rw [collectR, hr']

end Grib.Model
