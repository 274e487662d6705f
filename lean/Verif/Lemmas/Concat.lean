import Verif.Props.Opening
import Verif.Lemmas.FromSub

/-! # What the octets say in data put behind other data -/

namespace Grib.Model

open Grib.Spec Grib.Props

variable {A B : List UInt8}

/-- The section at `n` octets further on. -/
def SectionInfo.later (n : Nat) (s : SectionInfo) : SectionInfo := { s with offset := s.offset + n }

theorem octet_left {p : Nat} (h : p < A.length) : octet (A ++ B) p = octet A p := by
  simp [octet, List.getD_eq_getElem?_getD, List.getElem?_append_left h]

theorem octet_right (p : Nat) : octet (A ++ B) (p + A.length) = octet B p := by
  simp [octet, List.getD_eq_getElem?_getD, List.getElem?_append_right]

theorem number_congr {a b : List UInt8} {p q n : Nat} (h : ∀ k, k < n → octet a (p + k) = octet b (q + k)) :
    number a p n = number b q n := by
  unfold number
  have : ∀ (l : List Nat) (acc : Nat), (∀ k ∈ l, k < n) →
      l.foldl (fun acc k => acc * 256 + octet a (p + k)) acc = l.foldl (fun acc k => acc * 256 + octet b (q + k)) acc := by
    intro l
    induction l with
    | nil => intro acc _; rfl
    | cons x xs ih =>
      intro acc hl
      simp only [List.foldl_cons]
      rw [h x (hl x (by simp)), ih _ (fun k hk => hl k (by simp [hk]))]
  exact this _ _ (fun k hk => by simpa using hk)

theorem number_left {p n : Nat} (h : p + n ≤ A.length) : number (A ++ B) p n = number A p n :=
  number_congr fun k hk => octet_left (by omega)

theorem number_right (p n : Nat) : number (A ++ B) (p + A.length) n = number B p n :=
  number_congr fun k _ => by rw [show p + A.length + k = p + k + A.length by omega, octet_right]

theorem piece_left {p n : Nat} (h : p + n ≤ A.length) : ((A ++ B).drop p).take n = (A.drop p).take n := by
  rw [List.drop_append_of_le_length (by omega), List.take_append_of_le_length (by simp; omega)]

theorem drop_right (p : Nat) : (A ++ B).drop (p + A.length) = B.drop p := by
  rw [List.drop_append, List.drop_of_length_le (by omega), List.nil_append]
  congr 1; omega

theorem octets_left {p : Nat} {bs : List UInt8} (h : p + bs.length ≤ A.length) : Octets (A ++ B) p bs ↔ Octets A p bs := by
  unfold Octets
  rw [piece_left h, List.length_append]
  constructor
  · rintro ⟨-, h2⟩; exact ⟨h, h2⟩
  · rintro ⟨-, h2⟩; exact ⟨by omega, h2⟩

theorem octets_right (p : Nat) (bs : List UInt8) : Octets (A ++ B) (p + A.length) bs ↔ Octets B p bs := by
  unfold Octets
  rw [drop_right, List.length_append]
  constructor <;> rintro ⟨h1, h2⟩ <;> exact ⟨by omega, h2⟩

theorem magicAt_left {p : Nat} (h : p + 16 ≤ A.length) : MagicAt (A ++ B) p ↔ MagicAt A p := by
  unfold MagicAt
  rw [octets_left (by simp; omega), List.length_append]
  constructor <;> rintro ⟨h1, h2⟩ <;> exact ⟨h1, by omega⟩

theorem magicAt_right (p : Nat) : MagicAt (A ++ B) (p + A.length) ↔ MagicAt B p := by
  unfold MagicAt
  rw [octets_right, List.length_append]
  constructor <;> rintro ⟨h1, h2⟩ <;> exact ⟨h1, by omega⟩

theorem firstMagic_left {p q : Nat} (h : FirstMagic A p q) : FirstMagic (A ++ B) p q := by
  obtain ⟨h1, h2, h3⟩ := h
  refine ⟨h1, (magicAt_left h2.2).2 h2, fun x hx hq hm => h3 x hx hq ?_⟩
  have := h2.2
  exact (magicAt_left (by omega)).1 hm

theorem firstMagic_right {p q : Nat} : FirstMagic (A ++ B) (p + A.length) (q + A.length) ↔ FirstMagic B p q := by
  unfold FirstMagic
  rw [magicAt_right]
  constructor
  · rintro ⟨h1, h2, h3⟩
    refine ⟨by omega, h2, fun x hx hq hm => h3 (x + A.length) (by omega) (by omega) ((magicAt_right x).2 hm)⟩
  · rintro ⟨h1, h2, h3⟩
    refine ⟨by omega, h2, fun x hx hq hm => h3 (x - A.length) (by omega) (by omega) ?_⟩
    rw [← magicAt_right (A := A), show x - A.length + A.length = x by omega]
    exact hm

/-- A search that meets no message start before the junction is a search from the junction. -/
theorem firstMagic_skip {data : List UInt8} {p p' q : Nat} (hp : p ≤ p') (h : ∀ x, p ≤ x → x < p' → ¬ MagicAt data x) :
    FirstMagic data p q ↔ FirstMagic data p' q := by
  constructor
  · rintro ⟨h1, h2, h3⟩
    refine ⟨?_, h2, fun x hx hq => h3 x (by omega) hq⟩
    apply Classical.byContradiction
    intro hc
    exact h q h1 (by omega) h2
  · rintro ⟨h1, h2, h3⟩
    refine ⟨by omega, h2, fun x hx hq => ?_⟩
    by_cases hc : x < p'
    · exact h x hx hc
    · exact h3 x (by omega) hq

/-! ## Sections -/

theorem bodyAt_right (p size n : Nat) (b : Option SectionBody) :
    BodyAt (A ++ B) (p + A.length) size n b ↔ BodyAt B p size n b := by
  have e : ∀ k, p + A.length + k = p + k + A.length := fun k => by omega
  unfold BodyAt
  split <;> simp only [e, octet_right, number_right, drop_right]

theorem bodyAt_left {p size n : Nat} {b : Option SectionBody} (h16 : n = 0 → p + 16 ≤ A.length)
    (h : 1 ≤ n → n ≤ 6 → p + size ≤ A.length ∧ 5 ≤ size) (h6 : n = 6 → p + 6 ≤ A.length) :
    BodyAt (A ++ B) p size n b ↔ BodyAt A p size n b := by
  unfold BodyAt
  split
  · have := h16 rfl
    rw [octet_left (by omega), number_left (by omega)]
  · have := h (by decide) (by decide); rw [piece_left (by omega)]
  · have := h (by decide) (by decide); rw [piece_left (by omega)]
  · have := h (by decide) (by decide); rw [piece_left (by omega)]
  · have := h (by decide) (by decide); rw [piece_left (by omega)]
  · have := h (by decide) (by decide); rw [piece_left (by omega)]
  · have := h6 rfl; rw [octet_left (by omega)]
  · rfl
  · rfl

theorem faithful_later {s : SectionInfo} : Faithful (A ++ B) (s.later A.length) ↔ Faithful B s := by
  have e : ∀ k, s.offset + A.length + k = s.offset + k + A.length := fun k => by omega
  constructor
  · rintro ⟨h1, h2, h3, h4, h5, h6⟩
    simp only [SectionInfo.later] at *
    simp only [e, bodyAt_right, magicAt_right, octet_right, octets_right, number_right, List.length_append] at *
    refine ⟨h1, h2, h3, h4, fun a b => ?_, fun a => ?_⟩
    · have := h5 a b; exact ⟨this.1, this.2.1, this.2.2.1, by omega⟩
    · have := h6 a; exact ⟨by omega, this.2⟩
  · rintro ⟨h1, h2, h3, h4, h5, h6⟩
    constructor <;> dsimp only [SectionInfo.later]
    all_goals try simp only [e, bodyAt_right, magicAt_right, octet_right, octets_right, number_right, List.length_append]
    · exact h1
    · exact h2
    · exact h3
    · exact h4
    · intro a b; have := h5 a b; exact ⟨this.1, this.2.1, this.2.2.1, by omega⟩
    · intro a; have := h6 a; exact ⟨by omega, this.2⟩

theorem faithful_left {s : SectionInfo} (hs : Faithful A s) : Faithful (A ++ B) s := by
  obtain ⟨h1, h2, h3, h4, h5, h6⟩ := hs
  have k0 : s.num = 0 → s.offset + 16 ≤ A.length := fun h => (h3 h).2.1.2
  have k6 : s.num = 6 → s.offset + 6 ≤ A.length := by
    intro h
    have := h6 (by omega)
    have hm := this.2 (by omega)
    rw [h] at hm
    simp only [minPayload] at hm
    omega
  refine ⟨(bodyAt_left k0 (fun a b => ⟨(h6 b).1, (h5 a (by omega)).1⟩) k6).2 h1, h2, ?_, ?_, ?_, ?_⟩
  · intro h
    have := h3 h
    have k := k0 h
    rw [magicAt_left k, octet_left (by omega)]
    exact this
  · intro h
    have := h4 h
    rw [octets_left this.2.1]
    exact this
  · intro a b
    have := h5 a b
    rw [number_left (by omega), octet_left (by omega), List.length_append]
    exact ⟨this.1, this.2.1, this.2.2.1, by omega⟩
  · intro a
    have := h6 a
    rw [List.length_append]
    exact ⟨by omega, this.2⟩

/-! ## Walks -/

theorem walk_left {p t p' t' : Nat} {ss : List SectionInfo} (h : Walk A p t ss p' t') : Walk (A ++ B) p t ss p' t' := by
  induction h with
  | nil p t => exact Walk.nil p t
  | message h1 h2 h3 _ ih =>
    have k := h2.2.1.2
    have e := number_left (A := A) (B := B) (p := _ + 8) (n := 8) (by omega)
    refine Walk.message h1 (firstMagic_left h2) (by rw [e]; exact h3) ?_
    rw [e]
    exact ih
  | sect h1 h2 h3 h4 h5 _ ih => exact Walk.sect h1 h2 h3 h4 h5 ih

theorem walk_later {p t p' t' : Nat} {ss : List SectionInfo} (h : Walk B p t ss p' t') :
    Walk (A ++ B) (p + A.length) (t + A.length) (ss.map (SectionInfo.later A.length)) (p' + A.length) (t' + A.length) := by
  induction h with
  | nil p t => exact Walk.nil _ _
  | @message p p' t' s ss h1 h2 h3 _ ih =>
    have e : number (A ++ B) (s.offset + A.length + 8) 8 = number B (s.offset + 8) 8 := by
      rw [show s.offset + A.length + 8 = s.offset + 8 + A.length by omega, number_right]
    refine Walk.message (s := s.later A.length) h1 (firstMagic_right.2 h2) (by simp only [SectionInfo.later]; rw [e]; exact h3) ?_
    simp only [SectionInfo.later]
    rw [e, show s.offset + A.length + s.size = s.offset + s.size + A.length by omega,
      show s.offset + A.length + number B (s.offset + 8) 8 = s.offset + number B (s.offset + 8) 8 + A.length by omega]
    exact ih
  | @sect p t p' t' s ss h1 h2 h3 h4 h5 _ ih =>
    refine Walk.sect (s := s.later A.length) (by omega) h2 (by simp only [SectionInfo.later]; omega)
      (by simp only [SectionInfo.later]; omega) (by simp only [SectionInfo.later]; rw [h5]; omega) ?_
    simp only [SectionInfo.later]
    rw [show p + A.length + s.size = p + s.size + A.length by omega]
    exact ih

theorem walk_earlier {p t p' t' : Nat} {ss : List SectionInfo} (h : Walk (A ++ B) p t ss p' t') :
    ∀ p0 t0, p = p0 + A.length → t = t0 + A.length →
      ∃ ss0 p1 t1, ss = ss0.map (SectionInfo.later A.length) ∧ p' = p1 + A.length ∧ t' = t1 + A.length ∧
        Walk B p0 t0 ss0 p1 t1 := by
  induction h with
  | nil p t => intro p0 t0 hp ht; exact ⟨[], p0, t0, rfl, hp, ht, Walk.nil _ _⟩
  | @message p p' t' s ss h1 h2 h3 _ ih =>
    intro p0 t0 hp ht
    have hle := h2.1
    have es : s = SectionInfo.later A.length { s with offset := s.offset - A.length } := by
      obtain ⟨n, o, z, b⟩ := s
      simp only [SectionInfo.later, SectionInfo.mk.injEq, true_and, and_true]
      simp only at hle
      omega
    have eo : s.offset = s.offset - A.length + A.length := by omega
    have e : number (A ++ B) (s.offset + 8) 8 = number B (s.offset - A.length + 8) 8 := by
      rw [show s.offset + 8 = s.offset - A.length + 8 + A.length by omega, number_right]
    obtain ⟨ss0, p1, t1, k1, k2, k3, k4⟩ := ih (s.offset - A.length + s.size)
      (s.offset - A.length + number B (s.offset - A.length + 8) 8) (by omega) (by rw [e]; omega)
    refine ⟨{ s with offset := s.offset - A.length } :: ss0, p1, t1, ?_, k2, k3, ?_⟩
    · rw [List.map_cons, ← es, k1]
    · have : t0 = p0 := by omega
      subst this
      refine Walk.message h1 ?_ (by rw [e] at h3; exact h3) k4
      rw [hp, eo] at h2
      exact firstMagic_right.1 h2
  | @sect p t p' t' s ss h1 h2 h3 h4 h5 _ ih =>
    intro p0 t0 hp ht
    have es : s = SectionInfo.later A.length { s with offset := s.offset - A.length } := by
      obtain ⟨n, o, z, b⟩ := s
      simp only [SectionInfo.later, SectionInfo.mk.injEq, true_and, and_true]
      simp only at h3
      omega
    obtain ⟨ss0, p1, t1, k1, k2, k3, k4⟩ := ih (p0 + s.size) t0 (by omega) ht
    refine ⟨{ s with offset := s.offset - A.length } :: ss0, p1, t1, ?_, k2, k3, ?_⟩
    · rw [List.map_cons, ← es, k1]
    · refine Walk.sect (by omega) h2 (by simp only; omega) (by simp only; omega) (by rw [h5]; omega) k4

/-- A walk between messages may start anywhere before the next message start. -/
theorem walk_gap {data : List UInt8} {p p' a b : Nat} {ss : List SectionInfo} (hp : p ≤ p')
    (h : ∀ x, p ≤ x → x < p' → ¬ MagicAt data x) (hne : ss ≠ []) :
    Walk data p p ss a b ↔ Walk data p' p' ss a b := by
  constructor
  · intro hw
    cases hw with
    | nil => exact absurd rfl hne
    | message h1 h2 h3 h4 => exact Walk.message h1 ((firstMagic_skip hp h).1 h2) h3 h4
    | sect h1 => exact absurd rfl h1
  · intro hw
    cases hw with
    | nil => exact absurd rfl hne
    | message h1 h2 h3 h4 => exact Walk.message h1 ((firstMagic_skip hp h).2 h2) h3 h4
    | sect h1 => exact absurd rfl h1

theorem walk_append {data : List UInt8} {p t p1 t1 p2 t2 : Nat} {a b : List SectionInfo} (h : Walk data p t a p1 t1)
    (h' : Walk data p1 t1 b p2 t2) : Walk data p t (a ++ b) p2 t2 := by
  induction h with
  | nil => exact h'
  | message h1 h2 h3 _ ih => exact Walk.message h1 h2 h3 (ih h')
  | sect h1 h2 h3 h4 h5 _ ih => exact Walk.sect h1 h2 h3 h4 h5 (ih h')

/-- Two faithful sections at the same step of a walk are equal. -/
theorem faithful_unique {data : List UInt8} {s s' : SectionInfo} (h : Faithful data s) (h' : Faithful data s')
    (ho : s.offset = s'.offset) (hn : s.num = 0 ↔ s'.num = 0) (h8 : s.num = 8 ↔ s'.num = 8) : s = s' := by
  have hnum : s.num = s'.num ∧ s.size = s'.size := by
    by_cases h0 : s.num = 0
    · have h0' := hn.1 h0
      have := (h.sect0 h0).1
      have := (h'.sect0 h0').1
      omega
    · have h0' : s'.num ≠ 0 := fun k => h0 (hn.2 k)
      by_cases k8 : s.num = 8
      · have k8' := h8.1 k8
        have := (h.sect8 k8).1
        have := (h'.sect8 k8').1
        omega
      · have k8' : s'.num ≠ 8 := fun k => k8 (h8.2 k)
        have a := h.header (by omega) (by have := h.num; omega)
        have b := h'.header (by omega) (by have := h'.num; omega)
        rw [ho] at a
        omega
  have hb := h.body
  have hb' := h'.body
  obtain ⟨n, o, z, b⟩ := s
  obtain ⟨n', o', z', b'⟩ := s'
  simp only at *
  obtain ⟨rfl, rfl⟩ := hnum
  subst ho
  have : b = b' := by
    unfold BodyAt at hb hb'
    split at hb <;> simp_all
  rw [this]

/-- The walk through a file has no choice: of two walks from the same place one continues the other. -/
theorem walk_comparable {data : List UInt8} {p t p1 t1 : Nat} {a : List SectionInfo} (h : Walk data p t a p1 t1) :
    ∀ {b p2 t2}, Walk data p t b p2 t2 → (∀ s ∈ a, Faithful data s) → (∀ s ∈ b, Faithful data s) →
      (∃ c, b = a ++ c ∧ Walk data p1 t1 c p2 t2) ∨ (∃ c, a = b ++ c ∧ Walk data p2 t2 c p1 t1) := by
  induction h with
  | nil p t => intro b p2 t2 hb _ _; exact Or.inl ⟨b, rfl, hb⟩
  | message h1 h2 h3 h4 ih =>
    intro b p2 t2 hb fa fb
    cases hb with
    | nil => exact Or.inr ⟨_, rfl, Walk.message h1 h2 h3 h4⟩
    | message k1 k2 k3 k4 =>
      have e := faithful_unique (fa _ List.mem_cons_self) (fb _ List.mem_cons_self) (firstMagic_unique h2 k2) (by omega) (by omega)
      subst e
      rcases ih k4 (fun s hs => fa s (by simp [hs])) (fun s hs => fb s (by simp [hs])) with ⟨c, e1, e2⟩ | ⟨c, e1, e2⟩
      · exact Or.inl ⟨c, by rw [e1]; rfl, e2⟩
      · exact Or.inr ⟨c, by rw [e1]; rfl, e2⟩
    | sect k1 => exact absurd rfl k1
  | sect h1 h2 h3 h4 h5 h6 ih =>
    intro b p2 t2 hb fa fb
    cases hb with
    | nil => exact Or.inr ⟨_, rfl, Walk.sect h1 h2 h3 h4 h5 h6⟩
    | message => exact absurd rfl h1
    | sect k1 k2 k3 k4 k5 k6 =>
      have e := faithful_unique (fa _ List.mem_cons_self) (fb _ List.mem_cons_self) (by omega) (by omega) (by rw [h5, k5])
      subst e
      rcases ih k6 (fun s hs => fa s (by simp [hs])) (fun s hs => fb s (by simp [hs])) with ⟨c, e1, e2⟩ | ⟨c, e1, e2⟩
      · exact Or.inl ⟨c, by rw [e1]; rfl, e2⟩
      · exact Or.inr ⟨c, by rw [e1]; rfl, e2⟩

theorem walk_stop_le {data : List UInt8} {p t p' t' : Nat} {ss : List SectionInfo} (h : Walk data p t ss p' t') :
    p ≤ t → t ≤ t' ∧ p ≤ p' := by
  induction h with
  | nil => intro _; omega
  | message h1 h2 h3 _ ih => intro _; have := ih (by omega); have := h2.1; omega
  | sect h1 h2 h3 h4 h5 _ ih => intro _; have := ih h4; omega

theorem walk_nil {data : List UInt8} {p t p' t' : Nat} (h : Walk data p t [] p' t') : p' = p := by
  cases h; rfl

/-- The end of a walk is the end of its last section. -/
theorem walk_last {data : List UInt8} {p t p' t' : Nat} {a : List SectionInfo} {s : SectionInfo}
    (h : Walk data p t (a ++ [s]) p' t') : p' = s.offset + s.size := by
  obtain ⟨p1, t1, -, w⟩ := Walk.append_inv h
  cases w with
  | message h1 h2 h3 h4 => exact walk_nil h4
  | sect h1 h2 h3 h4 h5 h6 => have := walk_nil h6; omega

/-! ## Orders -/

theorem accepted_iff_run {sects : List SectionInfo} : Accepted sects ↔ run q0 (nums sects) = some q0 :=
  ⟨run_of_accepted, fun h => accepted_of_clean (clean_of_run h)⟩

theorem accepted_append {a b : List SectionInfo} (ha : Accepted a) : Accepted (a ++ b) ↔ Accepted b := by
  rw [accepted_iff_run, nums_append, run_append, accepted_iff_run.1 ha, Option.bind_some, ← accepted_iff_run]

theorem accepted_later (n : Nat) (a : List SectionInfo) : Accepted (a.map (SectionInfo.later n)) ↔ Accepted a := by
  have : nums (a.map (SectionInfo.later n)) = nums a := by simp [nums, Function.comp_def, SectionInfo.later]
  rw [accepted_iff_run, accepted_iff_run, this]

theorem viable_append {a b : List SectionInfo} (ha : Accepted a) : Viable (a ++ b) ↔ Viable b := by
  unfold Viable
  simp only [List.append_assoc, accepted_append ha]

theorem viable_iff_run {a : List SectionInfo} : Viable a ↔ ∃ q, run q0 (nums a) = some q :=
  ⟨run_of_viable, fun ⟨_, h⟩ => viable_of_run h⟩

theorem viable_later (n : Nat) (a : List SectionInfo) : Viable (a.map (SectionInfo.later n)) ↔ Viable a := by
  have : nums (a.map (SectionInfo.later n)) = nums a := by simp [nums, Function.comp_def, SectionInfo.later]
  rw [viable_iff_run, viable_iff_run, this]

end Grib.Model
