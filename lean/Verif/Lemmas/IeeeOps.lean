import Verif.Lemmas.Ieee
import Verif.Spec.Float

/-! # IEEE operations: their exact results rounded, and their order -/

namespace Grib.Model

open Grib.Spec

theorem Fmt.ofRat_ne_nan (f : Fmt) (s : Bool) (x : Rat) : f.ofRat s x ≠ .nan := by
  unfold Fmt.ofRat
  dsimp only
  split_ifs <;> simp

/-! The invalid operations of IEEE 754 (section 7.2), and only those, give a NaN from numbers: differences of infinities, zero
times infinity, quotients of zeros or of infinities. -/

theorem Fmt.add_nan_iff (f : Fmt) (a b : Fl) : f.add a b = .nan ↔ a = .nan ∨ b = .nan ∨ ∃ s, a = .inf s ∧ b = .inf (!s) := by
  have h := f.ofRat_ne_nan
  cases a with
  | nan => simp [Fmt.add]
  | inf s => cases b <;> cases s <;> simp [Fmt.add]
  | negZero => cases b <;> simp [Fmt.add, h]
  | fin v => cases b <;> simp [Fmt.add, h]

theorem Fmt.mul_nan_iff (f : Fmt) (a b : Fl) : f.mul a b = .nan ↔
    a = .nan ∨ b = .nan ∨ (∃ s, a = .inf s ∧ b.val = some 0) ∨ ∃ s, a.val = some 0 ∧ b = .inf s := by
  have h := f.ofRat_ne_nan
  cases a with
  | nan => simp [Fmt.mul]
  | inf s => cases b <;> simp [Fmt.mul, Fl.val]
  | negZero => cases b <;> simp [Fmt.mul, Fl.val, h]
  | fin v => cases b <;> simp [Fmt.mul, Fl.val, h]

theorem Fmt.div_nan_iff (f : Fmt) (a b : Fl) : f.div a b = .nan ↔
    a = .nan ∨ b = .nan ∨ (∃ s t, a = .inf s ∧ b = .inf t) ∨ (a.val = some 0 ∧ b.val = some 0) := by
  have h := f.ofRat_ne_nan
  cases a with
  | nan => simp [Fmt.div]
  | inf s => cases b <;> simp [Fmt.div, Fl.val]
  | negZero => cases b <;> simp [Fmt.div, Fl.val, h]
  | fin v =>
    cases b with
    | fin w => by_cases hv : v = 0 <;> by_cases hw : w = 0 <;> simp [Fmt.div, Fl.val, h, hv, hw]
    | _ => simp [Fmt.div, Fl.val, h]

theorem Fmt.ofRat_val (f : Fmt) {s : Bool} {x y : Rat} (h : (f.ofRat s x).val = some y) : y = f.round x := by
  unfold Fmt.ofRat at h
  dsimp only at h
  split_ifs at h with h1 h2 h3 h4 <;> simp_all [Fl.val]

theorem Fmt.ofRat_fin (f : Fmt) (s : Bool) {x : Rat} (h : |f.round x| < pow2 f.top) :
    (f.ofRat s x).val = some (f.round x) := by
  rw [abs_lt] at h
  unfold Fmt.ofRat
  dsimp only
  rw [if_neg (by linarith), if_neg (by linarith)]
  split_ifs with h3 h4 <;> simp_all [Fl.val]

/-- The result is finite, or infinite with the sign of `x`. -/
theorem Fmt.ofRat_cases (f : Fmt) (s : Bool) (x : Rat) :
    ((f.ofRat s x).val = some (f.round x) ∧ |f.round x| < pow2 f.top) ∨
    (f.ofRat s x = .inf false ∧ pow2 f.top ≤ f.round x) ∨ (f.ofRat s x = .inf true ∧ f.round x ≤ -pow2 f.top) := by
  by_cases h1 : pow2 f.top ≤ f.round x
  · right; left; exact ⟨by unfold Fmt.ofRat; simp [h1], h1⟩
  · by_cases h2 : f.round x ≤ -pow2 f.top
    · right; right; exact ⟨by unfold Fmt.ofRat; simp [h1, h2], h2⟩
    · left
      have : |f.round x| < pow2 f.top := by rw [abs_lt]; constructor <;> linarith
      exact ⟨f.ofRat_fin s this, this⟩

theorem Fl.val_some {a : Fl} {x : Rat} (h : a.val = some x) : a = .fin x ∨ (a = .negZero ∧ x = 0) := by
  cases a <;> simp_all [Fl.val]

theorem Fmt.add_val (f : Fmt) {a b : Fl} {x y : Rat} (ha : a.val = some x) (hb : b.val = some y) :
    (∃ s, f.add a b = f.ofRat s (x + y)) := by
  rcases Fl.val_some ha with rfl | ⟨rfl, rfl⟩ <;> rcases Fl.val_some hb with rfl | ⟨rfl, rfl⟩
  · exact ⟨false, rfl⟩
  · exact ⟨false, rfl⟩
  · exact ⟨false, rfl⟩
  · refine ⟨true, ?_⟩
    have h0 : f.round (0 + 0) = 0 := by rw [add_zero, f.round_zero]
    have := pow2_pos f.top
    unfold Fmt.ofRat
    simp only [Fmt.add, h0]
    rw [if_neg (by linarith), if_neg (by linarith)]
    simp

theorem Fmt.mul_val (f : Fmt) {a b : Fl} {x y : Rat} (ha : a.val = some x) (hb : b.val = some y) :
    (∃ s, f.mul a b = f.ofRat s (x * y)) := by
  rcases Fl.val_some ha with rfl | ⟨rfl, rfl⟩ <;> rcases Fl.val_some hb with rfl | ⟨rfl, rfl⟩
  · exact ⟨_, rfl⟩
  · exact ⟨_, by rw [mul_zero]; rfl⟩
  · exact ⟨_, by rw [zero_mul]; rfl⟩
  · exact ⟨_, by rw [zero_mul]; rfl⟩

theorem Fmt.div_val (f : Fmt) {a b : Fl} {x y : Rat} (ha : a.val = some x) (hb : b.val = some y) (hy : y ≠ 0) :
    (∃ s, f.div a b = f.ofRat s (x / y)) := by
  rcases Fl.val_some hb with rfl | ⟨rfl, rfl⟩
  · rcases Fl.val_some ha with rfl | ⟨rfl, rfl⟩
    · refine ⟨xor (Fl.fin x).isNeg (Fl.fin y).isNeg, ?_⟩
      simp only [Fmt.div]
      rw [if_neg hy]
    · refine ⟨xor Fl.negZero.isNeg (Fl.fin y).isNeg, ?_⟩
      simp only [Fmt.div]
      rw [if_neg (by simpa [Fl.val] using hy), zero_div]
  · exact absurd rfl hy

theorem Fl.neg_val {a : Fl} {x : Rat} (ha : a.val = some x) : a.neg.val = some (-x) := by
  rcases Fl.val_some ha with rfl | ⟨rfl, rfl⟩
  · unfold Fl.neg
    by_cases h : x = 0
    · simp [h, Fl.val]
    · simp [h, Fl.val]
  · simp [Fl.neg, Fl.val]

/-! ## Order -/

/-- Changing the sign twice gives back every datum, also both zeros. -/
theorem Fl.neg_neg (a : Fl) : a.neg.neg = a := by
  cases a with
  | fin v =>
    unfold Fl.neg
    by_cases h : v = 0
    · subst h; rfl
    · simp [h]
  | inf s => simp [Fl.neg]
  | _ => simp [Fl.neg]

theorem Fl.val_ne_nan {a : Fl} {x : Rat} (ha : a.val = some x) : a ≠ .nan := by rintro rfl; simp [Fl.val] at ha

theorem Fl.lt_val {a b : Fl} {x y : Rat} (ha : a.val = some x) (hb : b.val = some y) : Fl.lt a b = decide (x < y) := by
  rcases Fl.val_some ha with rfl | ⟨rfl, rfl⟩ <;> rcases Fl.val_some hb with rfl | ⟨rfl, rfl⟩ <;> simp [Fl.lt]

theorem _root_.Grib.Spec.NotAbove.of_val {a b : Fl} {x y : Rat} (ha : a.val = some x) (hb : b.val = some y) : NotAbove a b ↔ x ≤ y := by
  unfold NotAbove
  rw [Fl.lt_val hb ha]
  simp [Fl.val_ne_nan ha, Fl.val_ne_nan hb]

theorem _root_.Grib.Spec.NotAbove.inf_right {a : Fl} (ha : a ≠ .nan) : NotAbove a (.inf false) := by
  refine ⟨ha, by simp, ?_⟩
  cases a <;> simp_all [Fl.lt]

theorem _root_.Grib.Spec.NotAbove.inf_left {b : Fl} (hb : b ≠ .nan) : NotAbove (.inf true) b := by
  refine ⟨by simp, hb, ?_⟩
  cases b <;> simp_all [Fl.lt]

theorem _root_.Grib.Spec.NotAbove.refl {a : Fl} (ha : a ≠ .nan) : NotAbove a a := by
  refine ⟨ha, ha, ?_⟩
  cases a with
  | inf s => cases s <;> rfl
  | _ => simp_all [Fl.lt]

/-- The cases of an ordered pair. -/
theorem _root_.Grib.Spec.NotAbove.cases {a b : Fl} (h : NotAbove a b) :
    (∃ x y, a.val = some x ∧ b.val = some y ∧ x ≤ y) ∨ a = .inf true ∨ b = .inf false := by
  obtain ⟨h1, h2, h3⟩ := h
  cases a with
  | nan => simp at h1
  | inf s => cases s
             · cases b with
               | inf t => cases t <;> simp_all [Fl.lt]
               | _ => simp_all [Fl.lt]
             · exact .inr (.inl rfl)
  | negZero => cases b with
    | nan => simp at h2
    | inf t => cases t <;> simp_all [Fl.lt]
    | negZero => exact .inl ⟨0, 0, rfl, rfl, le_refl _⟩
    | fin w => exact .inl ⟨0, w, rfl, rfl, by simpa [Fl.lt] using h3⟩
  | fin v => cases b with
    | nan => simp at h2
    | inf t => cases t <;> simp_all [Fl.lt]
    | negZero => exact .inl ⟨v, 0, rfl, rfl, by simpa [Fl.lt] using h3⟩
    | fin w => exact .inl ⟨v, w, rfl, rfl, by simpa [Fl.lt] using h3⟩

theorem _root_.Grib.Spec.NotAbove.trans {a b c : Fl} (h1 : NotAbove a b) (h2 : NotAbove b c) : NotAbove a c := by
  rcases h1.cases with ⟨x, y, hx, hy, hxy⟩ | rfl | rfl
  · rcases h2.cases with ⟨y', z, hy', hz, hyz⟩ | rfl | rfl
    · rw [hy] at hy'; cases hy'
      exact (NotAbove.of_val hx hz).2 (le_trans hxy hyz)
    · simp [Fl.val] at hy
    · exact .inf_right h1.1
  · exact .inf_left h2.2.1
  · rcases h2.cases with ⟨y', z, hy', hz, hyz⟩ | h | rfl
    · simp [Fl.val] at hy'
    · simp at h
    · exact .inf_right h1.1

/-- Rounding keeps the order. -/
theorem Fmt.ofRat_mono (f : Fmt) (hp : 1 ≤ f.prec) {x y : Rat} (h : x ≤ y) (s t : Bool) :
    NotAbove (f.ofRat s x) (f.ofRat t y) := by
  have hr := f.round_mono hp h
  have h0 := pow2_pos f.top
  rcases f.ofRat_cases s x with ⟨hx, hx'⟩ | ⟨hx, hx'⟩ | ⟨hx, hx'⟩
  · rcases f.ofRat_cases t y with ⟨hy, hy'⟩ | ⟨hy, hy'⟩ | ⟨hy, hy'⟩
    · exact (NotAbove.of_val hx hy).2 hr
    · rw [hy]; exact .inf_right (f.ofRat_ne_nan _ _)
    · rw [abs_lt] at hx'; linarith
  · rcases f.ofRat_cases t y with ⟨hy, hy'⟩ | ⟨hy, hy'⟩ | ⟨hy, hy'⟩
    · rw [abs_lt] at hy'; linarith
    · rw [hy]; exact .inf_right (f.ofRat_ne_nan _ _)
    · linarith
  · rw [hx]; exact .inf_left (f.ofRat_ne_nan _ _)

/-- Adding a finite number keeps the order. -/
theorem Fmt.add_mono (f : Fmt) (hp : 1 ≤ f.prec) {r a b : Fl} {v : Rat} (hr : r.val = some v) (h : NotAbove a b) :
    NotAbove (f.add r a) (f.add r b) := by
  have hinf : ∀ t, f.add r (.inf t) = .inf t := by
    intro t; rcases Fl.val_some hr with rfl | ⟨rfl, rfl⟩ <;> rfl
  have hnan : ∀ c, c ≠ .nan → f.add r c ≠ .nan := by
    intro c hc
    cases hv : c.val with
    | some w => obtain ⟨s, e⟩ := f.add_val hr hv; rw [e]; exact f.ofRat_ne_nan _ _
    | none =>
      cases c with
      | inf t => rw [hinf]; simp
      | nan => exact absurd rfl hc
      | _ => simp [Fl.val] at hv
  rcases h.cases with ⟨x, y, hx, hy, hxy⟩ | rfl | rfl
  · obtain ⟨s, e1⟩ := f.add_val hr hx
    obtain ⟨t, e2⟩ := f.add_val hr hy
    rw [e1, e2]
    exact f.ofRat_mono hp (by linarith) _ _
  · rw [hinf]; exact .inf_left (hnan _ h.2.1)
  · rw [hinf]; exact .inf_right (hnan _ h.1)

/-- Multiplying by a positive finite number keeps the order. -/
theorem Fmt.mul_mono (f : Fmt) (hp : 1 ≤ f.prec) {r a b : Fl} {v : Rat} (hr : r.val = some v) (hv : 0 < v)
    (h : NotAbove a b) : NotAbove (f.mul a r) (f.mul b r) := by
  have hrf : r = .fin v := by
    rcases Fl.val_some hr with rfl | ⟨rfl, rfl⟩
    · rfl
    · exact absurd hv (lt_irrefl _)
  have hinf : ∀ t, f.mul (.inf t) r = .inf t := by
    intro t
    rw [hrf]
    have : ¬ v < 0 := by linarith
    simp [Fmt.mul, Fl.val, hv.ne', Fl.isNeg, this]
  have hnan : ∀ c, c ≠ .nan → f.mul c r ≠ .nan := by
    intro c hc
    cases hv : c.val with
    | some w => obtain ⟨s, e⟩ := f.mul_val hv hr; rw [e]; exact f.ofRat_ne_nan _ _
    | none =>
      cases c with
      | inf t => rw [hinf]; simp
      | nan => exact absurd rfl hc
      | _ => simp [Fl.val] at hv
  rcases h.cases with ⟨x, y, hx, hy, hxy⟩ | rfl | rfl
  · obtain ⟨s, e1⟩ := f.mul_val hx hr
    obtain ⟨t, e2⟩ := f.mul_val hy hr
    rw [e1, e2]
    exact f.ofRat_mono hp (mul_le_mul_of_nonneg_right hxy hv.le) _ _
  · rw [hinf]; exact .inf_left (hnan _ h.2.1)
  · rw [hinf]; exact .inf_right (hnan _ h.1)

/-- Dividing by a positive finite number keeps the order. -/
theorem Fmt.div_mono (f : Fmt) (hp : 1 ≤ f.prec) {r a b : Fl} {v : Rat} (hr : r.val = some v) (hv : 0 < v)
    (h : NotAbove a b) : NotAbove (f.div a r) (f.div b r) := by
  have hrf : r = .fin v := by
    rcases Fl.val_some hr with rfl | ⟨rfl, rfl⟩
    · rfl
    · exact absurd hv (lt_irrefl _)
  have hinf : ∀ t, f.div (.inf t) r = .inf t := by
    intro t
    rw [hrf]
    have : ¬ v < 0 := by linarith
    simp [Fmt.div, Fl.isNeg, this]
  have hnan : ∀ c, c ≠ .nan → f.div c r ≠ .nan := by
    intro c hc
    cases hv' : c.val with
    | some w => obtain ⟨s, e⟩ := f.div_val hv' hr hv.ne'; rw [e]; exact f.ofRat_ne_nan _ _
    | none =>
      cases c with
      | inf t => rw [hinf]; simp
      | nan => exact absurd rfl hc
      | _ => simp [Fl.val] at hv'
  rcases h.cases with ⟨x, y, hx, hy, hxy⟩ | rfl | rfl
  · obtain ⟨s, e1⟩ := f.div_val hx hr hv.ne'
    obtain ⟨t, e2⟩ := f.div_val hy hr hv.ne'
    rw [e1, e2]
    exact f.ofRat_mono hp (div_le_div_of_nonneg_right hxy hv.le) _ _
  · rw [hinf]; exact .inf_left (hnan _ h.2.1)
  · rw [hinf]; exact .inf_right (hnan _ h.1)

/-- A normal number is rounded with a relative error. -/
theorem Fmt.round_rel (f : Fmt) {x : Rat} (h : pow2 (f.emin + f.prec - 1) ≤ |x|) : |f.round x - x| ≤ pow2 (-f.prec) * |x| := by
  have hx : x ≠ 0 := by
    rintro rfl
    have := pow2_pos (f.emin + f.prec - 1)
    simp at h; linarith
  refine le_trans (f.round_err_ulp hx) ?_
  obtain ⟨h1, h2⟩ := ilog2_spec hx
  have hi : f.emin + f.prec - 1 < ilog2 x + 1 := pow2_lt_iff.1 (lt_of_le_of_lt h h2)
  have : f.ulp x = ilog2 x - (f.prec - 1) := by unfold Fmt.ulp; omega
  rw [this]
  have e : pow2 (ilog2 x - (f.prec - 1)) / 2 = pow2 (-f.prec) * pow2 (ilog2 x) := by
    have h2 : pow2 1 = 2 := by norm_num [pow2_eq]
    rw [div_eq_iff (by norm_num), ← h2, ← pow2_add, ← pow2_add]; congr 1; ring
  rw [e]
  exact mul_le_mul_of_nonneg_left h1 (pow2_pos _).le

/-- Integers are rounded with a relative error. -/
theorem Fmt.round_int (f : Fmt) (hf : f.emin + f.prec ≤ 1) (n : Int) : |f.round n - n| ≤ pow2 (-f.prec) * |(n : Rat)| := by
  by_cases h : n = 0
  · subst h; simp [f.round_zero]
  · apply f.round_rel
    have h1 : (1 : Rat) ≤ |(n : Rat)| := by
      have : 1 ≤ |n| := Int.one_le_abs h
      exact_mod_cast this
    refine le_trans (pow2_le (b := 0) (by omega)) ?_
    rw [pow2_zero]; exact h1

/-- Integers far below the overflow stay finite. -/
theorem Fmt.ofInt_val (f : Fmt) (hp : 1 ≤ f.prec) (s : Bool) {n : Int} {k : Nat} (hn : |n| ≤ 2 ^ k) (he : f.emin ≤ k)
    (hk : (k : Int) < f.top) : (f.ofRat s n).val = some (f.round n) := by
  apply f.ofRat_fin
  have e : f.round (pow2 k) = pow2 k := by
    have := f.round_exact hp (m := 1) (k := k) (by simp; exact one_le_pow₀ (by norm_num)) he
    simpa using this
  have hn' : |(n : Rat)| ≤ pow2 k := by rw [pow2_nat]; exact_mod_cast hn
  rw [abs_le] at hn'
  have h1 := f.round_mono hp hn'.1
  have h2 := f.round_mono hp hn'.2
  rw [f.round_neg, e] at h1
  rw [e] at h2
  have := pow2_lt hk
  rw [abs_lt]
  constructor <;> linarith

end Grib.Model
