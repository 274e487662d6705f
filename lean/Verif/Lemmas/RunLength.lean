import Verif.Lemmas.Decoder
import Verif.Spec.RunLength

/-! # Run-length decoding -/

namespace Grib.Spec

theorem valueLE_ge {base : Nat} {d : Nat} {ds : List Nat} : d ≤ valueLE base (d :: ds) := by
  simp [valueLE]

theorem digitsLE_value {base : Nat} (hb : 2 ≤ base) (fuel n : Nat) (h : n ≤ fuel) :
    valueLE base (digitsLE base fuel n) = n ∧ (∀ d ∈ digitsLE base fuel n, d < base) ∧
    (n ≠ 0 → base ^ (digitsLE base fuel n).length ≤ base * n) ∧ (n = 0 → digitsLE base fuel n = []) := by
  induction fuel generalizing n with
  | zero => have : n = 0 := by omega
            subst this; simp [digitsLE, valueLE]
  | succ fuel ih =>
    rw [digitsLE]
    split
    · rename_i h0; subst h0; simp [valueLE]
    · rename_i h0
      have hd : n / base < n := Nat.div_lt_self (by omega) (by omega)
      obtain ⟨i1, i2, i3, i4⟩ := ih (n / base) (by omega)
      refine ⟨?_, ?_, ?_, ?_⟩
      · rw [valueLE, i1]; exact Nat.mod_add_div n base
      · intro d hd
        rcases List.mem_cons.mp hd with rfl | hd
        · exact Nat.mod_lt _ (by omega)
        · exact i2 d hd
      · intro _
        rw [List.length_cons, Nat.pow_succ]
        by_cases hz : n / base = 0
        · rw [i4 hz]; simp; exact Nat.le_mul_of_pos_right _ (by omega)
        · calc base ^ (digitsLE base fuel (n / base)).length * base ≤ base * (n / base) * base :=
                Nat.mul_le_mul_right _ (i3 hz)
            _ ≤ n * base := Nat.mul_le_mul_right _ (Nat.mul_div_le n base)
            _ = base * n := Nat.mul_comm _ _
      · intro h; exact absurd h h0

theorem groupRuns_expand (merge : Bool) (xs : List Nat) :
    (groupRuns merge xs).flatMap (fun x => List.replicate x.2 x.1) = xs ∧
    (∀ x ∈ groupRuns merge xs, 1 ≤ x.2 ∧ x.1 ∈ xs ∧ (merge = false → x.2 = 1) ∧ x.2 ≤ xs.length) := by
  induction xs with
  | nil => simp [groupRuns]
  | cons x xs ih =>
    obtain ⟨i1, i2⟩ := ih
    rw [groupRuns]
    cases hg : groupRuns merge xs with
    | nil =>
      rw [hg] at i1
      simp only [List.flatMap_nil] at i1
      subst i1
      simp
    | cons yn rest =>
      obtain ⟨y, n⟩ := yn
      rw [hg] at i1 i2
      simp only
      split
      · rename_i h
        obtain ⟨hm, rfl⟩ := h
        refine ⟨?_, ?_⟩
        · rw [List.flatMap_cons] at i1 ⊢
          simp only [List.replicate_succ, List.cons_append] at i1 ⊢
          rw [i1]
        · intro z hz
          rcases List.mem_cons.mp hz with rfl | hz
          · have := i2 (x, n) (by simp)
            simp at this ⊢
            exact ⟨fun h => by simp [h] at hm, by omega⟩
          · have := i2 z (by simp [hz])
            exact ⟨this.1, by simp [this.2.1], this.2.2.1, by simp; omega⟩
      · refine ⟨?_, ?_⟩
        · rw [List.flatMap_cons]
          simp only [List.replicate_one, List.singleton_append]
          rw [i1]
        · intro z hz
          rcases List.mem_cons.mp hz with rfl | hz
          · simp
          · have := i2 z hz
            exact ⟨this.1, by simp [this.2.1], this.2.2.1, by simp; omega⟩

theorem encodeRuns_spec {maxv base : Nat} (levels : List Nat) (hlv : ∀ x ∈ levels, x ≤ maxv) :
    expandRuns base (encodeRuns base levels) = levels ∧ (∀ r ∈ encodeRuns base levels, r.Ok maxv base ∧
      (r.digits = [] ∨ base ^ r.digits.length ≤ base * levels.length)) := by
  obtain ⟨g1, g2⟩ := groupRuns_expand (decide (2 ≤ base)) levels
  have hlen : ∀ x ∈ groupRuns (decide (2 ≤ base)) levels,
      Run.length base ⟨x.1, digitsLE base x.2 (x.2 - 1)⟩ = x.2 ∧ Run.Ok maxv base ⟨x.1, digitsLE base x.2 (x.2 - 1)⟩ ∧
      (digitsLE base x.2 (x.2 - 1) = [] ∨ base ^ (digitsLE base x.2 (x.2 - 1)).length ≤ base * levels.length) := by
    intro x hx
    obtain ⟨h1, h2, h3, h4⟩ := g2 x hx
    by_cases hb : 2 ≤ base
    · obtain ⟨d1, d2, d3, d4⟩ := digitsLE_value hb x.2 (x.2 - 1) (by omega)
      refine ⟨by rw [Run.length, d1]; omega, ⟨hlv _ h2, d2⟩, ?_⟩
      by_cases hz : x.2 - 1 = 0
      · exact Or.inl (d4 hz)
      · exact Or.inr (Nat.le_trans (d3 hz) (Nat.mul_le_mul_left _ (by omega)))
    · have := h3 (by simpa using hb)
      rw [this]
      refine ⟨rfl, ⟨hlv _ h2, by simp [digitsLE]⟩, Or.inl (by simp [digitsLE])⟩
  refine ⟨?_, ?_⟩
  · unfold expandRuns encodeRuns
    rw [List.flatMap_map]
    calc (groupRuns (decide (2 ≤ base)) levels).flatMap _ =
        (groupRuns (decide (2 ≤ base)) levels).flatMap (fun x => List.replicate x.2 x.1) := by
          rw [List.flatMap_def, List.flatMap_def]
          congr 1
          apply List.map_congr_left
          intro x hx
          simp only [(hlen x hx).1]
      _ = levels := g1
  · intro r hr
    unfold encodeRuns at hr
    obtain ⟨x, hx, rfl⟩ := List.mem_map.mp hr
    exact (hlen x hx).2

/-- Any numbers that begin with a level are runs. -/
theorem parse_runs (maxv base : Nat) (hb : maxv + 1 + base ≤ bound) (vs : List Nat) (hv : ∀ v ∈ vs, v < maxv + 1 + base) :
    (∃ rs, vs = runSymbols maxv rs ∧ ∀ r ∈ rs, r.Ok maxv base) ∨ (∃ ds rs, ds ≠ [] ∧
      vs = ds.map (maxv + 1 + ·) ++ runSymbols maxv rs ∧ (∀ d ∈ ds, d < base) ∧ ∀ r ∈ rs, r.Ok maxv base) := by
  induction vs with
  | nil => exact Or.inl ⟨[], rfl, by simp⟩
  | cons v vs ih =>
    have hv' := hv v (by simp)
    have ih := ih (fun x hx => hv x (by simp [hx]))
    by_cases hl : v ≤ maxv
    · refine Or.inl ?_
      rcases ih with ⟨rs, rfl, hr⟩ | ⟨ds, rs, -, rfl, hd, hr⟩
      · exact ⟨⟨v, []⟩ :: rs, rfl, by simpa [Run.Ok, hl] using hr⟩
      · refine ⟨⟨v, ds⟩ :: rs, rfl, ?_⟩
        intro r hr'
        rcases List.mem_cons.mp hr' with rfl | hr'
        · exact ⟨hl, hd⟩
        · exact hr r hr'
    · refine Or.inr ?_
      rcases ih with ⟨rs, rfl, hr⟩ | ⟨ds, rs, -, rfl, hd, hr⟩
      · refine ⟨[v - (maxv + 1)], rs, by simp, ?_, by simp; omega, hr⟩
        simp; omega
      · refine ⟨(v - (maxv + 1)) :: ds, rs, by simp, ?_, ?_, hr⟩
        · simp; omega
        · intro d hd'
          rcases List.mem_cons.mp hd' with rfl | hd'
          · omega
          · exact hd d hd'

end Grib.Spec

namespace Grib.Model

open Grib.Spec

variable {F : Type}

theorem rleLoop_digits {maxv base : Nat} (hb : maxv + 1 + base ≤ 2 ^ 16) (ds rest : List Nat) (hd : ∀ d ∈ ds, d < base)
    (out : List Nat) (l exp : Nat) (he : exp * base ^ ds.length < 2 ^ 64) (ho : out.length + exp * valueLE base ds < 2 ^ 62) :
    rleLoop (maxv + 1) base (ds.map (maxv + 1 + ·) ++ rest) out (some l) exp =
      rleLoop (maxv + 1) base rest (out ++ List.replicate (exp * valueLE base ds) l) (some l) (exp * base ^ ds.length) := by
  induction ds generalizing out exp with
  | nil => simp [valueLE]
  | cons d ds ih =>
    have hd0 := hd d (by simp)
    simp only [List.map_cons, List.cons_append, rleLoop]
    rw [Nat.mod_eq_of_lt (by omega), if_neg (by omega), show maxv + 1 + d - (maxv + 1) = d by omega]
    have e1 : exp * valueLE base (d :: ds) = d * exp + exp * base * valueLE base ds := by
      rw [valueLE, Nat.mul_add, Nat.mul_comm exp d, Nat.mul_assoc]
    have e2 : exp * base * base ^ ds.length = exp * base ^ (ds.length + 1) := by
      rw [Nat.pow_succ, Nat.mul_assoc, Nat.mul_comm base]
    rw [List.length_cons] at he
    have h1 : exp * base ≤ exp * base ^ (ds.length + 1) := by
      rw [← e2]; exact Nat.le_mul_of_pos_right _ (Nat.pow_pos (by omega))
    rw [e1] at ho
    rw [if_neg (by unfold USIZE; omega)]
    rw [ih (fun x hx => hd x (by simp [hx])) _ _ (by rw [e2]; exact he) (by
      simp only [List.length_append, List.length_replicate]; omega)]
    rw [e2, e1, List.append_assoc, List.replicate_append_replicate, List.length_cons]

theorem rleLoop_runs {maxv base : Nat} (hb : maxv + 1 + base ≤ 2 ^ 16) (rs : List Run) (hr : ∀ r ∈ rs, r.Ok maxv base)
    (hp : ∀ r ∈ rs, base ^ r.digits.length < 2 ^ 64) (out : List Nat) (cached : Option Nat) (exp : Nat)
    (ho : out.length + (expandRuns base rs).length < 2 ^ 62) :
    rleLoop (maxv + 1) base (runSymbols maxv rs) out cached exp = .ok (out ++ expandRuns base rs) := by
  induction rs generalizing out cached exp with
  | nil => simp [runSymbols, rleLoop, expandRuns]
  | cons r rs ih =>
    obtain ⟨h1, h2⟩ := hr r (by simp)
    have e : runSymbols maxv (r :: rs) = r.level :: (r.digits.map (maxv + 1 + ·) ++ runSymbols maxv rs) := by
      simp [runSymbols, Run.symbols]
    have e' : expandRuns base (r :: rs) = r.level :: (List.replicate (valueLE base r.digits) r.level ++ expandRuns base rs) := by
      simp [expandRuns, Run.length, Nat.add_comm 1, List.replicate_succ]
    rw [e'] at ho
    simp only [List.length_cons, List.length_append, List.length_replicate] at ho
    rw [e]
    simp only [rleLoop]
    rw [Nat.mod_eq_of_lt (by omega), if_pos (by omega), if_neg (by omega),
      rleLoop_digits hb _ _ h2 _ _ _ (by rw [Nat.one_mul]; exact hp r (by simp)) (by simp; omega),
      ih (fun r h => hr r (by simp [h])) (fun r h => hp r (by simp [h])) _ _ _ (by simp; omega), e']
    simp

theorem rleLoop_first {maxv base : Nat} (d : Nat) (rest : List Nat) (h : maxv + 1 + d < 2 ^ 16) :
    rleLoop (maxv + 1) base ((maxv + 1 + d) :: rest) [] none 1 = .err .invalidFirstValue := by
  simp only [rleLoop]
  rw [Nat.mod_eq_of_lt h, if_neg (by omega)]

/-- Unpacking of a section with the given numbers. -/
theorem rleunpack_eq {input : List UInt8} {nbit maxv expected : Nat} (h1 : 1 ≤ nbit) (h2 : nbit < 16)
    (h3 : maxv + 1 ≤ 2 ^ nbit) :
    rleunpack input nbit maxv expected = (do
      let out ← rleLoop (maxv + 1) (2 ^ nbit - (maxv + 1))
        ((List.range (8 * input.length / nbit)).map fun k => bitField input (k * nbit) nbit) [] none 1
      if expected ≠ out.length then .err .lengthMismatch else .ok out) := by
  have hp : 2 ^ nbit ≤ 2 ^ 15 := Nat.pow_le_pow_right (by decide) (by omega)
  have ht : (NBit.new input nbit).drain (8 * input.length + 1) =
      .done ((List.range (8 * input.length / nbit)).map fun k => bitField input (k * nbit) nbit) := by
    rw [NBit.drain_spec _ _ (by simp [NBit.new]) (by simpa [NBit.new] using h1), NBit.fields_new]
    · simp only [NBit.new, NBit.bitPos, Nat.mul_zero, Nat.add_zero, Nat.sub_zero]
      congr 1
      apply List.map_congr_left
      intro k _
      exact bitField_mod (by omega)
    · simp only [NBit.new, NBit.bitPos, Nat.mul_zero, Nat.add_zero, Nat.sub_zero]
      have := Nat.div_le_self (8 * input.length) nbit
      omega
  unfold rleunpack rleunpackFuel
  rw [if_neg (by omega), ht]

theorem readLevels_eq (ops : FloatOps F) {sect5 : List UInt8} (digits n pos : Nat) (h : pos + 2 * n ≤ sect5.length) {ε : Type} :
    (readLevels ops sect5 digits n pos : Outcome ε (List F)) = .ok ((List.range n).map fun k =>
      ops.mul (ops.ofInt (number sect5 (pos + 2 * k) 2)) (ops.powi (ops.ofInt 10) (-(digits : Int)))) := by
  induction n generalizing pos with
  | zero => rfl
  | succ n ih =>
    rw [readLevels, rdAs_number (by omega), Outcome.bind_ok, ih (pos + 2) (by omega)]
    simp only [Outcome.bind_ok]
    rw [List.range_succ_eq_map]
    simp only [List.map_cons, List.map_map, Function.comp_def, Nat.mul_zero, Nat.add_zero]
    have : ∀ k, pos + 2 + 2 * k = pos + 2 * (k + 1) := by intro k; omega
    simp only [this]

theorem readLevels_short (ops : FloatOps F) {sect5 : List UInt8} (digits n pos : Nat) (h : sect5.length < pos + 2 * n)
    (hp : pos ≤ sect5.length) {ε : Type} : (readLevels ops sect5 digits n pos : Outcome ε (List F)) = .panic := by
  induction n generalizing pos with
  | zero => omega
  | succ n ih =>
    rw [readLevels]
    by_cases h2 : pos + 2 ≤ sect5.length
    · rw [rdAs_number (by omega), Outcome.bind_ok, ih (pos + 2) (by omega) (by omega)]; rfl
    · rw [rdAs_panic (by omega)]; rfl

theorem levelsToValues_eq {levelMap : List F} (ls : List Nat) (h : ∀ l ∈ ls, l < levelMap.length) :
    ∃ vs, levelsToValues levelMap ls = .ok vs ∧ vs.length = ls.length ∧
      ∀ k (hk : k < ls.length), vs[k]? = levelMap[ls[k]]? := by
  induction ls with
  | nil => exact ⟨[], rfl, rfl, by simp⟩
  | cons l ls ih =>
    obtain ⟨vs, h1, h2, h3⟩ := ih (fun x hx => h x (by simp [hx]))
    have hl := h l (by simp)
    refine ⟨levelMap[l] :: vs, ?_, by simp [h2], ?_⟩
    · rw [levelsToValues, List.getElem?_eq_getElem hl]
      simp only [h1, Outcome.bind_ok]
    · intro k hk
      cases k with
      | zero => simp [List.getElem?_eq_getElem hl]
      | succ k => simpa using h3 k (by simpa using hk)

theorem levelsToValues_bad {levelMap : List F} (ls : List Nat) (h : ∃ l ∈ ls, levelMap.length ≤ l) :
    ∃ l ∈ ls, levelMap.length ≤ l ∧ levelsToValues levelMap ls = .err (.invalidLevelValue l) := by
  induction ls with
  | nil => simp at h
  | cons l ls ih =>
    rw [levelsToValues]
    by_cases hl : l < levelMap.length
    · obtain ⟨x, hx, hle⟩ := h
      have : x ∈ ls := by
        rcases List.mem_cons.mp hx with rfl | hx
        · omega
        · exact hx
      obtain ⟨y, h1, h2, h3⟩ := ih ⟨x, this, hle⟩
      refine ⟨y, by simp [h1], h2, ?_⟩
      rw [List.getElem?_eq_getElem hl]
      simp only [h3]
      rfl
    · refine ⟨l, by simp, by omega, ?_⟩
      rw [List.getElem?_eq_none (by omega)]

end Grib.Model
