import Verif.Props.RunLength

/-! # C67: every outcome of run-length decoding

`Written t rs`: the numbers in section 7 are those of the runs `rs`.  Every section 7 either begins with a number that is
not a level or is written as runs, so the cases below are all there are. -/

namespace Grib.Model

open Grib.Spec

theorem rleLoop_digits_over {maxv base : Nat} (hb : maxv + 1 + base ≤ 2 ^ 16) (ds rest : List Nat)
    (hd : ∀ d ∈ ds, d < base) (out : List Nat) (l exp : Nat) (hexp : exp < 2 ^ 64) (hout : out.length < 2 ^ 62)
    (h : 2 ^ 64 ≤ exp * base ^ ds.length ∨ 2 ^ 62 ≤ out.length + exp * valueLE base ds) :
    rleLoop (maxv + 1) base (ds.map (maxv + 1 + ·) ++ rest) out (some l) exp = .panic := by
  induction ds generalizing out exp with
  | nil => simp [valueLE] at h; omega
  | cons d ds ih =>
    have hd0 := hd d (by simp)
    simp only [List.map_cons, List.cons_append, rleLoop]
    rw [Nat.mod_eq_of_lt (by omega), if_neg (by omega), show maxv + 1 + d - (maxv + 1) = d by omega]
    have e1 : exp * valueLE base (d :: ds) = d * exp + exp * base * valueLE base ds := by
      rw [valueLE, Nat.mul_add, Nat.mul_comm exp d, Nat.mul_assoc]
    have e2 : exp * base * base ^ ds.length = exp * base ^ (ds.length + 1) := by
      rw [Nat.pow_succ, Nat.mul_assoc, Nat.mul_comm base]
    rw [List.length_cons, ← e2, e1] at h
    by_cases hg : d * exp ≥ USIZE ∨ out.length + d * exp ≥ 2 ^ 62 ∨ exp * base ≥ USIZE
    · rw [if_pos hg]
    · rw [if_neg hg]
      unfold USIZE at hg
      refine ih (fun x hx => hd x (by simp [hx])) _ _ (by omega) (by simp; omega) ?_
      simp only [List.length_append, List.length_replicate]
      omega

theorem rleLoop_runs_over {maxv base : Nat} (hb : maxv + 1 + base ≤ 2 ^ 16) (rs : List Run)
    (hr : ∀ r ∈ rs, r.Ok maxv base) (out : List Nat) (cached : Option Nat) (exp : Nat) (hout : out.length < 2 ^ 62)
    (h : (∃ r ∈ rs, 2 ^ 64 ≤ base ^ r.digits.length) ∨ 2 ^ 62 ≤ out.length + (expandRuns base rs).length) :
    rleLoop (maxv + 1) base (runSymbols maxv rs) out cached exp = .panic := by
  induction rs generalizing out cached exp with
  | nil => simp [expandRuns] at h; omega
  | cons r rs ih =>
    obtain ⟨h1, h2⟩ := hr r (by simp)
    have e : runSymbols maxv (r :: rs) = r.level :: (r.digits.map (maxv + 1 + ·) ++ runSymbols maxv rs) := by
      simp [runSymbols, Run.symbols]
    have e' : expandRuns base (r :: rs) = r.level :: (List.replicate (valueLE base r.digits) r.level ++ expandRuns base rs) := by
      simp [expandRuns, Run.length, Nat.add_comm 1, List.replicate_succ]
    rw [e'] at h
    simp only [List.length_cons, List.length_append, List.length_replicate, List.mem_cons, exists_eq_or_imp] at h
    rw [e]
    simp only [rleLoop]
    rw [Nat.mod_eq_of_lt (by omega), if_pos (by omega)]
    by_cases hp : out.length + 1 ≥ 2 ^ 62
    · rw [if_pos hp]
    · rw [if_neg hp]
      by_cases hg : 2 ^ 64 ≤ base ^ r.digits.length ∨ 2 ^ 62 ≤ out.length + 1 + valueLE base r.digits
      · refine rleLoop_digits_over hb _ _ h2 _ _ _ (by omega) (by simp; omega) ?_
        simpa using hg
      · rw [rleLoop_digits hb _ _ h2 _ _ _ (by omega) (by simp; omega)]
        refine ih (fun r h => hr r (by simp [h])) _ _ _ (by simp; omega) ?_
        rcases h with (h | h) | h
        · omega
        · exact .inl h
        · right; simp; omega

theorem levelsToValues_first {F : Type} {levelMap : List F} (pre : List Nat) (l : Nat) (post : List Nat)
    (hpre : ∀ x ∈ pre, x < levelMap.length) (hl : levelMap.length ≤ l) :
    levelsToValues levelMap (pre ++ l :: post) = .err (.invalidLevelValue l) := by
  induction pre with
  | nil => rw [List.nil_append, levelsToValues, List.getElem?_eq_none hl]
  | cons x pre ih =>
    rw [List.cons_append, levelsToValues, List.getElem?_eq_getElem (hpre x (by simp)),
      ih (fun y hy => hpre y (by simp [hy]))]
    rfl

theorem first_above (n : Nat) (ls : List Nat) (h : ∃ l ∈ ls, n < l) :
    ∃ pre l post, ls = pre ++ l :: post ∧ (∀ x ∈ pre, x ≤ n) ∧ n < l := by
  induction ls with
  | nil => simp at h
  | cons x ls ih =>
    by_cases hx : n < x
    · exact ⟨[], x, ls, rfl, by simp, hx⟩
    · obtain ⟨pre, l, post, rfl, h1, h2⟩ := ih (by
        obtain ⟨l, hl, hn⟩ := h
        rcases List.mem_cons.mp hl with rfl | hl
        · exact absurd hn hx
        · exact ⟨l, hl, hn⟩)
      refine ⟨x :: pre, l, post, rfl, ?_, h2⟩
      intro y hy
      rcases List.mem_cons.mp hy with rfl | hy
      · omega
      · exact h1 y hy

end Grib.Model

namespace Grib.Props

open Grib.Model Grib.Spec

variable {F : Type}

/-- Section 5 has all its levels, the width is at most 15 bits, `MV` fits the width, and a width of zero comes with an empty
section 7. -/
structure RunLengthUsable (t : Decoder) : Prop where
  complete : 12 + 2 * (runLengthTemplate t.sect5).levels ≤ t.sect5.length
  width : (runLengthTemplate t.sect5).nbit ≤ 15
  fits : (runLengthTemplate t.sect5).maxv < 2 ^ (runLengthTemplate t.sect5).nbit
  zero : (runLengthTemplate t.sect5).nbit = 0 → t.sect7 = []

/-- The numbers in section 7 are those of the runs `rs`. -/
structure Written (t : Decoder) (rs : List Run) : Prop where
  numbers : sectNumbers t.sect7 (runLengthTemplate t.sect5).nbit = runSymbols (runLengthTemplate t.sect5).maxv rs
  ok : ∀ r ∈ rs, r.Ok (runLengthTemplate t.sect5).maxv (runLengthTemplate t.sect5).base

/-- The first number in section 7 is not a level. -/
def FirstNotLevel (t : Decoder) : Prop :=
  ∃ v vs, sectNumbers t.sect7 (runLengthTemplate t.sect5).nbit = v :: vs ∧ (runLengthTemplate t.sect5).maxv < v

/-- The levels that runs stand for. -/
def levelsOf (t : Decoder) (rs : List Run) : List Nat := expandRuns (runLengthTemplate t.sect5).base rs

/-- The powers of the base fit 64 bits and the levels fit the address space (two octets each). -/
def InRange (t : Decoder) (rs : List Run) : Prop :=
  (∀ r ∈ rs, (runLengthTemplate t.sect5).base ^ r.digits.length < 2 ^ 64) ∧ (levelsOf t rs).length < 2 ^ 62

def runLengthErr (e : RunLengthError) : GribError := .decodeError (.runLength e)

theorem usable_unpack {t : Decoder} (h : RunLengthUsable t) :
    rleunpack t.sect7 (runLengthTemplate t.sect5).nbit (runLengthTemplate t.sect5).maxv t.numPointsEncoded = (do
      let out ← rleLoop ((runLengthTemplate t.sect5).maxv + 1) (runLengthTemplate t.sect5).base
        (sectNumbers t.sect7 (runLengthTemplate t.sect5).nbit) [] none 1
      if t.numPointsEncoded ≠ out.length then .err .lengthMismatch else .ok out) := by
  obtain ⟨-, h2, h3, h4⟩ := h
  generalize runLengthTemplate t.sect5 = p at *
  have hb : 2 ^ p.nbit - (p.maxv + 1) = p.base := by unfold RunLengthTemplate.base; omega
  by_cases h0 : p.nbit = 0
  · have h7 := h4 h0
    have hm : p.maxv = 0 := by rw [h0] at h3; simpa using h3
    rw [h7, h0, hm]
    rfl
  · rw [rleunpack_eq (by omega) (by omega) (by omega), hb]
    rfl

theorem base_bound {t : Decoder} (h : RunLengthUsable t) :
    (runLengthTemplate t.sect5).maxv + 1 + (runLengthTemplate t.sect5).base ≤ 2 ^ 16 ∧
    ∀ v ∈ sectNumbers t.sect7 (runLengthTemplate t.sect5).nbit,
      v < (runLengthTemplate t.sect5).maxv + 1 + (runLengthTemplate t.sect5).base := by
  obtain ⟨-, h2, h3, h4⟩ := h
  generalize runLengthTemplate t.sect5 = p at *
  have hp : 2 ^ p.nbit ≤ 2 ^ 15 := Nat.pow_le_pow_right (by decide) h2
  refine ⟨by unfold RunLengthTemplate.base; omega, ?_⟩
  intro v hv
  obtain ⟨k, -, rfl⟩ := List.mem_map.mp hv
  have := bitField_lt t.sect7 (k * p.nbit) p.nbit
  unfold RunLengthTemplate.base; omega

theorem not_usable_panic (ops : FloatOps F) (t : Decoder) (h : ¬ RunLengthUsable t) : runLengthDecode ops t = .panic := by
  by_cases h5 : 12 + 2 * (runLengthTemplate t.sect5).levels ≤ t.sect5.length
  · rw [runLengthDecode_eq ops t h5]
    have : rleunpack t.sect7 (runLengthTemplate t.sect5).nbit (runLengthTemplate t.sect5).maxv t.numPointsEncoded = .panic := by
      generalize hq : runLengthTemplate t.sect5 = p at *
      by_cases hbad : p.maxv + 1 ≥ 2 ^ 16 ∨ p.nbit ≥ 16 ∨ 2 ^ p.nbit < p.maxv + 1
      · unfold rleunpack rleunpackFuel
        rw [if_pos hbad]
      · have hz : p.nbit = 0 ∧ t.sect7 ≠ [] := by
          by_cases hz : p.nbit = 0 ∧ t.sect7 ≠ []
          · exact hz
          · refine absurd ⟨by rw [hq]; exact h5, by rw [hq]; omega, by rw [hq]; omega, ?_⟩ h
            rw [hq]
            intro h0
            exact Decidable.byContradiction fun h7 => hz ⟨h0, h7⟩
        unfold rleunpack rleunpackFuel
        rw [if_neg hbad, hz.1, C02_width_zero_never_ends _ hz.2]
    simp only
    rw [this]
    rfl
  · by_cases h12 : 12 ≤ t.sect5.length
    · exact C26_short_section_panics_fails ops t h12 (by omega)
    · unfold runLengthDecode
      by_cases h6 : 7 ≤ t.sect5.length
      · rw [rdAs_number (by omega), Outcome.bind_ok]
        by_cases h7 : 9 ≤ t.sect5.length
        · rw [rdAs_number (by omega), Outcome.bind_ok]
          by_cases h9 : 11 ≤ t.sect5.length
          · rw [rdAs_number (by omega), Outcome.bind_ok, rdAs_panic (by omega)]; rfl
          · rw [rdAs_panic (by omega)]; rfl
        · rw [rdAs_panic (by omega)]; rfl
      · rw [rdAs_panic (by omega)]; rfl

theorem first_not_level_err (ops : FloatOps F) {t : Decoder} (h : RunLengthUsable t) (hf : FirstNotLevel t) :
    runLengthDecode ops t = .err (runLengthErr .invalidFirstValue) := by
  obtain ⟨v, vs, hs, hv⟩ := hf
  obtain ⟨b1, b2⟩ := base_bound h
  have hvb := b2 v (by rw [hs]; simp)
  rw [runLengthDecode_eq ops t h.complete]
  simp only
  rw [usable_unpack h, hs, show v = (runLengthTemplate t.sect5).maxv + 1 + (v - ((runLengthTemplate t.sect5).maxv + 1)) by omega,
    rleLoop_first _ _ (by omega)]
  rfl

theorem out_of_range_panic (ops : FloatOps F) {t : Decoder} (h : RunLengthUsable t) {rs : List Run} (hw : Written t rs)
    (hr : ¬ InRange t rs) : runLengthDecode ops t = .panic := by
  obtain ⟨b1, b2⟩ := base_bound h
  rw [runLengthDecode_eq ops t h.complete]
  simp only
  rw [usable_unpack h, hw.numbers, rleLoop_runs_over b1 rs hw.ok _ _ _ (by simp)]
  · rfl
  · unfold InRange levelsOf at hr
    by_cases hl : 2 ^ 62 ≤ (expandRuns (runLengthTemplate t.sect5).base rs).length
    · exact .inr (by simpa using hl)
    · left
      apply Decidable.byContradiction
      intro hn
      refine hr ⟨fun r hm => ?_, by omega⟩
      apply Decidable.byContradiction
      intro hc
      exact hn ⟨r, hm, by omega⟩

theorem in_range_eq (ops : FloatOps F) {t : Decoder} (h : RunLengthUsable t) {rs : List Run} (hw : Written t rs)
    (hr : InRange t rs) :
    runLengthDecode ops t = if t.numPointsEncoded ≠ (levelsOf t rs).length then .err (runLengthErr .lengthMismatch) else (do
      let values ← (levelsToValues (ops.nan :: (List.range (runLengthTemplate t.sect5).levels).map
        fun k => levelValue ops t.sect5 (k + 1)) (levelsOf t rs)).mapErr fun e => .decodeError (.runLength e)
      .ok (values.map .ok)) := by
  obtain ⟨b1, b2⟩ := base_bound h
  rw [runLengthDecode_eq ops t h.complete]
  simp only
  rw [usable_unpack h, hw.numbers, rleLoop_runs b1 rs hw.ok hr.1 _ _ _ (by have := hr.2; unfold levelsOf at this; simpa using this)]
  simp only [List.nil_append, Outcome.bind_ok]
  unfold levelsOf
  split
  · rfl
  · rfl

theorem mismatch_err (ops : FloatOps F) {t : Decoder} (h : RunLengthUsable t) {rs : List Run} (hw : Written t rs)
    (hr : InRange t rs) (hc : t.numPointsEncoded ≠ (levelsOf t rs).length) :
    runLengthDecode ops t = .err (runLengthErr .lengthMismatch) := by
  rw [in_range_eq ops h hw hr, if_pos hc]

theorem level_err (ops : FloatOps F) {t : Decoder} (h : RunLengthUsable t) {rs : List Run} (hw : Written t rs)
    (hr : InRange t rs) (hc : t.numPointsEncoded = (levelsOf t rs).length) (pre : List Nat) (l : Nat) (post : List Nat)
    (he : levelsOf t rs = pre ++ l :: post) (hpre : ∀ x ∈ pre, x ≤ (runLengthTemplate t.sect5).levels)
    (hl : (runLengthTemplate t.sect5).levels < l) :
    runLengthDecode ops t = .err (runLengthErr (.invalidLevelValue l)) := by
  rw [in_range_eq ops h hw hr, if_neg (not_not_intro hc), he, levelsToValues_first]
  · rfl
  · intro x hx
    have := hpre x hx
    simp; omega
  · simp; omega

theorem levels_ok (ops : FloatOps F) {t : Decoder} (h : RunLengthUsable t) {rs : List Run} (hw : Written t rs)
    (hr : InRange t rs) (hc : t.numPointsEncoded = (levelsOf t rs).length)
    (hl : ∀ l ∈ levelsOf t rs, l ≤ (runLengthTemplate t.sect5).levels) :
    runLengthDecode ops t = .ok ((levelsOf t rs).map fun l => .ok (levelValue ops t.sect5 l)) := by
  rw [in_range_eq ops h hw hr, if_neg (not_not_intro hc), levels_all _ _ _ _ hl]
  simp [Outcome.mapErr, Function.comp_def]

/-- Every section 7 begins with a number that is not a level, or is written as runs. -/
theorem written_or_not {t : Decoder} (h : RunLengthUsable t) : FirstNotLevel t ∨ ∃ rs, Written t rs := by
  obtain ⟨b1, b2⟩ := base_bound h
  rcases parse_runs _ _ (Nat.le_refl _) _ b2 with ⟨rs, hs, hr⟩ | ⟨ds, rs, hne, hs, hd, hr⟩
  · exact .inr ⟨rs, hs, hr⟩
  · left
    cases ds with
    | nil => exact absurd rfl hne
    | cons d ds => exact ⟨_, _, hs, by dsimp only; omega⟩

/-- All the cases. -/
inductive RunLengthCase (ops : FloatOps F) (t : Decoder) : Outcome GribError (Items F) → Prop
  | unusable (h : ¬ RunLengthUsable t) : RunLengthCase ops t .panic
  | first (h : RunLengthUsable t) (hf : FirstNotLevel t) : RunLengthCase ops t (.err (runLengthErr .invalidFirstValue))
  | range (h : RunLengthUsable t) (rs : List Run) (hw : Written t rs) (hr : ¬ InRange t rs) : RunLengthCase ops t .panic
  | mismatch (h : RunLengthUsable t) (rs : List Run) (hw : Written t rs) (hr : InRange t rs)
      (hc : t.numPointsEncoded ≠ (levelsOf t rs).length) : RunLengthCase ops t (.err (runLengthErr .lengthMismatch))
  | level (h : RunLengthUsable t) (rs : List Run) (hw : Written t rs) (hr : InRange t rs)
      (hc : t.numPointsEncoded = (levelsOf t rs).length) (pre : List Nat) (l : Nat) (post : List Nat)
      (he : levelsOf t rs = pre ++ l :: post) (hpre : ∀ x ∈ pre, x ≤ (runLengthTemplate t.sect5).levels)
      (hl : (runLengthTemplate t.sect5).levels < l) : RunLengthCase ops t (.err (runLengthErr (.invalidLevelValue l)))
  | values (h : RunLengthUsable t) (rs : List Run) (hw : Written t rs) (hr : InRange t rs)
      (hc : t.numPointsEncoded = (levelsOf t rs).length)
      (hl : ∀ l ∈ levelsOf t rs, l ≤ (runLengthTemplate t.sect5).levels) :
      RunLengthCase ops t (.ok ((levelsOf t rs).map fun l => .ok (levelValue ops t.sect5 l)))

/-- C67: the outcome of decoding is `o` if and only if the data are in the case of `o`, whatever the data.  (A panic stands
for decoding that does not return: `C67_ends` tells panics from loops.) -/
theorem C67_outcome (ops : FloatOps F) (t : Decoder) (o : Outcome GribError (Items F)) :
    runLengthDecode ops t = o ↔ RunLengthCase ops t o := by
  constructor
  · rintro rfl
    by_cases h : RunLengthUsable t
    · rcases written_or_not h with hf | ⟨rs, hw⟩
      · rw [first_not_level_err ops h hf]; exact .first h hf
      · by_cases hr : InRange t rs
        · by_cases hc : t.numPointsEncoded = (levelsOf t rs).length
          · by_cases hl : ∃ l ∈ levelsOf t rs, (runLengthTemplate t.sect5).levels < l
            · obtain ⟨pre, l, post, he, hpre, hl⟩ := first_above _ _ hl
              rw [level_err ops h hw hr hc pre l post he hpre hl]; exact .level h rs hw hr hc pre l post he hpre hl
            · have hl : ∀ l ∈ levelsOf t rs, l ≤ (runLengthTemplate t.sect5).levels := by
                intro l hm
                apply Decidable.byContradiction
                intro hn
                exact hl ⟨l, hm, by omega⟩
              rw [levels_ok ops h hw hr hc hl]; exact .values h rs hw hr hc hl
          · rw [mismatch_err ops h hw hr hc]; exact .mismatch h rs hw hr hc
        · rw [out_of_range_panic ops h hw hr]; exact .range h rs hw hr
    · rw [not_usable_panic ops t h]; exact .unusable h
  · intro h
    cases h with
    | unusable h => exact not_usable_panic ops t h
    | first h hf => exact first_not_level_err ops h hf
    | range h rs hw hr => exact out_of_range_panic ops h hw hr
    | mismatch h rs hw hr hc => exact mismatch_err ops h hw hr hc
    | level h rs hw hr hc pre l post he hpre hl => exact level_err ops h hw hr hc pre l post he hpre hl
    | values h rs hw hr hc hl => exact levels_ok ops h hw hr hc hl

/-- C67: unpacking never ends exactly if the width is zero, `MV` is zero and section 7 is not empty. -/
theorem C67_ends (input : List UInt8) (nbit maxv expected : Nat) :
    (∀ fuel, rleunpackFuel fuel input nbit maxv expected = none) ↔ nbit = 0 ∧ maxv = 0 ∧ input ≠ [] := by
  constructor
  · intro h
    by_cases hbad : maxv + 1 ≥ 2 ^ 16 ∨ nbit ≥ 16 ∨ 2 ^ nbit < maxv + 1
    · have := h 0
      unfold rleunpackFuel at this
      rw [if_pos hbad] at this
      cases this
    · have h1 := h (8 * input.length + 1)
      by_cases hn : nbit = 0
      · subst hn
        refine ⟨rfl, by omega, ?_⟩
        rintro rfl
        unfold rleunpackFuel at h1
        rw [if_neg hbad] at h1
        cases h1
      · exfalso
        have ht : ∃ vs, (NBit.new input nbit).drain (8 * input.length + 1) = .done vs := by
          rw [NBit.drain_spec _ _ (by simp [NBit.new]) (by simp [NBit.new]; omega)]
          · exact ⟨_, rfl⟩
          · simp only [NBit.new, NBit.bitPos, Nat.mul_zero, Nat.add_zero, Nat.sub_zero]
            have := Nat.div_le_self (8 * input.length) nbit
            omega
        obtain ⟨vs, ht⟩ := ht
        unfold rleunpackFuel at h1
        rw [if_neg hbad, ht] at h1
        cases h1
  · rintro ⟨rfl, rfl, h⟩ fuel
    exact C26_never_ends_fails input h expected fuel

/-- The numbers read from packed numbers: those packed and as many zeros as the padding has room for. -/
theorem sectNumbers_padded {n : Nat} (hn : 1 ≤ n) (xs : List Nat) (hx : ∀ x ∈ xs, x < 2 ^ n) :
    sectNumbers (packInts n xs) n =
      xs ++ List.replicate ((8 * ((n * xs.length + 7) / 8) - n * xs.length) / n) 0 := by
  have hl : (packInts n xs).length = (n * xs.length + 7) / 8 := by
    simp only [packInts, packOctets_length, flatMap_toBits_length]
  generalize hz : (8 * ((n * xs.length + 7) / 8) - n * xs.length) / n = z
  have hcount : 8 * (packInts n xs).length / n = xs.length + z := by
    rw [hl, ← hz]
    have hle : n * xs.length ≤ 8 * ((n * xs.length + 7) / 8) := by omega
    generalize 8 * ((n * xs.length + 7) / 8) = m at *
    obtain ⟨k, rfl⟩ : ∃ k, m = n * xs.length + k := ⟨m - n * xs.length, by omega⟩
    rw [Nat.add_sub_cancel_left, Nat.mul_add_div (by omega)]
  unfold sectNumbers
  rw [hcount]
  apply List.ext_getElem (by simp)
  intro k h1 h2
  simp only [List.getElem_map, List.getElem_range]
  by_cases hk : k < xs.length
  · rw [List.getElem_append_left hk]
    have := bitField_packInts_append n xs [] k hk
    rw [List.append_nil] at this
    rw [this, Nat.mod_eq_of_lt (hx _ (List.getElem_mem hk))]
  · rw [List.getElem_append_right (by omega), List.getElem_replicate]
    unfold bitField packInts
    rw [bits_packOctets, List.drop_append]
    have h3 : (xs.flatMap (toBits n)).length ≤ k * n := by
      rw [flatMap_toBits_length, Nat.mul_comm]; exact Nat.mul_le_mul_right _ (by omega)
    rw [List.drop_of_length_le h3, List.nil_append, List.drop_replicate, List.take_replicate]
    generalize min n _ = j
    induction j with
    | zero => rfl
    | succ j ih => rw [List.replicate_succ, ofBits, ih]; rfl

/-- C67: packing the runs of any levels and decoding gives the levels back if the padding of the last octet has no room for
a further number, and is a length mismatch otherwise. -/
theorem C67_round_trip (ops : FloatOps F) (t : Decoder) (p : RunLengthTemplate) (hp : p = runLengthTemplate t.sect5)
    (h5 : 12 + 2 * p.levels ≤ t.sect5.length) (hn : 1 ≤ p.nbit) (hn' : p.nbit ≤ 15) (hmv : p.maxv + 1 < 2 ^ p.nbit)
    (levels : List Nat) (hl : ∀ l ∈ levels, l ≤ p.maxv ∧ l ≤ p.levels) (hcount : t.numPointsEncoded = levels.length)
    (hlen : levels.length < 2 ^ 32) (m : Nat) (hm : m = (runSymbols p.maxv (encodeRuns p.base levels)).length)
    (h7 : t.sect7 = packInts p.nbit (runSymbols p.maxv (encodeRuns p.base levels))) :
    runLengthDecode ops t = if 8 * t.sect7.length < p.nbit * (m + 1) then
        .ok (levels.map fun l => .ok (levelValue ops t.sect5 l))
      else .err (runLengthErr .lengthMismatch) := by
  have h7l : t.sect7.length = (p.nbit * m + 7) / 8 := by
    rw [h7, hm]; simp only [packInts, packOctets_length, flatMap_toBits_length]
  split
  · rename_i hpad
    exact C25_round_trip_partial ops t p hp h5 hn hn' hmv levels hl hcount hlen (by rw [← hm, ← h7l]; exact hpad) h7
  · rename_i hpad
    obtain ⟨e1, e2⟩ := encodeRuns_spec (base := p.base) levels (fun l h => (hl l h).1)
    have hbase : p.base ≤ 2 ^ 15 := by
      have : 2 ^ p.nbit ≤ 2 ^ 15 := Nat.pow_le_pow_right (by decide) hn'
      unfold RunLengthTemplate.base; omega
    have hsym : ∀ x ∈ runSymbols p.maxv (encodeRuns p.base levels), x < 2 ^ p.nbit := by
      intro x hx
      obtain ⟨r, hrm, hx⟩ := List.mem_flatMap.mp hx
      obtain ⟨⟨h1, h2⟩, -⟩ := e2 r hrm
      unfold Run.symbols at hx
      rcases List.mem_cons.mp hx with rfl | hx
      · omega
      · obtain ⟨d, hd, rfl⟩ := List.mem_map.mp hx
        have := h2 d hd
        unfold RunLengthTemplate.base at this
        omega
    have hnum := sectNumbers_padded hn _ hsym
    rw [← h7, ← hm] at hnum
    generalize hz : (8 * ((p.nbit * m + 7) / 8) - p.nbit * m) / p.nbit = z at hnum
    have hz1 : 1 ≤ z := by
      rw [← hz, Nat.le_div_iff_mul_le (by omega)]
      rw [h7l, Nat.mul_add] at hpad
      omega
    have hz2 : z ≤ 8 := by
      rw [← hz]
      exact Nat.le_trans (Nat.div_le_self _ _) (by omega)
    subst hp
    have hu : RunLengthUsable t := ⟨h5, hn', by omega, by omega⟩
    have hrep : runSymbols (runLengthTemplate t.sect5).maxv (List.replicate z ⟨0, []⟩) = List.replicate z 0 := by
      clear hnum hz hz1 hz2
      induction z with
      | zero => rfl
      | succ z ih =>
        rw [List.replicate_succ, List.replicate_succ, ← ih]; rfl
    have hexp : (expandRuns (runLengthTemplate t.sect5).base (List.replicate z ⟨0, []⟩)).length = z := by
      clear hnum hz hz1 hz2 hrep
      induction z with
      | zero => rfl
      | succ z ih =>
        rw [List.replicate_succ]
        simp only [expandRuns, List.flatMap_cons, List.length_append, List.length_replicate] at ih ⊢
        rw [ih]; simp [Run.length, valueLE]; omega
    have hw : Written t (encodeRuns (runLengthTemplate t.sect5).base levels ++ List.replicate z ⟨0, []⟩) := by
      refine ⟨?_, ?_⟩
      · rw [hnum]
        unfold runSymbols at hrep ⊢
        rw [List.flatMap_append, hrep]
      · intro r hr
        rcases List.mem_append.mp hr with hr | hr
        · exact (e2 r hr).1
        · rw [List.eq_of_mem_replicate hr]
          exact ⟨Nat.zero_le _, by simp⟩
    have hlv : (levelsOf t (encodeRuns (runLengthTemplate t.sect5).base levels ++ List.replicate z ⟨0, []⟩)).length =
        levels.length + z := by
      have h1 := congrArg List.length e1
      unfold levelsOf
      unfold expandRuns at h1 hexp ⊢
      rw [List.flatMap_append, List.length_append, h1, hexp]
    refine mismatch_err ops hu hw ⟨?_, by rw [hlv]; omega⟩ (by rw [hlv]; omega)
    intro r hr
    rcases List.mem_append.mp hr with hr | hr
    · rcases (e2 r hr).2 with h | h
      · rw [h]; simp
      · calc (runLengthTemplate t.sect5).base ^ r.digits.length
            ≤ (runLengthTemplate t.sect5).base * levels.length := h
          _ ≤ 2 ^ 15 * 2 ^ 32 := Nat.mul_le_mul hbase (by omega)
          _ < 2 ^ 64 := by decide
    · rw [List.eq_of_mem_replicate hr]; simp

/-! ## Cases that occur -/

example : RunLengthCase FloatOps.exact { sampleRunLength with sect7 := [250] } (.err (runLengthErr .invalidFirstValue)) :=
  (C67_outcome _ _ _).mp (by decide +kernel)

example : RunLengthCase FloatOps.exact { sampleRunLength with sect7 := [2] } (.err (runLengthErr .lengthMismatch)) :=
  (C67_outcome _ _ _).mp (by decide +kernel)

example : RunLengthCase FloatOps.exact { sampleRunLength with sect7 := [2, 5], numPointsEncoded := 2 }
    (.ok [.ok (some 1), .ok (some 1)]) := (C67_outcome _ _ _).mp (by decide +kernel)

example : RunLengthCase FloatOps.exact { sampleRunLength with sect7 := [2, 4, 4, 4, 4, 4, 4, 4, 4, 4] } .panic :=
  (C67_outcome _ _ _).mp (by decide +kernel)

end Grib.Props
