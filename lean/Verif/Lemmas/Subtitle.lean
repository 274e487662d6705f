import Verif.Lemmas.CodeTables

/-! # Lemmas: subtitles of code table files -/

namespace Grib
open Text Spec Gen

theorem splitOn_none {c : Char} {s : Str} (h : c ∉ s) : splitOn c s = [s] := by
  induction s with
  | nil => rfl
  | cons d s ih =>
    simp only [List.mem_cons, not_or] at h
    unfold splitOn
    rw [if_neg (fun e => h.1 e.symm), ih h.2]

theorem splitOn_append {c : Char} {s : Str} (h : c ∉ s) (x : Str) : splitOn c (s ++ c :: x) = s :: splitOn c x := by
  induction s with
  | nil => simp [splitOn]
  | cons d s ih =>
    simp only [List.mem_cons, not_or] at h
    rw [List.cons_append]
    conv => lhs; unfold splitOn
    rw [if_neg (fun e => h.1 e.symm), ih h.2]

theorem splitComma_ne_nil (s : Str) : splitComma s ≠ [] := by
  induction s using splitComma.induct with
  | case1 => simp [splitComma]
  | case2 r ih => simp [splitComma]
  | case3 c r h w ws hw ih =>
    unfold splitComma
    split <;> simp_all
  | case4 c r h hw ih => exact absurd hw ih

theorem splitComma_cons {c : Char} (h : c ≠ ',') (s : Str) :
    splitComma (c :: s) = (c :: (splitComma s).headD []) :: (splitComma s).tail := by
  conv => lhs; unfold splitComma
  split
  · simp_all
  · simp_all
  · rename_i c' r heq
    simp only [List.cons.injEq] at heq
    obtain ⟨rfl, rfl⟩ := heq
    split
    · rename_i hw; rw [hw]; rfl
    · rename_i hw; exact absurd hw (splitComma_ne_nil _)

theorem splitComma_none {s : Str} (h : ',' ∉ s) : splitComma s = [s] := by
  induction s with
  | nil => rfl
  | cons c s ih =>
    simp only [List.mem_cons, not_or] at h
    rw [splitComma_cons (fun e => h.1 e.symm), ih h.2]
    rfl

theorem splitComma_prefix {s : Str} (h : ',' ∉ s) (x : Str) :
    splitComma (s ++ x) = (s ++ (splitComma x).headD []) :: (splitComma x).tail := by
  induction s with
  | nil =>
    have := splitComma_ne_nil x
    cases hx : splitComma x with
    | nil => exact absurd hx this
    | cons => simp [hx]
  | cons c s ih =>
    simp only [List.mem_cons, not_or] at h
    rw [List.cons_append, splitComma_cons (fun e => h.1 e.symm), ih h.2]
    rfl

theorem splitComma_sep {s : Str} (h : ',' ∉ s) (x : Str) :
    splitComma (s ++ (',' :: ' ' :: x)) = s :: splitComma x := by
  rw [splitComma_prefix h]
  simp [splitComma]

theorem showNat_noChar (n : Nat) {c : Char} (h : isDigit c = false) : c ∉ showNat n := by
  obtain ⟨_, ha, _⟩ := (IsDecimal_iff _ _).1 (showNat_decimal n)
  intro hm
  have := List.all_eq_true.1 ha _ hm
  rw [h] at this; cases this

/-- The first three words of `p q num…`. -/
theorem words3 {p q : Str} {n : Nat} {tail : Str} (hp : ' ' ∉ p) (hq : ' ' ∉ q)
    (ht : tail = [] ∨ ∃ r, tail = ' ' :: r) :
    (splitOn ' ' (p ++ ' ' :: (q ++ ' ' :: (showNat n ++ tail)))).take 3 = [p, q, showNat n] := by
  have hn : ' ' ∉ showNat n := showNat_noChar n (by decide)
  rw [splitOn_append hp, splitOn_append hq]
  rcases ht with rfl | ⟨r, rfl⟩
  · rw [List.append_nil, splitOn_none hn]; rfl
  · rw [splitOn_append hn]; simp

theorem head_splitOn {c : Char} {s x : Str} (h : c ∉ s) (hx : x = [] ∨ ∃ r, x = c :: r) :
    (splitOn c (s ++ x)).headD [] = s := by
  rcases hx with rfl | ⟨r, rfl⟩
  · rw [List.append_nil, splitOn_none h]; rfl
  · rw [splitOn_append h]; rfl

def productDiscipline (d : Nat) : Str :=
  "Product".toList ++ ' ' :: ("discipline".toList ++ ' ' :: showNat d)

def parameterCategory (c : Nat) : Str :=
  "parameter".toList ++ ' ' :: ("category".toList ++ ' ' :: showNat c)

theorem noComma_pd (d : Nat) : ',' ∉ productDiscipline d := by
  have := showNat_noChar d (c := ',') (by decide)
  unfold productDiscipline
  simp [this]

theorem noColon_pc (c : Nat) {ch : Char} (h : ch = ',' ∨ ch = ':') : ch ∉ parameterCategory c := by
  rcases h with rfl | rfl
  · have := showNat_noChar c (c := ',') (by decide)
    unfold parameterCategory; simp [this]
  · have := showNat_noChar c (c := ':') (by decide)
    unfold parameterCategory; simp [this]

theorem disc_words (d : Nat) {tail : Str} (ht : tail = [] ∨ ∃ r, tail = ' ' :: r) :
    (splitOn ' ' (productDiscipline d ++ tail)).take 3 = ["Product".toList, "discipline".toList, showNat d] := by
  have h := words3 (p := "Product".toList) (q := "discipline".toList) (n := d) (tail := tail)
    (by decide) (by decide) ht
  unfold productDiscipline
  rw [show ("Product".toList ++ ' ' :: ("discipline".toList ++ ' ' :: showNat d)) ++ tail =
    "Product".toList ++ ' ' :: ("discipline".toList ++ ' ' :: (showNat d ++ tail)) by
      simp only [List.append_assoc, List.cons_append], h]

theorem cat_words (c : Nat) :
    (splitOn ' ' (parameterCategory c)).take 3 = ["parameter".toList, "category".toList, showNat c] := by
  have h := words3 (p := "parameter".toList) (q := "category".toList) (n := c) (tail := [])
    (by decide) (by decide) (Or.inl rfl)
  rw [List.append_nil] at h
  exact h

theorem pd_ne_nil (d : Nat) (t : Str) : productDiscipline d ++ t ≠ [] := by
  unfold productDiscipline; simp

/-- `Product discipline D …` without a comma. -/
theorem parse_l1 {d : Nat} (hd : d < 256) {tail : Str} (ht : tail = [] ∨ ∃ r, tail = ' ' :: r) (hc : ',' ∉ tail) :
    OptArg.parse (productDiscipline d ++ tail) = some (.l1 d) := by
  unfold OptArg.parse
  rw [if_neg (pd_ne_nil d tail), splitComma_none (by simp [noComma_pd, hc])]
  dsimp only
  rw [disc_words d ht]
  simp only [and_self, if_true, parse_showNat hd]

theorem parse_l2 {d c : Nat} (hd : d < 256) (hc : c < 256) {tail tail2 : Str}
    (ht : tail = [] ∨ ∃ r, tail = ' ' :: r) (hcm : ',' ∉ tail)
    (ht2 : tail2 = [] ∨ ∃ r, tail2 = ':' :: r) :
    OptArg.parse (productDiscipline d ++ tail ++ (',' :: ' ' :: (parameterCategory c ++ tail2))) = some (.l2 d c) := by
  unfold OptArg.parse
  rw [if_neg (by unfold productDiscipline; simp), splitComma_sep (by simp [noComma_pd, hcm]),
    splitComma_prefix (noColon_pc c (Or.inl rfl))]
  dsimp only
  rw [disc_words d ht]
  simp only [and_self, if_true, parse_showNat hd]
  rw [head_splitOn (noColon_pc c (Or.inr rfl)) ?_, cat_words c]
  · simp only [and_self, if_true, parse_showNat hc]
  rcases ht2 with rfl | ⟨r, rfl⟩
  · exact Or.inl rfl
  · right
    rw [splitComma_cons (by decide)]
    exact ⟨_, rfl⟩

end Grib
