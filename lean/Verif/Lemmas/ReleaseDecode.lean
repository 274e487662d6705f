import Verif.Model.ReleaseDecode
import Verif.Lemmas.Release
import Verif.Lemmas.Complex

/-! # Release builds: decoding agrees with a debug build up to its first panic -/

namespace Grib.Model.Rel

open Grib.Model

variable {ε F α β : Type}

/-- The second outcome is the first one, unless that is a panic. -/
def Fol (d r : Outcome ε α) : Prop := d = .panic ∨ r = d

theorem Fol.refl (d : Outcome ε α) : Fol d d := Or.inr rfl

theorem Fol.bind {d r : Outcome ε α} {f g : α → Outcome ε β} (h : Fol d r) (hfg : ∀ a, Fol (f a) (g a)) :
    Fol (d.bind f) (r.bind g) := by
  rcases h with h | h
  · exact Or.inl (by rw [h]; rfl)
  · rw [h]
    cases d with
    | ok a => exact hfg a
    | err e => exact Or.inr rfl
    | panic => exact Or.inl rfl

theorem Fol.ok_left {d : Outcome ε α} {a b : α} (h : d = .panic ∨ (d = .ok a ∧ a = b)) : Fol d (.ok b) := by
  rcases h with h | ⟨h, rfl⟩
  · exact Or.inl h
  · exact Or.inr h.symm

/-- Items that agree up to the first panic of the first sequence. -/
inductive Ext {α : Type} : Items α → Items α → Prop
  | nil : Ext [] []
  | cons (x : α) {xs ys : Items α} : Ext xs ys → Ext (.ok x :: xs) (.ok x :: ys)
  | panic (xs ys : Items α) : Ext (.panic :: xs) ys

theorem Ext.refl (xs : Items α) : Ext xs xs := by
  induction xs with
  | nil => exact .nil
  | cons x xs ih =>
    cases x with
    | ok a => exact .cons a ih
    | err e => exact e.elim
    | panic => exact .panic _ _

theorem Ext.append_left (vs : List α) {xs ys : Items α} (h : Ext xs ys) : Ext (vs.map .ok ++ xs) (vs.map .ok ++ ys) := by
  induction vs with
  | nil => exact h
  | cons v vs ih => exact .cons v ih

theorem Ext.map {xs ys : Items α} (h : Ext xs ys) (f : α → β) :
    Ext (xs.map fun x => f <$> x) (ys.map fun x => f <$> x) := by
  induction h with
  | nil => exact .nil
  | cons x _ ih => exact .cons (f x) ih
  | panic xs ys => exact .panic _ _

/-- Without a panic the sequences are equal. -/
theorem Ext.eq_of_noPanic {xs ys : Items α} (h : Ext xs ys) (hn : .panic ∉ xs) : ys = xs := by
  induction h with
  | nil => rfl
  | cons x _ ih => rw [ih (fun h => hn (List.mem_cons_of_mem _ h))]
  | panic xs ys => exact absurd List.mem_cons_self hn

/-- Outcomes that carry such items. -/
def OExt (d r : Outcome ε (Items α)) : Prop :=
  d = .panic ∨ (∃ e, d = .err e ∧ r = .err e) ∨ ∃ xs ys, d = .ok xs ∧ r = .ok ys ∧ Ext xs ys

theorem OExt.refl (d : Outcome ε (Items α)) : OExt d d := by
  cases d with
  | ok xs => exact Or.inr (Or.inr ⟨xs, xs, rfl, rfl, Ext.refl xs⟩)
  | err e => exact Or.inr (Or.inl ⟨e, rfl, rfl⟩)
  | panic => exact Or.inl rfl

theorem OExt.bind {γ : Type} {d r : Outcome ε γ} {f g : γ → Outcome ε (Items β)} (h : Fol d r) (hfg : ∀ a, OExt (f a) (g a)) :
    OExt (d.bind f) (r.bind g) := by
  rcases h with h | h
  · exact Or.inl (by rw [h]; rfl)
  · rw [h]
    cases d with
    | ok a => exact hfg a
    | err e => exact Or.inr (Or.inl ⟨e, rfl, rfl⟩)
    | panic => exact Or.inl rfl

/-! ## Complex packing -/

theorem wrap32_of_range {v : Int} (h : -2 ^ 31 ≤ v ∧ v < 2 ^ 31) : wrap32 v = v := by
  unfold wrap32
  apply Int.bmod_eq_of_le
  · have : ((2 ^ 32 : Nat) : Int) / 2 = 2 ^ 31 := by decide
    omega
  · have : (((2 ^ 32 : Nat) : Int) + 1) / 2 = 2 ^ 31 := by decide
    omega

theorem checkI32_fol (v : Int) : (checkI32 v : Outcome ε Int) = .panic ∨ ((checkI32 v : Outcome ε Int) = .ok v ∧ wrap32 v = v) := by
  unfold checkI32
  split
  · rename_i h; exact Or.inr ⟨rfl, wrap32_of_range h⟩
  · exact Or.inl rfl

theorem checkU32_fol (n : Nat) : (checkU32 n : Outcome ε Nat) = .panic ∨ ((checkU32 n : Outcome ε Nat) = .ok n ∧ n % 2 ^ 32 = n) := by
  unfold checkU32
  split
  · rename_i h; exact Or.inr ⟨rfl, Nat.mod_eq_of_lt h⟩
  · exact Or.inl rfl

theorem getOctetLength_fol (nbit ngroup : Nat) :
    Fol (Model.getOctetLength nbit ngroup : Outcome ε Nat) (.ok (getOctetLength nbit ngroup)) := by
  unfold Model.getOctetLength getOctetLength
  rcases checkU32_fol (ε := ε) (ngroup * nbit) with h | ⟨h, h'⟩
  · left; rw [h]; rfl
  · rw [h, h']
    show Fol ((checkU32 (ngroup * nbit + 7) : Outcome ε Nat).bind _) _
    rcases checkU32_fol (ε := ε) (ngroup * nbit + 7) with h | ⟨h, h'⟩
    · left; rw [h]; rfl
    · right; rw [h, h']; rfl

theorem groupValue_fol (env : GroupEnv) (ref : Int) (m1 m2 v : Nat) :
    Fol (Model.groupValue env ref m1 m2 v : Outcome ε DecodedValue) (.ok (groupValue env ref m1 m2 v)) := by
  unfold Model.groupValue groupValue
  by_cases h1 : env.mvm > 0 ∧ v = m1
  · rw [if_pos h1, if_pos h1]; exact Fol.refl _
  · rw [if_neg h1, if_neg h1]
    by_cases h2 : env.mvm = 2 ∧ v = m2
    · rw [if_pos h2, if_pos h2]; exact Fol.refl _
    · rw [if_neg h2, if_neg h2]
      show Fol ((checkI32 (asGribInt 32 v + ref) : Outcome ε Int).bind _) _
      rcases checkI32_fol (ε := ε) (asGribInt 32 v + ref) with h | ⟨h, h'⟩
      · left; rw [h]; rfl
      · rw [h, h']
        show Fol ((checkI32 (asGribInt 32 v + ref + env.zMin) : Outcome ε Int).bind _) _
        rcases checkI32_fol (ε := ε) (asGribInt 32 v + ref + env.zMin) with h | ⟨h, h'⟩
        · left; rw [h]; rfl
        · right; rw [h, h']; rfl

theorem mapPulls_fol {f : α → Outcome ε β} {g : α → β} (h : ∀ a, Fol (f a) (.ok (g a))) (xs : List α) :
    Fol (mapPulls f xs) (.ok (xs.map g)) := by
  induction xs with
  | nil => exact Fol.refl _
  | cons x xs ih =>
    rw [mapPulls]
    have hx := h x
    show Fol ((f x).bind _) _
    rcases hx with hx | hx
    · left; rw [hx]; rfl
    · rw [← hx]
      show Fol ((mapPulls f xs).bind _) _
      rcases ih with hi | hi
      · left; rw [hi]; rfl
      · right; rw [← hi]; rfl

theorem groupNext_fol (env : GroupEnv) (st : GroupPos) (ref width length : Nat) :
    Fol (Model.groupNext env st ref width length : Outcome ε _) (groupNext env st ref width length) := by
  unfold Model.groupNext groupNext
  by_cases hw : width = 0
  · rw [if_pos hw, if_pos hw]
    apply Fol.bind (Fol.refl _)
    intro ref
    by_cases hn : env.nbit ≥ 31
    · left; rw [if_pos hn]
    · rw [if_neg hn]
      have e1 : env.nbit % 32 = env.nbit := Nat.mod_eq_of_lt (by omega)
      have hp : (2 : Int) ^ env.nbit ≤ 2 ^ 30 := by
        have : (2 : Nat) ^ env.nbit ≤ 2 ^ 30 := Nat.pow_le_pow_right (by omega) (by omega)
        exact_mod_cast this
      have hp0 : (0 : Int) < 2 ^ env.nbit := by
        have : 0 < (2 : Nat) ^ env.nbit := Nat.pow_pos (by omega)
        exact_mod_cast this
      have e2 : wrap32 (wrap32 (2 ^ (env.nbit % 32)) - 1) = 2 ^ env.nbit - 1 := by
        rw [e1, wrap32_of_range (v := 2 ^ env.nbit) (by omega), wrap32_of_range (by omega)]
      have e3 : wrap32 ((2 : Int) ^ env.nbit - 1 - 1) = 2 ^ env.nbit - 1 - 1 := wrap32_of_range (by omega)
      simp only [e2, e3]
      by_cases h1 : env.mvm > 0 ∧ ref = 2 ^ env.nbit - 1
      · rw [if_pos h1, if_pos h1]; exact Fol.refl _
      · rw [if_neg h1, if_neg h1]
        by_cases h2 : env.mvm = 2 ∧ ref = 2 ^ env.nbit - 1 - 1
        · rw [if_pos h2, if_pos h2]; exact Fol.refl _
        · rw [if_neg h2, if_neg h2]
          show Fol ((checkI32 (ref + env.zMin) : Outcome ε Int).bind _) _
          rcases checkI32_fol (ε := ε) (ref + env.zMin) with h | ⟨h, h'⟩
          · left; rw [h]; rfl
          · right; rw [h, h']; rfl
  · rw [if_neg hw, if_neg hw]
    apply Fol.bind (Fol.refl _)
    intro ref
    dsimp only
    by_cases hn : width ≥ 32
    · left; rw [if_pos hn]
    · rw [if_neg hn]
      have e1 : width % 32 = width := Nat.mod_eq_of_lt (by omega)
      have hp : (2 : Nat) ^ width ≤ 2 ^ 31 := Nat.pow_le_pow_right (by omega) (by omega)
      have hp0 : 2 ≤ (2 : Nat) ^ width := by
        have : (2 : Nat) ^ 1 ≤ 2 ^ width := Nat.pow_le_pow_right (by omega) (by omega)
        omega
      have e2 : (2 ^ width - 1 + 2 ^ 32 - 1) % 2 ^ 32 = 2 ^ width - 1 - 1 := by omega
      rw [e1, e2]
      apply Fol.bind (Fol.refl _)
      intro slice
      apply Fol.bind (Fol.refl _)
      intro raw
      show Fol ((mapPulls (Model.groupValue env ref _ _) raw).bind _) _
      rcases mapPulls_fol (groupValue_fol (ε := ε) env ref (2 ^ width - 1) (2 ^ width - 1 - 1)) raw with h | h
      · left; rw [h]; rfl
      · right; rw [← h]; rfl

/-- Lists of lazily computed numbers and their wrapped values. -/
inductive Nums : Items Nat → List Nat → Prop
  | nil : Nums [] []
  | cons {d : Pull Nat} {n : Nat} {ds : Items Nat} {ns : List Nat} : Fol d (.ok n) → Nums ds ns → Nums (d :: ds) (n :: ns)

theorem Nums.map (f : Nat → Pull Nat) (g : Nat → Nat) (h : ∀ a, Fol (f a) (.ok (g a))) (xs : List Nat) :
    Nums (xs.map f) (xs.map g) := by
  induction xs with
  | nil => exact .nil
  | cons x xs ih => exact .cons (h x) ih

theorem Nums.append {d1 d2 : Items Nat} {n1 n2 : List Nat} (h1 : Nums d1 n1) (h2 : Nums d2 n2) : Nums (d1 ++ d2) (n1 ++ n2) := by
  induction h1 with
  | nil => exact h2
  | cons h _ ih => exact .cons h ih

theorem groupItems_ext (env : GroupEnv) (refs : List Nat) {dw dl : Items Nat} {nw nl : List Nat} (hw : Nums dw nw)
    (hl : Nums dl nl) (st : GroupPos) : Ext (Model.groupItems env refs dw dl st) (groupItems env refs nw nl st) := by
  induction refs generalizing dw dl nw nl st with
  | nil =>
    have e1 : Model.groupItems env [] dw dl st = [] := by unfold Model.groupItems; rfl
    have e2 : groupItems env [] nw nl st = [] := by unfold groupItems; rfl
    rw [e1, e2]; exact .nil
  | cons ref refs ih =>
    cases hw with
    | nil =>
      have e1 : Model.groupItems env (ref :: refs) [] dl st = [] := by unfold Model.groupItems; rfl
      have e2 : groupItems env (ref :: refs) [] nl st = [] := by unfold groupItems; rfl
      rw [e1, e2]; exact .nil
    | cons hw1 hw2 =>
      cases hl with
      | nil =>
        rename_i w nw' dws nws
        have e1 : Model.groupItems env (ref :: refs) (w :: dws) [] st = [] := by unfold Model.groupItems; rfl
        have e2 : groupItems env (ref :: refs) (nw' :: nws) [] st = [] := by unfold groupItems; rfl
        rw [e1, e2]; exact .nil
      | cons hl1 hl2 =>
        rename_i w nw' dws nws l nl' dls nls
        rw [Model.groupItems, groupItems]
        rcases hw1 with rfl | hw1
        · exact .panic _ _
        · subst hw1
          rcases hl1 with rfl | hl1
          · exact .panic _ _
          · subst hl1
            show Ext (match (Model.groupNext env st ref nw' nl' : Outcome Empty _) with
              | .ok (values, st') => values.map .ok ++ Model.groupItems env refs dws dls st'
              | _ => [.panic]) _
            rcases groupNext_fol (ε := Empty) env st ref nw' nl' with h | h
            · rw [h]; exact .panic _ _
            · rw [h]
              cases hg : (Model.groupNext env st ref nw' nl' : Outcome Empty _) with
              | ok q => exact Ext.append_left _ (ih hw2 hl2 _)
              | err e => exact e.elim
              | panic => exact .panic _ _

theorem decodeComplexPacking_ext (p : ComplexParam) (sect7 : List UInt8) (off nbit : Nat) (zMin : Int) (hp : p.ngroup < 2 ^ 32) :
    OExt (Model.decodeComplexPacking p sect7 off nbit zMin : Outcome ε _) (decodeComplexPacking p sect7 off nbit zMin) := by
  unfold Model.decodeComplexPacking decodeComplexPacking
  dsimp only
  rcases getOctetLength_fol (ε := ε) nbit p.ngroup with h1 | h1
  · left; rw [h1]; rfl
  rcases getOctetLength_fol (ε := ε) p.widthNbit p.ngroup with h2 | h2
  · left; rw [← h1, h2]; rfl
  rcases getOctetLength_fol (ε := ε) p.lenNbit p.ngroup with h3 | h3
  · left; rw [← h1, ← h2, h3]; rfl
  rw [← h1, ← h2, ← h3]
  simp only [Outcome.bind_ok]
  refine OExt.bind (Fol.refl _) fun s1 => ?_
  refine OExt.bind (Fol.refl _) fun refs => ?_
  refine OExt.bind (Fol.refl _) fun s2 => ?_
  refine OExt.bind (Fol.refl _) fun widths => ?_
  by_cases h0 : p.ngroup = 0
  · left; rw [if_pos h0]
  · rw [if_neg h0]
    have e : (p.ngroup + 2 ^ 32 - 1) % 2 ^ 32 = p.ngroup - 1 := by omega
    rw [e]
    refine OExt.bind (Fol.refl _) fun s3 => ?_
    refine OExt.bind (Fol.refl _) fun lens => ?_
    refine OExt.bind (Fol.refl _) fun rest => ?_
    refine Or.inr (Or.inr ⟨_, _, rfl, rfl, groupItems_ext _ _ (Nums.map _ _ ?_ _) (Nums.append (Nums.map _ _ ?_ _)
      (.cons (Fol.refl _) .nil)) _⟩)
    · intro v
      rcases checkU32_fol (ε := Empty) (p.widthRef + v) with h | ⟨h, h'⟩
      · exact Or.inl h
      · right; rw [h, h']
    · intro v
      show Fol ((checkU32 (p.lenInc * v) : Outcome Empty Nat).bind _) _
      rcases checkU32_fol (ε := Empty) (p.lenInc * v) with h | ⟨h, h'⟩
      · left; rw [h]; rfl
      · rw [h, h']
        rcases checkU32_fol (ε := Empty) (p.lenRef + p.lenInc * v) with h | ⟨h, h'⟩
        · exact Or.inl h
        · right; rw [h']; exact h.symm

/-! ## Spatial differencing -/

theorem stepItems_ext {σ : Type} {d r : σ → α → Outcome Empty (β × σ)} (h : ∀ s a, Fol (d s a) (r s a)) {xs ys : Items α}
    (hx : Ext xs ys) (s : σ) : Ext (stepItems d s xs) (stepItems r s ys) := by
  induction hx generalizing s with
  | nil => exact .nil
  | cons x _ ih =>
    rw [stepItems, stepItems]
    rcases h s x with h | h
    · rw [h]; exact .panic _ _
    · rw [h]
      cases hd : d s x with
      | ok q => exact .cons _ (ih _)
      | err e => exact e.elim
      | panic => exact .panic _ _
  | panic xs ys => exact .panic _ _

theorem diff1Step_fol (s : Diff1) (a : DecodedValue) : Fol (Diff1.step s a : Outcome ε _) (diff1Step s a) := by
  obtain ⟨fv, count, prev⟩ := s
  cases a with
  | missing1 => exact Fol.refl _
  | missing2 => exact Fol.refl _
  | normal v =>
    match count with
    | 0 => exact Fol.refl _
    | n + 1 =>
      show Fol ((checkI32 (v + prev) : Outcome ε Int).bind _) 
        (Outcome.ok (DecodedValue.normal (wrap32 (v + prev)), (⟨fv, n + 1, wrap32 (v + prev)⟩ : Diff1)))
      rcases checkI32_fol (ε := ε) (v + prev) with h | ⟨h, h'⟩
      · left; rw [h]; rfl
      · right; rw [h, h']; rfl

theorem diff2Step_fol (s : Diff2) (a : DecodedValue) : Fol (Diff2.step s a : Outcome ε _) (diff2Step s a) := by
  obtain ⟨fv, count, prev1, prev2⟩ := s
  cases a with
  | missing1 => exact Fol.refl _
  | missing2 => exact Fol.refl _
  | normal v =>
    match count with
    | 0 => exact Fol.refl _
    | 1 => exact Fol.refl _
    | n + 2 =>
      show Fol ((checkI32 (2 * prev1) : Outcome ε Int).bind _)
        (Outcome.ok (DecodedValue.normal (wrap32 (wrap32 (v + wrap32 (2 * prev1)) - prev2)),
          (⟨fv, n + 2, wrap32 (wrap32 (v + wrap32 (2 * prev1)) - prev2), prev1⟩ : Diff2)))
      rcases checkI32_fol (ε := ε) (2 * prev1) with h | ⟨h, h'⟩
      · left; rw [h]; rfl
      · rw [h, h']
        show Fol ((checkI32 (v + 2 * prev1) : Outcome ε Int).bind _) _
        rcases checkI32_fol (ε := ε) (v + 2 * prev1) with h | ⟨h, h'⟩
        · left; rw [h]; rfl
        · rw [h, h']
          show Fol ((checkI32 (v + 2 * prev1 - prev2) : Outcome ε Int).bind _) _
          rcases checkI32_fol (ε := ε) (v + 2 * prev1 - prev2) with h | ⟨h, h'⟩
          · left; rw [h]; rfl
          · right; rw [h, h']; rfl

theorem unpackAll_ext (ops : FloatOps F) (p : SimpleParam F) (f : α → F) {xs ys : Items α} (h : Ext xs ys) :
    Ext (p.unpackAll ops f xs) (p.unpackAll ops f ys) := h.map _

theorem number4_lt' (data : List UInt8) (p : Nat) : Spec.number data p 4 < 2 ^ 32 := by
  have h (q : Nat) : Spec.octet data q < 256 := (data.getD q 0).toNat_lt
  have h0 := h (p + 0)
  have h1 := h (p + 1)
  have h2 := h (p + 2)
  have h3 := h (p + 3)
  have : Spec.number data p 4 = (((0 * 256 + Spec.octet data (p + 0)) * 256 + Spec.octet data (p + 1)) * 256 +
    Spec.octet data (p + 2)) * 256 + Spec.octet data (p + 3) := rfl
  omega

theorem fromSect5_ngroup {sect5 : List UInt8} {p : ComplexParam} (h : (ComplexParam.fromSect5 sect5 : Outcome ε _) = .ok p) :
    p.ngroup < 2 ^ 32 := by
  by_cases hl : 42 ≤ sect5.length
  · rw [complexParam_eq hl] at h
    have := Outcome.ok.inj h
    subst this
    exact number4_lt' _ _
  · rw [complexParam_short (by omega)] at h
    cases h

theorem OExt.bind_items {γ : Type} {d r : Outcome ε (Items γ)} {f g : Items γ → Outcome ε (Items β)} (h : OExt d r)
    (hfg : ∀ xs ys, Ext xs ys → OExt (f xs) (g ys)) : OExt (d.bind f) (r.bind g) := by
  rcases h with h | ⟨e, h, h'⟩ | ⟨xs, ys, h, h', hx⟩
  · exact Or.inl (by rw [h]; rfl)
  · exact Or.inr (Or.inl ⟨e, by rw [h]; rfl, by rw [h']; rfl⟩)
  · rw [h, h']; exact hfg xs ys hx

theorem OExt.bind_eq {γ : Type} {d : Outcome ε γ} {f g : γ → Outcome ε (Items β)} (hfg : ∀ a, d = .ok a → OExt (f a) (g a)) :
    OExt (d.bind f) (d.bind g) := by
  cases d with
  | ok a => exact hfg a rfl
  | err e => exact Or.inr (Or.inl ⟨e, rfl, rfl⟩)
  | panic => exact Or.inl rfl

theorem complexDecode2_ext (ops : FloatOps F) (t : Decoder) : OExt (Model.complexDecode2 ops t) (complexDecode2 ops t) := by
  unfold Model.complexDecode2 complexDecode2
  refine OExt.bind_eq fun simple _ => ?_
  refine OExt.bind_eq fun complex hc => ?_
  split
  · exact OExt.refl _
  · refine OExt.bind_items (decodeComplexPacking_ext _ _ _ _ _ (fromSect5_ngroup hc)) fun xs ys h => ?_
    exact Or.inr (Or.inr ⟨_, _, rfl, rfl, unpackAll_ext _ _ _ h⟩)

theorem complexDecode3_ext (ops : FloatOps F) (t : Decoder) : OExt (Model.complexDecode3 ops t) (complexDecode3 ops t) := by
  unfold Model.complexDecode3 complexDecode3
  refine OExt.bind_eq fun simple _ => ?_
  refine OExt.bind_eq fun complex hc => ?_
  refine OExt.bind_eq fun order _ => ?_
  split
  · exact OExt.refl _
  · refine OExt.bind_eq fun octets _ => ?_
    split
    · exact OExt.refl _
    · refine OExt.bind_eq fun d _ => ?_
      refine OExt.bind_eq fun m _ => ?_
      refine OExt.bind_items (decodeComplexPacking_ext _ _ _ _ _ (fromSect5_ngroup hc)) fun xs ys h => ?_
      refine OExt.bind_eq fun first _ => ?_
      refine Or.inr (Or.inr ⟨_, _, rfl, rfl, unpackAll_ext _ _ _ ?_⟩)
      by_cases ho : order = 1
      · rw [if_pos ho, if_pos ho]; exact stepItems_ext diff1Step_fol h _
      · rw [if_neg ho, if_neg ho]; exact stepItems_ext diff2Step_fol h _

/-! ## Run-length packing -/

theorem rleLoop_fol (rlbase lngu : Nat) (values out : List Nat) (cached : Option Nat) (exp : Nat) :
    Fol (Model.rleLoop rlbase lngu values out cached exp) (rleLoop rlbase lngu values out cached exp) := by
  induction values generalizing out cached exp with
  | nil => exact Fol.refl _
  | cons v vs ih =>
    unfold Model.rleLoop rleLoop
    dsimp only
    by_cases h1 : rlbase > v % 2 ^ 16
    · rw [if_pos h1, if_pos h1]
      by_cases h2 : out.length + 1 ≥ 2 ^ 62
      · rw [if_pos h2, if_pos h2]; exact Fol.refl _
      · rw [if_neg h2, if_neg h2]; exact ih _ _ _
    · rw [if_neg h1, if_neg h1]
      cases cached with
      | none => exact Fol.refl _
      | some prev =>
        dsimp only
        by_cases h3 : (v % 2 ^ 16 - rlbase) * exp ≥ USIZE ∨ out.length + (v % 2 ^ 16 - rlbase) * exp ≥ 2 ^ 62 ∨ exp * lngu ≥ USIZE
        · rw [if_pos h3]; exact Or.inl rfl
        · rw [if_neg h3]
          have e1 : ((v % 2 ^ 16 - rlbase) * exp) % USIZE = (v % 2 ^ 16 - rlbase) * exp := Nat.mod_eq_of_lt (by omega)
          have e2 : (exp * lngu) % USIZE = exp * lngu := Nat.mod_eq_of_lt (by omega)
          rw [e1, e2, if_neg (by omega)]
          exact ih _ _ _

theorem rleunpack_fol (input : List UInt8) (nbit maxv len : Nat) :
    Fol (Model.rleunpack input nbit maxv len) (rleunpack input nbit maxv len) := by
  unfold Model.rleunpack rleunpack Model.rleunpackFuel rleunpackFuel
  by_cases h : maxv + 1 ≥ 2 ^ 16 ∨ nbit ≥ 16 ∨ 2 ^ nbit < maxv + 1
  · rw [if_pos h]; exact Or.inl rfl
  · rw [if_neg h]
    have e1 : (maxv + 1) % 2 ^ 16 = maxv + 1 := Nat.mod_eq_of_lt (by omega)
    have e2 : nbit % 16 = nbit := Nat.mod_eq_of_lt (by omega)
    have hp : (2 : Nat) ^ nbit ≤ 2 ^ 15 := Nat.pow_le_pow_right (by omega) (by omega)
    have e3 : (2 ^ nbit + 2 ^ 16 - (maxv + 1)) % 2 ^ 16 = 2 ^ nbit - (maxv + 1) := by omega
    simp only [e1, e2, e3]
    cases (NBit.new input nbit).drain (8 * input.length + 1) with
    | done values => exact Fol.bind (rleLoop_fol _ _ _ _ _ _) fun _ => Fol.refl _
    | panic => exact Or.inl rfl
    | more values => exact Or.inl rfl

theorem Fol.mapErr {ε' : Type} {d r : Outcome ε α} (h : Fol d r) (f : ε → ε') : Fol (d.mapErr f) (r.mapErr f) := by
  rcases h with rfl | rfl
  · exact Or.inl rfl
  · exact Or.inr rfl

theorem runLengthDecode_ext (ops : FloatOps F) (t : Decoder) : OExt (Model.runLengthDecode ops t) (runLengthDecode ops t) := by
  unfold Model.runLengthDecode runLengthDecode
  refine OExt.bind_eq fun nbit _ => ?_
  refine OExt.bind_eq fun maxv _ => ?_
  refine OExt.bind_eq fun maxLevel _ => ?_
  refine OExt.bind_eq fun digits _ => ?_
  refine OExt.bind_eq fun levels _ => ?_
  refine OExt.bind ((rleunpack_fol _ _ _ _).mapErr _) fun decoded => ?_
  exact OExt.refl _

/-! ## The decoder -/

theorem decodeValues_ext (c : Codecs F) (t : Decoder) : OExt (t.decodeValues c) (decodeValues c t) := by
  unfold Decoder.decodeValues decodeValues
  split
  · rename_i h; rw [h]; exact OExt.refl _
  · rename_i h; rw [h]; exact complexDecode2_ext _ _
  · rename_i h; rw [h]; exact complexDecode3_ext _ _
  · rename_i h; rw [h]; exact OExt.refl _
  · rename_i h; rw [h]; exact OExt.refl _
  · rename_i h; rw [h]; exact runLengthDecode_ext _ _
  · split <;> first | contradiction | exact OExt.refl _

/-- Bitmap iterators over items that agree up to the first panic. -/
def BExt (a b : BitmapIter F) : Prop := b = { a with values := b.values } ∧ Ext a.values b.values

theorem next_bext (ops : FloatOps F) {a b : BitmapIter F} (h : BExt a b) :
    (a.next ops).1 = .panic ∨ ((b.next ops).1 = (a.next ops).1 ∧ BExt (a.next ops).2 (b.next ops).2) := by
  obtain ⟨ab, av, al, ao⟩ := a
  obtain ⟨bb, bv, bl, bo⟩ := b
  obtain ⟨h1, h2⟩ := h
  simp only [BitmapIter.mk.injEq, true_and] at h1
  obtain ⟨rfl, rfl, rfl⟩ := h1
  simp only at h2
  unfold BitmapIter.next
  dsimp only
  by_cases h3 : bo ≥ bl
  · rw [if_pos h3, if_pos h3]; exact Or.inr ⟨rfl, rfl, h2⟩
  · rw [if_neg h3, if_neg h3]
    have hv : ∀ {x y : Items F}, Ext x y → BExt (if bo < 7 then (⟨bb, x, bl, bo + 1⟩ : BitmapIter F) else ⟨bb.tail, x, bl, 0⟩)
        (if bo < 7 then (⟨bb, y, bl, bo + 1⟩ : BitmapIter F) else ⟨bb.tail, y, bl, 0⟩) := by
      intro x y hxy
      split <;> exact ⟨rfl, hxy⟩
    cases bb with
    | nil => exact Or.inr ⟨rfl, hv h2⟩
    | cons byte rest =>
      dsimp only
      by_cases h4 : hasZeroAtOffset byte bo = true
      · rw [if_pos h4, if_pos h4]; exact Or.inr ⟨rfl, hv h2⟩
      · rw [if_neg h4, if_neg h4]
        cases h2 with
        | nil => exact Or.inr ⟨rfl, hv .nil⟩
        | cons x hx =>
          refine Or.inr ⟨rfl, ?_⟩
          dsimp only
          split <;> exact ⟨rfl, hx⟩
        | panic xs ys => exact Or.inl rfl

theorem drain_bext (ops : FloatOps F) (fuel : Nat) {a b : BitmapIter F} (h : BExt a b) :
    a.drain ops fuel = .panic ∨ b.drain ops fuel = a.drain ops fuel := by
  induction fuel generalizing a b with
  | zero => exact Or.inr rfl
  | succ f ih =>
    rw [BitmapIter.drain, BitmapIter.drain]
    rcases ha : a.next ops with ⟨o, a'⟩
    rcases hb : b.next ops with ⟨o', b'⟩
    have := next_bext ops h
    rw [ha, hb] at this
    rcases this with h1 | ⟨h1, h2⟩
    · simp only at h1; subst h1; exact Or.inl rfl
    · simp only at h1 h2
      subst h1
      cases o' with
      | err e => exact e.elim
      | panic => exact Or.inl rfl
      | ok x =>
        cases x with
        | none => exact Or.inr rfl
        | some v =>
          dsimp only
          rcases ih h2 with h | h
          · left; rw [h]; rfl
          · right; rw [h]

theorem toList_bext (ops : FloatOps F) {a b : BitmapIter F} (h : BExt a b) :
    a.toList ops = .panic ∨ b.toList ops = a.toList ops := by
  have e : b.bitmap = a.bitmap := by rw [h.1]
  unfold BitmapIter.toList
  rw [e]
  exact drain_bext ops _ h

theorem dispatch_bext (c : Codecs F) (t : Decoder) :
    t.dispatch c = .panic ∨ (∃ e, t.dispatch c = .err e ∧ dispatch c t = .err e) ∨
      ∃ a b, t.dispatch c = .ok a ∧ dispatch c t = .ok b ∧ BExt a b := by
  have h := decodeValues_ext c t
  have e1 : t.dispatch c = (t.decodeValues c).bind fun v => BitmapIter.new t.bitmap v t.numPointsTotal := rfl
  have e2 : dispatch c t = (decodeValues c t).bind fun v => BitmapIter.new t.bitmap v t.numPointsTotal := rfl
  rw [e1, e2]
  rcases h with h | ⟨e, h, h'⟩ | ⟨xs, ys, h, h', hx⟩
  · exact Or.inl (by rw [h]; rfl)
  · exact Or.inr (Or.inl ⟨e, by rw [h]; rfl, by rw [h']; rfl⟩)
  · rw [h, h']
    show BitmapIter.new _ _ _ = _ ∨ _
    simp only [Outcome.bind]
    unfold BitmapIter.new
    split
    · exact Or.inr (Or.inl ⟨_, rfl, rfl⟩)
    · exact Or.inr (Or.inr ⟨_, _, rfl, rfl, rfl, hx⟩)

/-! ## The sections -/

theorem payloadAsSlice_eq {s : SectionInfo} (h5 : 5 ≤ s.size) (hs : s.size < 2 ^ 63) (ho : s.offset + 5 < 2 ^ 64) :
    readSectPayloadAsSlice s = Model.readSectPayloadAsSlice s := by
  unfold readSectPayloadAsSlice Model.readSectPayloadAsSlice
  have e : uadd s.offset 5 = s.offset + 5 := Nat.mod_eq_of_lt (by unfold USIZE; omega)
  rw [e, usub_le h5, allocReadExact_small (by omega), if_neg (by omega)]

theorem fromSub_eq (m : SubMessage) (h : ∀ s ∈ [m.s5.2, m.s6.2, m.s7.2], 5 ≤ s.size ∧ s.size < 2 ^ 63 ∧ s.offset + 5 < 2 ^ 64)
    (r : Rdr) : fromSub m r = Decoder.fromSub m r := by
  have e5 := payloadAsSlice_eq (h m.s5.2 (by simp)).1 (h m.s5.2 (by simp)).2.1 (h m.s5.2 (by simp)).2.2
  have e6 := payloadAsSlice_eq (h m.s6.2 (by simp)).1 (h m.s6.2 (by simp)).2.1 (h m.s6.2 (by simp)).2.2
  have e7 := payloadAsSlice_eq (h m.s7.2 (by simp)).1 (h m.s7.2 (by simp)).2.1 (h m.s7.2 (by simp)).2.2
  unfold fromSub Decoder.fromSub
  simp only [e5, e6, e7]
  rfl

end Grib.Model.Rel
