import Verif.Model.NarrowDecode
import Verif.Lemmas.ReleaseDecode

/-! # 32-bit platforms: decoding and coordinates agree with 64 bits up to the first panic -/

namespace Grib.Model.N32

open Grib.Model Grib.Model.Rel

variable {ε F G : Type}

theorem folIf {α : Type} {P : Prop} [Decidable P] (d : Outcome ε α) : Fol (if P then .panic else d) d := by
  split
  · exact Or.inl rfl
  · exact Or.inr rfl

/-! ## Complex packing -/

theorem groupNext_fol (grow : Nat → Bool) (env : GroupEnv) (st : GroupPos) (ref width length : Nat) :
    Fol (groupNext grow env st ref width length : Outcome ε _) (Model.groupNext env st ref width length) := by
  unfold groupNext
  split
  · exact folIf _
  · dsimp only
    generalize (if (st.startOffsetBits + width * length) % 8 > 0 then 1 else 0) = ob
    split
    · exact Or.inl rfl
    · cases h : (Model.groupNext env st ref width length : Outcome ε _) with
      | ok x =>
        show Fol (if grow (8 * x.1.length) then Outcome.ok (x.1, x.2) else .panic) _
        split
        · exact Or.inr rfl
        · exact Or.inl rfl
      | err e => exact Or.inr rfl
      | panic => exact Or.inl rfl

theorem groupItems_ext (grow : Nat → Bool) (env : GroupEnv) (refs : List Nat) (ws ls : Items Nat) (st : GroupPos) :
    Ext (groupItems grow env refs ws ls st) (Model.groupItems env refs ws ls st) := by
  induction refs generalizing ws ls st with
  | nil =>
    have e1 : Model.groupItems env [] ws ls st = [] := by unfold Model.groupItems; rfl
    have e2 : groupItems grow env [] ws ls st = [] := by unfold groupItems; rfl
    rw [e1, e2]; exact .nil
  | cons ref refs ih =>
    cases ws with
    | nil =>
      have e1 : Model.groupItems env (ref :: refs) [] ls st = [] := by unfold Model.groupItems; rfl
      have e2 : groupItems grow env (ref :: refs) [] ls st = [] := by unfold groupItems; rfl
      rw [e1, e2]; exact .nil
    | cons w ws =>
      cases ls with
      | nil =>
        have e1 : Model.groupItems env (ref :: refs) (w :: ws) [] st = [] := by unfold Model.groupItems; rfl
        have e2 : groupItems grow env (ref :: refs) (w :: ws) [] st = [] := by unfold groupItems; rfl
        rw [e1, e2]; exact .nil
      | cons l ls =>
        rw [Model.groupItems, groupItems]
        cases w with
        | panic => exact .panic _ _
        | err e => exact e.elim
        | ok w =>
          cases l with
          | panic => exact .panic _ _
          | err e => exact e.elim
          | ok l =>
            show Ext (match (groupNext grow env st ref w l : Outcome Empty _) with
              | .ok (values, st') => values.map .ok ++ groupItems grow env refs ws ls st'
              | _ => [.panic])
              (match (Model.groupNext env st ref w l : Outcome Empty _) with
              | .ok (values, st') => values.map .ok ++ Model.groupItems env refs ws ls st'
              | _ => [.panic])
            rcases groupNext_fol (ε := Empty) grow env st ref w l with h | h
            · rw [h]; exact .panic _ _
            · rw [h]
              cases hg : (groupNext grow env st ref w l : Outcome Empty _) with
              | ok q => exact Ext.append_left _ (ih _ _ _)
              | err e => exact e.elim
              | panic => exact .panic _ _

theorem decodeComplexPacking_ext (grow : Nat → Bool) (p : ComplexParam) (sect7 : List UInt8) (off nbit : Nat) (zMin : Int) :
    OExt (decodeComplexPacking grow p sect7 off nbit zMin : Outcome ε _) (Model.decodeComplexPacking p sect7 off nbit zMin) := by
  unfold Model.decodeComplexPacking decodeComplexPacking
  refine OExt.bind_eq fun a1 _ => OExt.bind_eq fun a2 _ => OExt.bind_eq fun a3 _ => OExt.bind_eq fun s1 _ =>
    OExt.bind_eq fun refs _ => OExt.bind_eq fun s2 _ => OExt.bind_eq fun widths _ => ?_
  split
  · exact OExt.refl _
  · refine OExt.bind_eq fun s3 _ => OExt.bind_eq fun lens _ => OExt.bind_eq fun rest _ => ?_
    exact Or.inr (Or.inr ⟨_, _, rfl, rfl, groupItems_ext _ _ _ _ _ _⟩)

theorem complexDecode2_ext (grow : Nat → Bool) (ops : FloatOps F) (t : Decoder) :
    OExt (complexDecode2 grow ops t) (Model.complexDecode2 ops t) := by
  unfold Model.complexDecode2 complexDecode2
  refine OExt.bind_eq fun simple _ => ?_
  refine OExt.bind_eq fun complex hc => ?_
  split
  · exact OExt.refl _
  · refine OExt.bind_items (decodeComplexPacking_ext _ _ _ _ _ _) fun xs ys h => ?_
    exact Or.inr (Or.inr ⟨_, _, rfl, rfl, unpackAll_ext _ _ _ h⟩)

theorem complexDecode3_ext (grow : Nat → Bool) (ops : FloatOps F) (t : Decoder) :
    OExt (complexDecode3 grow ops t) (Model.complexDecode3 ops t) := by
  unfold Model.complexDecode3 complexDecode3
  refine OExt.bind_eq fun simple _ => ?_
  refine OExt.bind_eq fun complex hc => ?_
  refine OExt.bind_eq fun order _ => ?_
  split
  · exact OExt.refl _
  · refine OExt.bind_eq fun octets _ => ?_
    split
    · exact OExt.refl _
    · refine OExt.bind_eq fun d _ => ?_
      refine OExt.bind_eq fun m _ => ?_
      refine OExt.bind_items (decodeComplexPacking_ext _ _ _ _ _ _) fun xs ys h => ?_
      refine OExt.bind_eq fun first _ => ?_
      refine Or.inr (Or.inr ⟨_, _, rfl, rfl, unpackAll_ext _ _ _ ?_⟩)
      split
      · exact stepItems_ext (fun _ _ => Fol.refl _) h _
      · exact stepItems_ext (fun _ _ => Fol.refl _) h _

/-! ### Equality where nothing is too large -/

/-- The group iterator: where all the values of 64 bits come without a panic and there are at most `2^27` of them. -/
theorem groupItems_same {grow : Nat → Bool} (hg : ∀ n, n ≤ 2 ^ 30 → grow n = true) (env : GroupEnv)
    (hd : env.data.length < 2 ^ 29) (refs : List Nat) (ws ls : Items Nat) (st : GroupPos)
    (hn : .panic ∉ Model.groupItems env refs ws ls st) (hl : (Model.groupItems env refs ws ls st).length ≤ 2 ^ 27) :
    groupItems grow env refs ws ls st = Model.groupItems env refs ws ls st := by
  induction refs generalizing ws ls st with
  | nil => unfold Model.groupItems groupItems; rfl
  | cons ref refs ih =>
    cases ws with
    | nil => unfold Model.groupItems groupItems; rfl
    | cons w ws =>
      cases ls with
      | nil => unfold Model.groupItems groupItems; rfl
      | cons l ls =>
        rw [Model.groupItems] at hn hl ⊢
        rw [groupItems]
        cases w with
        | panic => exact absurd List.mem_cons_self hn
        | err e => exact e.elim
        | ok w =>
          cases l with
          | panic => exact absurd List.mem_cons_self hn
          | err e => exact e.elim
          | ok l =>
            simp only [Outcome.bind_ok] at hn hl ⊢
            cases hm : (Model.groupNext env st ref w l : Outcome Empty _) with
            | panic => rw [hm] at hn; exact absurd List.mem_cons_self hn
            | err e => exact e.elim
            | ok q =>
              rw [hm] at hn hl
              simp only [List.mem_append, not_or, List.length_append, List.length_map] at hn hl
              have hq : (groupNext grow env st ref w l : Outcome Empty _) = .ok q := by
                unfold groupNext
                have hgrow := hg (8 * q.1.length) (by omega)
                by_cases hw : w = 0
                · rw [if_pos hw]
                  have : q.1.length = l := by
                    unfold Model.groupNext at hm
                    rw [if_pos hw] at hm
                    unfold toI32 at hm
                    split at hm
                    · rw [Outcome.bind_ok] at hm
                      split at hm
                      · cases hm
                      · dsimp only at hm
                        split at hm
                        · rw [← Outcome.ok.inj hm]; simp
                        · split at hm
                          · rw [← Outcome.ok.inj hm]; simp
                          · unfold checkI32 at hm
                            split at hm
                            · rw [Outcome.bind_ok] at hm
                              rw [← Outcome.ok.inj hm]; simp
                            · cases hm
                    · cases hm
                  rw [if_neg (by omega), hm]
                · rw [if_neg hw]
                  dsimp only
                  have hb : st.pos + (st.startOffsetBits + w * l) / 8 +
                      (if (st.startOffsetBits + w * l) % 8 > 0 then 1 else 0) ≤ env.data.length := by
                    unfold Model.groupNext at hm
                    rw [if_neg hw] at hm
                    unfold toI32 at hm
                    split at hm
                    · rw [Outcome.bind_ok] at hm
                      dsimp only at hm
                      split at hm
                      · cases hm
                      · generalize (if (st.startOffsetBits + w * l) % 8 > 0 then 1 else 0) = ob at *
                        unfold sliceTo at hm
                        split at hm
                        · rename_i h; exact h.2
                        · cases hm
                    · cases hm
                  have hb' : (st.startOffsetBits + w * l) / 8 + (if (st.startOffsetBits + w * l) % 8 > 0 then 1 else 0) <
                      2 ^ 29 := by omega
                  rw [if_neg, hm]
                  · simp only [Outcome.bind_ok, hgrow, if_true]
                  · have hob : (st.startOffsetBits + w * l) % 8 > 0 ∨ (if (st.startOffsetBits + w * l) % 8 > 0 then 1 else 0) = 0 := by
                      split
                      · left; assumption
                      · right; rfl
                    generalize (if (st.startOffsetBits + w * l) % 8 > 0 then 1 else 0) = ob at *
                    omega
              simp only [hq]
              rw [ih _ _ _ hn.2 (by omega)]

/-- Mapping items does not hide a panic. -/
theorem panic_mem_unpackAll {α : Type} (ops : FloatOps F) (p : SimpleParam F) (f : α → F) {xs : Items α}
    (h : .panic ∉ p.unpackAll ops f xs) : .panic ∉ xs := fun hm => h (List.mem_map.2 ⟨_, hm, rfl⟩)

theorem stepItems_noPanic {σ α β : Type} (step : σ → α → Outcome Empty (β × σ)) (s : σ) (xs : Items α)
    (h : .panic ∉ stepItems step s xs) : .panic ∉ xs ∧ (stepItems step s xs).length = xs.length := by
  induction xs generalizing s with
  | nil => exact ⟨by simp, rfl⟩
  | cons x xs ih =>
    cases x with
    | err e => exact e.elim
    | panic => exact absurd List.mem_cons_self h
    | ok a =>
      rw [stepItems] at h ⊢
      cases hs : step s a with
      | err e => exact e.elim
      | panic => rw [hs] at h; exact absurd List.mem_cons_self h
      | ok q =>
        rw [hs] at h
        simp only [List.mem_cons, not_or] at h
        have := ih q.2 h.2
        exact ⟨by simp [this.1], by simp [this.2]⟩

theorem decodeComplexPacking_same {grow : Nat → Bool} (hg : ∀ n, n ≤ 2 ^ 30 → grow n = true) (p : ComplexParam)
    (sect7 : List UInt8) (off nbit : Nat) (zMin : Int) (hs : sect7.length < 2 ^ 29) {xs : Items DecodedValue}
    (h : (Model.decodeComplexPacking p sect7 off nbit zMin : Outcome ε _) = .ok xs) (hn : .panic ∉ xs)
    (hl : xs.length ≤ 2 ^ 27) : (decodeComplexPacking grow p sect7 off nbit zMin : Outcome ε _) = .ok xs := by
  unfold Model.decodeComplexPacking at h
  unfold decodeComplexPacking
  have step {α β : Type} {d : Outcome ε α} {f g : α → Outcome ε β} {y : β} (h : d.bind f = .ok y)
      (k : ∀ a, d = .ok a → f a = .ok y → g a = .ok y) : d.bind g = .ok y := by
    cases d with
    | ok a => exact k a rfl h
    | err e => cases h
    | panic => cases h
  refine step h fun a1 _ h => step h fun a2 _ h => step h fun a3 _ h => step h fun s1 _ h => step h fun refs _ h =>
    step h fun s2 _ h => step h fun widths _ h => ?_
  by_cases h0 : p.ngroup = 0
  · rw [if_pos h0] at h; cases h
  · rw [if_neg h0] at h ⊢
    refine step h fun s3 _ h => step h fun lens _ h => step h fun rest hr h => ?_
    have hx := Outcome.ok.inj h
    subst hx
    refine congrArg Outcome.ok (groupItems_same hg _ ?_ _ _ _ _ hn hl)
    have : rest.length ≤ sect7.length := by
      unfold sliceTo at hr
      split at hr
      · rw [← Outcome.ok.inj hr]; simp
      · cases hr
    show rest.length < _
    omega

theorem bind_same {α β : Type} {d : Outcome ε α} {f g : α → Outcome ε β} {y : β} (h : d.bind f = .ok y)
    (k : ∀ a, d = .ok a → f a = .ok y → g a = .ok y) : d.bind g = .ok y := by
  cases d with
  | ok a => exact k a rfl h
  | err e => cases h
  | panic => cases h

theorem bind_ok_inv {α β : Type} {d : Outcome ε α} {f : α → Outcome ε β} {y : β} (h : d.bind f = .ok y) :
    ∃ a, d = .ok a ∧ f a = .ok y := by
  cases d with
  | ok a => exact ⟨a, rfl, h⟩
  | err e => cases h
  | panic => cases h

theorem complexDecode2_same {grow : Nat → Bool} (hg : ∀ n, n ≤ 2 ^ 30 → grow n = true) (ops : FloatOps F) (t : Decoder)
    (hs : t.sect7.length < 2 ^ 29) {xs : Items F} (h : Model.complexDecode2 ops t = .ok xs) (hn : .panic ∉ xs)
    (hl : xs.length ≤ 2 ^ 27) : complexDecode2 grow ops t = .ok xs := by
  unfold Model.complexDecode2 at h
  unfold complexDecode2
  refine bind_same h fun simple _ h => bind_same h fun complex _ h => ?_
  split at h
  · cases h
  · rename_i h0
    rw [if_neg h0]
    obtain ⟨items, hi, hx⟩ := bind_ok_inv h
    have hx := Outcome.ok.inj hx
    subst hx
    have := decodeComplexPacking_same hg _ _ _ _ _ hs hi (panic_mem_unpackAll _ _ _ hn)
      (by simpa [SimpleParam.unpackAll] using hl)
    show (decodeComplexPacking grow complex t.sect7 0 simple.nbit 0 : Outcome GribError _).bind _ = _
    rw [this]; rfl

theorem complexDecode3_same {grow : Nat → Bool} (hg : ∀ n, n ≤ 2 ^ 30 → grow n = true) (ops : FloatOps F) (t : Decoder)
    (hs : t.sect7.length < 2 ^ 29) {xs : Items F} (h : Model.complexDecode3 ops t = .ok xs) (hn : .panic ∉ xs)
    (hl : xs.length ≤ 2 ^ 27) : complexDecode3 grow ops t = .ok xs := by
  unfold Model.complexDecode3 at h
  unfold complexDecode3
  refine bind_same h fun simple _ h => bind_same h fun complex _ h => bind_same h fun order _ h => ?_
  split at h
  · cases h
  · rename_i h0
    rw [if_neg h0]
    refine bind_same h fun octets _ h => ?_
    split at h
    · cases h
    · rename_i h1
      rw [if_neg h1]
      refine bind_same h fun d _ h => bind_same h fun m _ h => ?_
      obtain ⟨items, hi, h⟩ := bind_ok_inv h
      obtain ⟨first, hf, hx⟩ := bind_ok_inv h
      have hx := Outcome.ok.inj hx
      subst hx
      have hp := panic_mem_unpackAll _ _ _ hn
      have hi' : .panic ∉ items ∧ items.length ≤ 2 ^ 27 := by
        have hl' : (if order = 1 then stepItems Diff1.step { firstValues := first } items
            else stepItems Diff2.step { firstValues := first } items).length ≤ 2 ^ 27 := by
          simpa [SimpleParam.unpackAll] using hl
        split at hp
        · rename_i ho
          rw [if_pos ho] at hl'
          have := stepItems_noPanic _ _ _ hp
          exact ⟨this.1, by omega⟩
        · rename_i ho
          rw [if_neg ho] at hl'
          have := stepItems_noPanic _ _ _ hp
          exact ⟨this.1, by omega⟩
      have := decodeComplexPacking_same hg _ _ _ _ _ hs hi hi'.1 hi'.2
      show (decodeComplexPacking grow complex t.sect7 d.slice.length simple.nbit m : Outcome GribError _).bind _ = _
      rw [this]
      show (d.firstValues d.slice.length 0 : Outcome GribError _).bind _ = _
      rw [hf]; rfl

/-! ### Refusals -/

theorem bind_err {α β : Type} {d : Outcome ε α} {f g : α → Outcome ε β} {e : ε} (h : d.bind f = .err e)
    (k : ∀ a, d = .ok a → f a = .err e → g a = .err e) : d.bind g = .err e := by
  cases d with
  | ok a => exact k a rfl h
  | err e' => exact h
  | panic => cases h

theorem bind_some {α β : Type} {d : Outcome ε α} {f g : α → Outcome ε β} {y : β} (h : d.bind f = .ok y)
    (k : ∀ a, d = .ok a → f a = .ok y → ∃ z, g a = .ok z) : ∃ z, d.bind g = .ok z := by
  cases d with
  | ok a => exact k a rfl h
  | err e' => cases h
  | panic => cases h

theorem decodeComplexPacking_err {grow : Nat → Bool} {p : ComplexParam} {sect7 : List UInt8} {off nbit : Nat} {zMin : Int} {e : ε}
    (h : (Model.decodeComplexPacking p sect7 off nbit zMin : Outcome ε _) = .err e) :
    (decodeComplexPacking grow p sect7 off nbit zMin : Outcome ε _) = .err e := by
  unfold Model.decodeComplexPacking at h
  unfold decodeComplexPacking
  refine bind_err h fun a1 _ h => bind_err h fun a2 _ h => bind_err h fun a3 _ h => bind_err h fun s1 _ h =>
    bind_err h fun refs _ h => bind_err h fun s2 _ h => bind_err h fun widths _ h => ?_
  by_cases h0 : p.ngroup = 0
  · rw [if_pos h0] at h; cases h
  · rw [if_neg h0] at h ⊢
    refine bind_err h fun s3 _ h => bind_err h fun lens _ h => bind_err h fun rest hr h => ?_
    cases h

theorem decodeComplexPacking_some (grow : Nat → Bool) {p : ComplexParam} {sect7 : List UInt8} {off nbit : Nat} {zMin : Int}
    {xs : Items DecodedValue} (h : (Model.decodeComplexPacking p sect7 off nbit zMin : Outcome ε _) = .ok xs) :
    ∃ ys, (decodeComplexPacking grow p sect7 off nbit zMin : Outcome ε _) = .ok ys := by
  unfold Model.decodeComplexPacking at h
  unfold decodeComplexPacking
  refine bind_some h fun a1 _ h => bind_some h fun a2 _ h => bind_some h fun a3 _ h => bind_some h fun s1 _ h =>
    bind_some h fun refs _ h => bind_some h fun s2 _ h => bind_some h fun widths _ h => ?_
  by_cases h0 : p.ngroup = 0
  · rw [if_pos h0] at h; cases h
  · rw [if_neg h0] at h ⊢
    exact bind_some h fun s3 _ h => bind_some h fun lens _ h => bind_some h fun rest hr h => ⟨_, rfl⟩

theorem complexDecode2_err {grow : Nat → Bool} {ops : FloatOps F} {t : Decoder} {e : GribError}
    (h : Model.complexDecode2 ops t = .err e) : complexDecode2 grow ops t = .err e := by
  unfold Model.complexDecode2 at h
  unfold complexDecode2
  refine bind_err h fun simple _ h => bind_err h fun complex _ h => ?_
  split at h
  · rename_i h0; rw [if_pos h0]; exact h
  · rename_i h0
    rw [if_neg h0]
    cases hi : (Model.decodeComplexPacking complex t.sect7 0 simple.nbit 0 : Outcome GribError _) with
    | ok xs => rw [hi] at h; cases h
    | panic => rw [hi] at h; cases h
    | err e' =>
      rw [hi] at h
      cases h
      rw [decodeComplexPacking_err hi]; rfl

theorem complexDecode3_err {grow : Nat → Bool} {ops : FloatOps F} {t : Decoder} {e : GribError}
    (h : Model.complexDecode3 ops t = .err e) : complexDecode3 grow ops t = .err e := by
  unfold Model.complexDecode3 at h
  unfold complexDecode3
  refine bind_err h fun simple _ h => bind_err h fun complex _ h => bind_err h fun order _ h => ?_
  split at h
  · rename_i h0; rw [if_pos h0]; exact h
  · rename_i h0
    rw [if_neg h0]
    refine bind_err h fun octets _ h => ?_
    split at h
    · rename_i h1; rw [if_pos h1]; exact h
    · rename_i h1
      rw [if_neg h1]
      refine bind_err h fun d _ h => bind_err h fun m _ h => ?_
      cases hi : (Model.decodeComplexPacking complex t.sect7 d.slice.length simple.nbit m : Outcome GribError _) with
      | ok xs =>
        rw [hi] at h
        obtain ⟨ys, hy⟩ := decodeComplexPacking_some grow hi
        rw [hy]
        exact bind_err (d := d.firstValues d.slice.length 0) h fun _ _ h => by cases h
      | panic => rw [hi] at h; cases h
      | err e' =>
        rw [hi] at h
        cases h
        rw [decodeComplexPacking_err hi]; rfl

/-! ## Run-length packing -/

theorem levelsToValues_length {levels vs : List F} {decoded : List Nat} (h : levelsToValues levels decoded = .ok vs) :
    vs.length = decoded.length := by
  induction decoded generalizing vs with
  | nil => rw [levelsToValues] at h; rw [← Outcome.ok.inj h]; rfl
  | cons l ls ih =>
    rw [levelsToValues] at h
    split at h
    · cases h
    · obtain ⟨ws, hw, hx⟩ := bind_ok_inv h
      rw [← Outcome.ok.inj hx, List.length_cons, List.length_cons, ih hw]

theorem rleLoop_fol {grow : Nat → Bool} (hg : ∀ n, 2 ^ 31 ≤ n → grow n = false) (rlbase lngu : Nat) (values out : List Nat)
    (cached : Option Nat) (exp : Nat) :
    Fol (rleLoop grow rlbase lngu values out cached exp) (Model.rleLoop rlbase lngu values out cached exp) := by
  induction values generalizing out cached exp with
  | nil => exact Fol.refl _
  | cons v vs ih =>
    unfold Model.rleLoop rleLoop
    dsimp only
    by_cases h1 : rlbase > v % 2 ^ 16
    · rw [if_pos h1, if_pos h1]
      by_cases h2 : grow (2 * (out.length + 1)) = true
      · rw [if_pos h2]
        have : ¬ 2 ^ 31 ≤ 2 * (out.length + 1) := fun hh => by rw [hg _ hh] at h2; cases h2
        rw [if_neg (by omega)]; exact ih _ _ _
      · rw [if_neg h2]; exact Or.inl rfl
    · rw [if_neg h1, if_neg h1]
      cases cached with
      | none => exact Fol.refl _
      | some prev =>
        dsimp only
        generalize (v % 2 ^ 16 - rlbase) * exp = len
        by_cases h3 : len ≥ 2 ^ 32 ∨ 2 * len ≥ 2 ^ 31 ∨ ¬ grow (2 * (out.length + len)) = true ∨ exp * lngu ≥ 2 ^ 32
        · rw [if_pos h3]; exact Or.inl rfl
        · rw [if_neg h3]
          have h4 : grow (2 * (out.length + len)) = true := by
            by_cases hh : grow (2 * (out.length + len)) = true
            · exact hh
            · exact absurd (Or.inr (Or.inr (Or.inl hh))) h3
          have : ¬ 2 ^ 31 ≤ 2 * (out.length + len) := fun hh => by rw [hg _ hh] at h4; cases h4
          rw [if_neg (by unfold USIZE; omega)]
          exact ih _ _ _

theorem rleunpack_fol {grow : Nat → Bool} (hg : ∀ n, 2 ^ 31 ≤ n → grow n = false) (input : List UInt8) (nbit maxv len : Nat) :
    Fol (rleunpack grow input nbit maxv len) (Model.rleunpack input nbit maxv len) := by
  unfold Model.rleunpack rleunpack Model.rleunpackFuel
  split
  · exact Or.inl rfl
  · split
    · exact Or.inl rfl
    · cases (NBit.new input nbit).drain (8 * input.length + 1) with
      | done values => exact Fol.bind (rleLoop_fol hg _ _ _ _ _ _) fun _ => Fol.refl _
      | panic => exact Or.inl rfl
      | more values => exact Or.inl rfl

theorem runLengthDecode_ext {grow : Nat → Bool} (hg : ∀ n, 2 ^ 31 ≤ n → grow n = false) (ops : FloatOps F) (t : Decoder) :
    OExt (runLengthDecode grow ops t) (Model.runLengthDecode ops t) := by
  unfold Model.runLengthDecode runLengthDecode
  refine OExt.bind_eq fun nbit _ => ?_
  refine OExt.bind_eq fun maxv _ => ?_
  refine OExt.bind_eq fun maxLevel _ => ?_
  refine OExt.bind_eq fun digits _ => ?_
  refine OExt.bind_eq fun levels _ => ?_
  refine OExt.bind ((rleunpack_fol hg _ _ _ _).mapErr _) fun decoded => ?_
  refine OExt.bind_eq fun values _ => ?_
  split
  · exact OExt.refl _
  · exact Or.inl rfl

/-- The output only grows. -/
theorem rleLoop_length {rlbase lngu : Nat} {values out res : List Nat} {cached : Option Nat} {exp : Nat}
    (h : Model.rleLoop rlbase lngu values out cached exp = .ok res) : out.length ≤ res.length := by
  induction values generalizing out cached exp with
  | nil => rw [Model.rleLoop] at h; rw [Outcome.ok.inj h]; exact Nat.le_refl _
  | cons v vs ih =>
    unfold Model.rleLoop at h
    dsimp only at h
    split at h
    · split at h
      · cases h
      · have := ih h; simp at this; omega
    · split at h
      · cases h
      · split at h
        · cases h
        · have := ih h; simp at this; omega

theorem rleLoop_same {grow : Nat → Bool} (hg : ∀ n, n ≤ 2 ^ 30 → grow n = true) {rlbase lngu : Nat} {values out res : List Nat}
    {cached : Option Nat} {exp : Nat} (pre : List Nat) (hpre : ∀ v ∈ pre, rlbase ≤ v % 2 ^ 16)
    (he : cached = none ∨ exp = lngu ^ pre.length)
    (hp : ∀ a mid post, pre ++ values = a ++ mid ++ post → (∀ v ∈ mid, rlbase ≤ v % 2 ^ 16) → lngu ^ mid.length < 2 ^ 32)
    (hl : res.length ≤ 2 ^ 28)
    (h : Model.rleLoop rlbase lngu values out cached exp = .ok res) : rleLoop grow rlbase lngu values out cached exp = .ok res := by
  induction values generalizing out cached exp pre with
  | nil => rw [Model.rleLoop] at h; rw [rleLoop]; exact h
  | cons v vs ih =>
    unfold Model.rleLoop at h
    unfold rleLoop
    dsimp only at h ⊢
    by_cases h1 : rlbase > v % 2 ^ 16
    · rw [if_pos h1] at h ⊢
      split at h
      · cases h
      · have hlen := rleLoop_length h
        simp at hlen
        rw [if_pos (hg _ (by omega))]
        refine ih [] (by simp) (Or.inr rfl) ?_ h
        intro a mid post e hm
        exact hp (pre ++ [v] ++ a) mid post (by simp at e ⊢; exact e) hm
    · rw [if_neg h1] at h ⊢
      cases cached with
      | none => cases h
      | some prev =>
        dsimp only at h ⊢
        rcases he with he | he
        · cases he
        split at h
        · cases h
        · have hlen := rleLoop_length h
          simp at hlen
          have hpw := hp [] (pre ++ [v]) vs (by simp) (by
            intro u hu
            rcases List.mem_append.1 hu with hu | hu
            · exact hpre u hu
            · simp at hu; subst hu; omega)
          have e : exp * lngu = lngu ^ (pre ++ [v]).length := by
            rw [he]; simp [Nat.pow_succ]
          rw [if_neg]
          · refine ih (pre ++ [v]) ?_ (Or.inr e) (by simpa using hp) h
            intro u hu
            rcases List.mem_append.1 hu with hu | hu
            · exact hpre u hu
            · simp at hu; subst hu; omega
          · generalize (v % 2 ^ 16 - rlbase) * exp = len at *
            rw [e]
            rintro (h | h | h | h)
            · omega
            · omega
            · exact h (hg _ (by omega))
            · omega

/-! ## The decoder -/

theorem decodeValues_ext {grow : Nat → Bool} (hg : ∀ n, 2 ^ 31 ≤ n → grow n = false) (c : Codecs F) (t : Decoder) :
    OExt (decodeValues grow c t) (t.decodeValues c) := by
  unfold Decoder.decodeValues decodeValues
  split
  · rename_i h; rw [h]; exact OExt.refl _
  · rename_i h; rw [h]; exact complexDecode2_ext _ _ _
  · rename_i h; rw [h]; exact complexDecode3_ext _ _ _
  · rename_i h; rw [h]; exact OExt.refl _
  · rename_i h; rw [h]; exact OExt.refl _
  · rename_i h; rw [h]; exact runLengthDecode_ext hg _ _
  · split <;> first | contradiction | exact OExt.refl _

theorem dispatch_bext {grow : Nat → Bool} (hg : ∀ n, 2 ^ 31 ≤ n → grow n = false) (c : Codecs F) (t : Decoder) :
    dispatch grow c t = .panic ∨ (∃ e, dispatch grow c t = .err e ∧ t.dispatch c = .err e) ∨
      ∃ a b, dispatch grow c t = .ok a ∧ t.dispatch c = .ok b ∧ BExt a b := by
  have h := decodeValues_ext hg c t
  have e1 : t.dispatch c = (t.decodeValues c).bind fun v => BitmapIter.new t.bitmap v t.numPointsTotal := rfl
  have e2 : dispatch grow c t = (decodeValues grow c t).bind fun v => bitmapNew t.bitmap v t.numPointsTotal := rfl
  rw [e1, e2]
  rcases h with h | ⟨e, h, h'⟩ | ⟨xs, ys, h, h', hx⟩
  · exact Or.inl (by rw [h]; rfl)
  · exact Or.inr (Or.inl ⟨e, by rw [h]; rfl, by rw [h']; rfl⟩)
  · rw [h, h']
    simp only [Outcome.bind]
    unfold bitmapNew BitmapIter.new
    split
    · exact Or.inl rfl
    · split
      · exact Or.inr (Or.inl ⟨_, rfl, rfl⟩)
      · exact Or.inr (Or.inr ⟨_, _, rfl, rfl, rfl, hx⟩)

theorem fromSub_eq (m : SubMessage) (h : ∀ s ∈ [m.s5.2, m.s6.2, m.s7.2], ∀ r, readSectPayloadAsSlice s r = Model.readSectPayloadAsSlice s r)
    (r : Rdr) : fromSub m r = Decoder.fromSub m r := by
  have e5 := funext (h m.s5.2 (by simp))
  have e6 := funext (h m.s6.2 (by simp))
  have e7 := funext (h m.s7.2 (by simp))
  unfold fromSub Decoder.fromSub
  simp only [e5, e6, e7]
  rfl

/-! ## Coordinates -/

theorem gridSizeHint_fol (it : GridIter) : Fol (gridSizeHint it : Outcome ε Nat) it.sizeHint := folIf _

theorem subIj_fol (d : GridDefinition) : Fol (subIj d) (Model.subIj d) := by
  unfold subIj Model.subIj
  exact Fol.bind (Fol.refl _) fun _ => Fol.bind (Fol.refl _) fun _ => Fol.bind (Fol.refl _) fun _ =>
    Fol.bind (gridSizeHint_fol _) fun _ => Fol.refl _

theorem latLonLatlons_fol (ops : FloatOps F) (g : LatLonGrid) : Fol (latLonLatlons ops g) (g.latlons ops) := by
  unfold latLonLatlons
  cases g.latlons ops with
  | ok x =>
    show Fol (if _ then _ else _) _
    exact folIf _
  | err e => exact Fol.refl _
  | panic => exact Fol.refl _

theorem gaussianLatitudes_fol (g : GaussOps G F) (n : Nat) : Fol (gaussianLatitudes g n) (Model.gaussianLatitudes g n) := by
  unfold gaussianLatitudes Model.gaussianLatitudes
  exact Fol.bind (folIf _) fun _ => Fol.refl _

theorem gaussianLatlons_fol (g : GaussOps G F) (ops : FloatOps F) (d : GaussianGrid) :
    Fol (gaussianLatlons g ops d) (d.latlons g ops) := by
  unfold gaussianLatlons GaussianGrid.latlons
  refine Fol.bind (Fol.refl _) fun _ => ?_
  split
  · exact Fol.refl _
  · refine Fol.bind (Fol.refl _) fun _ => Fol.bind (gaussianLatitudes_fol _ _) fun _ => ?_
    dsimp only
    split
    · exact Fol.refl _
    · exact Fol.bind (Fol.refl _) fun _ => folIf _

theorem projection_fol (p : ProjOps G F) (d : ProjDef G) (first delta : G × G) (ij : GridIter) :
    Fol (latlonsFromProjection p d first delta ij) (Model.latlonsFromProjection p d first delta ij) := by
  unfold latlonsFromProjection
  split
  · rename_i h; right; unfold Model.latlonsFromProjection; rw [if_pos h]
  · rename_i h
    split
    · rename_i h'; right; unfold Model.latlonsFromProjection; rw [if_neg h, h']
    · exact folIf _

theorem polarLatlons_fol (p : ProjOps G F) (d : PolarGrid) : Fol (polarLatlons p d) (d.latlons p) := by
  unfold polarLatlons PolarGrid.latlons
  split
  · rename_i h; right; rw [h]
  · rename_i a b h
    rw [h]
    dsimp only
    split
    · exact Fol.refl _
    · exact Fol.bind (Fol.refl _) fun _ => projection_fol _ _ _ _ _

theorem lambertLatlons_fol (p : ProjOps G F) (d : LambertGrid) : Fol (lambertLatlons p d) (d.latlons p) := by
  unfold lambertLatlons LambertGrid.latlons
  split
  · rename_i h; right; rw [h]
  · rename_i a b h
    rw [h]
    exact Fol.bind (Fol.refl _) fun _ => projection_fol _ _ _ _ _

theorem templateLatlons_fol (o : GridOps G F) (t : GridTemplate) : Fol (templateLatlons o t) (t.latlons o) := by
  cases t with
  | template0 g => exact Fol.bind (latLonLatlons_fol _ _) fun _ => Fol.refl _
  | template20 g =>
    unfold templateLatlons GridTemplate.latlons
    dsimp only
    cases o.proj with
    | none => exact Fol.refl _
    | some p => exact Fol.bind (polarLatlons_fol _ _) fun _ => Fol.refl _
  | template30 g =>
    unfold templateLatlons GridTemplate.latlons
    dsimp only
    cases o.proj with
    | none => exact Fol.refl _
    | some p => exact Fol.bind (lambertLatlons_fol _ _) fun _ => Fol.refl _
  | template40 g => exact Fol.bind (gaussianLatlons_fol _ _ _) fun _ => Fol.refl _

theorem subLatlons_fol (o : GridOps G F) (d : GridDefinition) : Fol (subLatlons o d) (Model.subLatlons o d) := by
  unfold subLatlons Model.subLatlons
  refine Fol.bind (Fol.refl _) fun _ => Fol.bind (Fol.refl _) fun _ => Fol.bind (templateLatlons_fol _ _) fun ps => ?_
  refine Fol.bind ?_ fun _ => Fol.refl _
  cases ps with
  | latLon it => exact gridSizeHint_fol _
  | lambert ps => exact Fol.refl _

end Grib.Model.N32
