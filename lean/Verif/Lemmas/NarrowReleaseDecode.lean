import Verif.Model.NarrowReleaseDecode
import Verif.Lemmas.NarrowRelease
import Verif.Lemmas.NarrowDecode

/-! # Release builds for 32 bits: decoding agrees with a debug build for 32 bits up to its first panic -/

namespace Grib.Model.R32

open Grib.Model
open Grib.Model.Rel (Fol Ext OExt BExt Nums)

variable {ε F G α β : Type}

/-! ## Complex packing -/

theorem next_offset {it it' : NBit} {v : Nat} (h : it.next = some (some v, it')) : it'.offset < 8 ∧ it'.size = it.size := by
  unfold NBit.next at h
  dsimp only at h
  have hm : (it.offset + it.size) % 8 < 8 := Nat.mod_lt _ (by omega)
  generalize hno : (it.offset + it.size) % 8 = no at *
  split at h
  · simp at h
  · split at h
    · cases h
    · split at h
      · cases h
      · split at h
        · simp only [Option.some.injEq, Prod.mk.injEq] at h
          rw [← h.2]; exact ⟨hm, rfl⟩
        · split at h
          · cases h
          · split at h
            · split at h
              · cases h
              · simp only [Option.some.injEq, Prod.mk.injEq] at h
                rw [← h.2]; exact ⟨hm, rfl⟩
            · simp only [Option.some.injEq, Prod.mk.injEq] at h
              rw [← h.2]; exact ⟨hm, rfl⟩

theorem takeList_eq (n : Nat) (it : NBit) (h1 : 1 ≤ n → it.offset + it.size < 2 ^ 32) (h2 : 2 ≤ n → it.size + 8 ≤ 2 ^ 32) :
    takeList n it = NBit.takeList n it := by
  induction n generalizing it with
  | zero => rfl
  | succ n ih =>
    unfold takeList NBit.takeList nbitNext
    rw [if_pos (h1 (by omega))]
    cases hn : it.next with
    | none => rfl
    | some q =>
      obtain ⟨v, it'⟩ := q
      cases v with
      | none => rfl
      | some v =>
        obtain ⟨g1, g2⟩ := next_offset hn
        dsimp only
        rw [ih it' (fun hn => by have := h2 (by omega); omega) (fun hn => by rw [g2]; exact h2 (by omega))]

/-- Where no size overflows 32 bits a group is that of 64 bits, if it may be collected. -/
theorem groupNext_eq (grow : Nat → Bool) (env : GroupEnv) (st : GroupPos) {ref width length : Nat} (hw : width ≠ 0)
    (hb : st.startOffsetBits + width * length < 2 ^ 32)
    (hp : st.pos + (st.startOffsetBits + width * length) / 8 +
      (if (st.startOffsetBits + width * length) % 8 > 0 then 1 else 0) < 2 ^ 32) :
    (groupNext grow env st ref width length : Outcome ε _) =
      (Rel.groupNext env st ref width length).bind fun q => if grow (8 * q.1.length) then .ok q else .panic := by
  unfold groupNext Rel.groupNext
  rw [if_neg hw, if_neg hw]
  have e1 : uadd st.startOffsetBits ((width * length) % 2 ^ 32) = st.startOffsetBits + width * length := by
    unfold uadd
    rw [Nat.mod_eq_of_lt (a := width * length) (by omega), Nat.mod_eq_of_lt hb]
  dsimp only
  rw [e1]
  generalize hbits : st.startOffsetBits + width * length = bits at *
  have e2 : uadd st.pos (bits / 8) = st.pos + bits / 8 := Nat.mod_eq_of_lt (by omega)
  rw [e2]
  have e3 : uadd (st.pos + bits / 8) (if bits % 8 > 0 then 1 else 0) = st.pos + bits / 8 + if bits % 8 > 0 then 1 else 0 :=
    Nat.mod_eq_of_lt hp
  rw [e3]
  cases (toI32 ref : Outcome ε Int) with
  | err e => rfl
  | panic => rfl
  | ok r =>
    dsimp only [Bind.bind, Outcome.bind]
    cases (sliceTo env.data st.pos (st.pos + bits / 8 + if bits % 8 > 0 then 1 else 0) : Outcome ε _) with
    | err e => rfl
    | panic => rfl
    | ok slice =>
      dsimp only
      rw [takeList_eq]
      · cases NBit.takeList length ((NBit.new slice width).withOffset st.startOffsetBits) with
        | none => rfl
        | some raw =>
          show (if grow (8 * raw.length) = true then _ else _) = (if grow (8 * (raw.map _).length) = true then _ else _)
          rw [List.length_map]
      · intro h
        show st.startOffsetBits + width < 2 ^ 32
        have : width * 1 ≤ width * length := Nat.mul_le_mul_left _ h
        omega
      · intro h
        show width + 8 ≤ 2 ^ 32
        have : width * 2 ≤ width * length := Nat.mul_le_mul_left _ h
        omega

theorem groupNext_fol (grow : Nat → Bool) (env : GroupEnv) (st : GroupPos) (ref width length : Nat) :
    Fol (N32.groupNext grow env st ref width length : Outcome ε _) (groupNext grow env st ref width length) := by
  unfold N32.groupNext
  by_cases hw : width = 0
  · rw [if_pos hw]
    unfold groupNext
    rw [if_pos hw]
    by_cases hl : 8 * length ≥ 2 ^ 31
    · rw [if_pos hl]; exact Or.inl rfl
    · rw [if_neg hl, if_neg hl]
      exact Rel.groupNext_fol env st ref width length
  · rw [if_neg hw]
    dsimp only
    by_cases hb : st.startOffsetBits + width * length ≥ 2 ^ 32 ∨ st.pos + (st.startOffsetBits + width * length) / 8 +
        (if (st.startOffsetBits + width * length) % 8 > 0 then 1 else 0) ≥ 2 ^ 32
    · rw [if_pos hb]; exact Or.inl rfl
    · rw [if_neg hb]
      rw [groupNext_eq grow env st hw (by omega) (by omega)]
      refine Fol.bind (Rel.groupNext_fol env st ref width length) fun q => ?_
      obtain ⟨v, st'⟩ := q
      exact Fol.refl _

theorem groupItems_ext (grow : Nat → Bool) (env : GroupEnv) (refs : List Nat) {dw dl : Items Nat} {nw nl : List Nat} (hw : Nums dw nw)
    (hl : Nums dl nl) (st : GroupPos) : Ext (N32.groupItems grow env refs dw dl st) (groupItems grow env refs nw nl st) := by
  induction refs generalizing dw dl nw nl st with
  | nil =>
    have e1 : N32.groupItems grow env [] dw dl st = [] := by unfold N32.groupItems; rfl
    have e2 : groupItems grow env [] nw nl st = [] := by unfold groupItems; rfl
    rw [e1, e2]; exact .nil
  | cons ref refs ih =>
    cases hw with
    | nil =>
      have e1 : N32.groupItems grow env (ref :: refs) [] dl st = [] := by unfold N32.groupItems; rfl
      have e2 : groupItems grow env (ref :: refs) [] nl st = [] := by unfold groupItems; rfl
      rw [e1, e2]; exact .nil
    | cons hw1 hw2 =>
      cases hl with
      | nil =>
        rename_i w nw' dws nws
        have e1 : N32.groupItems grow env (ref :: refs) (w :: dws) [] st = [] := by unfold N32.groupItems; rfl
        have e2 : groupItems grow env (ref :: refs) (nw' :: nws) [] st = [] := by unfold groupItems; rfl
        rw [e1, e2]; exact .nil
      | cons hl1 hl2 =>
        rename_i w nw' dws nws l nl' dls nls
        rw [N32.groupItems, groupItems]
        rcases hw1 with rfl | hw1
        · exact .panic _ _
        · subst hw1
          rcases hl1 with rfl | hl1
          · exact .panic _ _
          · subst hl1
            show Ext (match (N32.groupNext grow env st ref nw' nl' : Outcome Empty _) with
              | .ok (values, st') => values.map .ok ++ N32.groupItems grow env refs dws dls st'
              | _ => [.panic]) _
            rcases groupNext_fol (ε := Empty) grow env st ref nw' nl' with h | h
            · rw [h]; exact .panic _ _
            · rw [h]
              cases hg : (N32.groupNext grow env st ref nw' nl' : Outcome Empty _) with
              | ok q => exact Ext.append_left _ (ih hw2 hl2 _)
              | err e => exact e.elim
              | panic => exact .panic _ _

theorem decodeComplexPacking_ext (grow : Nat → Bool) (p : ComplexParam) (sect7 : List UInt8) (off nbit : Nat) (zMin : Int) (hp : p.ngroup < 2 ^ 32) :
    OExt (N32.decodeComplexPacking grow p sect7 off nbit zMin : Outcome ε _) (decodeComplexPacking grow p sect7 off nbit zMin) := by
  unfold N32.decodeComplexPacking decodeComplexPacking
  dsimp only
  rcases Rel.getOctetLength_fol (ε := ε) nbit p.ngroup with h1 | h1
  · left; rw [h1]; rfl
  rcases Rel.getOctetLength_fol (ε := ε) p.widthNbit p.ngroup with h2 | h2
  · left; rw [← h1, h2]; rfl
  rcases Rel.getOctetLength_fol (ε := ε) p.lenNbit p.ngroup with h3 | h3
  · left; rw [← h1, ← h2, h3]; rfl
  rw [← h1, ← h2, ← h3]
  simp only [Outcome.bind_ok]
  refine OExt.bind (Fol.refl _) fun s1 => ?_
  refine OExt.bind (Fol.refl _) fun refs => ?_
  refine OExt.bind (Fol.refl _) fun s2 => ?_
  refine OExt.bind (Fol.refl _) fun widths => ?_
  by_cases h0 : p.ngroup = 0
  · left; rw [if_pos h0]
  · rw [if_neg h0]
    have e : (p.ngroup + 2 ^ 32 - 1) % 2 ^ 32 = p.ngroup - 1 := by omega
    rw [e]
    refine OExt.bind (Fol.refl _) fun s3 => ?_
    refine OExt.bind (Fol.refl _) fun lens => ?_
    refine OExt.bind (Fol.refl _) fun rest => ?_
    refine Or.inr (Or.inr ⟨_, _, rfl, rfl, groupItems_ext _ _ _ (Nums.map _ _ ?_ _) (Nums.append (Nums.map _ _ ?_ _)
      (.cons (Fol.refl _) .nil)) _⟩)
    · intro v
      rcases Rel.checkU32_fol (ε := Empty) (p.widthRef + v) with h | ⟨h, h'⟩
      · exact Or.inl h
      · right; rw [h, h']
    · intro v
      show Fol ((checkU32 (p.lenInc * v) : Outcome Empty Nat).bind _) _
      rcases Rel.checkU32_fol (ε := Empty) (p.lenInc * v) with h | ⟨h, h'⟩
      · left; rw [h]; rfl
      · rw [h, h']
        rcases Rel.checkU32_fol (ε := Empty) (p.lenRef + p.lenInc * v) with h | ⟨h, h'⟩
        · exact Or.inl h
        · right; rw [h']; exact h.symm

theorem complexDecode2_ext (grow : Nat → Bool) (ops : FloatOps F) (t : Decoder) : OExt (N32.complexDecode2 grow ops t) (complexDecode2 grow ops t) := by
  unfold N32.complexDecode2 complexDecode2
  refine OExt.bind_eq fun simple _ => ?_
  refine OExt.bind_eq fun complex hc => ?_
  split
  · exact OExt.refl _
  · refine OExt.bind_items (decodeComplexPacking_ext _ _ _ _ _ _ (Rel.fromSect5_ngroup hc)) fun xs ys h => ?_
    exact Or.inr (Or.inr ⟨_, _, rfl, rfl, Rel.unpackAll_ext _ _ _ h⟩)

theorem complexDecode3_ext (grow : Nat → Bool) (ops : FloatOps F) (t : Decoder) : OExt (N32.complexDecode3 grow ops t) (complexDecode3 grow ops t) := by
  unfold N32.complexDecode3 complexDecode3
  refine OExt.bind_eq fun simple _ => ?_
  refine OExt.bind_eq fun complex hc => ?_
  refine OExt.bind_eq fun order _ => ?_
  split
  · exact OExt.refl _
  · refine OExt.bind_eq fun octets _ => ?_
    split
    · exact OExt.refl _
    · refine OExt.bind_eq fun d _ => ?_
      refine OExt.bind_eq fun m _ => ?_
      refine OExt.bind_items (decodeComplexPacking_ext _ _ _ _ _ _ (Rel.fromSect5_ngroup hc)) fun xs ys h => ?_
      refine OExt.bind_eq fun first _ => ?_
      refine Or.inr (Or.inr ⟨_, _, rfl, rfl, Rel.unpackAll_ext _ _ _ ?_⟩)
      by_cases ho : order = 1
      · rw [if_pos ho, if_pos ho]; exact Rel.stepItems_ext Rel.diff1Step_fol h _
      · rw [if_neg ho, if_neg ho]; exact Rel.stepItems_ext Rel.diff2Step_fol h _

/-! ## The same values as in a release build for 64 bits -/

theorem groupItems_same {grow : Nat → Bool} (hg : ∀ n, n ≤ 2 ^ 30 → grow n = true) (env : GroupEnv)
    (hd : env.data.length < 2 ^ 29) (refs ws ls : List Nat) (st : GroupPos)
    (hn : .panic ∉ Rel.groupItems env refs ws ls st) (hl : (Rel.groupItems env refs ws ls st).length ≤ 2 ^ 27) :
    groupItems grow env refs ws ls st = Rel.groupItems env refs ws ls st := by
  induction refs generalizing ws ls st with
  | nil => unfold Rel.groupItems groupItems; rfl
  | cons ref refs ih =>
    cases ws with
    | nil => unfold Rel.groupItems groupItems; rfl
    | cons w ws =>
      cases ls with
      | nil => unfold Rel.groupItems groupItems; rfl
      | cons l ls =>
        rw [Rel.groupItems] at hn hl ⊢
        rw [groupItems]
        cases hm : (Rel.groupNext env st ref w l : Outcome Empty _) with
        | panic => rw [hm] at hn; exact absurd List.mem_cons_self hn
        | err e => exact e.elim
        | ok q =>
          rw [hm] at hn hl
          simp only [List.mem_append, not_or, List.length_append, List.length_map] at hn hl
          have hq : (groupNext grow env st ref w l : Outcome Empty _) = .ok q := by
            have hgrow := hg (8 * q.1.length) (by omega)
            by_cases hw : w = 0
            · unfold groupNext
              rw [if_pos hw]
              have : q.1.length = l := by
                unfold Rel.groupNext at hm
                rw [if_pos hw] at hm
                unfold toI32 at hm
                split at hm
                · rw [Outcome.bind_ok] at hm
                  dsimp only at hm
                  split at hm
                  · rw [← Outcome.ok.inj hm]; simp
                  · split at hm
                    · rw [← Outcome.ok.inj hm]; simp
                    · rw [← Outcome.ok.inj hm]; simp
                · cases hm
              rw [if_neg (by omega), hm]
            · have hb : st.pos + (st.startOffsetBits + w * l) / 8 +
                  (if (st.startOffsetBits + w * l) % 8 > 0 then 1 else 0) ≤ env.data.length := by
                unfold Rel.groupNext at hm
                rw [if_neg hw] at hm
                unfold toI32 at hm
                split at hm
                · rw [Outcome.bind_ok] at hm
                  dsimp only at hm
                  generalize (if (st.startOffsetBits + w * l) % 8 > 0 then 1 else 0) = ob at *
                  unfold sliceTo at hm
                  split at hm
                  · rename_i h; exact h.2
                  · cases hm
                · cases hm
              rw [groupNext_eq grow env st hw, hm]
              · show (if grow (8 * q.1.length) = true then _ else _) = _
                rw [if_pos hgrow]
              · have hob : (st.startOffsetBits + w * l) % 8 > 0 ∨ (if (st.startOffsetBits + w * l) % 8 > 0 then 1 else 0) = 0 := by
                  split
                  · left; assumption
                  · right; rfl
                generalize (if (st.startOffsetBits + w * l) % 8 > 0 then 1 else 0) = ob at *
                omega
              · omega
          simp only [hq]
          rw [ih _ _ _ hn.2 (by omega)]

theorem decodeComplexPacking_same {grow : Nat → Bool} (hg : ∀ n, n ≤ 2 ^ 30 → grow n = true) (p : ComplexParam)
    (sect7 : List UInt8) (off nbit : Nat) (zMin : Int) (hs : sect7.length < 2 ^ 29) {xs : Items DecodedValue}
    (h : (Rel.decodeComplexPacking p sect7 off nbit zMin : Outcome ε _) = .ok xs) (hn : .panic ∉ xs)
    (hl : xs.length ≤ 2 ^ 27) : (decodeComplexPacking grow p sect7 off nbit zMin : Outcome ε _) = .ok xs := by
  unfold Rel.decodeComplexPacking at h
  unfold decodeComplexPacking
  have step {α β : Type} {d : Outcome ε α} {f g : α → Outcome ε β} {y : β} (h : d.bind f = .ok y)
      (k : ∀ a, d = .ok a → f a = .ok y → g a = .ok y) : d.bind g = .ok y := by
    cases d with
    | ok a => exact k a rfl h
    | err e => cases h
    | panic => cases h
  refine step h fun s1 _ h => step h fun refs _ h => step h fun s2 _ h => step h fun widths _ h => 
    step h fun s3 _ h => step h fun lens _ h => step h fun rest hr h => ?_
  have hx := Outcome.ok.inj h
  subst hx
  refine congrArg Outcome.ok (groupItems_same hg _ ?_ _ _ _ _ hn hl)
  have : rest.length ≤ sect7.length := by
    unfold sliceTo at hr
    split at hr
    · rw [← Outcome.ok.inj hr]; simp
    · cases hr
  show rest.length < _
  omega

theorem complexDecode2_same {grow : Nat → Bool} (hg : ∀ n, n ≤ 2 ^ 30 → grow n = true) (ops : FloatOps F) (t : Decoder)
    (hs : t.sect7.length < 2 ^ 29) {xs : Items F} (h : Rel.complexDecode2 ops t = .ok xs) (hn : .panic ∉ xs)
    (hl : xs.length ≤ 2 ^ 27) : complexDecode2 grow ops t = .ok xs := by
  unfold Rel.complexDecode2 at h
  unfold complexDecode2
  refine N32.bind_same h fun simple _ h => N32.bind_same h fun complex _ h => ?_
  split at h
  · cases h
  · rename_i h0
    rw [if_neg h0]
    obtain ⟨items, hi, hx⟩ := N32.bind_ok_inv h
    have hx := Outcome.ok.inj hx
    subst hx
    have := decodeComplexPacking_same hg _ _ _ _ _ hs hi (N32.panic_mem_unpackAll _ _ _ hn)
      (by simpa [SimpleParam.unpackAll] using hl)
    show (decodeComplexPacking grow complex t.sect7 0 simple.nbit 0 : Outcome GribError _).bind _ = _
    rw [this]; rfl

theorem complexDecode3_same {grow : Nat → Bool} (hg : ∀ n, n ≤ 2 ^ 30 → grow n = true) (ops : FloatOps F) (t : Decoder)
    (hs : t.sect7.length < 2 ^ 29) {xs : Items F} (h : Rel.complexDecode3 ops t = .ok xs) (hn : .panic ∉ xs)
    (hl : xs.length ≤ 2 ^ 27) : complexDecode3 grow ops t = .ok xs := by
  unfold Rel.complexDecode3 at h
  unfold complexDecode3
  refine N32.bind_same h fun simple _ h => N32.bind_same h fun complex _ h => N32.bind_same h fun order _ h => ?_
  split at h
  · cases h
  · rename_i h0
    rw [if_neg h0]
    refine N32.bind_same h fun octets _ h => ?_
    split at h
    · cases h
    · rename_i h1
      rw [if_neg h1]
      refine N32.bind_same h fun d _ h => N32.bind_same h fun m _ h => ?_
      obtain ⟨items, hi, h⟩ := N32.bind_ok_inv h
      obtain ⟨first, hf, hx⟩ := N32.bind_ok_inv h
      have hx := Outcome.ok.inj hx
      subst hx
      have hp := N32.panic_mem_unpackAll _ _ _ hn
      have hi' : .panic ∉ items ∧ items.length ≤ 2 ^ 27 := by
        have hl' : (if order = 1 then stepItems Rel.diff1Step { firstValues := first } items
            else stepItems Rel.diff2Step { firstValues := first } items).length ≤ 2 ^ 27 := by
          simpa [SimpleParam.unpackAll] using hl
        split at hp
        · rename_i ho
          rw [if_pos ho] at hl'
          have := N32.stepItems_noPanic _ _ _ hp
          exact ⟨this.1, by omega⟩
        · rename_i ho
          rw [if_neg ho] at hl'
          have := N32.stepItems_noPanic _ _ _ hp
          exact ⟨this.1, by omega⟩
      have := decodeComplexPacking_same hg _ _ _ _ _ hs hi hi'.1 hi'.2
      show (decodeComplexPacking grow complex t.sect7 d.slice.length simple.nbit m : Outcome GribError _).bind _ = _
      rw [this]
      show (d.firstValues d.slice.length 0 : Outcome GribError _).bind _ = _
      rw [hf]; rfl

/-! ## Run-length packing -/

theorem rleLoop_fol (grow : Nat → Bool) (rlbase lngu : Nat) (values out : List Nat) (cached : Option Nat) (exp : Nat) :
    Fol (N32.rleLoop grow rlbase lngu values out cached exp) (rleLoop grow rlbase lngu values out cached exp) := by
  induction values generalizing out cached exp with
  | nil => exact Fol.refl _
  | cons v vs ih =>
    unfold N32.rleLoop rleLoop
    dsimp only
    by_cases h1 : rlbase > v % 2 ^ 16
    · rw [if_pos h1, if_pos h1]
      split
      · exact ih _ _ _
      · exact Fol.refl _
    · rw [if_neg h1, if_neg h1]
      cases cached with
      | none => exact Fol.refl _
      | some prev =>
        dsimp only
        generalize hlen : (v % 2 ^ 16 - rlbase) * exp = len
        by_cases h3 : len ≥ 2 ^ 32 ∨ 2 * len ≥ 2 ^ 31 ∨ ¬ grow (2 * (out.length + len)) = true ∨ exp * lngu ≥ 2 ^ 32
        · rw [if_pos h3]; exact Or.inl rfl
        · rw [if_neg h3]
          rw [not_or, not_or, not_or] at h3
          have e1 : len % 2 ^ 32 = len := Nat.mod_eq_of_lt (by omega)
          have e2 : (exp * lngu) % 2 ^ 32 = exp * lngu := Nat.mod_eq_of_lt (by omega)
          rw [e1, e2, if_neg (by rw [not_or]; exact ⟨h3.2.1, h3.2.2.1⟩)]
          exact ih _ _ _

theorem rleunpack_fol (grow : Nat → Bool) (input : List UInt8) (nbit maxv len : Nat) :
    Fol (N32.rleunpack grow input nbit maxv len) (rleunpack grow input nbit maxv len) := by
  unfold N32.rleunpack rleunpack
  by_cases hl : 2 * len ≥ 2 ^ 31
  · rw [if_pos hl]; exact Or.inl rfl
  rw [if_neg hl, if_neg hl]
  by_cases h : maxv + 1 ≥ 2 ^ 16 ∨ nbit ≥ 16 ∨ 2 ^ nbit < maxv + 1
  · rw [if_pos h]; exact Or.inl rfl
  · rw [if_neg h]
    have e1 : (maxv + 1) % 2 ^ 16 = maxv + 1 := Nat.mod_eq_of_lt (by omega)
    have e2 : nbit % 16 = nbit := Nat.mod_eq_of_lt (by omega)
    have hp : (2 : Nat) ^ nbit ≤ 2 ^ 15 := Nat.pow_le_pow_right (by omega) (by omega)
    have e3 : (2 ^ nbit + 2 ^ 16 - (maxv + 1)) % 2 ^ 16 = 2 ^ nbit - (maxv + 1) := by omega
    simp only [e1, e2, e3]
    cases (NBit.new input nbit).drain (8 * input.length + 1) with
    | done values => exact Fol.bind (rleLoop_fol _ _ _ _ _ _ _) fun _ => Fol.refl _
    | panic => exact Or.inl rfl
    | more values => exact Or.inl rfl

theorem runLengthDecode_ext (grow : Nat → Bool) (ops : FloatOps F) (t : Decoder) :
    OExt (N32.runLengthDecode grow ops t) (runLengthDecode grow ops t) := by
  unfold N32.runLengthDecode runLengthDecode
  refine OExt.bind_eq fun nbit _ => ?_
  refine OExt.bind_eq fun maxv _ => ?_
  refine OExt.bind_eq fun maxLevel _ => ?_
  refine OExt.bind_eq fun digits _ => ?_
  refine OExt.bind_eq fun levels _ => ?_
  refine OExt.bind ((rleunpack_fol _ _ _ _ _).mapErr _) fun decoded => ?_
  exact OExt.refl _

/-! ## The decoder -/

theorem decodeValues_ext (grow : Nat → Bool) (c : Codecs F) (t : Decoder) :
    OExt (N32.decodeValues grow c t) (decodeValues grow c t) := by
  unfold N32.decodeValues decodeValues
  split
  · rename_i h; rw [h]; exact OExt.refl _
  · rename_i h; rw [h]; exact complexDecode2_ext _ _ _
  · rename_i h; rw [h]; exact complexDecode3_ext _ _ _
  · rename_i h; rw [h]; exact OExt.refl _
  · rename_i h; rw [h]; exact OExt.refl _
  · rename_i h; rw [h]; exact runLengthDecode_ext _ _ _
  · split <;> first | contradiction | exact OExt.refl _

theorem dispatch_bext (grow : Nat → Bool) (c : Codecs F) (t : Decoder) :
    N32.dispatch grow c t = .panic ∨ (∃ e, N32.dispatch grow c t = .err e ∧ dispatch grow c t = .err e) ∨
      ∃ a b, N32.dispatch grow c t = .ok a ∧ dispatch grow c t = .ok b ∧ BExt a b := by
  have h := decodeValues_ext grow c t
  have e1 : N32.dispatch grow c t = (N32.decodeValues grow c t).bind fun v => N32.bitmapNew t.bitmap v t.numPointsTotal := rfl
  have e2 : dispatch grow c t = (decodeValues grow c t).bind fun v => bitmapNew t.bitmap v t.numPointsTotal := rfl
  rw [e1, e2]
  rcases h with h | ⟨e, h, h'⟩ | ⟨xs, ys, h, h', hx⟩
  · exact Or.inl (by rw [h]; rfl)
  · exact Or.inr (Or.inl ⟨e, by rw [h]; rfl, by rw [h']; rfl⟩)
  · rw [h, h']
    show N32.bitmapNew _ _ _ = _ ∨ _
    simp only [Outcome.bind]
    unfold N32.bitmapNew bitmapNew BitmapIter.new
    by_cases hb : t.bitmap.length * 8 ≥ 2 ^ 32
    · rw [if_pos hb]; exact Or.inl rfl
    · rw [if_neg hb, Nat.mod_eq_of_lt (by omega)]
      split
      · exact Or.inr (Or.inl ⟨_, rfl, rfl⟩)
      · exact Or.inr (Or.inr ⟨_, _, rfl, rfl, rfl, hx⟩)

/-! ## The sections -/

theorem payloadAsSlice_eq {s : SectionInfo} (h5 : 5 ≤ s.size) (ho : s.offset + 5 < 2 ^ 32) :
    readSectPayloadAsSlice s = N32.readSectPayloadAsSlice s := by
  unfold readSectPayloadAsSlice N32.readSectPayloadAsSlice
  have e : uadd s.offset 5 = s.offset + 5 := Nat.mod_eq_of_lt ho
  rw [e, usub_le h5, if_neg (by omega)]
  simp only [if_neg (show ¬ s.size < 5 by omega)]

end Grib.Model.R32
