import Verif.Lemmas.ReleaseDecode
import Verif.Lemmas.Complex

/-! # Release builds: the values of complex packing, with wrapping sums -/

namespace Grib.Model.Rel

open Grib.Model Grib.Spec

variable {ε F : Type}

/-- `Layout.Consistent` without the conditions on sums: only the sizes. -/
structure Fits (l : Layout) : Prop where
  groups : 1 ≤ l.p.ngroup
  nbit : l.nbit ≤ 32
  widthNbit : l.p.widthNbit ≤ 32
  lenNbit : l.p.lenNbit ≤ 32
  refsBits : l.p.ngroup * l.nbit + 7 < 2 ^ 32
  widthsBits : l.p.ngroup * l.p.widthNbit + 7 < 2 ^ 32
  lensBits : l.p.ngroup * l.p.lenNbit + 7 < 2 ^ 32
  whole : l.groupAt l.p.ngroup ≤ 8 * l.data.length
  refs : ∀ g < l.p.ngroup, l.ref g < 2 ^ 31
  widths : ∀ g < l.p.ngroup, l.width g < 32
  lens : ∀ g < l.p.ngroup, l.len g < 2 ^ 32
  constant : ∀ g < l.p.ngroup, l.width g = 0 → l.nbit ≤ 31

theorem Fits.of_consistent {l : Layout} {z : Int} (h : l.Consistent z) : Fits l :=
  ⟨h.groups, h.nbit, h.widthNbit, h.lenNbit, h.refsBits, h.widthsBits, h.lensBits, h.whole, h.refs, h.widths, h.lens,
    fun g hg hw => Nat.le_trans (h.constant g hg hw) (by decide)⟩

/-- The same value, reduced to 32 bits. -/
def wrapValue : DecodedValue → DecodedValue
  | .normal x => .normal (wrap32 x)
  | v => v

theorem wrapValue_normal (x : Int) : wrapValue (.normal x) = .normal (wrap32 x) := rfl
theorem wrapValue_missing1 : wrapValue .missing1 = .missing1 := rfl
theorem wrapValue_missing2 : wrapValue .missing2 = .missing2 := rfl

theorem append_congr {α : Type} {a a' b b' : List α} (h : a = a') (h' : b = b') : a ++ b = a' ++ b' := by rw [h, h']

theorem wrap32_add (a b : Int) : wrap32 (wrap32 a + b) = wrap32 (a + b) := by
  unfold wrap32; exact Int.bmod_add_bmod

theorem wrap32_sub (a b : Int) : wrap32 (wrap32 a - b) = wrap32 (a - b) := by
  unfold wrap32; exact Int.bmod_sub_bmod

theorem wrap_getD {mvm w n : Nat} (x : Int) : wrapValue ((Layout.missing mvm w n).getD (.normal x)) =
    (Layout.missing mvm w n).getD (.normal (wrap32 x)) := by
  unfold Layout.missing
  split
  · rfl
  · split <;> rfl

theorem wrap32_twoPow31 : wrap32 (wrap32 (2 ^ 31) - 1) = 2 ^ 31 - 1 := by decide +kernel

/-- The integers that mean missing, up to 31 bits. -/
theorem missing_ref {nbit : Nat} (h : nbit ≤ 31) : wrap32 (wrap32 (2 ^ (nbit % 32)) - 1) = 2 ^ nbit - 1 ∧
    wrap32 ((2 : Int) ^ nbit - 1 - 1) = 2 ^ nbit - 1 - 1 := by
  have e1 : nbit % 32 = nbit := Nat.mod_eq_of_lt (by omega)
  have hp : (2 : Int) ^ nbit ≤ 2 ^ 31 := by
    have : (2 : Nat) ^ nbit ≤ 2 ^ 31 := Nat.pow_le_pow_right (by omega) (by omega)
    exact_mod_cast this
  have hp0 : (0 : Int) < 2 ^ nbit := by
    have : 0 < (2 : Nat) ^ nbit := Nat.pow_pos (by omega)
    exact_mod_cast this
  rw [e1]
  refine ⟨?_, wrap32_of_range (by omega)⟩
  by_cases h31 : nbit = 31
  · subst h31; exact wrap32_twoPow31
  · have hp : (2 : Int) ^ nbit ≤ 2 ^ 30 := by
      have : (2 : Nat) ^ nbit ≤ 2 ^ 30 := Nat.pow_le_pow_right (by omega) (by omega)
      exact_mod_cast this
    rw [wrap32_of_range (v := 2 ^ nbit) (by omega), wrap32_of_range (by omega)]

theorem wrap32_add' (a b : Int) : wrap32 (a + wrap32 b) = wrap32 (a + b) := by
  unfold wrap32; exact Int.add_bmod_bmod

/-- One group. -/
theorem groupNext_wrapped (env : GroupEnv) (st : GroupPos) (ref width len : Nat) (hoff : st.startOffsetBits < 8)
    (href : ref < 2 ^ 31) (hw : width < 32) (hc : width = 0 → env.nbit ≤ 31)
    (hwhole : 8 * st.pos + st.startOffsetBits + width * len ≤ 8 * env.data.length) :
    ∃ st' : GroupPos, st'.startOffsetBits < 8 ∧
      8 * st'.pos + st'.startOffsetBits = 8 * st.pos + st.startOffsetBits + width * len ∧
      (groupNext env st ref width len : Outcome ε _) = .ok ((List.range len).map fun k =>
        if width = 0 then (Layout.missing env.mvm env.nbit ref).getD (.normal (wrap32 (ref + env.zMin)))
        else
          let x := bitField env.data (8 * st.pos + st.startOffsetBits + k * width) width
          (Layout.missing env.mvm width x).getD (.normal (wrap32 (x + ref + env.zMin))), st') := by
  unfold groupNext toI32
  by_cases h0 : width = 0
  · subst h0
    simp only [if_true]
    rw [if_pos href, Outcome.bind_ok]
    have hm := missing_ref (hc rfl)
    simp only [hm.1, hm.2]
    refine ⟨st, hoff, by omega, ?_⟩
    have hrep : ∀ v : DecodedValue, List.replicate len v = (List.range len).map fun _ => v := by
      intro v; rw [List.map_const', List.length_range]
    have e1 : ((ref : Int) = 2 ^ env.nbit - 1) ↔ ref + 1 = 2 ^ env.nbit := by
      have : ((2 ^ env.nbit : Nat) : Int) = 2 ^ env.nbit := by simp
      omega
    have e2 : ((ref : Int) = 2 ^ env.nbit - 1 - 1) ↔ ref + 2 = 2 ^ env.nbit := by
      have : ((2 ^ env.nbit : Nat) : Int) = 2 ^ env.nbit := by simp
      omega
    simp only [e1, e2, Layout.missing, hrep]
    by_cases c1 : 0 < env.mvm ∧ ref + 1 = 2 ^ env.nbit
    · rw [if_pos c1, if_pos (show 1 ≤ env.mvm ∧ _ from c1)]; rfl
    · rw [if_neg c1, if_neg (show ¬ (1 ≤ env.mvm ∧ _) from c1)]
      by_cases c2 : env.mvm = 2 ∧ ref + 2 = 2 ^ env.nbit
      · rw [if_pos c2, if_pos c2]; rfl
      · rw [if_neg c2, if_neg c2]
        rfl
  · simp only [h0, if_false]
    rw [if_pos href, Outcome.bind_ok]
    have ew : width % 32 = width := Nat.mod_eq_of_lt hw
    have hp : 2 ≤ 2 ^ width := by
      calc 2 = 2 ^ 1 := rfl
        _ ≤ 2 ^ width := Nat.pow_le_pow_right (by decide) (by omega)
    have hp31 : 2 ^ width ≤ 2 ^ 31 := Nat.pow_le_pow_right (by decide) (by omega)
    have em : (2 ^ width - 1 + 2 ^ 32 - 1) % 2 ^ 32 = 2 ^ width - 1 - 1 := by omega
    rw [ew, em]
    generalize hB : st.startOffsetBits + width * len = B
    have hob : (if B % 8 > 0 then 1 else 0) = (B + 7) / 8 - B / 8 := by split <;> omega
    rw [hob]
    have hend : st.pos + B / 8 + ((B + 7) / 8 - B / 8) = st.pos + (B + 7) / 8 := by omega
    rw [hend, sliceTo_eq (by omega) (by omega), Outcome.bind_ok]
    generalize hsl : (env.data.drop st.pos).take (st.pos + (B + 7) / 8 - st.pos) = sl
    have hll : sl.length = (B + 7) / 8 := by
      rw [← hsl, List.length_take, List.length_drop]; omega
    rw [NBit.takeList_spec _ _ hoff (by simp [NBit.new, NBit.withOffset]; omega)]
    have hmin : min len ((8 * ((NBit.new sl width).withOffset st.startOffsetBits).data.length -
        ((NBit.new sl width).withOffset st.startOffsetBits).bitPos) /
        ((NBit.new sl width).withOffset st.startOffsetBits).size) = len := by
      simp only [NBit.new, NBit.withOffset, NBit.bitPos, Nat.mul_zero, Nat.zero_add, hll]
      have : len ≤ (8 * ((B + 7) / 8) - st.startOffsetBits) / width := by
        rw [Nat.le_div_iff_mul_le (by omega), Nat.mul_comm]; omega
      omega
    rw [hmin]
    simp only [Outcome.ofOption, Outcome.bind_ok]
    have hf : NBit.fields ((NBit.new sl width).withOffset st.startOffsetBits) len =
        (List.range len).map fun k => bitField env.data (8 * st.pos + st.startOffsetBits + k * width) width := by
      unfold NBit.fields
      apply List.map_congr_left
      intro k hk
      have hk := List.mem_range.mp hk
      simp only [NBit.new, NBit.withOffset, NBit.bitPos, Nat.mul_zero, Nat.zero_add]
      rw [bitField_mod (by omega), ← hsl]
      have hkw : k * width + width ≤ width * len := by
        rw [← Nat.succ_mul, Nat.mul_comm width]; exact Nat.mul_le_mul_right _ hk
      rw [bitField_slice (by omega), Nat.add_assoc (8 * st.pos)]
    have hx : ∀ x ∈ (List.range len).map fun k => bitField env.data (8 * st.pos + st.startOffsetBits + k * width) width,
        groupValue env ref (2 ^ width - 1) (2 ^ width - 1 - 1) x =
          (Layout.missing env.mvm width x).getD (.normal (wrap32 (x + ref + env.zMin))) := by
      intro x hx
      obtain ⟨k, -, rfl⟩ := List.mem_map.mp hx
      have hlt := bitField_lt env.data (8 * st.pos + st.startOffsetBits + k * width) width
      generalize bitField env.data (8 * st.pos + st.startOffsetBits + k * width) width = x at *
      unfold groupValue Layout.missing
      have e1 : (x = 2 ^ width - 1) ↔ x + 1 = 2 ^ width := by omega
      have e2 : (x = 2 ^ width - 1 - 1) ↔ x + 2 = 2 ^ width := by omega
      simp only [e1, e2]
      by_cases c1 : 0 < env.mvm ∧ x + 1 = 2 ^ width
      · rw [if_pos c1, if_pos (show 1 ≤ env.mvm ∧ _ from c1)]; rfl
      · rw [if_neg c1, if_neg (show ¬ (1 ≤ env.mvm ∧ _) from c1)]
        by_cases c2 : env.mvm = 2 ∧ x + 2 = 2 ^ width
        · rw [if_pos c2, if_pos c2]; rfl
        · rw [if_neg c2, if_neg c2, asGribInt_small (by omega), wrap32_add]; rfl
    rw [hf, List.map_congr_left hx]
    refine ⟨⟨st.pos + B / 8, B % 8⟩, Nat.mod_lt _ (by decide), by simp only; omega, ?_⟩
    rw [List.map_map]
    rfl

/-- All groups from `g` on. -/
theorem groupItems_wrapped (l : Layout) (zMin : Int) (hc : Fits l) (n g : Nat) (hg : g + n = l.p.ngroup)
    (st : GroupPos) (hoff : st.startOffsetBits < 8) (hpos : 8 * l.dataAt + (8 * st.pos + st.startOffsetBits) = l.groupAt g) :
    groupItems ⟨l.p.missing, l.nbit, zMin, l.data.drop l.dataAt⟩ ((List.range' g n).map l.ref)
      ((List.range' g n).map l.width) ((List.range' g n).map l.len) st =
      ((List.range' g n).flatMap fun h => (List.range (l.len h)).map fun k => wrapValue (l.value zMin h k)).map .ok := by
  induction n generalizing g st with
  | zero => rfl
  | succ n ih =>
    have hmono : ∀ m, l.groupAt (g + 1) ≤ l.groupAt (g + 1 + m) := by
      intro m
      induction m with
      | zero => exact Nat.le_refl _
      | succ m ihm =>
        refine Nat.le_trans ihm ?_
        unfold Layout.groupAt
        rw [← Nat.add_assoc, List.range_succ, List.map_append, List.sum_append_nat]
        omega
    have hsucc : l.groupAt (g + 1) = l.groupAt g + l.width g * l.len g := by
      unfold Layout.groupAt
      rw [List.range_succ, List.map_append, List.sum_append_nat]
      simp; omega
    have hall : l.groupAt (g + 1) ≤ 8 * l.data.length := by
      have := hmono n
      rw [show g + 1 + n = l.p.ngroup by omega] at this
      exact Nat.le_trans this hc.whole
    have hg' : g < l.p.ngroup := by omega
    obtain ⟨st', s1, s2, s3⟩ := groupNext_wrapped (ε := Empty) ⟨l.p.missing, l.nbit, zMin, l.data.drop l.dataAt⟩ st (l.ref g)
      (l.width g) (l.len g) hoff (hc.refs g hg') (hc.widths g hg') (hc.constant g hg')
      (by simp only [List.length_drop]; omega)
    rw [List.range'_succ, List.map_cons, List.map_cons, List.map_cons, groupItems]
    rw [s3]
    simp only
    rw [ih (g + 1) (by omega) st' s1 (by omega), List.flatMap_cons, List.map_append, List.map_map]
    congr 1
    rw [List.map_map]
    apply List.map_congr_left
    intro k hk
    have hk := List.mem_range.mp hk
    simp only [Function.comp]
    congr 1
    unfold Layout.value
    split
    · exact (wrap_getD _).symm
    · refine Eq.trans ?_ (wrap_getD _).symm
      unfold Layout.stored
      have hkw : k * l.width g + l.width g ≤ l.width g * l.len g := by
        rw [← Nat.succ_mul, Nat.mul_comm (l.width g)]; exact Nat.mul_le_mul_right _ hk
      have : ∀ s n, bitField (l.data.drop l.dataAt) s n = bitField l.data (8 * l.dataAt + s) n := by
        intro s n
        unfold bitField
        rw [← bits_drop, List.drop_drop]
      simp only [this]
      rw [show 8 * l.dataAt + (8 * st.pos + st.startOffsetBits + k * l.width g) = l.groupAt g + k * l.width g by omega]

/-- The whole of `decodeComplexPacking`. -/
theorem decodeComplexPacking_wrapped (l : Layout) (zMin : Int) (hc : Fits l) (hnum : l.p.ngroup < 2 ^ 32) :
    (decodeComplexPacking l.p l.data l.start l.nbit zMin : Outcome ε _) = .ok ((l.values zMin).map fun v => .ok (wrapValue v)) := by
  have hge : 8 * l.dataAt ≤ 8 * l.data.length := by
    refine Nat.le_trans ?_ hc.whole
    unfold Layout.groupAt; omega
  have hw : l.widthsAt ≤ l.lensAt := by unfold Layout.lensAt; omega
  have hd : l.lensAt ≤ l.dataAt := by unfold Layout.dataAt; omega
  have hs : l.start ≤ l.widthsAt := by unfold Layout.widthsAt; omega
  have o1 : l.widthsAt - l.start = (l.p.ngroup * l.nbit + 7) / 8 := by unfold Layout.widthsAt Layout.octets; omega
  have o2 : l.lensAt - l.widthsAt = (l.p.ngroup * l.p.widthNbit + 7) / 8 := by unfold Layout.lensAt Layout.octets; omega
  have o3 : l.dataAt - l.lensAt = (l.p.ngroup * l.p.lenNbit + 7) / 8 := by unfold Layout.dataAt Layout.octets; omega
  have hgr := hc.groups
  have hle : (l.p.ngroup - 1) * l.p.lenNbit ≤ l.p.ngroup * l.p.lenNbit := Nat.mul_le_mul_right _ (by omega)
  unfold decodeComplexPacking
  have og : ∀ {n}, l.p.ngroup * n + 7 < 2 ^ 32 → getOctetLength n l.p.ngroup = Layout.octets (l.p.ngroup * n) := by
    intro n hn
    unfold getOctetLength Layout.octets
    rw [Nat.mod_eq_of_lt (a := l.p.ngroup * n) (by omega), Nat.mod_eq_of_lt hn]
  have hng : l.p.ngroup < 2 ^ 32 := hnum
  have e : (l.p.ngroup + 2 ^ 32 - 1) % 2 ^ 32 = l.p.ngroup - 1 := by omega
  rw [og hc.refsBits, og hc.widthsBits, og hc.lensBits, e]
  dsimp only
  rw [show l.start + Layout.octets (l.p.ngroup * l.nbit) = l.widthsAt from rfl,
    show l.widthsAt + Layout.octets (l.p.ngroup * l.p.widthNbit) = l.lensAt from rfl,
    show l.lensAt + Layout.octets (l.p.ngroup * l.p.lenNbit) = l.dataAt from rfl,
    sliceTo_eq hs (by omega), sliceTo_eq hw (by omega), sliceTo_eq hd (by omega), sliceTo_eq (by omega) (Nat.le_refl _)]
  simp only [Outcome.bind_ok]
  rw [bitStreamTake_eq hc.nbit (by rw [List.length_take, List.length_drop]; omega),
    bitStreamTake_eq hc.widthNbit (by rw [List.length_take, List.length_drop]; omega),
    bitStreamTake_eq hc.lenNbit (by rw [List.length_take, List.length_drop]; omega)]
  simp only [Outcome.ofOption, Outcome.bind_ok]
  refine congrArg Outcome.ok ?_
  have field_ref : ∀ n at_ k e (w : Nat), k < n → (e - at_) = (n * w + 7) / 8 → 
      bitField ((l.data.drop at_).take (e - at_)) (k * w) w = bitField l.data (8 * at_ + k * w) w := by
    intro n at_ k e w hk he
    have : k * w + w ≤ n * w := by rw [← Nat.succ_mul]; exact Nat.mul_le_mul_right _ hk
    rw [bitField_slice (by omega)]
  have er : ((List.range l.p.ngroup).map fun k => bitField ((l.data.drop l.start).take (l.widthsAt - l.start)) (k * l.nbit) l.nbit) =
      (List.range' 0 l.p.ngroup).map l.ref := by
    rw [← List.range_eq_range']
    apply List.map_congr_left
    intro k hk
    exact field_ref l.p.ngroup _ _ _ _ (List.mem_range.mp hk) o1
  have ew : (((List.range l.p.ngroup).map fun k =>
        bitField ((l.data.drop l.widthsAt).take (l.lensAt - l.widthsAt)) (k * l.p.widthNbit) l.p.widthNbit).map
        fun v => (l.p.widthRef + v) % 2 ^ 32) = (List.range' 0 l.p.ngroup).map l.width := by
    rw [← List.range_eq_range', List.map_map]
    apply List.map_congr_left
    intro k hk
    simp only [Function.comp]
    rw [field_ref l.p.ngroup _ _ _ _ (List.mem_range.mp hk) o2]
    have := hc.widths k (List.mem_range.mp hk)
    unfold Layout.width at this ⊢
    exact Nat.mod_eq_of_lt (by omega)
  have el : (((List.range (l.p.ngroup - 1)).map fun k =>
        bitField ((l.data.drop l.lensAt).take (l.dataAt - l.lensAt)) (k * l.p.lenNbit) l.p.lenNbit).map
        fun v => (l.p.lenRef + (l.p.lenInc * v) % 2 ^ 32) % 2 ^ 32) ++ [l.p.lenLast] =
        (List.range' 0 l.p.ngroup).map l.len := by
    rw [← List.range_eq_range', List.map_map]
    obtain ⟨m, hm⟩ : ∃ m, l.p.ngroup = m + 1 := ⟨l.p.ngroup - 1, by omega⟩
    rw [hm, Nat.add_sub_cancel, List.range_succ, List.map_append, List.map_singleton]
    refine append_congr ?_ ?_
    · apply List.map_congr_left
      intro k hk
      have hk := List.mem_range.mp hk
      simp only [Function.comp]
      have h := hc.lens k (by omega)
      unfold Layout.len at h ⊢
      rw [if_neg (by omega)] at h ⊢
      rw [field_ref l.p.ngroup _ _ _ _ (by omega) o3]
      rw [Nat.mod_eq_of_lt (a := l.p.lenInc * _) (by omega), Nat.mod_eq_of_lt h]
    · have : l.len m = l.p.lenLast := by
        unfold Layout.len
        rw [if_pos hm.symm]
      rw [this]
  rw [er, ew, el, List.take_of_length_le (by simp)]
  rw [groupItems_wrapped l zMin hc l.p.ngroup 0 (by omega) ⟨0, 0⟩ (by simp) (by simp [Layout.groupAt])]
  unfold Layout.values
  rw [List.range_eq_range', List.map_flatMap, List.map_flatMap]
  simp only [List.map_map]
  rfl


/-! ## Undoing the differences -/

theorem stepItems_diff1_wrapped (fill : Int) (xs : List DecodedValue) (hr : ∀ x ∈ normals xs, -2 ^ 31 ≤ x ∧ x < 2 ^ 31)
    (s : Diff1) (prev : Option Int)
    (hs : (prev = none ∧ s.count = 0 ∧ ∀ x, (normals xs).head? = some x → s.firstValues.head? = some x) ∨
      (s.count ≠ 0 ∧ prev = some s.prev)) :
    stepItems diff1Step s ((diff1 fill prev xs).map fun v => .ok (wrapValue v)) = xs.map .ok := by
  induction xs generalizing s prev with
  | nil => cases prev <;> rfl
  | cons x xs ih =>
    cases x with
    | normal x =>
      have hx := hr x (by simp [normals])
      have hr' : ∀ x ∈ normals xs, -2 ^ 31 ≤ x ∧ x < 2 ^ 31 := fun y hy =>
        hr y (by simp only [normals, List.filterMap_cons] at *; exact List.mem_cons_of_mem _ hy)
      rcases hs with ⟨rfl, h0, hf⟩ | ⟨hc, rfl⟩
      · have hf := hf x (by simp [normals])
        obtain ⟨y, ys, hys⟩ : ∃ y ys, s.firstValues = y :: ys := by
          cases h : s.firstValues with
          | nil => rw [h] at hf; simp at hf
          | cons y ys => exact ⟨y, ys, rfl⟩
        rw [hys] at hf
        obtain rfl : y = x := by simpa using hf
        simp only [diff1, List.map_cons, wrapValue_normal, stepItems, diff1Step, h0, hys]
        rw [ih hr' _ _ (.inr ⟨by simp, rfl⟩)]
      · obtain ⟨n, hn⟩ := Nat.exists_eq_succ_of_ne_zero hc
        simp only [diff1, List.map_cons, wrapValue_normal, wrapValue_missing1, wrapValue_missing2, stepItems, diff1Step, hn]
        rw [wrap32_add, show x - s.prev + s.prev = x by omega, wrap32_of_range hx]
        rw [ih hr' _ _ (.inr ⟨by simp, rfl⟩)]
    | missing1 =>
      have : diff1 fill prev (.missing1 :: xs) = .missing1 :: diff1 fill prev xs := by cases prev <;> rfl
      rw [this]
      simp only [List.map_cons, wrapValue_normal, wrapValue_missing1, wrapValue_missing2, stepItems, diff1Step]
      rw [ih hr _ _ (by simpa [normals] using hs)]
    | missing2 =>
      have : diff1 fill prev (.missing2 :: xs) = .missing2 :: diff1 fill prev xs := by cases prev <;> rfl
      rw [this]
      simp only [List.map_cons, wrapValue_normal, wrapValue_missing1, wrapValue_missing2, stepItems, diff1Step]
      rw [ih hr _ _ (by simpa [normals] using hs)]

theorem wrap32_second (x p q : Int) : wrap32 (wrap32 (wrap32 (x - 2 * p + q) + wrap32 (2 * p)) - q) = wrap32 x := by
  rw [wrap32_sub, ← Int.add_neg_eq_sub, show wrap32 (x - 2 * p + q) + wrap32 (2 * p) + -q =
    wrap32 (x - 2 * p + q) + (-q + wrap32 (2 * p)) by omega, wrap32_add, ← Int.add_assoc, wrap32_add']
  congr 1
  omega

theorem stepItems_diff2_wrapped (fill fill' : Int) (xs : List DecodedValue)
    (s : Diff2) (prev : List Int) (hr : ∀ x ∈ normals xs, -2 ^ 31 ≤ x ∧ x < 2 ^ 31)
    (hs : (prev = [] ∧ s.count = 0 ∧ ∀ k < 2, ∀ x, (normals xs)[k]? = some x → s.firstValues[k]? = some x) ∨
      (s.count = 1 ∧ prev = [s.prev2] ∧ ∀ x, (normals xs)[0]? = some x → s.firstValues[0]? = some x) ∨
      (2 ≤ s.count ∧ prev = [s.prev1, s.prev2])) :
    stepItems diff2Step s ((diff2 fill fill' prev xs).map fun v => .ok (wrapValue v)) = xs.map .ok := by
  induction xs generalizing s prev with
  | nil => rcases hs with ⟨rfl, -⟩ | ⟨-, rfl, -⟩ | ⟨-, rfl⟩ <;> rfl
  | cons x xs ih =>
    have miss : ∀ (m : DecodedValue) xs, (∀ x, m ≠ .normal x) → diff2 fill fill' prev (m :: xs) = m :: diff2 fill fill' prev xs := by
      intro m xs hm
      cases m with
      | normal x => exact absurd rfl (hm x)
      | _ => rcases hs with ⟨rfl, -⟩ | ⟨-, rfl, -⟩ | ⟨-, rfl⟩ <;> rfl
    cases x with
    | normal x =>
      have hx := hr x (by simp [normals])
      have hn : normals (.normal x :: xs) = x :: normals xs := rfl
      rw [hn] at hs
      have hr' : ∀ x ∈ normals xs, -2 ^ 31 ≤ x ∧ x < 2 ^ 31 := fun y hy => hr y (by rw [hn]; exact List.mem_cons_of_mem _ hy)
      rcases hs with ⟨rfl, h0, hf⟩ | ⟨h1, rfl, hf⟩ | ⟨h2, rfl⟩
      · have hf0 := hf 0 (by omega) x rfl
        obtain ⟨y, ys, hys⟩ : ∃ y ys, s.firstValues = y :: ys := by
          cases h : s.firstValues with
          | nil => rw [h] at hf0; simp at hf0
          | cons y ys => exact ⟨y, ys, rfl⟩
        rw [hys] at hf0
        obtain rfl : y = x := by simpa using hf0
        simp only [diff2, List.map_cons, wrapValue_normal, wrapValue_missing1, wrapValue_missing2, stepItems, diff2Step, h0, hys]
        rw [ih _ _ hr' (.inr (.inl ⟨rfl, rfl, fun z hz => by have := hf 1 (by omega) z hz; rw [hys] at this; exact this⟩))]
      · have hf0 := hf x rfl
        obtain ⟨y, ys, hys⟩ : ∃ y ys, s.firstValues = y :: ys := by
          cases h : s.firstValues with
          | nil => rw [h] at hf0; simp at hf0
          | cons y ys => exact ⟨y, ys, rfl⟩
        rw [hys] at hf0
        obtain rfl : y = x := by simpa using hf0
        simp only [diff2, List.map_cons, wrapValue_normal, wrapValue_missing1, wrapValue_missing2, stepItems, diff2Step, h1, hys]
        rw [ih ⟨ys, 1 + 1, y, s.prev2⟩ [y, s.prev2] hr' (.inr (.inr ⟨Nat.le_refl _, rfl⟩))]
      · obtain ⟨n, hn2⟩ : ∃ n, s.count = n + 2 := ⟨s.count - 2, by omega⟩
        simp only [diff2, List.map_cons, wrapValue_normal, wrapValue_missing1, wrapValue_missing2, stepItems, diff2Step, hn2]
        rw [wrap32_second, wrap32_of_range hx]
        rw [ih ⟨s.firstValues, n + 2, x, s.prev1⟩ [x, s.prev1] hr' (.inr (.inr ⟨by simp, rfl⟩))]
    | missing1 =>
      rw [miss _ _ (by simp)]
      simp only [List.map_cons, wrapValue_normal, wrapValue_missing1, wrapValue_missing2, stepItems, diff2Step]
      rw [ih _ _ hr hs]
    | missing2 =>
      rw [miss _ _ (by simp)]
      simp only [List.map_cons, wrapValue_normal, wrapValue_missing1, wrapValue_missing2, stepItems, diff2Step]
      rw [ih _ _ hr hs]

end Grib.Model.Rel
