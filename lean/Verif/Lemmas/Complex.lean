import Verif.Lemmas.Decoder
import Verif.Spec.Complex

/-! # Complex packing -/

namespace Grib.Model

open Grib.Spec

variable {ε : Type}

theorem bitStreamTake_eq {data : List UInt8} {n len : Nat} (hn : n ≤ 32) (h : len * n ≤ 8 * data.length) :
    bitStreamTake data n len = some ((List.range len).map fun k => bitField data (k * n) n) := by
  unfold bitStreamTake
  split
  · rename_i h0
    subst h0
    congr 1
    apply List.ext_getElem (by simp)
    intro k h1 h2
    simp [bitField]
  · rw [NBit.takeList_spec _ _ (by simp [NBit.new]) (by simp [NBit.new]; omega), NBit.fields_new]
    have : min len ((8 * (NBit.new data n).data.length - (NBit.new data n).bitPos) / (NBit.new data n).size) = len := by
      simp only [NBit.new, NBit.bitPos, Nat.mul_zero, Nat.add_zero, Nat.sub_zero]
      have : len ≤ 8 * data.length / n := by rw [Nat.le_div_iff_mul_le (by omega)]; exact h
      omega
    rw [this]
    congr 1
    apply List.map_congr_left
    intro k _
    exact bitField_mod hn

theorem sliceTo_eq {data : List UInt8} {a b : Nat} (h1 : a ≤ b) (h2 : b ≤ data.length) :
    (sliceTo data a b : Outcome ε _) = .ok ((data.drop a).take (b - a)) := by
  unfold sliceTo; rw [if_pos ⟨h1, h2⟩]

theorem bitField_slice {data : List UInt8} {a b s n : Nat} (h : s + n ≤ 8 * (b - a)) :
    bitField ((data.drop a).take (b - a)) s n = bitField data (8 * a + s) n := by
  unfold bitField
  rw [← bits_take, ← bits_drop, List.drop_take, List.drop_drop, List.take_take, Nat.min_eq_left (by omega)]

theorem getOctetLength_eq {nbit ngroup : Nat} (h : ngroup * nbit + 7 < 2 ^ 32) :
    (getOctetLength nbit ngroup : Outcome ε Nat) = .ok (Layout.octets (ngroup * nbit)) := by
  unfold getOctetLength checkU32
  rw [if_pos (by omega), Outcome.bind_ok, if_pos (by omega), Outcome.bind_ok]; rfl

theorem asGribInt_small {v : Nat} (h : v < 2 ^ 31) : asGribInt 32 v = (v : Int) := by
  unfold asGribInt
  rw [if_neg (by omega)]

theorem mapPulls_eq {α β : Type} (f : α → Outcome ε β) (g : α → β) (xs : List α) (h : ∀ x ∈ xs, f x = .ok (g x)) :
    mapPulls f xs = .ok (xs.map g) := by
  induction xs with
  | nil => rfl
  | cons x xs ih =>
    rw [mapPulls, h x (by simp), Outcome.bind_ok, ih (fun x hx => h x (by simp [hx]))]; rfl

/-- One group. -/
theorem groupNext_eq (env : GroupEnv) (st : GroupPos) (ref width len : Nat) (hoff : st.startOffsetBits < 8)
    (href : ref < 2 ^ 31) (hw : width < 32) (hc : width = 0 → env.nbit ≤ 30)
    (hwhole : 8 * st.pos + st.startOffsetBits + width * len ≤ 8 * env.data.length)
    (hr1 : -2 ^ 31 ≤ ref + env.zMin) (hr2 : (ref : Int) + 2 ^ width ≤ 2 ^ 31) (hr3 : ref + env.zMin + 2 ^ width ≤ 2 ^ 31) :
    ∃ st' : GroupPos, st'.startOffsetBits < 8 ∧
      8 * st'.pos + st'.startOffsetBits = 8 * st.pos + st.startOffsetBits + width * len ∧
      (groupNext env st ref width len : Outcome ε _) = .ok ((List.range len).map fun k =>
        if width = 0 then (Layout.missing env.mvm env.nbit ref).getD (.normal (ref + env.zMin))
        else
          let x := bitField env.data (8 * st.pos + st.startOffsetBits + k * width) width
          (Layout.missing env.mvm width x).getD (.normal (x + ref + env.zMin)), st') := by
  unfold groupNext toI32
  by_cases h0 : width = 0
  · subst h0
    simp only [if_true]
    rw [if_pos href, Outcome.bind_ok, if_neg (by have := hc rfl; omega)]
    refine ⟨st, hoff, by omega, ?_⟩
    have hrep : ∀ v : DecodedValue, List.replicate len v = (List.range len).map fun _ => v := by
      intro v; rw [List.map_const', List.length_range]
    have e1 : ((ref : Int) = 2 ^ env.nbit - 1) ↔ ref + 1 = 2 ^ env.nbit := by
      have : ((2 ^ env.nbit : Nat) : Int) = 2 ^ env.nbit := by simp
      omega
    have e2 : ((ref : Int) = 2 ^ env.nbit - 1 - 1) ↔ ref + 2 = 2 ^ env.nbit := by
      have : ((2 ^ env.nbit : Nat) : Int) = 2 ^ env.nbit := by simp
      omega
    simp only [e1, e2, Layout.missing, hrep]
    by_cases c1 : 0 < env.mvm ∧ ref + 1 = 2 ^ env.nbit
    · rw [if_pos c1, if_pos (show 1 ≤ env.mvm ∧ _ from c1)]; rfl
    · rw [if_neg c1, if_neg (show ¬ (1 ≤ env.mvm ∧ _) from c1)]
      by_cases c2 : env.mvm = 2 ∧ ref + 2 = 2 ^ env.nbit
      · rw [if_pos c2, if_pos c2]; rfl
      · rw [if_neg c2, if_neg c2]
        unfold checkI32
        rw [if_pos (by omega), Outcome.bind_ok]; rfl
  · simp only [h0, if_false]
    rw [if_pos href, Outcome.bind_ok, if_neg (by omega)]
    generalize hB : st.startOffsetBits + width * len = B
    have hob : (if B % 8 > 0 then 1 else 0) = (B + 7) / 8 - B / 8 := by split <;> omega
    rw [hob]
    have hend : st.pos + B / 8 + ((B + 7) / 8 - B / 8) = st.pos + (B + 7) / 8 := by omega
    rw [hend, sliceTo_eq (by omega) (by omega), Outcome.bind_ok]
    generalize hsl : (env.data.drop st.pos).take (st.pos + (B + 7) / 8 - st.pos) = sl
    have hll : sl.length = (B + 7) / 8 := by
      rw [← hsl, List.length_take, List.length_drop]; omega
    rw [NBit.takeList_spec _ _ hoff (by simp [NBit.new, NBit.withOffset]; omega)]
    have hmin : min len ((8 * ((NBit.new sl width).withOffset st.startOffsetBits).data.length -
        ((NBit.new sl width).withOffset st.startOffsetBits).bitPos) /
        ((NBit.new sl width).withOffset st.startOffsetBits).size) = len := by
      simp only [NBit.new, NBit.withOffset, NBit.bitPos, Nat.mul_zero, Nat.zero_add, hll]
      have : len ≤ (8 * ((B + 7) / 8) - st.startOffsetBits) / width := by
        rw [Nat.le_div_iff_mul_le (by omega), Nat.mul_comm]; omega
      omega
    rw [hmin]
    simp only [Outcome.ofOption, Outcome.bind_ok]
    have hf : NBit.fields ((NBit.new sl width).withOffset st.startOffsetBits) len =
        (List.range len).map fun k => bitField env.data (8 * st.pos + st.startOffsetBits + k * width) width := by
      unfold NBit.fields
      apply List.map_congr_left
      intro k hk
      have hk := List.mem_range.mp hk
      simp only [NBit.new, NBit.withOffset, NBit.bitPos, Nat.mul_zero, Nat.zero_add]
      rw [bitField_mod (by omega), ← hsl]
      have hkw : k * width + width ≤ width * len := by
        rw [← Nat.succ_mul, Nat.mul_comm width]; exact Nat.mul_le_mul_right _ hk
      rw [bitField_slice (by omega), Nat.add_assoc (8 * st.pos)]
    have hx : ∀ x ∈ (List.range len).map fun k => bitField env.data (8 * st.pos + st.startOffsetBits + k * width) width,
        (groupValue env ref (2 ^ width - 1) (2 ^ width - 1 - 1) x : Outcome ε _) =
          .ok ((Layout.missing env.mvm width x).getD (.normal (x + ref + env.zMin))) := by
      intro x hx
      obtain ⟨k, -, rfl⟩ := List.mem_map.mp hx
      have hlt := bitField_lt env.data (8 * st.pos + st.startOffsetBits + k * width) width
      generalize bitField env.data (8 * st.pos + st.startOffsetBits + k * width) width = x at *
      have hp : 2 ≤ 2 ^ width := by
        calc 2 = 2 ^ 1 := rfl
          _ ≤ 2 ^ width := Nat.pow_le_pow_right (by decide) (by omega)
      have hpc : ((2 ^ width : Nat) : Int) = 2 ^ width := by simp
      have hp31 : 2 ^ width ≤ 2 ^ 31 := Nat.pow_le_pow_right (by decide) (by omega)
      unfold groupValue Layout.missing
      have e1 : (x = 2 ^ width - 1) ↔ x + 1 = 2 ^ width := by omega
      have e2 : (x = 2 ^ width - 1 - 1) ↔ x + 2 = 2 ^ width := by omega
      simp only [e1, e2]
      by_cases c1 : 0 < env.mvm ∧ x + 1 = 2 ^ width
      · rw [if_pos c1, if_pos (show 1 ≤ env.mvm ∧ _ from c1)]; rfl
      · rw [if_neg c1, if_neg (show ¬ (1 ≤ env.mvm ∧ _) from c1)]
        by_cases c2 : env.mvm = 2 ∧ x + 2 = 2 ^ width
        · rw [if_pos c2, if_pos c2]; rfl
        · rw [if_neg c2, if_neg c2, asGribInt_small (by omega)]
          unfold checkI32
          rw [if_pos (by omega), Outcome.bind_ok, if_pos (by omega), Outcome.bind_ok]; rfl
    rw [hf, mapPulls_eq _ _ _ hx, Outcome.bind_ok]
    refine ⟨⟨st.pos + B / 8, B % 8⟩, Nat.mod_lt _ (by decide), by simp only; omega, ?_⟩
    rw [List.map_map]
    rfl

/-- All groups from `g` on. -/
theorem groupItems_eq (l : Layout) (zMin : Int) (hc : l.Consistent zMin) (n g : Nat) (hg : g + n = l.p.ngroup)
    (st : GroupPos) (hoff : st.startOffsetBits < 8) (hpos : 8 * l.dataAt + (8 * st.pos + st.startOffsetBits) = l.groupAt g) :
    groupItems ⟨l.p.missing, l.nbit, zMin, l.data.drop l.dataAt⟩ ((List.range' g n).map l.ref)
      ((List.range' g n).map fun h => .ok (l.width h)) ((List.range' g n).map fun h => .ok (l.len h)) st =
      ((List.range' g n).flatMap fun h => (List.range (l.len h)).map fun k => l.value zMin h k).map .ok := by
  induction n generalizing g st with
  | zero => rfl
  | succ n ih =>
    have hmono : ∀ m, l.groupAt (g + 1) ≤ l.groupAt (g + 1 + m) := by
      intro m
      induction m with
      | zero => exact Nat.le_refl _
      | succ m ihm =>
        refine Nat.le_trans ihm ?_
        unfold Layout.groupAt
        rw [← Nat.add_assoc, List.range_succ, List.map_append, List.sum_append_nat]
        omega
    have hsucc : l.groupAt (g + 1) = l.groupAt g + l.width g * l.len g := by
      unfold Layout.groupAt
      rw [List.range_succ, List.map_append, List.sum_append_nat]
      simp; omega
    have hall : l.groupAt (g + 1) ≤ 8 * l.data.length := by
      have := hmono n
      rw [show g + 1 + n = l.p.ngroup by omega] at this
      exact Nat.le_trans this hc.whole
    have hg' : g < l.p.ngroup := by omega
    obtain ⟨r1, r2, r3⟩ := hc.range g hg'
    obtain ⟨st', s1, s2, s3⟩ := groupNext_eq (ε := Empty) ⟨l.p.missing, l.nbit, zMin, l.data.drop l.dataAt⟩ st (l.ref g)
      (l.width g) (l.len g) hoff (hc.refs g hg') (hc.widths g hg') (hc.constant g hg')
      (by simp only [List.length_drop]; omega) r1 r2 r3
    rw [List.range'_succ, List.map_cons, List.map_cons, List.map_cons, groupItems]
    simp only [Outcome.bind_ok]
    rw [s3]
    simp only
    rw [ih (g + 1) (by omega) st' s1 (by omega), List.flatMap_cons, List.map_append, List.map_map]
    congr 1
    rw [List.map_map]
    apply List.map_congr_left
    intro k hk
    have hk := List.mem_range.mp hk
    simp only [Function.comp]
    congr 1
    unfold Layout.value
    split
    · rfl
    · unfold Layout.stored
      have hkw : k * l.width g + l.width g ≤ l.width g * l.len g := by
        rw [← Nat.succ_mul, Nat.mul_comm (l.width g)]; exact Nat.mul_le_mul_right _ hk
      have : ∀ s n, bitField (l.data.drop l.dataAt) s n = bitField l.data (8 * l.dataAt + s) n := by
        intro s n
        unfold bitField
        rw [← bits_drop, List.drop_drop]
      simp only [this]
      rw [show 8 * l.dataAt + (8 * st.pos + st.startOffsetBits + k * l.width g) = l.groupAt g + k * l.width g by omega]

/-- The whole of `decodeComplexPacking`. -/
theorem decodeComplexPacking_eq (l : Layout) (zMin : Int) (hc : l.Consistent zMin) :
    (decodeComplexPacking l.p l.data l.start l.nbit zMin : Outcome ε _) = .ok ((l.values zMin).map .ok) := by
  have hge : 8 * l.dataAt ≤ 8 * l.data.length := by
    refine Nat.le_trans ?_ hc.whole
    unfold Layout.groupAt; omega
  have hw : l.widthsAt ≤ l.lensAt := by unfold Layout.lensAt; omega
  have hd : l.lensAt ≤ l.dataAt := by unfold Layout.dataAt; omega
  have hs : l.start ≤ l.widthsAt := by unfold Layout.widthsAt; omega
  have o1 : l.widthsAt - l.start = (l.p.ngroup * l.nbit + 7) / 8 := by unfold Layout.widthsAt Layout.octets; omega
  have o2 : l.lensAt - l.widthsAt = (l.p.ngroup * l.p.widthNbit + 7) / 8 := by unfold Layout.lensAt Layout.octets; omega
  have o3 : l.dataAt - l.lensAt = (l.p.ngroup * l.p.lenNbit + 7) / 8 := by unfold Layout.dataAt Layout.octets; omega
  have hgr := hc.groups
  have hle : (l.p.ngroup - 1) * l.p.lenNbit ≤ l.p.ngroup * l.p.lenNbit := Nat.mul_le_mul_right _ (by omega)
  unfold decodeComplexPacking
  rw [getOctetLength_eq hc.refsBits, getOctetLength_eq hc.widthsBits, getOctetLength_eq hc.lensBits]
  simp only [Outcome.bind_ok]
  rw [show l.start + Layout.octets (l.p.ngroup * l.nbit) = l.widthsAt from rfl,
    show l.widthsAt + Layout.octets (l.p.ngroup * l.p.widthNbit) = l.lensAt from rfl,
    show l.lensAt + Layout.octets (l.p.ngroup * l.p.lenNbit) = l.dataAt from rfl,
    sliceTo_eq hs (by omega), sliceTo_eq hw (by omega), sliceTo_eq hd (by omega), sliceTo_eq (by omega) (Nat.le_refl _)]
  simp only [Outcome.bind_ok]
  rw [bitStreamTake_eq hc.nbit (by rw [List.length_take, List.length_drop]; omega),
    bitStreamTake_eq hc.widthNbit (by rw [List.length_take, List.length_drop]; omega),
    bitStreamTake_eq hc.lenNbit (by rw [List.length_take, List.length_drop]; omega)]
  simp only [Outcome.ofOption, Outcome.bind_ok]
  rw [if_neg (by omega)]
  congr 1
  have field_ref : ∀ n at_ k e (w : Nat), k < n → (e - at_) = (n * w + 7) / 8 → 
      bitField ((l.data.drop at_).take (e - at_)) (k * w) w = bitField l.data (8 * at_ + k * w) w := by
    intro n at_ k e w hk he
    have : k * w + w ≤ n * w := by rw [← Nat.succ_mul]; exact Nat.mul_le_mul_right _ hk
    rw [bitField_slice (by omega)]
  have er : ((List.range l.p.ngroup).map fun k => bitField ((l.data.drop l.start).take (l.widthsAt - l.start)) (k * l.nbit) l.nbit) =
      (List.range' 0 l.p.ngroup).map l.ref := by
    rw [← List.range_eq_range']
    apply List.map_congr_left
    intro k hk
    exact field_ref l.p.ngroup _ _ _ _ (List.mem_range.mp hk) o1
  have ew : (((List.range l.p.ngroup).map fun k =>
        bitField ((l.data.drop l.widthsAt).take (l.lensAt - l.widthsAt)) (k * l.p.widthNbit) l.p.widthNbit).map
        fun v => (checkU32 (l.p.widthRef + v) : Outcome Empty Nat)) = (List.range' 0 l.p.ngroup).map fun h => .ok (l.width h) := by
    rw [← List.range_eq_range', List.map_map]
    apply List.map_congr_left
    intro k hk
    simp only [Function.comp]
    rw [field_ref l.p.ngroup _ _ _ _ (List.mem_range.mp hk) o2]
    have := hc.widths k (List.mem_range.mp hk)
    unfold Layout.width at this ⊢
    unfold checkU32
    rw [if_pos (by omega)]
  have el : (((List.range (l.p.ngroup - 1)).map fun k =>
        bitField ((l.data.drop l.lensAt).take (l.dataAt - l.lensAt)) (k * l.p.lenNbit) l.p.lenNbit).map
        fun v => (do let a ← checkU32 (l.p.lenInc * v); checkU32 (l.p.lenRef + a) : Outcome Empty Nat)) ++ [.ok l.p.lenLast] =
        (List.range' 0 l.p.ngroup).map fun h => .ok (l.len h) := by
    rw [← List.range_eq_range', List.map_map]
    obtain ⟨m, hm⟩ : ∃ m, l.p.ngroup = m + 1 := ⟨l.p.ngroup - 1, by omega⟩
    rw [hm, Nat.add_sub_cancel, List.range_succ, List.map_append, List.map_singleton]
    congr 1
    · apply List.map_congr_left
      intro k hk
      have hk := List.mem_range.mp hk
      simp only [Function.comp]
      have h := hc.lens k (by omega)
      unfold Layout.len at h ⊢
      rw [if_neg (by omega)] at h ⊢
      rw [field_ref l.p.ngroup _ _ _ _ (by omega) o3]
      unfold checkU32
      rw [if_pos (by omega), Outcome.bind_ok, if_pos (by omega)]
    · unfold Layout.len
      rw [if_pos hm.symm]
  rw [er, ew, el, List.take_of_length_le (by simp)]
  rw [groupItems_eq l zMin hc l.p.ngroup 0 (by omega) ⟨0, 0⟩ (by simp) (by simp [Layout.groupAt])]
  unfold Layout.values
  rw [List.range_eq_range']

/-! ## Packing -/

theorem bitField_append_right (pre d : List UInt8) (s n : Nat) :
    bitField (pre ++ d) (8 * pre.length + s) n = bitField d s n := by
  unfold bitField
  rw [bits_append, ← List.drop_drop, List.drop_left' (bits_length pre)]

theorem packInts_length (n : Nat) (xs : List Nat) : (packInts n xs).length = Layout.octets (xs.length * n) := by
  simp only [packInts, packOctets_length, flatMap_toBits_length, Layout.octets, Nat.mul_comm]

theorem flatMap_nums_length (gs : List PGroup) :
    (gs.flatMap fun g => g.nums.flatMap (toBits g.width)).length = (gs.map fun g => g.width * g.nums.length).sum := by
  induction gs with
  | nil => rfl
  | cons g gs ih => rw [List.flatMap_cons, List.length_append, ih, flatMap_toBits_length, List.map_cons, List.sum_cons]

theorem bitField_nums (gs : List PGroup) (g : Nat) (hg : g < gs.length) (k : Nat) (hk : k < gs[g].nums.length) :
    bitField (packOctets (gs.flatMap fun g => g.nums.flatMap (toBits g.width)))
      (((gs.take g).map fun g => g.width * g.nums.length).sum + k * gs[g].width) gs[g].width = gs[g].nums[k] % 2 ^ gs[g].width := by
  have hsplit : (gs.flatMap fun g => g.nums.flatMap (toBits g.width)) =
      ((gs.take g).flatMap fun g => g.nums.flatMap (toBits g.width)) ++
        (gs[g].nums.flatMap (toBits gs[g].width) ++ (gs.drop (g + 1)).flatMap fun g => g.nums.flatMap (toBits g.width)) := by
    have := List.flatMap_cons (f := fun g : PGroup => g.nums.flatMap (toBits g.width)) (x := gs[g]) (xs := gs.drop (g + 1))
    rw [← this, ← List.drop_eq_getElem_cons hg, ← List.flatMap_append, List.take_append_drop]
  have h1 : k * gs[g].width ≤ gs[g].width * gs[g].nums.length := by
    rw [Nat.mul_comm]; exact Nat.mul_le_mul_left _ (by omega)
  unfold bitField
  rw [bits_packOctets]
  generalize List.replicate _ false = pad
  rw [hsplit, ← flatMap_nums_length, List.append_assoc, ← List.drop_drop, List.drop_left, List.append_assoc,
    List.drop_append_of_le_length (by rw [flatMap_toBits_length]; exact h1), drop_flatMap_toBits,
    List.drop_eq_getElem_cons hk, List.flatMap_cons, List.append_assoc, List.take_append_of_le_length (by simp),
    List.take_of_length_le (by simp), ofBits_toBits]

/-- The layout of packed groups after a prefix. -/
theorem encoded_layout {p : ComplexParam} {nbit : Nat} {zMin : Int} {gs : List PGroup} (hp : Packable p nbit zMin gs)
    (pre : List UInt8) (l : Layout) (hl : l = ⟨p, nbit, pre.length, pre ++ encodeGroups p nbit gs⟩) :
    l.Consistent zMin ∧ l.values zMin = gs.flatMap (PGroup.values p.missing nbit zMin) := by
  have hcount := hp.count
  have hgroups := hp.groups
  generalize hA : packInts nbit (gs.map (·.ref)) = A
  generalize hB : packInts p.widthNbit (gs.map fun g => g.width - p.widthRef) = B
  generalize hC : packInts p.lenNbit (gs.map (·.lenCode)) = C
  generalize hD : packOctets (gs.flatMap fun g => g.nums.flatMap (toBits g.width)) = D
  have hAl : A.length = Layout.octets (p.ngroup * nbit) := by rw [← hA, packInts_length, List.length_map, hcount]
  have hBl : B.length = Layout.octets (p.ngroup * p.widthNbit) := by rw [← hB, packInts_length, List.length_map, hcount]
  have hCl : C.length = Layout.octets (p.ngroup * p.lenNbit) := by rw [← hC, packInts_length, List.length_map, hcount]
  have hdata : l.data = pre ++ (A ++ (B ++ (C ++ D))) := by
    rw [hl, ← hA, ← hB, ← hC, ← hD]; simp only [encodeGroups, List.append_assoc]
  have hlp : l.p = p := by rw [hl]
  have hln : l.nbit = nbit := by rw [hl]
  have hls : l.start = pre.length := by rw [hl]
  have hW : l.widthsAt = (pre ++ A).length := by
    unfold Layout.widthsAt; rw [hls, hlp, hln, List.length_append, hAl]
  have hL : l.lensAt = (pre ++ (A ++ B)).length := by
    unfold Layout.lensAt; rw [hW, hlp]; simp only [List.length_append, hBl]; omega
  have hDa : l.dataAt = (pre ++ (A ++ (B ++ C))).length := by
    unfold Layout.dataAt; rw [hL, hlp]; simp only [List.length_append, hCl]; omega
  have href : ∀ g (h : g < gs.length), l.ref g = gs[g].ref := by
    intro g h
    unfold Layout.ref
    rw [hdata, hls, hln, bitField_append_right, ← hA, bitField_packInts_append _ _ _ _ (by simpa using h), List.getElem_map]
    exact Nat.mod_eq_of_lt (hp.refs _ (List.getElem_mem h)).1
  have hwidth : ∀ g (h : g < gs.length), l.width g = gs[g].width := by
    intro g h
    obtain ⟨w1, w2, -⟩ := hp.widths _ (List.getElem_mem h)
    unfold Layout.width
    rw [hdata, hW, hlp, ← List.append_assoc, bitField_append_right, ← hB,
      bitField_packInts_append _ _ _ _ (by simpa using h), List.getElem_map, Nat.mod_eq_of_lt w2]
    omega
  have hlen : ∀ g (h : g < gs.length), l.len g = gs[g].nums.length := by
    intro g h
    unfold Layout.len
    rw [hlp]
    split
    · rename_i hlast
      refine (hp.lenLast _ ?_).symm
      rw [List.getLast?_eq_getElem?, show gs.length - 1 = g by omega, List.getElem?_eq_getElem h]
    · rename_i hlast
      have hd : gs[g] ∈ gs.dropLast := by
        rw [List.mem_iff_getElem]
        exact ⟨g, by rw [List.length_dropLast]; omega, by rw [List.getElem_dropLast]⟩
      have h1 := hp.codes _ (List.getElem_mem h)
      rw [hp.lens _ hd, hdata, hL]
      rw [show pre ++ (A ++ (B ++ (C ++ D))) = (pre ++ (A ++ B)) ++ (C ++ D) by simp only [List.append_assoc],
        bitField_append_right, ← hC, bitField_packInts_append _ _ _ _ (by simpa using h), List.getElem_map, Nat.mod_eq_of_lt h1]
  have hgroupAt : ∀ g ≤ gs.length, l.groupAt g = 8 * l.dataAt + ((gs.take g).map fun g => g.width * g.nums.length).sum := by
    intro g hg
    unfold Layout.groupAt
    congr 2
    apply List.ext_getElem
    · simp; omega
    · intro k h1 h2
      simp only [List.length_map, List.length_range] at h1
      simp only [List.getElem_map, List.getElem_range, List.getElem_take]
      rw [hwidth k (by omega), hlen k (by omega)]
  have hstored : ∀ g (h : g < gs.length) k (hk : k < gs[g].nums.length), l.stored g k = gs[g].nums[k] := by
    intro g h k hk
    unfold Layout.stored
    rw [hgroupAt g (by omega), hwidth g h, hdata, hDa,
      show pre ++ (A ++ (B ++ (C ++ D))) = (pre ++ (A ++ (B ++ C))) ++ D by simp only [List.append_assoc], Nat.add_assoc,
      bitField_append_right, ← hD, bitField_nums gs g h k hk]
    exact Nat.mod_eq_of_lt ((hp.nums _ (List.getElem_mem h)).1 _ (List.getElem_mem hk))
  have hmem : ∀ g (h : g < l.p.ngroup), gs[g]'(by rw [← hcount, ← hlp]; exact h) ∈ gs := fun g h => List.getElem_mem _
  constructor
  · constructor
    · rw [hlp, hcount]; exact hgroups
    · rw [hln]; exact hp.refNbit
    · rw [hlp]; exact hp.widthNbit
    · rw [hlp]; exact hp.lenNbit
    · rw [hlp, hln]; exact hp.refsBits
    · rw [hlp]; exact hp.widthsBits
    · rw [hlp]; exact hp.lensBits
    · rw [hlp, hcount, hgroupAt _ (Nat.le_refl _), List.take_length, hDa, hdata,
        show pre ++ (A ++ (B ++ (C ++ D))) = (pre ++ (A ++ (B ++ C))) ++ D by simp only [List.append_assoc],
        List.length_append (bs := D), ← hD, packOctets_length, flatMap_nums_length]
      omega
    · intro g h; rw [href g (by rw [← hcount, ← hlp]; exact h)]; exact (hp.refs _ (hmem g h)).2
    · intro g h; rw [hwidth g (by rw [← hcount, ← hlp]; exact h)]; exact (hp.widths _ (hmem g h)).2.2
    · intro g h; rw [hlen g (by rw [← hcount, ← hlp]; exact h)]; exact (hp.nums _ (hmem g h)).2
    · intro g h; rw [hwidth g (by rw [← hcount, ← hlp]; exact h), hln]; exact hp.constant _ (hmem g h)
    · intro g h
      rw [hwidth g (by rw [← hcount, ← hlp]; exact h), href g (by rw [← hcount, ← hlp]; exact h)]
      exact hp.range _ (hmem g h)
  · unfold Layout.values
    rw [hlp, hcount]
    have : (List.range gs.length).flatMap (fun g => (List.range (l.len g)).map fun k => l.value zMin g k) =
        (List.range gs.length).flatMap fun g => ((gs[g]?).map (PGroup.values p.missing nbit zMin)).getD [] := by
      rw [List.flatMap_def, List.flatMap_def]
      congr 1
      apply List.map_congr_left
      intro g hg
      have hg := List.mem_range.mp hg
      rw [List.getElem?_eq_getElem hg, Option.map_some, Option.getD_some, hlen g hg]
      unfold PGroup.values
      apply List.ext_getElem (by simp)
      intro k h1 h2
      simp only [List.length_map] at h2
      simp only [List.getElem_map, List.getElem_range]
      unfold Layout.value
      rw [hlp, hln, hwidth g hg, href g hg, hstored g hg k h2]
    rw [this, List.flatMap_def, List.flatMap_def]
    congr 1
    apply List.ext_getElem (by simp)
    intro k h1 h2
    simp only [List.length_map] at h2
    simp only [List.getElem_map, List.getElem_range]
    rw [List.getElem?_eq_getElem h2]; rfl

/-! ## Spatial differencing -/

theorem stepItems_diff1 (fill : Int) (xs : List DecodedValue) (hr : ∀ x ∈ normals xs, -2 ^ 31 ≤ x ∧ x < 2 ^ 31)
    (s : Diff1) (prev : Option Int)
    (hs : (prev = none ∧ s.count = 0 ∧ ∀ x, (normals xs).head? = some x → s.firstValues.head? = some x) ∨
      (s.count ≠ 0 ∧ prev = some s.prev)) :
    stepItems Diff1.step s ((diff1 fill prev xs).map .ok) = xs.map .ok := by
  induction xs generalizing s prev with
  | nil => cases prev <;> rfl
  | cons x xs ih =>
    cases x with
    | normal x =>
      have hx := hr x (by simp [normals])
      have hr' : ∀ x ∈ normals xs, -2 ^ 31 ≤ x ∧ x < 2 ^ 31 := fun y hy => hr y (by simp only [normals, List.filterMap_cons] at *; exact List.mem_cons_of_mem _ hy)
      rcases hs with ⟨rfl, h0, hf⟩ | ⟨hc, rfl⟩
      · have hf := hf x (by simp [normals])
        obtain ⟨y, ys, hys⟩ : ∃ y ys, s.firstValues = y :: ys := by
          cases h : s.firstValues with
          | nil => rw [h] at hf; simp at hf
          | cons y ys => exact ⟨y, ys, rfl⟩
        rw [hys] at hf
        obtain rfl : y = x := by simpa using hf
        simp only [diff1, List.map_cons, stepItems, Diff1.step, h0, hys]
        rw [ih hr' _ _ (.inr ⟨by simp, rfl⟩)]
      · obtain ⟨n, hn⟩ := Nat.exists_eq_succ_of_ne_zero hc
        simp only [diff1, List.map_cons, stepItems, Diff1.step, hn]
        rw [show x - s.prev + s.prev = x by omega]
        unfold checkI32
        rw [if_pos hx]
        simp only [Outcome.bind_ok]
        rw [ih hr' _ _ (.inr ⟨by simp, rfl⟩)]
    | missing1 =>
      have : diff1 fill prev (.missing1 :: xs) = .missing1 :: diff1 fill prev xs := by cases prev <;> rfl
      rw [this]
      simp only [List.map_cons, stepItems, Diff1.step]
      rw [ih hr _ _ (by simpa [normals] using hs)]
    | missing2 =>
      have : diff1 fill prev (.missing2 :: xs) = .missing2 :: diff1 fill prev xs := by cases prev <;> rfl
      rw [this]
      simp only [List.map_cons, stepItems, Diff1.step]
      rw [ih hr _ _ (by simpa [normals] using hs)]

theorem stepItems_diff2 (fill fill' : Int) (xs : List DecodedValue)
    (s : Diff2) (prev : List Int) (hr : ∀ x ∈ normals xs, -2 ^ 30 ≤ x ∧ x < 2 ^ 30)
    (hs : (prev = [] ∧ s.count = 0 ∧ ∀ k < 2, ∀ x, (normals xs)[k]? = some x → s.firstValues[k]? = some x) ∨
      (s.count = 1 ∧ prev = [s.prev2] ∧ (-2 ^ 30 ≤ s.prev2 ∧ s.prev2 < 2 ^ 30) ∧
        ∀ x, (normals xs)[0]? = some x → s.firstValues[0]? = some x) ∨
      (2 ≤ s.count ∧ prev = [s.prev1, s.prev2] ∧ (-2 ^ 30 ≤ s.prev1 ∧ s.prev1 < 2 ^ 30) ∧ (-2 ^ 30 ≤ s.prev2 ∧ s.prev2 < 2 ^ 30))) :
    stepItems Diff2.step s ((diff2 fill fill' prev xs).map .ok) = xs.map .ok := by
  have miss : ∀ (m : DecodedValue) xs, (∀ x, m ≠ .normal x) → diff2 fill fill' prev (m :: xs) = m :: diff2 fill fill' prev xs := by
    intro m xs hm
    cases m with
    | normal x => exact absurd rfl (hm x)
    | _ => rcases hs with ⟨rfl, -⟩ | ⟨-, rfl, -⟩ | ⟨-, rfl, -⟩ <;> rfl
  induction xs generalizing s prev with
  | nil => rcases hs with ⟨rfl, -⟩ | ⟨-, rfl, -⟩ | ⟨-, rfl, -⟩ <;> rfl
  | cons x xs ih =>
    cases x with
    | normal x =>
      have hx := hr x (by simp [normals])
      have hn : normals (.normal x :: xs) = x :: normals xs := rfl
      rw [hn] at hs
      have hr' : ∀ x ∈ normals xs, -2 ^ 30 ≤ x ∧ x < 2 ^ 30 := fun y hy => hr y (by rw [hn]; exact List.mem_cons_of_mem _ hy)
      have miss' : ∀ (a b : Int) (m : DecodedValue) xs, (∀ x, m ≠ .normal x) →
          diff2 fill fill' [a, b] (m :: xs) = m :: diff2 fill fill' [a, b] xs := by
        intro a b m xs hm
        cases m with
        | normal x => exact absurd rfl (hm x)
        | _ => rfl
      have miss1 : ∀ (a : Int) (m : DecodedValue) xs, (∀ x, m ≠ .normal x) →
          diff2 fill fill' [a] (m :: xs) = m :: diff2 fill fill' [a] xs := by
        intro a m xs hm
        cases m with
        | normal x => exact absurd rfl (hm x)
        | _ => rfl
      rcases hs with ⟨rfl, h0, hf⟩ | ⟨h1, rfl, hp, hf⟩ | ⟨h2, rfl, hp1, hp2⟩
      · have hf0 := hf 0 (by omega) x rfl
        obtain ⟨y, ys, hys⟩ : ∃ y ys, s.firstValues = y :: ys := by
          cases h : s.firstValues with
          | nil => rw [h] at hf0; simp at hf0
          | cons y ys => exact ⟨y, ys, rfl⟩
        rw [hys] at hf0
        obtain rfl : y = x := by simpa using hf0
        simp only [diff2, List.map_cons, stepItems, Diff2.step, h0, hys]
        rw [ih _ _ hr' (.inr (.inl ⟨rfl, rfl, hx, fun z hz => by have := hf 1 (by omega) z hz; rw [hys] at this; exact this⟩)) (miss1 _)]
      · have hf0 := hf x rfl
        obtain ⟨y, ys, hys⟩ : ∃ y ys, s.firstValues = y :: ys := by
          cases h : s.firstValues with
          | nil => rw [h] at hf0; simp at hf0
          | cons y ys => exact ⟨y, ys, rfl⟩
        rw [hys] at hf0
        obtain rfl : y = x := by simpa using hf0
        simp only [diff2, List.map_cons, stepItems, Diff2.step, h1, hys]
        rw [ih ⟨ys, 1 + 1, y, s.prev2⟩ [y, s.prev2] hr' (.inr (.inr ⟨Nat.le_refl _, rfl, hx, hp⟩)) (miss' _ _)]
      · obtain ⟨n, hn2⟩ : ∃ n, s.count = n + 2 := ⟨s.count - 2, by omega⟩
        simp only [diff2, List.map_cons, stepItems, Diff2.step, hn2]
        unfold checkI32
        rw [if_pos (by omega)]
        simp only [Outcome.bind_ok]
        rw [if_pos (by omega)]
        simp only [Outcome.bind_ok]
        rw [show x - 2 * s.prev1 + s.prev2 + 2 * s.prev1 - s.prev2 = x by omega, if_pos (by omega)]
        simp only [Outcome.bind_ok]
        rw [ih ⟨s.firstValues, n + 2, x, s.prev1⟩ [x, s.prev1] hr' (.inr (.inr ⟨by simp, rfl, hx, hp1⟩)) (miss' _ _)]
    | missing1 =>
      rw [miss _ _ (by simp)]
      simp only [List.map_cons, stepItems, Diff2.step]
      rw [ih _ _ hr hs miss]
    | missing2 =>
      rw [miss _ _ (by simp)]
      simp only [List.map_cons, stepItems, Diff2.step]
      rw [ih _ _ hr hs miss]

/-! ## Reading the parameters -/

theorem complexParam_eq {p : List UInt8} (h : 42 ≤ p.length) :
    (ComplexParam.fromSect5 p : Outcome ε _) = .ok ⟨sectNumber p 22 22, sectNumber p 23 23, sectNumber p 32 35, sectNumber p 36 36,
      sectNumber p 37 37, sectNumber p 38 41, sectNumber p 42 42, sectNumber p 43 46, sectNumber p 47 47⟩ := by
  obtain ⟨buf, hb⟩ : ∃ buf, slice? p 16 26 = some buf := ⟨_, by unfold slice?; rw [if_pos (by omega)]⟩
  unfold ComplexParam.fromSect5
  rw [hb]
  simp only [Outcome.ofOption_some, Outcome.bind_ok, rdAs_slice hb (show 0 + 1 ≤ 26 by omega),
    rdAs_slice hb (show 1 + 1 ≤ 26 by omega), rdAs_slice hb (show 10 + 4 ≤ 26 by omega),
    rdAs_slice hb (show 14 + 1 ≤ 26 by omega), rdAs_slice hb (show 15 + 1 ≤ 26 by omega),
    rdAs_slice hb (show 16 + 4 ≤ 26 by omega), rdAs_slice hb (show 20 + 1 ≤ 26 by omega),
    rdAs_slice hb (show 21 + 4 ≤ 26 by omega), rdAs_slice hb (show 25 + 1 ≤ 26 by omega)]
  rfl

theorem complexParam_short {p : List UInt8} (h : p.length < 42) : (ComplexParam.fromSect5 p : Outcome ε _) = .panic := by
  unfold ComplexParam.fromSect5 slice?
  rw [if_neg (by omega)]; rfl

/-- The numbers of `n` octets at the start of section 7. -/
def leading (sect7 : List UInt8) (n k : Nat) : Int := signMagnitude ((sect7.drop (k * n)).take n)

theorem slice_take {d : List UInt8} {a b m : Nat} (h : b ≤ m) : ((d.take m).drop a).take (b - a) = (d.drop a).take (b - a) := by
  rw [List.drop_take, List.take_take, Nat.min_eq_left (by omega)]

theorem descriptors_eq {sect7 : List UInt8} {order n : Nat} (h1 : 1 ≤ n) (h4 : n ≤ 4) (hl : (order + 1) * n ≤ sect7.length) :
    ∃ d, DiffDescriptors.new sect7 order n = .ok d ∧ d.slice.length = (order + 1) * n ∧
      (d.minimum : Outcome ε _) = .ok (leading sect7 n order) ∧
      (d.firstValues d.slice.length 0 : Outcome ε _) = .ok ((List.range order).map (leading sect7 n)) := by
  refine ⟨⟨sect7.take ((order + 1) * n), n⟩, ?_, ?_, ?_, ?_⟩
  · unfold DiffDescriptors.new
    rw [if_neg (by omega), sliceTo_eq (by omega) hl, Outcome.bind_ok]; rfl
  · rw [List.length_take]; omega
  · unfold DiffDescriptors.minimum
    have : (order + 1) * n - n = order * n := by rw [Nat.succ_mul]; omega
    simp only [List.length_take, Nat.min_eq_left hl, this]
    rw [List.drop_take, this.symm, Nat.sub_sub_self (by rw [Nat.succ_mul]; omega), this]
    rw [gribInt_spec _ (by rw [List.length_take, List.length_drop]; rw [Nat.succ_mul] at hl; omega)
      (by rw [List.length_take]; omega)]
    rfl
  · have : ∀ m k, k + m = order → ∀ fuel, m < fuel →
        ((DiffDescriptors.mk (sect7.take ((order + 1) * n)) n).firstValues fuel (k * n) : Outcome ε _) =
        .ok ((List.range' k m).map (leading sect7 n)) := by
      intro m
      induction m with
      | zero =>
        intro k hk fuel hf
        obtain ⟨f, rfl⟩ : ∃ f, fuel = f + 1 := ⟨fuel - 1, by omega⟩
        rw [DiffDescriptors.firstValues, if_pos]
        · rfl
        · simp only [List.length_take, Nat.min_eq_left hl]
          rw [Nat.succ_mul, ← hk]; simp
      | succ m ih =>
        intro k hk fuel hf
        obtain ⟨f, rfl⟩ : ∃ f, fuel = f + 1 := ⟨fuel - 1, by omega⟩
        have hkn : (k + 1) * n ≤ order * n := Nat.mul_le_mul_right _ (by omega)
        rw [Nat.succ_mul] at hkn
        rw [Nat.succ_mul] at hl
        rw [DiffDescriptors.firstValues, if_neg]
        · simp only
          rw [sliceTo_eq (by omega) (by rw [List.length_take, Nat.succ_mul]; omega), Outcome.bind_ok]
          rw [slice_take (by rw [Nat.succ_mul]; omega), show k * n + n - k * n = n by omega]
          rw [gribInt_spec _ (by rw [List.length_take, List.length_drop]; omega) (by rw [List.length_take]; omega)]
          rw [Outcome.ofOption_some, Outcome.bind_ok, ← Nat.succ_mul, ih (k + 1) (by omega) f (by omega), Outcome.bind_ok,
            List.range'_succ]
          rfl
        · simp only [List.length_take]
          rw [Nat.succ_mul]
          omega
    have h0 := this order 0 (by omega) ((order + 1) * n) (Nat.lt_of_lt_of_le (Nat.lt_succ_self _) (Nat.le_mul_of_pos_right _ h1))
    rw [Nat.zero_mul] at h0
    rw [List.range_eq_range']
    simp only [List.length_take, Nat.min_eq_left hl]
    exact h0

end Grib.Model
