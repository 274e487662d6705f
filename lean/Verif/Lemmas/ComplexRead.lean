import Verif.Lemmas.Complex
import Verif.Spec.ComplexRead

/-! # Complex packing, whatever the octets -/

namespace Grib.Model

open Grib.Spec

variable {ε : Type}

theorem bitStreamTake_low {data : List UInt8} {n len : Nat} (h : len * n ≤ 8 * data.length) :
    bitStreamTake data n len = some ((List.range len).map fun k => bitField data (k * n) n % 2 ^ 32) := by
  unfold bitStreamTake
  split
  · rename_i h0
    subst h0
    congr 1
    apply List.ext_getElem (by simp)
    intro k h1 h2
    simp [bitField, ofBits]
  · rw [NBit.takeList_spec _ _ (by simp [NBit.new]) (by simp [NBit.new]; omega), NBit.fields_new]
    have : min len ((8 * (NBit.new data n).data.length - (NBit.new data n).bitPos) / (NBit.new data n).size) = len := by
      simp only [NBit.new, NBit.bitPos, Nat.mul_zero, Nat.add_zero, Nat.sub_zero]
      have : len ≤ 8 * data.length / n := by rw [Nat.le_div_iff_mul_le (by omega)]; exact h
      omega
    rw [this]

theorem sliceTo_beyond {data : List UInt8} {a b : Nat} (h : data.length < b) :
    (sliceTo data a b : Outcome ε _) = .panic := by
  unfold sliceTo; rw [if_neg (by omega)]

theorem getOctetLength_panic {nbit ngroup : Nat} (h : ¬ ngroup * nbit + 7 < 2 ^ 32) :
    (getOctetLength nbit ngroup : Outcome ε Nat) = .panic := by
  unfold getOctetLength checkU32
  by_cases h1 : ngroup * nbit < 2 ^ 32
  · rw [if_pos h1, Outcome.bind_ok, if_neg (by omega)]; rfl
  · rw [if_neg h1]; rfl

theorem mapPulls_panic {α β : Type} (f : α → Outcome ε β) (xs : List α)
    (hp : ∀ x ∈ xs, (∃ y, f x = .ok y) ∨ f x = .panic) (h : ∃ x ∈ xs, f x = .panic) : mapPulls f xs = .panic := by
  induction xs with
  | nil => simp at h
  | cons x xs ih =>
    rw [mapPulls]
    rcases hp x (by simp) with ⟨y, hy⟩ | hx
    · rw [hy, Outcome.bind_ok, ih (fun x hx => hp x (by simp [hx]))]
      · rfl
      · obtain ⟨z, hz, hzp⟩ := h
        rcases List.mem_cons.mp hz with rfl | hz
        · rw [hy] at hzp; cases hzp
        · exact ⟨z, hz, hzp⟩
    · rw [hx]; rfl

/-- One number of a group that is not constant. -/
theorem groupValue_outcome (env : GroupEnv) (ref width x : Nat) (hw : width < 32) (h0 : width ≠ 0) (hx : x < 2 ^ width) :
    ((Layout.missing env.mvm width x = none → x + ref < 2 ^ 31 ∧ FitsI32 (x + ref + env.zMin)) →
      (groupValue env ref (2 ^ width - 1) (2 ^ width - 1 - 1) x : Outcome ε _) =
        .ok ((Layout.missing env.mvm width x).getD (.normal (x + ref + env.zMin)))) ∧
    (¬ (Layout.missing env.mvm width x = none → x + ref < 2 ^ 31 ∧ FitsI32 (x + ref + env.zMin)) →
      (groupValue env ref (2 ^ width - 1) (2 ^ width - 1 - 1) x : Outcome ε _) = .panic) := by
  have hp : 2 ≤ 2 ^ width := by
    calc 2 = 2 ^ 1 := rfl
      _ ≤ 2 ^ width := Nat.pow_le_pow_right (by decide) (by omega)
  have hp31 : 2 ^ width ≤ 2 ^ 31 := Nat.pow_le_pow_right (by decide) (by omega)
  unfold groupValue Layout.missing
  have e1 : (x = 2 ^ width - 1) ↔ x + 1 = 2 ^ width := by omega
  have e2 : (x = 2 ^ width - 1 - 1) ↔ x + 2 = 2 ^ width := by omega
  simp only [e1, e2]
  by_cases c1 : 0 < env.mvm ∧ x + 1 = 2 ^ width
  · rw [if_pos c1, if_pos (show 1 ≤ env.mvm ∧ _ from c1)]
    exact ⟨fun _ => rfl, fun h => absurd (fun h => nomatch h) h⟩
  · rw [if_neg c1, if_neg (show ¬ (1 ≤ env.mvm ∧ _) from c1)]
    by_cases c2 : env.mvm = 2 ∧ x + 2 = 2 ^ width
    · rw [if_pos c2, if_pos c2]
      exact ⟨fun _ => rfl, fun h => absurd (fun h => nomatch h) h⟩
    · rw [if_neg c2, if_neg c2, asGribInt_small (by omega)]
      unfold checkI32 FitsI32
      constructor
      · intro h
        obtain ⟨h1, h2⟩ := h rfl
        rw [if_pos (by omega), Outcome.bind_ok, if_pos (by omega), Outcome.bind_ok]; rfl
      · intro h
        by_cases h1 : x + ref < 2 ^ 31
        · rw [if_pos (by omega), Outcome.bind_ok, if_neg (fun h2 => h (fun _ => ⟨h1, by omega⟩))]; rfl
        · rw [if_neg (by omega)]; rfl

/-- What one group needs. -/
structure GroupCond (env : GroupEnv) (bit r w len : Nat) : Prop where
  width : w < 32
  ref : r < 2 ^ 31
  constant : w = 0 → env.nbit ≤ 30 ∧ (Layout.missing env.mvm env.nbit r = none → FitsI32 (r + env.zMin))
  inside : w ≠ 0 → bit + w * len ≤ 8 * env.data.length
  numbers : w ≠ 0 → ∀ k < len, Layout.missing env.mvm w (bitField env.data (bit + k * w) w) = none →
    bitField env.data (bit + k * w) w + r < 2 ^ 31 ∧ FitsI32 (bitField env.data (bit + k * w) w + r + env.zMin)

/-- The numbers of a group inside the data. -/
theorem groupNext_raw (env : GroupEnv) (st : GroupPos) (ref width len : Nat) (hoff : st.startOffsetBits < 8)
    (href : ref < 2 ^ 31) (hw : width < 32) (h0 : width ≠ 0)
    (hwhole : 8 * st.pos + st.startOffsetBits + width * len ≤ 8 * env.data.length) :
    ∃ st' : GroupPos, st'.startOffsetBits < 8 ∧
      8 * st'.pos + st'.startOffsetBits = 8 * st.pos + st.startOffsetBits + width * len ∧
      (groupNext env st ref width len : Outcome ε _) = (do
        let values ← mapPulls (groupValue env ref (2 ^ width - 1) (2 ^ width - 1 - 1))
          ((List.range len).map fun k => bitField env.data (8 * st.pos + st.startOffsetBits + k * width) width)
        .ok (values, st')) := by
  unfold groupNext toI32
  simp only [h0, if_false]
  rw [if_pos href, Outcome.bind_ok, if_neg (by omega)]
  generalize hB : st.startOffsetBits + width * len = B
  have hob : (if B % 8 > 0 then 1 else 0) = (B + 7) / 8 - B / 8 := by split <;> omega
  rw [hob]
  have hend : st.pos + B / 8 + ((B + 7) / 8 - B / 8) = st.pos + (B + 7) / 8 := by omega
  rw [hend, sliceTo_eq (by omega) (by omega), Outcome.bind_ok]
  generalize hsl : (env.data.drop st.pos).take (st.pos + (B + 7) / 8 - st.pos) = sl
  have hll : sl.length = (B + 7) / 8 := by
    rw [← hsl, List.length_take, List.length_drop]; omega
  rw [NBit.takeList_spec _ _ hoff (by simp [NBit.new, NBit.withOffset]; omega)]
  have hmin : min len ((8 * ((NBit.new sl width).withOffset st.startOffsetBits).data.length -
      ((NBit.new sl width).withOffset st.startOffsetBits).bitPos) /
      ((NBit.new sl width).withOffset st.startOffsetBits).size) = len := by
    simp only [NBit.new, NBit.withOffset, NBit.bitPos, Nat.mul_zero, Nat.zero_add, hll]
    have : len ≤ (8 * ((B + 7) / 8) - st.startOffsetBits) / width := by
      rw [Nat.le_div_iff_mul_le (by omega), Nat.mul_comm]; omega
    omega
  rw [hmin]
  simp only [Outcome.ofOption, Outcome.bind_ok]
  have hf : NBit.fields ((NBit.new sl width).withOffset st.startOffsetBits) len =
      (List.range len).map fun k => bitField env.data (8 * st.pos + st.startOffsetBits + k * width) width := by
    unfold NBit.fields
    apply List.map_congr_left
    intro k hk
    have hk := List.mem_range.mp hk
    simp only [NBit.new, NBit.withOffset, NBit.bitPos, Nat.mul_zero, Nat.zero_add]
    rw [bitField_mod (by omega), ← hsl]
    have hkw : k * width + width ≤ width * len := by
      rw [← Nat.succ_mul, Nat.mul_comm width]; exact Nat.mul_le_mul_right _ hk
    rw [bitField_slice (by omega), Nat.add_assoc (8 * st.pos)]
  rw [hf]
  exact ⟨⟨st.pos + B / 8, B % 8⟩, Nat.mod_lt _ (by decide), by simp only; omega, rfl⟩

/-- One group, whatever it is. -/
theorem groupNext_outcome (env : GroupEnv) (st : GroupPos) (ref width len : Nat) (hoff : st.startOffsetBits < 8) :
    (GroupCond env (8 * st.pos + st.startOffsetBits) ref width len → ∃ st' : GroupPos, st'.startOffsetBits < 8 ∧
      8 * st'.pos + st'.startOffsetBits = 8 * st.pos + st.startOffsetBits + width * len ∧
      (groupNext env st ref width len : Outcome ε _) = .ok ((List.range len).map fun k =>
        if width = 0 then (Layout.missing env.mvm env.nbit ref).getD (.normal (ref + env.zMin))
        else
          let x := bitField env.data (8 * st.pos + st.startOffsetBits + k * width) width
          (Layout.missing env.mvm width x).getD (.normal (x + ref + env.zMin)), st')) ∧
    (¬ GroupCond env (8 * st.pos + st.startOffsetBits) ref width len →
      (groupNext env st ref width len : Outcome ε _) = .panic) := by
  by_cases h0 : width = 0
  · subst h0
    have e1 : ((ref : Int) = 2 ^ env.nbit - 1) ↔ ref + 1 = 2 ^ env.nbit := by
      have : ((2 ^ env.nbit : Nat) : Int) = 2 ^ env.nbit := by simp
      omega
    have e2 : ((ref : Int) = 2 ^ env.nbit - 1 - 1) ↔ ref + 2 = 2 ^ env.nbit := by
      have : ((2 ^ env.nbit : Nat) : Int) = 2 ^ env.nbit := by simp
      omega
    have hrep : ∀ v : DecodedValue, List.replicate len v = (List.range len).map fun _ => v := by
      intro v; rw [List.map_const', List.length_range]
    constructor
    · intro h
      obtain ⟨h30, hfit⟩ := h.constant rfl
      refine ⟨st, hoff, by omega, ?_⟩
      unfold groupNext toI32
      simp only [if_true]
      rw [if_pos h.ref, Outcome.bind_ok, if_neg (by omega)]
      unfold Layout.missing at hfit ⊢
      simp only [e1, e2, hrep]
      by_cases c1 : 0 < env.mvm ∧ ref + 1 = 2 ^ env.nbit
      · rw [if_pos c1, if_pos (show 1 ≤ env.mvm ∧ _ from c1)]; rfl
      · rw [if_neg c1, if_neg (show ¬ (1 ≤ env.mvm ∧ _) from c1)]
        rw [if_neg (show ¬ (1 ≤ env.mvm ∧ _) from c1)] at hfit
        by_cases c2 : env.mvm = 2 ∧ ref + 2 = 2 ^ env.nbit
        · rw [if_pos c2, if_pos c2]; rfl
        · rw [if_neg c2, if_neg c2]
          rw [if_neg c2] at hfit
          have hfit := hfit rfl
          unfold FitsI32 at hfit
          unfold checkI32
          rw [if_pos hfit, Outcome.bind_ok]; rfl
    · intro h
      unfold groupNext toI32
      simp only [if_true]
      by_cases href : ref < 2 ^ 31
      · rw [if_pos href, Outcome.bind_ok]
        by_cases h30 : env.nbit ≥ 31
        · rw [if_pos h30]
        · rw [if_neg h30]
          have hn : ¬ (Layout.missing env.mvm env.nbit ref = none → FitsI32 (ref + env.zMin)) := fun hc =>
            h ⟨by omega, href, fun _ => ⟨by omega, hc⟩, fun h => absurd rfl h, fun h => absurd rfl h⟩
          unfold Layout.missing at hn
          simp only [e1, e2]
          by_cases c1 : 0 < env.mvm ∧ ref + 1 = 2 ^ env.nbit
          · rw [if_pos (show 1 ≤ env.mvm ∧ _ from c1)] at hn
            exact absurd (fun h => nomatch h) hn
          · rw [if_neg c1]
            rw [if_neg (show ¬ (1 ≤ env.mvm ∧ _) from c1)] at hn
            by_cases c2 : env.mvm = 2 ∧ ref + 2 = 2 ^ env.nbit
            · rw [if_pos c2] at hn
              exact absurd (fun h => nomatch h) hn
            · rw [if_neg c2]
              rw [if_neg c2] at hn
              unfold checkI32
              rw [if_neg (show ¬ (-2 ^ 31 ≤ (ref : Int) + env.zMin ∧ (ref : Int) + env.zMin < 2 ^ 31) from fun hf => hn (fun _ => hf))]; rfl
      · rw [if_neg href]; rfl
  · by_cases href : ref < 2 ^ 31
    · by_cases hw : width < 32
      · by_cases hin : 8 * st.pos + st.startOffsetBits + width * len ≤ 8 * env.data.length
        · obtain ⟨st', s1, s2, s3⟩ := groupNext_raw (ε := ε) env st ref width len hoff href hw h0 hin
          constructor
          · intro h
            refine ⟨st', s1, s2, ?_⟩
            rw [s3, mapPulls_eq _ (fun x => (Layout.missing env.mvm width x).getD (.normal (x + ref + env.zMin))),
              Outcome.bind_ok, List.map_map]
            · simp only [h0, if_false]; rfl
            · intro x hx
              obtain ⟨k, hk, rfl⟩ := List.mem_map.mp hx
              exact (groupValue_outcome env ref width _ hw h0 (bitField_lt _ _ _)).1
                (h.numbers h0 k (List.mem_range.mp hk))
          · intro h
            rw [s3, mapPulls_panic]
            · rfl
            · intro x hx
              obtain ⟨k, hk, rfl⟩ := List.mem_map.mp hx
              obtain ⟨g1, g2⟩ := groupValue_outcome (ε := ε) env ref width _ hw h0
                (bitField_lt env.data (8 * st.pos + st.startOffsetBits + k * width) width)
              rcases Classical.em (Layout.missing env.mvm width
                  (bitField env.data (8 * st.pos + st.startOffsetBits + k * width) width) = none → _) with hc | hc
              · exact .inl ⟨_, g1 hc⟩
              · exact .inr (g2 hc)
            · rcases Classical.em (∃ k < len, ¬ (Layout.missing env.mvm width
                  (bitField env.data (8 * st.pos + st.startOffsetBits + k * width) width) = none →
                    bitField env.data (8 * st.pos + st.startOffsetBits + k * width) width + ref < 2 ^ 31 ∧
                    FitsI32 (bitField env.data (8 * st.pos + st.startOffsetBits + k * width) width + ref + env.zMin))) with
                ⟨k, hk, hc⟩ | hc
              · refine ⟨_, List.mem_map.mpr ⟨k, List.mem_range.mpr hk, rfl⟩, ?_⟩
                exact (groupValue_outcome env ref width _ hw h0 (bitField_lt _ _ _)).2 hc
              · refine absurd ⟨hw, href, fun h => absurd h h0, fun _ => hin, fun _ k hk => ?_⟩ h
                exact Classical.byContradiction fun hn => hc ⟨k, hk, hn⟩
        · refine ⟨fun h => absurd (h.inside h0) hin, fun _ => ?_⟩
          unfold groupNext toI32
          simp only [h0, if_false]
          rw [if_pos href, Outcome.bind_ok, if_neg (by omega)]
          generalize hB : st.startOffsetBits + width * len = B
          have hob : (if B % 8 > 0 then 1 else 0) = (B + 7) / 8 - B / 8 := by split <;> omega
          rw [hob, sliceTo_beyond (by omega)]; rfl
      · refine ⟨fun h => absurd h.width hw, fun _ => ?_⟩
        unfold groupNext toI32
        simp only [h0, if_false]
        rw [if_pos href, Outcome.bind_ok, if_pos (by omega)]
    · refine ⟨fun h => absurd h.ref href, fun _ => ?_⟩
      unfold groupNext toI32
      simp only [h0, if_false]
      rw [if_neg href]; rfl

/-- The width and the length of a group as the lazy iterators give them. -/
def readWidthItem (l : Layout) (g : Nat) : Outcome Empty Nat := checkU32 (l.readWidth g)

def readLenItem (l : Layout) (g : Nat) : Outcome Empty Nat :=
  if g + 1 = l.p.ngroup then .ok l.p.lenLast
  else do
    let a ← checkU32 (l.p.lenInc * (bitField l.data (8 * l.lensAt + g * l.p.lenNbit) l.p.lenNbit % 2 ^ 32))
    checkU32 (l.p.lenRef + a)

theorem readLenItem_ok (l : Layout) (g : Nat) (h : l.readLen g < 2 ^ 32) : readLenItem l g = .ok (l.readLen g) := by
  unfold readLenItem Layout.readLen at *
  split
  · rfl
  · rename_i hg
    rw [if_neg hg] at h
    unfold checkU32
    rw [if_pos (by omega), Outcome.bind_ok, if_pos h]

theorem readLenItem_panic (l : Layout) (g : Nat) (hlast : l.p.lenLast < 2 ^ 32) (h : ¬ l.readLen g < 2 ^ 32) :
    readLenItem l g = .panic := by
  unfold readLenItem Layout.readLen at *
  split
  · rename_i hg
    rw [if_pos hg] at h
    exact absurd hlast h
  · rename_i hg
    rw [if_neg hg] at h
    unfold checkU32
    by_cases h1 : l.p.lenInc * (bitField l.data (8 * l.lensAt + g * l.p.lenNbit) l.p.lenNbit % 2 ^ 32) < 2 ^ 32
    · rw [if_pos h1, Outcome.bind_ok, if_neg h]
    · rw [if_neg h1]; rfl

/-- Groups from `g` on, `n` of them: the values of those before the first group `m` that is not in order (or all). -/
theorem groupItems_outcome (l : Layout) (zMin : Int) (hin : l.dataAt ≤ l.data.length) (hlast : l.p.lenLast < 2 ^ 32) (n g : Nat)
    (st : GroupPos) (hoff : st.startOffsetBits < 8) (hpos : 8 * l.dataAt + (8 * st.pos + st.startOffsetBits) = l.readAt g)
    (m : Nat) (hm : m ≤ n) (hok : ∀ h, g ≤ h → h < g + m → l.GroupOk zMin h) (hbad : m < n → ¬ l.GroupOk zMin (g + m)) :
    groupItems ⟨l.p.missing, l.nbit, zMin, l.data.drop l.dataAt⟩ ((List.range' g n).map l.readRef)
      ((List.range' g n).map (readWidthItem l)) ((List.range' g n).map (readLenItem l)) st =
      ((List.range' g m).flatMap fun h => (List.range (l.readLen h)).map fun k => l.readValue zMin h k).map .ok ++
        if m < n then [.panic] else [] := by
  induction n generalizing g st m with
  | zero => have : m = 0 := by omega
            subst this; rfl
  | succ n ih =>
    have hsucc : l.readAt (g + 1) = l.readAt g + l.readWidth g * l.readLen g := by
      unfold Layout.readAt
      rw [List.range_succ, List.map_append, List.sum_append_nat]
      simp; omega
    have hbf : ∀ s n, bitField (l.data.drop l.dataAt) s n = bitField l.data (8 * l.dataAt + s) n := by
      intro s n
      unfold bitField
      rw [← bits_drop, List.drop_drop]
    have hadd : ∀ k, 8 * l.dataAt + (8 * st.pos + st.startOffsetBits + k * l.readWidth g) = l.readAt g + k * l.readWidth g := by
      intro k; omega
    have hcond : l.readWidth g < 2 ^ 32 → l.readLen g < 2 ^ 32 →
        (GroupCond ⟨l.p.missing, l.nbit, zMin, l.data.drop l.dataAt⟩ (8 * st.pos + st.startOffsetBits) (l.readRef g)
          (l.readWidth g) (l.readLen g) ↔ l.GroupOk zMin g) := by
      intro h1 h2
      constructor
      · intro c
        refine ⟨h2, c.width, c.ref, c.constant, ?_, ?_⟩
        · intro h0
          have := c.inside h0
          simp only [List.length_drop] at this
          omega
        · intro h0 k hk
          have := c.numbers h0 k hk
          simp only [hbf, hadd] at this
          exact this
      · intro c
        refine ⟨c.width, c.ref, c.constant, ?_, ?_⟩
        · intro h0
          have := c.inside h0
          simp only [List.length_drop]
          omega
        · intro h0 k hk
          simp only [hbf, hadd]
          exact c.numbers h0 k hk
    rw [List.range'_succ, List.map_cons, List.map_cons, List.map_cons, groupItems]
    cases m with
    | zero =>
      have hb := hbad (by omega)
      rw [Nat.add_zero] at hb
      have : (do let w ← readWidthItem l g; let x ← readLenItem l g
                 groupNext ⟨l.p.missing, l.nbit, zMin, l.data.drop l.dataAt⟩ st (l.readRef g) w x : Outcome Empty _) = .panic := by
        by_cases h1 : l.readWidth g < 2 ^ 32
        · unfold readWidthItem checkU32
          rw [if_pos h1, Outcome.bind_ok]
          by_cases h2 : l.readLen g < 2 ^ 32
          · rw [readLenItem_ok l g h2, Outcome.bind_ok]
            exact (groupNext_outcome _ st _ _ _ hoff).2 (fun c => hb ((hcond h1 h2).mp c))
          · rw [readLenItem_panic l g hlast h2]; rfl
        · unfold readWidthItem checkU32
          rw [if_neg h1]; rfl
      rw [this]
      simp
    | succ m =>
      have hg := hok g (by omega) (by omega)
      have hw32 : l.readWidth g < 2 ^ 32 := by have := hg.width; omega
      obtain ⟨st', s1, s2, s3⟩ := (groupNext_outcome (ε := Empty) ⟨l.p.missing, l.nbit, zMin, l.data.drop l.dataAt⟩ st
        (l.readRef g) (l.readWidth g) (l.readLen g) hoff).1 ((hcond hw32 hg.len).mpr hg)
      have : readWidthItem l g = .ok (l.readWidth g) := by unfold readWidthItem checkU32; rw [if_pos hw32]
      rw [this, readLenItem_ok l g hg.len]
      simp only [Outcome.bind_ok]
      rw [s3]
      simp only
      rw [ih (g + 1) st' s1 (by omega) m (by omega) (fun h h1 h2 => hok h (by omega) (by omega)) (fun h => by
        have := hbad (by omega)
        rwa [show g + 1 + m = g + (m + 1) by omega])]
      rw [List.range'_succ, List.flatMap_cons, List.map_append, List.append_assoc]
      congr 1
      · rw [List.map_map, List.map_map]
        apply List.map_congr_left
        intro k _
        simp only [Function.comp]
        congr 1
        unfold Layout.readValue
        split
        · rfl
        · unfold Layout.readStored
          simp only [hbf, hadd]
      · congr 1
        by_cases h : m < n
        · rw [if_pos h, if_pos (by omega)]
        · rw [if_neg h, if_neg (by omega)]

/-- All of `decodeComplexPacking`. -/
theorem decodeComplexPacking_outcome (l : Layout) (zMin : Int) (hlast : l.p.lenLast < 2 ^ 32) :
    (¬ l.HeaderOk → (decodeComplexPacking l.p l.data l.start l.nbit zMin : Outcome ε _) = .panic) ∧
    (l.HeaderOk → ∀ m ≤ l.p.ngroup, (∀ h < m, l.GroupOk zMin h) → (m < l.p.ngroup → ¬ l.GroupOk zMin m) →
      (decodeComplexPacking l.p l.data l.start l.nbit zMin : Outcome ε _) =
        .ok ((l.readValues zMin m).map .ok ++ if m < l.p.ngroup then [.panic] else [])) := by
  have hw : l.widthsAt ≤ l.lensAt := by unfold Layout.lensAt; omega
  have hd : l.lensAt ≤ l.dataAt := by unfold Layout.dataAt; omega
  have hs : l.start ≤ l.widthsAt := by unfold Layout.widthsAt; omega
  have o1 : l.widthsAt - l.start = (l.p.ngroup * l.nbit + 7) / 8 := by unfold Layout.widthsAt Layout.octets; omega
  have o2 : l.lensAt - l.widthsAt = (l.p.ngroup * l.p.widthNbit + 7) / 8 := by unfold Layout.lensAt Layout.octets; omega
  have o3 : l.dataAt - l.lensAt = (l.p.ngroup * l.p.lenNbit + 7) / 8 := by unfold Layout.dataAt Layout.octets; omega
  constructor
  · intro hh
    unfold decodeComplexPacking
    by_cases h1 : l.p.ngroup * l.nbit + 7 < 2 ^ 32
    · by_cases h2 : l.p.ngroup * l.p.widthNbit + 7 < 2 ^ 32
      · by_cases h3 : l.p.ngroup * l.p.lenNbit + 7 < 2 ^ 32
        · rw [getOctetLength_eq h1, getOctetLength_eq h2, getOctetLength_eq h3]
          simp only [Outcome.bind_ok]
          rw [show l.start + Layout.octets (l.p.ngroup * l.nbit) = l.widthsAt from rfl,
            show l.widthsAt + Layout.octets (l.p.ngroup * l.p.widthNbit) = l.lensAt from rfl,
            show l.lensAt + Layout.octets (l.p.ngroup * l.p.lenNbit) = l.dataAt from rfl]
          by_cases c1 : l.widthsAt ≤ l.data.length
          · rw [sliceTo_eq hs c1, Outcome.bind_ok,
              bitStreamTake_low (by rw [List.length_take, List.length_drop]; omega)]
            simp only [Outcome.ofOption, Outcome.bind_ok]
            by_cases c2 : l.lensAt ≤ l.data.length
            · rw [sliceTo_eq hw c2, Outcome.bind_ok,
                bitStreamTake_low (by rw [List.length_take, List.length_drop]; omega)]
              simp only [Outcome.bind_ok]
              by_cases h0 : l.p.ngroup = 0
              · rw [if_pos h0]
              · rw [if_neg h0]
                have c3 : ¬ l.dataAt ≤ l.data.length := fun c3 => hh ⟨by omega, h1, h2, h3, c3⟩
                rw [sliceTo_beyond (by omega)]; rfl
            · rw [sliceTo_beyond (by omega)]; rfl
          · rw [sliceTo_beyond (by omega)]; rfl
        · rw [getOctetLength_eq h1, getOctetLength_eq h2, getOctetLength_panic h3]; rfl
      · rw [getOctetLength_eq h1, getOctetLength_panic h2]; rfl
    · rw [getOctetLength_panic h1]; rfl
  · intro hh m hm hok hbad
    have hgr := hh.groups
    have hin := hh.inside
    have hle : (l.p.ngroup - 1) * l.p.lenNbit ≤ l.p.ngroup * l.p.lenNbit := Nat.mul_le_mul_right _ (by omega)
    unfold decodeComplexPacking
    rw [getOctetLength_eq hh.refsBits, getOctetLength_eq hh.widthsBits, getOctetLength_eq hh.lensBits]
    simp only [Outcome.bind_ok]
    rw [show l.start + Layout.octets (l.p.ngroup * l.nbit) = l.widthsAt from rfl,
      show l.widthsAt + Layout.octets (l.p.ngroup * l.p.widthNbit) = l.lensAt from rfl,
      show l.lensAt + Layout.octets (l.p.ngroup * l.p.lenNbit) = l.dataAt from rfl,
      sliceTo_eq hs (by omega), sliceTo_eq hw (by omega), sliceTo_eq hd (by omega), sliceTo_eq (by omega) (Nat.le_refl _)]
    simp only [Outcome.bind_ok]
    rw [bitStreamTake_low (by rw [List.length_take, List.length_drop]; omega),
      bitStreamTake_low (by rw [List.length_take, List.length_drop]; omega),
      bitStreamTake_low (by rw [List.length_take, List.length_drop]; omega)]
    simp only [Outcome.ofOption, Outcome.bind_ok]
    rw [if_neg (by omega)]
    congr 1
    have field_ref : ∀ n at_ k e (w : Nat), k < n → (e - at_) = (n * w + 7) / 8 → 
        bitField ((l.data.drop at_).take (e - at_)) (k * w) w = bitField l.data (8 * at_ + k * w) w := by
      intro n at_ k e w hk he
      have : k * w + w ≤ n * w := by rw [← Nat.succ_mul]; exact Nat.mul_le_mul_right _ hk
      rw [bitField_slice (by omega)]
    have er : ((List.range l.p.ngroup).map fun k =>
          bitField ((l.data.drop l.start).take (l.widthsAt - l.start)) (k * l.nbit) l.nbit % 2 ^ 32) =
        (List.range' 0 l.p.ngroup).map l.readRef := by
      rw [← List.range_eq_range']
      apply List.map_congr_left
      intro k hk
      rw [field_ref l.p.ngroup _ _ _ _ (List.mem_range.mp hk) o1]; rfl
    have ew : (((List.range l.p.ngroup).map fun k =>
          bitField ((l.data.drop l.widthsAt).take (l.lensAt - l.widthsAt)) (k * l.p.widthNbit) l.p.widthNbit % 2 ^ 32).map
          fun v => (checkU32 (l.p.widthRef + v) : Outcome Empty Nat)) = (List.range' 0 l.p.ngroup).map (readWidthItem l) := by
      rw [← List.range_eq_range', List.map_map]
      apply List.map_congr_left
      intro k hk
      simp only [Function.comp]
      rw [field_ref l.p.ngroup _ _ _ _ (List.mem_range.mp hk) o2]; rfl
    have el : (((List.range (l.p.ngroup - 1)).map fun k =>
          bitField ((l.data.drop l.lensAt).take (l.dataAt - l.lensAt)) (k * l.p.lenNbit) l.p.lenNbit % 2 ^ 32).map
          fun v => (do let a ← checkU32 (l.p.lenInc * v); checkU32 (l.p.lenRef + a) : Outcome Empty Nat)) ++ [.ok l.p.lenLast] =
          (List.range' 0 l.p.ngroup).map (readLenItem l) := by
      rw [← List.range_eq_range', List.map_map]
      obtain ⟨j, hj⟩ : ∃ j, l.p.ngroup = j + 1 := ⟨l.p.ngroup - 1, by omega⟩
      rw [hj, Nat.add_sub_cancel, List.range_succ, List.map_append, List.map_singleton]
      congr 1
      · apply List.map_congr_left
        intro k hk
        have hk := List.mem_range.mp hk
        simp only [Function.comp]
        unfold readLenItem
        rw [if_neg (by omega), field_ref l.p.ngroup _ _ _ _ (by omega) o3]
      · unfold readLenItem
        rw [if_pos hj.symm]
    rw [er, ew, el, List.take_of_length_le (by simp)]
    rw [groupItems_outcome l zMin hin hlast l.p.ngroup 0 ⟨0, 0⟩ (by simp) (by simp [Layout.readAt]) m hm
      (fun h _ h2 => hok h (by omega)) (by rw [Nat.zero_add]; exact hbad)]
    unfold Layout.readValues
    rw [List.range_eq_range']

end Grib.Model
