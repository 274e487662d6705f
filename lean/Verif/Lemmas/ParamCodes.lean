import Verif.Model.ParamCodes
import Verif.Lemmas.Text

/-! # Lemmas: generated parameter codes -/

namespace Grib
open Text Codegen

theorem get_cons {α β : Type} [DecidableEq α] (m : List (α × β)) (k k' : α) (v : β) :
    get ((k, v) :: m) k' = if k = k' then some v else get m k' := by
  unfold Codegen.get
  rw [List.find?_cons]
  by_cases h : k = k' <;> simp [h]

/-- The first entry with a given normalized name. -/
def firstOf (codes : List Entry) (name : Str) : Option Entry := codes.find? fun e => e.normalizedName = name

theorem steps_table (codes : List Entry) (m : Maps) (name : Str) :
    get (codes.foldl Maps.step m).table name =
      (get m.table name).or ((firstOf codes name).map (·.id)) := by
  induction codes generalizing m with
  | nil => simp [firstOf]
  | cons e es ih =>
    rw [List.foldl_cons, ih]
    unfold Maps.step
    cases h : get m.table e.normalizedName with
    | some f =>
      dsimp only
      unfold firstOf
      rw [List.find?_cons]
      by_cases hn : e.normalizedName = name
      · subst hn; simp [h]
      · simp [hn]
    | none =>
      dsimp only
      rw [get_cons]
      unfold firstOf
      rw [List.find?_cons]
      by_cases hn : e.normalizedName = name
      · subst hn; simp [h]
      · simp [hn]

/-- Codes entered in the remapper come from entries that are not the first of
their name. -/
theorem steps_remapper (codes : List Entry) (m : Maps) (hnd : (codes.map Entry.id).Nodup) (id : Nat) :
    get (codes.foldl Maps.step m).remapper id =
      (((codes.find? fun e => e.id = id)).bind fun e =>
        (get m.table e.normalizedName).or
          ((firstOf codes e.normalizedName).bind fun f => if f.id = id then none else some f.id)).or
        (get m.remapper id) := by
  induction codes generalizing m with
  | nil => simp
  | cons e es ih =>
    rw [List.map_cons, List.nodup_cons] at hnd
    rw [List.foldl_cons, ih _ hnd.2]
    rw [List.find?_cons]
    by_cases hid : e.id = id
    · subst hid
      have hno : es.find? (fun e' => e'.id = e.id) = none := by
        rw [List.find?_eq_none]
        intro x hx
        simp only [decide_eq_true_eq]
        intro he
        exact hnd.1 (he ▸ List.mem_map_of_mem hx)
      rw [hno]
      simp only [decide_true, Option.bind_some, Option.bind_none, Option.none_or]
      unfold Maps.step
      cases h : get m.table e.normalizedName with
      | some f => simp [get_cons]
      | none => simp [firstOf]
    · simp only [hid, decide_false]
      have key : ∀ x, es.find? (fun e' => e'.id = id) = some x →
          (get (m.step e).table x.normalizedName).or
            ((firstOf es x.normalizedName).bind fun f => if f.id = id then none else some f.id) =
          (get m.table x.normalizedName).or
            ((firstOf (e :: es) x.normalizedName).bind fun f => if f.id = id then none else some f.id) := by
        intro x _
        unfold Maps.step firstOf
        rw [List.find?_cons]
        cases h : get m.table e.normalizedName with
        | some f =>
          by_cases hn : e.normalizedName = x.normalizedName
          · rw [← hn]; simp [h]
          · simp [hn]
        | none =>
          dsimp only
          rw [get_cons]
          by_cases hn : e.normalizedName = x.normalizedName
          · rw [← hn]; simp [h, hid]
          · simp [hn]
      have hrem : get (m.step e).remapper id = get m.remapper id := by
        unfold Maps.step
        cases h : get m.table e.normalizedName with
        | some f => simp [get_cons, hid]
        | none => rfl
      rw [hrem]
      cases hf : es.find? (fun e' => e'.id = id) with
      | none => simp
      | some x => simp only [Option.bind_some]; rw [key x hf]

end Grib
