import Verif.Model.Examples
import Verif.Props.Panics
import Verif.Props.Output
import Verif.Props.DecodeOutcome
import Verif.Props.AnyReader

/-! # C91: what the example programs print, and how they end -/

namespace Grib.Examples

open Grib.Text Grib.Model Grib.Codes Grib.Spec Grib.Props Grib.Cli

variable {ε F G : Type}

/-! ## Reading the time, also of templates whose time is only two octets -/

/-- The time a product definition section that is not cut off yields: the unit at the octet of its template, and the four
octets after it. -/
theorem time_of {data : List UInt8} {s : SectionInfo} {i : ProdDefinition} (h : Sect4 data s i) (hn : ¬ TimeCut data s) :
    (i.forecastTime : Outcome ε (Option (Nat × Nat))) =
      .ok (if field data s.offset 8 9 ∈ ProdTemplates then
        (timeOctet (field data s.offset 8 9)).map fun o => (field data s.offset o o, field data s.offset (o + 1) (o + 4))
        else none) := by
  obtain ⟨h1, h2, h3⟩ := h.facts
  simp only [ProdDefinition.forecastTime, h.supported, h.tmpl, Outcome.bind_ok]
  by_cases hc : field data s.offset 8 9 ∈ ProdTemplates
  · simp only [hc, decide_true, if_true]
    have ha := time_arms _ hc
    have hl : ∀ o, timeOctet (field data s.offset 8 9) = some o → o + 4 ≤ s.size := by
      intro o ho
      apply Classical.byContradiction
      intro hlt
      exact hn ⟨hc, o, ho, by omega⟩
    rw [← ha] at hl ⊢
    cases hk : ProdDefinition.arm ProdDefinition.forecastTimeArms (field data s.offset 8 9) with
    | none => rfl
    | some k =>
      rw [hk] at hl
      have := hl (k + 10) rfl
      simp only [Option.map_some]
      rw [h1, rdAs_payload h2 (by omega) (by omega), if_pos (by omega)]
      simp only [Outcome.bind_ok, h.getOctet, octet?, if_pos (show k + 10 ≤ s.size by omega), Option.map_some]
      rw [show 4 + k + 1 + 6 = k + 10 + 1 by omega, show 4 + k + 1 + 5 + 4 = k + 10 + 4 by omega]
  · simp [hc]

/-- The surfaces of a section that is not cut off. -/
theorem surfaces_of {data : List UInt8} {s : SectionInfo} {i : ProdDefinition} (h : Sect4 data s i) (hn : ¬ SurfacesCut data s) :
    (i.fixedSurfaces : Outcome ε (Option (FixedSurface × FixedSurface))) =
      .ok (if field data s.offset 8 9 ∈ ProdTemplates then
        (surfaceOctet (field data s.offset 8 9)).map fun o =>
          (surfaceAt data s.offset o, surfaceAt data s.offset (o + 6))
        else none) :=
  C39_fixed_surfaces_partial data s i h (fun o hc ho => by
    apply Classical.byContradiction
    intro hlt
    exact hn ⟨hc, o, ho, by omega⟩)

/-! ## Specifications -/

/-- A listed submessage. -/
abbrev Listed := (Nat × Nat) × SubMessage

/-- A loop over `xs` printed `text` and came to its end or not: it printed what `line` says of the elements before the first that is
not `Fine`, and came to its end exactly if all are. -/
structure PrintsWhile (xs : List Listed) (Fine : Listed → Prop) (line : Listed → Str) (out : Str × Outcome ε Unit) : Prop where
  ex : ∃ n, n ≤ xs.length ∧ out.1 = (xs.take n).flatMap line ∧ (∀ x ∈ xs.take n, Fine x) ∧
    (∀ x, xs[n]? = some x → ¬ Fine x) ∧ out.2 = if n = xs.length then .ok () else .panic

/-- The forecast time of the product definition section `s` is the given number of hours. -/
def HoursAhead (data : List UInt8) (s : SectionInfo) (hours : Nat) : Prop :=
  field data s.offset 8 9 ∈ ProdTemplates ∧ ∃ o, timeOctet (field data s.offset 8 9) = some o ∧ o + 4 ≤ s.size ∧
    field data s.offset o o = 1 ∧ field data s.offset (o + 1) (o + 4) = hours

theorem prints_while (f : Listed → Outcome Empty Str) (xs : List Listed) (Fine : Listed → Prop) (line : Listed → Str)
    (h1 : ∀ x ∈ xs, Fine x → f x = .ok (line x)) (h2 : ∀ x ∈ xs, ¬ Fine x → f x = .panic) :
    PrintsWhile (ε := ε) xs Fine line ((printEach f xs).1, if (printEach f xs).2 then .ok () else .panic) := by
  obtain ⟨n, hn, ht, ho, he, hp⟩ := printEach_eq f xs
  have hfine : ∀ x ∈ xs.take n, Fine x := by
    intro x hx
    apply Classical.byContradiction
    intro hf
    obtain ⟨s, hs⟩ := ho x hx
    rw [h2 x (List.mem_of_mem_take hx) hf] at hs
    cases hs
  refine ⟨n, hn, ?_, hfine, ?_, ?_⟩
  · dsimp only
    rw [ht, List.flatMap_def]
    congr 1
    apply List.map_congr_left
    intro x hx
    rw [h1 x (List.mem_of_mem_take hx) (hfine x hx)]
    rfl
  · intro x hx hf
    have := hp x hx
    rw [h1 x (List.mem_of_getElem? hx) hf] at this
    cases this
  · dsimp only
    by_cases hl : n = xs.length
    · rw [if_pos hl, if_pos (he.2 hl)]
    · rw [if_neg hl, if_neg (fun h => hl (he.1 h))]

theorem prints_ended (f : Listed → Outcome Empty Str) (xs : List Listed) (Fine : Listed → Prop) (line : Listed → Str)
    (h1 : ∀ x ∈ xs, Fine x → f x = .ok (line x)) (h2 : ∀ x ∈ xs, ¬ Fine x → f x = .panic) :
    PrintsWhile xs Fine line (ended (printEach f xs)) := prints_while f xs Fine line h1 h2

/-! ## `find_layers` -/

open Classical in
/-- C91. `find_layers` on data that opens prints index and description of exactly the submessages whose forecast time is the
given number of hours, in the order of the listing; it panics at the first submessage whose product definition ends before
the time, or that is to be printed and ends before its surfaces. -/
theorem C91_find (k : Constants) (hours : Nat) (r : Rdr) (g : Grib2) (h : Grib2.read r = .ok g) :
    ∃ text : SubMessage → Str,
      (∀ x ∈ SubIter.drain (g.len + 1) g.iter, ¬ TimeCut r.data x.2.s4.2 → ¬ SurfacesCut r.data x.2.s4.2 →
        (x.2.describe k : Outcome Empty Str) = .ok (text x.2)) ∧
      PrintsWhile (SubIter.drain (g.len + 1) g.iter)
        (fun x => ¬ TimeCut r.data x.2.s4.2 ∧ (HoursAhead r.data x.2.s4.2 hours → ¬ SurfacesCut r.data x.2.s4.2))
        (fun x => if HoursAhead r.data x.2.s4.2 hours then showIndex x.1 ++ ['\n'] ++ text x.2 ++ ['\n'] else [])
        (findLayers k hours r) := by
  refine ⟨fun m => (m.describe k : Outcome Empty Str).ok?.getD [], ?_, ?_⟩
  · intro x hx h1 h2
    have := C64_describe k r g h x.1 x.2 hx
    cases hd : (x.2.describe k : Outcome Empty Str) with
    | err e => exact e.elim
    | panic => rcases this.1 hd with h | h <;> contradiction
    | ok s => simp only [hd]; rfl
  · unfold findLayers opening
    rw [h]
    dsimp only
    have body : ∀ x ∈ SubIter.drain (g.len + 1) g.iter, ¬ TimeCut r.data x.2.s4.2 →
        findLayer k hours x = if HoursAhead r.data x.2.s4.2 hours then
          ((x.2.describe k : Outcome Empty Str).bind fun d => .ok (showIndex x.1 ++ ['\n'] ++ d ++ ['\n'])) else .ok [] := by
      intro x hx hn
      have hf := facts h hx
      obtain ⟨v1, -⟩ := view_reads (ε := Empty) h hx
      unfold findLayer
      rw [v1, Outcome.bind_ok, time_of (sect4 (r := r) hf) hn, Outcome.bind_ok]
      have hh : ∀ unit value : Nat, (match (some (ForecastTime.fromNumbers unit value) : Option ForecastTime) with
          | some ⟨.name .hour, value⟩ =>
            if value = hours then do
              let d ← x.2.describe k
              .ok (showIndex x.1 ++ ['\n'] ++ d ++ ['\n'])
            else .ok []
          | _ => (.ok [] : Outcome Empty Str)) = if unit = 1 ∧ value = hours then
            ((x.2.describe k : Outcome Empty Str).bind fun d => .ok (showIndex x.1 ++ ['\n'] ++ d ++ ['\n'])) else .ok [] := by
        intro unit value
        by_cases hu : unit = 1
        · subst hu
          by_cases hv : value = hours
          · subst hv; simp [ForecastTime.fromNumbers, Table4_4.tryFrom, Code.ofTry]; rfl
          · simp [ForecastTime.fromNumbers, Table4_4.tryFrom, Code.ofTry, hv]
        · rw [if_neg (fun h => hu h.1)]
          have := (C41_time_unit unit value).1
          split
          · rename_i e
            rw [Option.some.inj e] at this
            exact absurd this.symm hu
          · rfl
      unfold HoursAhead
      by_cases hc : field r.data x.2.s4.2.offset 8 9 ∈ ProdTemplates
      · rw [if_pos hc]
        cases ho : timeOctet (field r.data x.2.s4.2.offset 8 9) with
        | none => rw [if_neg (by rintro ⟨-, o, h, -⟩; cases h)]; rfl
        | some o =>
          have hl : o + 4 ≤ x.2.s4.2.size := by
            apply Classical.byContradiction
            intro hlt
            exact hn ⟨hc, o, ho, by omega⟩
          simp only [Option.map_some]
          refine (hh _ _).trans ?_
          congr 1
          apply propext
          constructor
          · rintro ⟨a, b⟩; exact ⟨hc, o, rfl, hl, a, b⟩
          · rintro ⟨-, o', e, -, a, b⟩; cases e; exact ⟨a, b⟩
      · rw [if_neg hc, if_neg (fun h => hc h.1)]; rfl
    apply prints_ended
    · rintro x hx ⟨h1, h2⟩
      rw [body x hx h1]
      split
      · rename_i hh
        have := C64_describe k r g h x.1 x.2 hx
        cases hd : (x.2.describe k : Outcome Empty Str) with
        | err e => exact e.elim
        | panic =>
          rcases this.1 hd with h | h
          · exact absurd h h1
          · exact absurd h (h2 hh)
        | ok s => rfl
      · rfl
    · intro x hx hnf
      by_cases ht : TimeCut r.data x.2.s4.2
      · obtain ⟨v1, -⟩ := view_reads (ε := Empty) h hx
        unfold findLayer
        rw [v1, Outcome.bind_ok, (C64_time (ε := Empty) _ _ _ (sect4 (r := r) (facts h hx))).2 ht]
        rfl
      · have h2 : HoursAhead r.data x.2.s4.2 hours ∧ SurfacesCut r.data x.2.s4.2 := by
          apply Classical.byContradiction
          intro hc
          exact hnf ⟨ht, fun a b => hc ⟨a, b⟩⟩
        rw [body x hx ht, if_pos h2.1, (C64_describe k r g h x.1 x.2 hx).2 (.inr h2.2)]
        rfl

/-! ## `list_layers` -/

/-- The product definition of a listed submessage has a forecast time and surfaces in its template, and does not end before
them. -/
def HasLayer (data : List UInt8) (s : SectionInfo) : Prop :=
  field data s.offset 8 9 ∈ ProdTemplates ∧ (∃ o, timeOctet (field data s.offset 8 9) = some o ∧ o + 4 ≤ s.size) ∧
    ∃ o, surfaceOctet (field data s.offset 8 9) = some o ∧ o + 11 ≤ s.size

/-- The line of a submessage: its parameter in the table of its discipline and category, its time, and the value and unit
of its first surface. -/
def layerLine (k : Constants) (ops : FloatOps G) (showF : G → Str) (data : List UInt8) (m : SubMessage) : Str :=
  let p := m.s4.2.offset
  let t := field data p 8 9
  let o := (timeOctet t).getD 0
  let surface := surfaceAt data p ((surfaceOctet t).getD 0)
  padRight 31 (tableText k (.t4_2 (field data m.s0.2.offset 7 7) (field data p 10 10)) (field data p 11 11)) ++ [' '] ++
    (ForecastTime.fromNumbers (field data p o o) (field data p (o + 1) (o + 4))).show ++ [' '] ++
    padLeft 17 (showF (surface.value ops)) ++
    (match surface.unit with | some u => " [".toList ++ u.toList ++ "]".toList | none => []) ++ ['\n']

/-- C91. `list_layers` on data that opens prints a line for each submessage, in the order of the listing, up to the first
whose template has no forecast time or no surfaces, or whose product definition ends before them; there it panics. -/
theorem C91_list (k : Constants) (ops : FloatOps G) (showF : G → Str) (r : Rdr) (g : Grib2) (h : Grib2.read r = .ok g) :
    PrintsWhile (SubIter.drain (g.len + 1) g.iter) (fun x => HasLayer r.data x.2.s4.2)
      (fun x => layerLine k ops showF r.data x.2) (listLayers k ops showF r) := by
  unfold listLayers opening
  rw [h]
  dsimp only
  apply prints_ended
  · rintro x hx ⟨hc, ⟨o, ho, hl⟩, o', ho', hl'⟩
    have hf := facts h hx
    obtain ⟨v1, v2, v3, v4, -⟩ := view_reads (ε := Empty) h hx
    have ha := time_arms _ hc
    have h11 : 11 ≤ x.2.s4.2.size := by
      rw [ho] at ha
      cases hk : ProdDefinition.arm ProdDefinition.forecastTimeArms (field r.data x.2.s4.2.offset 8 9) with
      | none => rw [hk] at ha; cases ha
      | some k => rw [hk] at ha; simp only [Option.map_some, Option.some.injEq] at ha; omega
    have ht : ¬ TimeCut r.data x.2.s4.2 := by rintro ⟨-, q, hq, hlt⟩; rw [ho] at hq; cases hq; omega
    have hs : ¬ SurfacesCut r.data x.2.s4.2 := by rintro ⟨-, q, hq, hlt⟩; rw [ho'] at hq; cases hq; omega
    unfold listLayer layerLine
    rw [v4, Outcome.bind_ok, v1, Outcome.bind_ok, v2, Outcome.bind_ok, v3, time_of (sect4 (r := r) hf) ht,
      surfaces_of (sect4 (r := r) hf) hs]
    simp only [categoryOf, numberOf, octet?, if_pos hc, if_pos h11, if_pos (show 10 ≤ x.2.s4.2.size by omega), ho, ho',
      Option.map_some, unwrap, Outcome.bind_ok, Option.getD_some]
    cases (surfaceAt r.data x.2.s4.2.offset o').unit <;> rfl
  · intro x hx hn
    have hf := facts h hx
    obtain ⟨v1, v2, v3, v4, -⟩ := view_reads (ε := Empty) h hx
    unfold listLayer
    rw [v4, Outcome.bind_ok, v1, Outcome.bind_ok, v2, Outcome.bind_ok, v3]
    cases categoryOf r.data x.2 with
    | none => rfl
    | some c =>
      cases numberOf r.data x.2 with
      | none => rfl
      | some n =>
        simp only [unwrap, Outcome.bind_ok]
        by_cases ht : TimeCut r.data x.2.s4.2
        · rw [(C64_time (ε := Empty) _ _ _ (sect4 (r := r) hf)).2 ht]; rfl
        · rw [time_of (sect4 (r := r) hf) ht]
          by_cases hc : field r.data x.2.s4.2.offset 8 9 ∈ ProdTemplates
          · rw [if_pos hc]
            cases ho : timeOctet (field r.data x.2.s4.2.offset 8 9) with
            | none => rfl
            | some o =>
              simp only [Option.map_some, Outcome.bind_ok]
              by_cases hs : SurfacesCut r.data x.2.s4.2
              · rw [(C64_surfaces (ε := Empty) _ _ _ (sect4 (r := r) hf)).2 hs]; rfl
              · rw [surfaces_of (sect4 (r := r) hf) hs, if_pos hc]
                cases ho' : surfaceOctet (field r.data x.2.s4.2.offset 8 9) with
                | none => rfl
                | some o' =>
                  refine absurd ⟨hc, ⟨o, ho, ?_⟩, o', ho', ?_⟩ hn
                  · apply Classical.byContradiction
                    intro hlt
                    exact ht ⟨hc, o, ho, by omega⟩
                  · apply Classical.byContradiction
                    intro hlt
                    exact hs ⟨hc, o', ho', by omega⟩
          · rw [if_neg hc]; rfl

/-! ## `decode_layer` -/

/-- What calling `next` until it returns `None` or panics gives: the values returned, and whether it panicked. -/
inductive Pulled (ops : FloatOps F) : BitmapIter F → List F → Bool → Prop
  | done {it it'} (h : it.next ops = (.ok none, it')) : Pulled ops it [] false
  | panic {it it'} (h : it.next ops = (.panic, it')) : Pulled ops it [] true
  | more {it it' v vs b} (h : it.next ops = (.ok (some v), it')) (h' : Pulled ops it' vs b) : Pulled ops it (v :: vs) b

/-- A call that returns a value uses a bit of the bitmap. -/
theorem next_bits {ops : FloatOps F} {it it' : BitmapIter F} {v : F} (h : it.next ops = (.ok (some v), it')) (h7 : it.offset ≤ 7) :
    it'.offset ≤ 7 ∧ 8 * it'.bitmap.length + it.offset + 1 ≤ 8 * it.bitmap.length + it'.offset ∧ it.offset < 8 * it.bitmap.length := by
  obtain ⟨bitmap, values, len, offset⟩ := it
  unfold BitmapIter.next at h
  dsimp only at h h7 ⊢
  split at h
  · cases h
  · cases bitmap with
    | nil => cases h
    | cons byte rest =>
      dsimp only at h
      have key : ∀ q : BitmapIter F, q.bitmap = (if offset < 7 then (⟨byte :: rest, values, len, offset + 1⟩ : BitmapIter F)
          else ⟨rest, values, len, 0⟩).bitmap → q.offset = (if offset < 7 then (⟨byte :: rest, values, len, offset + 1⟩ : BitmapIter F)
          else ⟨rest, values, len, 0⟩).offset → q.offset ≤ 7 ∧ 8 * q.bitmap.length + offset + 1 ≤ 8 * (byte :: rest).length + q.offset ∧
            offset < 8 * (byte :: rest).length := by
        intro q e1 e2
        rw [e1, e2]
        by_cases ho : offset < 7
        · simp only [if_pos ho, List.length_cons]; omega
        · simp only [if_neg ho, List.length_cons]; omega
      split at h
      · have := (Prod.mk.inj h).2
        subst this
        exact key _ rfl rfl
      · split at h
        · cases h
        · have := (Prod.mk.inj h).2
          subst this
          exact key _ rfl rfl
        · cases h

theorem Pulled.length_le {ops : FloatOps F} {it : BitmapIter F} {vs : List F} {b : Bool} (h : Pulled ops it vs b) (h7 : it.offset ≤ 7) :
    vs.length ≤ 8 * it.bitmap.length - it.offset := by
  induction h with
  | done h => simp
  | panic h => simp
  | more h _ ih =>
    obtain ⟨a, b, c⟩ := next_bits h h7
    have := ih a
    simp only [List.length_cons]
    omega

/-- C91. Whatever an iterator of values is, calling it until it ends or panics gives some values; it ends exactly if the values
can be collected, which gives the same. -/
theorem C91_pulled (ops : FloatOps F) (it : BitmapIter F) (h7 : it.offset = 0) :
    ∃ vs b, Pulled ops it vs b ∧ it.toList ops = if b then .panic else .done vs := by
  have key : ∀ (fuel : Nat) (it : BitmapIter F), it.offset ≤ 7 → 8 * it.bitmap.length - it.offset < fuel →
      ∃ vs b, Pulled ops it vs b ∧ it.drain ops fuel = if b then .panic else .done vs := by
    intro fuel
    induction fuel with
    | zero => intro it _ h; omega
    | succ fuel ih =>
      intro it h7 hf
      unfold BitmapIter.drain
      rcases hn : it.next ops with ⟨p, it'⟩
      match p, hn with
      | .ok none, hn => exact ⟨[], false, .done hn, rfl⟩
      | .panic, hn => exact ⟨[], true, .panic hn, rfl⟩
      | .ok (some v), hn =>
        obtain ⟨a, b, c⟩ := next_bits hn h7
        obtain ⟨vs, b, h1, h2⟩ := ih it' a (by omega)
        refine ⟨v :: vs, b, .more hn h1, ?_⟩
        dsimp only
        rw [h2]
        cases b <;> rfl
  exact key _ it (by omega) (by omega)

/-- The points of a grid are `ps`. -/
inductive PointsAre : GridPoints F → List (F × F) → Prop
  | regular {it : RegularIter F} {fuel ps} (h : it.drain fuel = .done ps) : PointsAre (.latLon it) ps
  | listed (ps) : PointsAre (.lambert ps) ps

theorem PointsAre.cases {points : GridPoints F} {ps : List (F × F)} (h : PointsAre points ps) :
    match ps with
    | [] => ∃ q, pointsNext points = .ok (none, q)
    | p :: ps => ∃ q, pointsNext points = .ok (some p, q) ∧ PointsAre q ps := by
  cases h with
  | listed => cases ps with
    | nil => exact ⟨_, rfl⟩
    | cons p ps => exact ⟨_, rfl, .listed _⟩
  | @regular it fuel _ h =>
    cases fuel with
    | zero => cases h
    | succ fuel =>
      unfold RegularIter.drain at h
      cases hn : (it.next : Outcome Empty _) with
      | err e => exact e.elim
      | panic => rw [hn] at h; cases h
      | ok x =>
        obtain ⟨p, it'⟩ := x
        rw [hn] at h
        have hp : pointsNext (.latLon it) = .ok (p, .latLon it') := by unfold pointsNext; dsimp only; rw [hn]; rfl
        cases p with
        | none => cases h; exact ⟨_, hp⟩
        | some p =>
          dsimp only at h
          cases hd : it'.drain fuel with
          | panic => rw [hd] at h; cases h
          | more xs => rw [hd] at h; cases h
          | done xs =>
            rw [hd] at h
            cases h
            exact ⟨_, hp, .regular hd⟩

theorem zipPrint_eq {ops : FloatOps F} (row : F × F → F → Str) {values : BitmapIter F} {vs : List F} {b : Bool}
    (hv : Pulled ops values vs b) (ps : List (F × F)) (points : GridPoints F) (hp : PointsAre points ps) (fuel : Nat)
    (hf : vs.length < fuel) :
    zipPrint ops row fuel points values =
      ((ps.zip vs).flatMap fun x => row x.1 x.2, decide ¬ (b = true ∧ vs.length < ps.length)) := by
  induction hv generalizing ps points fuel with
  | done h =>
    cases fuel with
    | zero => cases hf
    | succ fuel =>
      have hc := hp.cases
      unfold zipPrint
      cases ps with
      | nil => obtain ⟨q, hq⟩ := hc; rw [hq]; simp
      | cons p ps => obtain ⟨q, hq, -⟩ := hc; rw [hq]; dsimp only; rw [h]; simp
  | panic h =>
    cases fuel with
    | zero => cases hf
    | succ fuel =>
      have hc := hp.cases
      unfold zipPrint
      cases ps with
      | nil => obtain ⟨q, hq⟩ := hc; rw [hq]; simp
      | cons p ps => obtain ⟨q, hq, -⟩ := hc; rw [hq]; dsimp only; rw [h]; simp
  | @more it it' v vs b h h' ih =>
    cases fuel with
    | zero => cases hf
    | succ fuel =>
      have hc := hp.cases
      unfold zipPrint
      cases ps with
      | nil => obtain ⟨q, hq⟩ := hc; rw [hq]; simp
      | cons p ps =>
        obtain ⟨q, hq, hq'⟩ := hc
        rw [hq]
        dsimp only
        rw [h]
        dsimp only
        rw [ih ps q hq' fuel (by simp only [List.length_cons] at hf; omega)]
        simp

/-- C91. `decode_layer` with the index of a listed submessage whose grid points and values are available prints a line for
each pair of a point and a value, in order, and ends with the shorter of the two; it panics exactly if asking for the value
of one of the points does, having printed the lines before. -/
theorem C91_decode (o : GridOps G F) (c : Codecs F) (row : F × F → F → Str) (ix : Nat × Nat) (r : Rdr) (g : Grib2)
    (h : Grib2.read r = .ok g) (m : SubMessage) (hm : (ix, m) ∈ SubIter.drain (g.len + 1) g.iter)
    (points : GridPoints F) (ps : List (F × F)) (dec : Decoder) (values : BitmapIter F) (vs : List F) (b : Bool)
    (hl : subLatlons o ⟨payloadAt r.data m.s3.2.offset m.s3.2.size⟩ = .ok points) (hps : PointsAre points ps)
    (hd : (Decoder.fromSub m g.reader).1 = .ok dec) (hv : dec.dispatch c = .ok values) (hvs : Pulled c.ops values vs b) :
    decodeLayer o c row ix r = ((ps.zip vs).flatMap fun x => row x.1 x.2,
      if b = true ∧ vs.length < ps.length then .panic else .ok ()) := by
  have hf := (C46_selects r g h ix m).2 hm
  obtain ⟨-, -, -, -, v5, -⟩ := view_reads (ε := GribError) h hm
  have h7 : values.offset = 0 := by
    unfold Decoder.dispatch at hv
    obtain ⟨items, -, hv⟩ := Outcome.bind_eq_ok hv
    unfold BitmapIter.new at hv
    split at hv
    · cases hv
    · cases hv; rfl
  have hlen := hvs.length_le (by omega)
  unfold decodeLayer opening
  rw [h]
  dsimp only
  rw [hf]
  dsimp only
  rw [v5, Outcome.bind_ok, hl, Outcome.bind_ok, hd, Outcome.bind_ok, hv, Outcome.bind_ok]
  dsimp only
  rw [zipPrint_eq row hvs ps points hps _ (by omega)]
  unfold ended
  dsimp only
  by_cases hb : b = true ∧ vs.length < ps.length
  · rw [if_pos hb, if_neg (by simpa using hb)]
  · rw [if_neg hb, if_pos (decide_eq_true hb)]

/-- C91. In the other cases `decode_layer` prints nothing: it ends with "no such index" if the index is not listed, and with the
error of the grid definition, of the sections or of the representation otherwise. -/
theorem C91_decode_errors (o : GridOps G F) (c : Codecs F) (row : F × F → F → Str) (ix : Nat × Nat) (r : Rdr) (g : Grib2)
    (h : Grib2.read r = .ok g) :
    ((∀ x ∈ SubIter.drain (g.len + 1) g.iter, x.1 ≠ ix) → decodeLayer o c row ix r = ([], .err .noSuchIndex)) ∧
    ∀ m, (ix, m) ∈ SubIter.drain (g.len + 1) g.iter →
      (∀ e, subLatlons o ⟨payloadAt r.data m.s3.2.offset m.s3.2.size⟩ = .err e → decodeLayer o c row ix r = ([], .err (.grib e))) ∧
      (subLatlons o ⟨payloadAt r.data m.s3.2.offset m.s3.2.size⟩ = .panic → decodeLayer o c row ix r = ([], .panic)) ∧
      ∀ points, subLatlons o ⟨payloadAt r.data m.s3.2.offset m.s3.2.size⟩ = .ok points →
        (∀ e, decodeSub c m g.reader = .err e → decodeLayer o c row ix r = ([], .err (.grib e))) ∧
        (decodeSub c m g.reader = .panic → decodeLayer o c row ix r = ([], .panic)) := by
  constructor
  · intro hn
    unfold decodeLayer opening
    rw [h]
    dsimp only
    rw [(C46_absent r g h ix).2 hn]
  · intro m hm
    have hf := (C46_selects r g h ix m).2 hm
    obtain ⟨-, -, -, -, v5, -⟩ := view_reads (ε := GribError) h hm
    unfold decodeLayer opening
    rw [h]
    dsimp only
    rw [hf]
    dsimp only
    rw [v5, Outcome.bind_ok]
    refine ⟨fun e he => by rw [he]; rfl, fun he => by rw [he]; rfl, ?_⟩
    intro points hp
    rw [hp, Outcome.bind_ok]
    unfold decodeSub decodeAll
    cases (Decoder.fromSub m g.reader).1 with
    | err e => exact ⟨fun e' h => by cases h; rfl, fun h => by cases h⟩
    | panic => exact ⟨fun e' h => (by cases h), fun _ => rfl⟩
    | ok dec =>
      simp only [Outcome.bind_ok]
      cases dec.dispatch c with
      | err e => exact ⟨fun e' h => by cases h; rfl, fun h => by cases h⟩
      | panic => exact ⟨fun e' h => (by cases h), fun _ => rfl⟩
      | ok values => exact ⟨fun e' h => (by cases h), fun h => by cases h⟩

/-! ## `check_decoding_of_files` -/

/-- The line for the submessage of rank `i` of `n`. -/
def progressLine (n : Nat) (i : Nat) (ix : Nat × Nat) : Str :=
  "  ".toList ++ showIndex ix ++ " (".toList ++ showNat i ++ "/".toList ++ showNat n ++ ")\n".toList

theorem decodeSub_same {r0 : Rdr} {g : Grib2} (h : Grib2.read r0 = .ok g) (c : Codecs F) {x : Listed}
    (hx : x ∈ SubIter.drain (g.len + 1) g.iter) {r r' : Rdr} (hr : r.data = r0.data) (hb : IoEv.fail ∉ r.evs)
    (hr' : r'.data = r0.data) (hb' : IoEv.fail ∉ r'.evs) : decodeSub c x.2 r = decodeSub c x.2 r' := by
  unfold decodeSub
  rw [(C49_own_sections h (ix := x.1) (m := x.2) hx r hr hb).1, (C49_own_sections h (ix := x.1) (m := x.2) hx r' hr' hb').1]

theorem checkEach_eq {r0 : Rdr} {g : Grib2} (h : Grib2.read r0 = .ok g) (c : Codecs F) (len : Nat) (rr : Rdr)
    (hrr : rr.data = r0.data) (hbb : IoEv.fail ∉ rr.evs) (xs : List Listed)
    (hxs : ∀ x ∈ xs, x ∈ SubIter.drain (g.len + 1) g.iter) (k : Nat) (r : Rdr) (hr : r.data = r0.data)
    (hb : IoEv.fail ∉ r.evs) :
    ∃ n, n ≤ xs.length ∧ (∀ x ∈ xs.take n, ∃ vs, decodeSub c x.2 rr = .ok (.done vs)) ∧
      (checkEach c len k xs r).1 = (((xs.take (n + 1)).zipIdx k).flatMap fun x => progressLine len x.2 x.1.1) ∧
      (n = xs.length → (checkEach c len k xs r).2 = .ok ()) ∧
      ∀ x, xs[n]? = some x → (∀ vs, decodeSub c x.2 rr ≠ .ok (.done vs)) ∧ (checkEach c len k xs r).2 =
        match decodeSub c x.2 rr with
        | .err e => .err (.grib e)
        | _ => .panic := by
  induction xs generalizing k r with
  | nil => exact ⟨0, by simp [checkEach]⟩
  | cons x xs ih =>
    have hx := hxs x List.mem_cons_self
    have hs := decodeSub_same h c hx hr hb hrr hbb
    obtain ⟨-, hd', hb'⟩ := C49_own_sections h (ix := x.1) (m := x.2) hx r hr hb
    obtain ⟨n, h1, h2, h3, h4, h5⟩ := ih (fun y hy => hxs y (List.mem_cons_of_mem _ hy)) (k + 1) _ hd' hb'
    rw [checkEach]
    dsimp only
    unfold decodeSub decodeAll at hs
    have stop : ∀ o : Outcome ExampleError Unit, (∀ vs, decodeSub c x.2 rr ≠ .ok (.done vs)) →
        o = (match decodeSub c x.2 rr with
        | .err e => .err (.grib e)
        | _ => .panic) →
        ∃ n, n ≤ (x :: xs).length ∧ (∀ y ∈ (x :: xs).take n, ∃ vs, decodeSub c y.2 rr = .ok (.done vs)) ∧
          progressLine len k x.1 = ((((x :: xs).take (n + 1)).zipIdx k).flatMap fun x => progressLine len x.2 x.1.1) ∧
          (n = (x :: xs).length → o = .ok ()) ∧
          ∀ y, (x :: xs)[n]? = some y → (∀ vs, decodeSub c y.2 rr ≠ .ok (.done vs)) ∧ o =
            match decodeSub c y.2 rr with
            | .err e => .err (.grib e)
            | _ => .panic := by
      intro o ho1 ho2
      refine ⟨0, by simp, by simp, by simp, by simp, ?_⟩
      intro y hy
      simp only [List.getElem?_cons_zero, Option.some.injEq] at hy
      subst hy
      exact ⟨ho1, ho2⟩
    cases hf : (Decoder.fromSub x.2 r).1 with
    | err e =>
      rw [hf] at hs
      have hs : decodeSub c x.2 rr = .err e := hs.symm
      exact stop _ (by rw [hs]; intro vs; simp) (by rw [hs]; rfl)
    | panic =>
      rw [hf] at hs
      have hs : decodeSub c x.2 rr = .panic := hs.symm
      exact stop _ (by rw [hs]; intro vs; simp) (by rw [hs]; rfl)
    | ok dec =>
      rw [hf] at hs
      simp only [Outcome.bind_ok] at hs ⊢
      cases hv : dec.dispatch c with
      | err e =>
        rw [hv] at hs
        have hs : decodeSub c x.2 rr = .err e := hs.symm
        exact stop _ (by rw [hs]; intro vs; simp) (by rw [hs])
      | panic =>
        rw [hv] at hs
        have hs : decodeSub c x.2 rr = .panic := hs.symm
        exact stop _ (by rw [hs]; intro vs; simp) (by rw [hs])
      | ok values =>
        rw [hv] at hs
        dsimp only
        have hs : decodeSub c x.2 rr = .ok (values.toList c.ops) := hs.symm
        cases ht : values.toList c.ops with
        | panic =>
          rw [ht] at hs
          exact stop _ (by rw [hs]; intro vs; simp) (by rw [hs])
        | more ys =>
          rw [ht] at hs
          exact stop _ (by rw [hs]; intro vs; simp) (by rw [hs])
        | done vs =>
          rw [ht] at hs
          dsimp only
          refine ⟨n + 1, by simpa using h1, ?_, ?_, ?_, ?_⟩
          · intro y hy
            rw [List.take_succ_cons, List.mem_cons] at hy
            rcases hy with rfl | hy
            · exact ⟨vs, hs⟩
            · exact h2 y hy
          · rw [h3, List.take_succ_cons, List.zipIdx_cons, List.flatMap_cons]; rfl
          · intro e; exact h4 (by simpa using e)
          · intro y hy
            rw [List.getElem?_cons_succ] at hy
            exact h5 y hy

/-- C91. `check_decoding_of_files` on one file with a reader that does not fail: after opening, it reports an empty file as an
error; otherwise it decodes the submessages in the order of the listing, announcing each, and stops with the error or panic of the
first that does not decode; the result is a success exactly if every submessage decodes. -/
theorem C91_check (c : Codecs F) (name : Str) (r : Rdr) (g : Grib2) (h : Grib2.read r = .ok g) (hb : IoEv.fail ∉ g.reader.evs) :
    (g.len = 0 → checkFile c name r = ("processing ".toList ++ name ++ ['\n'], .err .empty)) ∧
    (g.len ≠ 0 → ∃ n, n ≤ g.len ∧
      (∀ x ∈ (SubIter.drain (g.len + 1) g.iter).take n, ∃ vs, decodeSub c x.2 g.reader = .ok (.done vs)) ∧
      (checkFile c name r).1 = "processing ".toList ++ name ++ ['\n'] ++
        (((SubIter.drain (g.len + 1) g.iter).take (n + 1)).zipIdx.flatMap fun x => progressLine g.len x.2 x.1.1) ∧
      (n = g.len → (checkFile c name r).2 = .ok ()) ∧
      ∀ x, (SubIter.drain (g.len + 1) g.iter)[n]? = some x → (∀ vs, decodeSub c x.2 g.reader ≠ .ok (.done vs)) ∧
        (checkFile c name r).2 = match decodeSub c x.2 g.reader with
          | .err e => .err (.grib e)
          | _ => .panic) ∧
    ((checkFile c name r).2 = .ok () ↔ g.len ≠ 0 ∧
      ∀ x ∈ SubIter.drain (g.len + 1) g.iter, ∃ vs, decodeSub c x.2 g.reader = .ok (.done vs)) := by
  have hdata : g.reader.data = r.data := by
    rw [Grib2.read_eq] at h
    cases hc : collectResult (idxStreamItems (itemsR r).1).1 with
    | ok subs =>
      rw [hc] at h
      cases h
      exact (collectR_honest _ _ _ r).1
    | err e => rw [hc] at h; cases h
    | panic => rw [hc] at h; cases h
  have hlen : (SubIter.drain (g.len + 1) g.iter).length = g.len := (C18_loop r g h).1
  have e0 : g.len = 0 → checkFile c name r = ("processing ".toList ++ name ++ ['\n'], .err .empty) := by
    intro h0
    unfold checkFile opening
    rw [h]
    dsimp only
    rw [if_pos h0, List.append_nil]
  have e1 : g.len ≠ 0 → checkFile c name r = ("processing ".toList ++ name ++ ['\n'] ++
      (checkEach c g.len 0 (SubIter.drain (g.len + 1) g.iter) g.reader).1,
      (checkEach c g.len 0 (SubIter.drain (g.len + 1) g.iter) g.reader).2) := by
    intro h0
    unfold checkFile opening
    rw [h]
    dsimp only
    rw [if_neg h0]
  obtain ⟨n, h1, h2, h3, h4, h5⟩ := checkEach_eq h c g.len g.reader hdata hb (SubIter.drain (g.len + 1) g.iter)
    (fun _ hx => hx) 0 g.reader hdata hb
  rw [hlen] at h1 h4
  refine ⟨e0, ?_, ?_⟩
  · intro h0
    rw [e1 h0]
    dsimp only
    exact ⟨n, h1, h2, by rw [h3], h4, h5⟩
  · by_cases h0 : g.len = 0
    · rw [e0 h0]; simp [h0]
    · rw [e1 h0]
      dsimp only
      constructor
      · intro hok
        refine ⟨h0, ?_⟩
        have hn : n = g.len := by
          apply Classical.byContradiction
          intro hne
          have hlt : n < (SubIter.drain (g.len + 1) g.iter).length := by omega
          have := (h5 _ (List.getElem?_eq_getElem hlt)).2
          rw [hok] at this
          split at this <;> cases this
        rw [List.take_of_length_le (by omega)] at h2
        exact h2
      · rintro ⟨-, hall⟩
        apply h4
        apply Classical.byContradiction
        intro hne
        have hlt : n < (SubIter.drain (g.len + 1) g.iter).length := by omega
        have hx := List.getElem?_eq_getElem hlt
        obtain ⟨vs, hvs⟩ := hall _ (List.getElem_mem hlt)
        exact (h5 _ hx).1 vs hvs

/-- C91. Given several files, `check_decoding_of_files` checks them in order up to the first that does not end well, and reports
what it reports on each; it succeeds exactly if all do. -/
theorem C91_check_files (c : Codecs F) (fs : List (Str × Rdr)) :
    ∃ n, n ≤ fs.length ∧ (∀ f ∈ fs.take n, (checkFile c f.1 f.2).2 = .ok ()) ∧
      (checkFiles c fs).1 = ((fs.take (n + 1)).flatMap fun f => (checkFile c f.1 f.2).1) ∧
      (n = fs.length → (checkFiles c fs).2 = .ok ()) ∧
      ∀ f, fs[n]? = some f → (checkFile c f.1 f.2).2 ≠ .ok () ∧ (checkFiles c fs).2 = (checkFile c f.1 f.2).2 := by
  induction fs with
  | nil => exact ⟨0, by simp [checkFiles]⟩
  | cons f fs ih =>
    obtain ⟨n, h1, h2, h3, h4, h5⟩ := ih
    unfold checkFiles
    rcases hf : checkFile c f.1 f.2 with ⟨s, o⟩
    by_cases ho : o = .ok ()
    · subst ho
      refine ⟨n + 1, by simpa using h1, ?_, ?_, ?_, ?_⟩
      · intro y hy
        rw [List.take_succ_cons, List.mem_cons] at hy
        rcases hy with rfl | hy
        · rw [hf]
        · exact h2 y hy
      · dsimp only; rw [h3, List.take_succ_cons, List.flatMap_cons, hf]
      · intro e; exact h4 (by simpa using e)
      · intro y hy
        rw [List.getElem?_cons_succ] at hy
        exact h5 y hy
    · refine ⟨0, by simp, by simp, ?_, by simp, ?_⟩
      · simp only [List.take_succ_cons, List.take_zero, List.flatMap_cons, List.flatMap_nil, List.append_nil, hf]
      · intro y hy
        simp only [List.getElem?_cons_zero, Option.some.injEq] at hy
        subst hy
        rw [hf]
        refine ⟨ho, ?_⟩
        cases o with
        | ok u => exact absurd rfl ho
        | err e => rfl
        | panic => rfl

/-! ## Opening, arguments -/

/-- C91. If the data do not open, none of the programs prints anything of them, and each ends with that error. -/
theorem C91_unopened (k : Constants) (hours : Nat) (ops : FloatOps G) (showF : G → Str) (o : GridOps G F) (c : Codecs F)
    (row : F × F → F → Str) (ix : Nat × Nat) (name : Str) (r : Rdr) (e : ParseError) (h : Grib2.read r = .err e) :
    findLayers k hours r = ([], .err (.grib (.parseError e))) ∧ listLayers k ops showF r = ([], .err (.grib (.parseError e))) ∧
    decodeLayer o c row ix r = ([], .err (.grib (.parseError e))) ∧
    checkFile c name r = ("processing ".toList ++ name ++ ['\n'], .err (.grib (.parseError e))) := by
  unfold findLayers listLayers decodeLayer checkFile opening
  rw [h]
  exact ⟨rfl, rfl, rfl, by dsimp only; rw [List.append_nil]⟩

/-- C91. Data on which opening panics: each of them panics, without further output. -/
theorem C91_open_panics (k : Constants) (hours : Nat) (ops : FloatOps G) (showF : G → Str) (o : GridOps G F) (c : Codecs F)
    (row : F × F → F → Str) (ix : Nat × Nat) (name : Str) (r : Rdr) (h : Grib2.read r = .panic) :
    findLayers k hours r = ([], .panic) ∧ listLayers k ops showF r = ([], .panic) ∧ decodeLayer o c row ix r = ([], .panic) ∧
    checkFile c name r = ("processing ".toList ++ name ++ ['\n'], .panic) := by
  unfold findLayers listLayers decodeLayer checkFile opening
  rw [h]
  exact ⟨rfl, rfl, rfl, by dsimp only; rw [List.append_nil]⟩

-- such data: the sample file with a section 1 that states the length 4
example : Grib2.read ⟨sampleFile.take 19 ++ [0, 0, 0, 4] ++ sampleFile.drop 23, 0, []⟩ = .panic := by decide +kernel

/-- A decimal number, possibly after a plus sign. -/
def IsNumber (s : Str) (n : Nat) : Prop := IsDecimal s n ∨ ∃ t, s = '+' :: t ∧ IsDecimal t n

theorem parseUnsigned_iff (limit : Nat) (s : Str) (n : Nat) : parseUnsigned limit s = some n ↔ IsNumber s n ∧ n < limit := by
  unfold IsNumber
  have key : ∀ t : Str, (if t ≠ [] ∧ t.all isDigit ∧ digits t < limit then some (digits t) else none) = some n ↔
      IsDecimal t n ∧ n < limit := by
    intro t
    rw [IsDecimal_iff]
    constructor
    · intro h
      split at h
      · rename_i hh; cases h; exact ⟨⟨hh.1, hh.2.1, rfl⟩, hh.2.2⟩
      · cases h
    · rintro ⟨⟨a, b, rfl⟩, c⟩
      rw [if_pos ⟨a, b, c⟩]
  unfold parseUnsigned
  dsimp only
  rw [key]
  split
  · rename_i t
    constructor
    · rintro ⟨a, b⟩; exact ⟨.inr ⟨t, rfl, a⟩, b⟩
    · rintro ⟨a | ⟨t', e, a⟩, b⟩
      · rw [IsDecimal_iff] at a; simp [isDigit] at a
      · cases e; exact ⟨a, b⟩
  · rename_i hne
    constructor
    · rintro ⟨a, b⟩; exact ⟨.inl a, b⟩
    · rintro ⟨a | ⟨t', e, a⟩, b⟩
      · exact ⟨a, b⟩
      · exact absurd e (hne t')

/-- C91. The arguments are decimal numbers, possibly after a plus sign, of 32 bits (hours) and of the size of an index; with any
other text the programs end with an error without looking at the data. -/
theorem C91_arguments (k : Constants) (o : GridOps G F) (c : Codecs F) (row : F × F → F → Str) (a b : Str) (r : Rdr) :
    (∀ n, IsNumber a n → n < 2 ^ 32 → findLayersMain k a r = findLayers k n r) ∧
    ((∀ n, IsNumber a n → 2 ^ 32 ≤ n) → findLayersMain k a r = ([], .err .number)) ∧
    (∀ i j, IsNumber a i → i < USIZE → IsNumber b j → j < USIZE → decodeLayerMain o c row a b r = decodeLayer o c row (i, j) r) ∧
    ((∀ n, IsNumber a n → USIZE ≤ n) ∨ (∀ n, IsNumber b n → USIZE ≤ n) → decodeLayerMain o c row a b r = ([], .err .number)) := by
  have bad : ∀ limit s, (∀ n, IsNumber s n → limit ≤ n) → parseUnsigned limit s = none := by
    intro limit s h
    cases hp : parseUnsigned limit s with
    | none => rfl
    | some n =>
      obtain ⟨h1, h2⟩ := (parseUnsigned_iff _ _ _).1 hp
      have := h n h1
      omega
  refine ⟨?_, ?_, ?_, ?_⟩
  · intro n h1 h2
    unfold findLayersMain
    rw [(parseUnsigned_iff _ _ _).2 ⟨h1, h2⟩]
  · intro h
    unfold findLayersMain
    rw [bad _ _ h]
  · intro i j h1 h2 h3 h4
    unfold decodeLayerMain
    rw [(parseUnsigned_iff _ _ _).2 ⟨h1, h2⟩, (parseUnsigned_iff _ _ _).2 ⟨h3, h4⟩]
  · rintro (h | h)
    · unfold decodeLayerMain
      rw [bad _ _ h]
    · unfold decodeLayerMain
      rw [bad _ _ h]
      split <;> first | rfl | (rename_i e; cases e)

/-! ### Concrete files -/

-- `fullFile` has one submessage, a parameter 4.2 six hours ahead at 100000 Pa, on the grid of `gridFile`
example : (findLayersMain noTables "+6".toList ⟨fullFile, 0, []⟩).1.take 4 = "0.0\n".toList ∧
    (findLayersMain noTables "6".toList ⟨fullFile, 0, []⟩).2 = .ok () ∧
    findLayersMain noTables "3".toList ⟨fullFile, 0, []⟩ = ([], .ok ()) ∧
    findLayersMain noTables "4294967296".toList ⟨fullFile, 0, []⟩ = ([], .err .number) := by decide +kernel

example : listLayers noTables FloatOps.exact showOpt ⟨fullFile, 0, []⟩ =
    ("code '4' is not implemented     6 [h]            100000 [Pa]\n".toList, .ok ()) := by decide +kernel

/-- The same with product definition template 4.31 (satellite products), which has neither time nor surfaces. -/
def satelliteFile : List UInt8 :=
  messagesBytes [([], fullRaw), ([], { fullRaw with first := { fullRaw.first with
    prod := [0, 0, 0, 31] ++ fullRaw.first.prod.drop 4 } })]

/-- C91. `list_layers` panics at a satellite product, which the format allows, having listed the submessages before
it. -/
theorem C91_list_satellite : listLayers noTables FloatOps.exact showOpt ⟨satelliteFile, 0, []⟩ =
    ("code '4' is not implemented     6 [h]            100000 [Pa]\n".toList, .panic) := by decide +kernel

-- `find_layers` skips it
example : (findLayers noTables 6 ⟨satelliteFile, 0, []⟩).2 = .ok () ∧
    findLayers noTables 5 ⟨satelliteFile, 0, []⟩ = ([], .ok ()) := by decide +kernel

-- a product definition that ends before the time
example : findLayers noTables 6 ⟨messagesBytes [([], cutRaw 16)], 0, []⟩ = ([], .panic) := by decide +kernel

/-- Lines of `decode_layer`. -/
def plainRow (p : Option Rat × Option Rat) (v : Option Rat) : Str :=
  showOpt p.1 ++ [' '] ++ showOpt p.2 ++ [' '] ++ showOpt v ++ ['\n']

example : decodeLayerMain exactOps exactCodecs plainRow "0".toList "0".toList ⟨gridFile, 0, []⟩ =
    ("45 10 NaN\n45 11 9\n44 10 NaN\n44 11 4\n".toList, .ok ()) ∧
    decodeLayerMain exactOps exactCodecs plainRow "0".toList "1".toList ⟨gridFile, 0, []⟩ = ([], .err .noSuchIndex) ∧
    decodeLayerMain exactOps exactCodecs plainRow "0".toList "-1".toList ⟨gridFile, 0, []⟩ = ([], .err .number) := by
  decide +kernel

-- a bitmap that asks for more values than are packed: the lines before are printed
example : Pulled FloatOps.exact ⟨[0b10110000], [.ok (some 9), .panic], 4, 0⟩ [some 9, none] true :=
  .more rfl (.more rfl (.panic rfl))

example : checkFiles exactCodecs [("a".toList, ⟨gridFile, 0, []⟩), ("b".toList, ⟨packedFile, 0, []⟩), ("c".toList, ⟨gridFile, 0, []⟩)] =
    ("processing a\n  0.0 (0/1)\nprocessing b\n  0.0 (0/5)\n".toList, .panic) ∧
    checkFile exactCodecs "e".toList ⟨[], 0, []⟩ = ("processing e\n".toList, .err .empty) := by decide +kernel

end Grib.Examples
