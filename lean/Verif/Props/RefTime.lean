import Verif.Props.Headers
import Verif.Model.Calendar
import Verif.Spec.Calendar

/-! # C58: the reference time -/

namespace Grib.Props

open Grib.Model Grib.Spec

theorem isLeapYear_eq (y : Nat) : isLeapYear y = leapYear y := by
  simp only [isLeapYear, leapYear]
  rcases h4 : (y % 4 == 0) with _ | _ <;> rcases h1 : (y % 100 == 0) with _ | _ <;> rcases h5 : (y % 400 == 0) with _ | _ <;>
    simp_all [bne] <;> omega

/-- A clock shows a valid date and time. -/
def ClockOk (c : Clock) : Prop :=
  1 ≤ c.month ∧ c.month ≤ 12 ∧ 1 ≤ c.day ∧ c.day ≤ monthDays c.year c.month ∧ c.hour < 24 ∧ c.minute < 60 ∧ c.second < 60

instance (c : Clock) : Decidable (ClockOk c) := by unfold ClockOk; infer_instance

/-- Seconds from the first moment. -/
def secondsOf (c : Clock) : Nat :=
  (daysBeforeYear c.year + daysBeforeMonth (isLeapYear c.year) c.month + (c.day - 1)) * 86400 + c.hour * 3600 + c.minute * 60 + c.second

theorem daysBeforeMonth_succ (y m : Nat) (h1 : 1 ≤ m) (h2 : m ≤ 12) :
    daysBeforeMonth (isLeapYear y) (m + 1) = daysBeforeMonth (isLeapYear y) m + monthDays y m := by
  rw [isLeapYear_eq]
  have : m = 1 ∨ m = 2 ∨ m = 3 ∨ m = 4 ∨ m = 5 ∨ m = 6 ∨ m = 7 ∨ m = 8 ∨ m = 9 ∨ m = 10 ∨ m = 11 ∨ m = 12 := by omega
  simp only [monthDays]
  cases leapYear y <;> rcases this with h | h | h | h | h | h | h | h | h | h | h | h <;> subst h <;> rfl

theorem daysBeforeYear_succ (y : Nat) :
    daysBeforeYear (y + 1) = daysBeforeYear y + daysBeforeMonth (isLeapYear y) 13 := by
  have e : daysBeforeMonth (isLeapYear y) 13 = if isLeapYear y then 366 else 365 := by cases isLeapYear y <;> rfl
  rw [e]
  have hl : isLeapYear y = true ↔ (y % 4 = 0 ∧ y % 100 ≠ 0) ∨ y % 400 = 0 := by simp [isLeapYear]
  unfold daysBeforeYear
  rw [if_neg (by omega)]
  by_cases h0 : y = 0
  · subst h0; decide
  · rw [if_neg h0]
    have a4 : y / 4 = (y - 1) / 4 + (if y % 4 = 0 then 1 else 0) := by split <;> omega
    have a100 : y / 100 = (y - 1) / 100 + (if y % 100 = 0 then 1 else 0) := by split <;> omega
    have a400 : y / 400 = (y - 1) / 400 + (if y % 400 = 0 then 1 else 0) := by split <;> omega
    have b1 : y % 400 = 0 → y % 100 = 0 := by omega
    have b2 : y % 100 = 0 → y % 4 = 0 := by omega
    have b3 : (y - 1) / 100 ≤ (y - 1) / 4 := by omega
    simp only [Nat.add_sub_cancel]
    generalize (y - 1) / 4 = p at *
    generalize (y - 1) / 100 = q at *
    generalize (y - 1) / 400 = r at *
    rw [a4, a100, a400]
    by_cases h : isLeapYear y = true
    · rw [if_pos h]; rw [hl] at h
      rcases h with ⟨h, h'⟩ | h
      · rw [if_pos h, if_neg h', if_neg (fun x => h' (b1 x))]; omega
      · rw [if_pos h, if_pos (b1 h), if_pos (b2 (b1 h))]; omega
    · rw [if_neg h]; rw [hl] at h
      by_cases h4 : y % 4 = 0
      · have h1 : y % 100 = 0 := by
          by_cases hx : y % 100 = 0
          · exact hx
          · exact absurd (Or.inl ⟨h4, hx⟩) h
        rw [if_pos h4, if_pos h1, if_neg (fun x => h (Or.inr x))]; omega
      · rw [if_neg h4, if_neg (fun x => h4 (b2 x)), if_neg (fun x => h4 (b2 (b1 x)))]; omega

theorem daysBeforeMonth_mono (l : Bool) (m m' : Nat) (h1 : 1 ≤ m) (h : m ≤ m') (h2 : m' ≤ 13) :
    daysBeforeMonth l m ≤ daysBeforeMonth l m' := by
  have a : ∀ m, 1 ≤ m → m ≤ 12 → daysBeforeMonth l m ≤ daysBeforeMonth l (m + 1) := by
    intro m h1 h2
    have : m = 1 ∨ m = 2 ∨ m = 3 ∨ m = 4 ∨ m = 5 ∨ m = 6 ∨ m = 7 ∨ m = 8 ∨ m = 9 ∨ m = 10 ∨ m = 11 ∨ m = 12 := by omega
    cases l <;> rcases this with h | h | h | h | h | h | h | h | h | h | h | h <;> subst h <;> decide
  induction m' with
  | zero => omega
  | succ n ih =>
    rcases Nat.lt_or_ge m (n + 1) with hlt | hge
    · exact Nat.le_trans (ih (by omega) (by omega)) (a n (by omega) (by omega))
    · have : m = n + 1 := by omega
      rw [this]; exact Nat.le_refl _

theorem daysBeforeYear_mono (y y' : Nat) (h : y ≤ y') : daysBeforeYear y ≤ daysBeforeYear y' := by
  induction y' with
  | zero => have : y = 0 := by omega
            rw [this]; exact Nat.le_refl _
  | succ n ih =>
    rcases Nat.lt_or_ge y (n + 1) with hlt | hge
    · have := ih (by omega); rw [daysBeforeYear_succ]; omega
    · have : y = n + 1 := by omega
      rw [this]; exact Nat.le_refl _

theorem clockOk_start : ClockOk Clock.start := by decide

theorem monthDays_pos (y m : Nat) : 28 ≤ monthDays y m := by
  unfold monthDays
  split
  · split <;> omega
  · split <;> omega

theorem tick_ok (c : Clock) (h : ClockOk c) : ClockOk c.tick ∧ secondsOf c.tick = secondsOf c + 1 := by
  obtain ⟨h1, h2, h3, h4, h5, h6, h7⟩ := h
  unfold Clock.tick
  split
  · refine ⟨⟨h1, h2, h3, h4, h5, h6, by dsimp only; omega⟩, ?_⟩
    simp only [secondsOf]; omega
  split
  · refine ⟨⟨h1, h2, h3, h4, h5, by dsimp only; omega, by dsimp only; omega⟩, ?_⟩
    simp only [secondsOf]; omega
  split
  · refine ⟨⟨h1, h2, h3, h4, by dsimp only; omega, by dsimp only; omega, by dsimp only; omega⟩, ?_⟩
    simp only [secondsOf]; omega
  unfold Clock.nextDay
  split
  · refine ⟨⟨h1, h2, by dsimp only; omega, by dsimp only; omega, by dsimp only; omega, by dsimp only; omega, by dsimp only; omega⟩, ?_⟩
    simp only [secondsOf]; omega
  split
  · have hp := monthDays_pos c.year (c.month + 1)
    refine ⟨⟨by dsimp only; omega, by dsimp only; omega, by dsimp only; omega, by dsimp only; omega, by dsimp only; omega,
      by dsimp only; omega, by dsimp only; omega⟩, ?_⟩
    have := daysBeforeMonth_succ c.year c.month h1 h2
    simp only [secondsOf]; omega
  · have hp := monthDays_pos (c.year + 1) 1
    refine ⟨⟨by dsimp only; omega, by dsimp only; omega, by dsimp only; omega, by dsimp only; omega, by dsimp only; omega,
      by dsimp only; omega, by dsimp only; omega⟩, ?_⟩
    have e := daysBeforeMonth_succ c.year c.month h1 h2
    have e2 := daysBeforeYear_succ c.year
    have e3 : ∀ l, daysBeforeMonth l 1 = 0 := by intro l; cases l <;> rfl
    have hm : c.month = 12 := by omega
    simp only [hm] at e h4
    rw [show (12 : Nat) + 1 = 13 from rfl] at e
    have h59 : c.second = 59 ∧ c.minute = 59 ∧ c.hour = 23 := by omega
    have hd : c.day = monthDays c.year 12 := by simp only [hm] at *; omega
    simp only [secondsOf, e3, hm]
    omega

theorem after_ok (n : Nat) : ClockOk (Clock.after n) ∧ secondsOf (Clock.after n) = n := by
  induction n with
  | zero => exact ⟨clockOk_start, by decide⟩
  | succ n ih =>
    have := tick_ok _ ih.1
    exact ⟨this.1, by rw [Clock.after, this.2, ih.2]⟩

/-- Fields in the order year, month, day, hour, minute, second, compared as in a dictionary. -/
def Earlier (a b : Clock) : Prop :=
  a.year < b.year ∨ (a.year = b.year ∧ (a.month < b.month ∨ (a.month = b.month ∧ (a.day < b.day ∨ (a.day = b.day ∧
    (a.hour < b.hour ∨ (a.hour = b.hour ∧ (a.minute < b.minute ∨ (a.minute = b.minute ∧ a.second < b.second)))))))))

theorem earlier_lt (a b : Clock) (ha : ClockOk a) (hb : ClockOk b) (h : Earlier a b) : secondsOf a < secondsOf b := by
  obtain ⟨a1, a2, a3, a4, a5, a6, a7⟩ := ha
  obtain ⟨b1, b2, b3, b4, b5, b6, b7⟩ := hb
  have ea := daysBeforeMonth_succ a.year a.month a1 a2
  have ya := daysBeforeYear_succ a.year
  have ma := daysBeforeMonth_mono (isLeapYear a.year) (a.month + 1) 13 (by omega) (by omega) (by omega)
  rcases h with h | ⟨h, h'⟩
  · have := daysBeforeYear_mono (a.year + 1) b.year (by omega)
    simp only [secondsOf]; omega
  · rcases h' with h' | ⟨h', h''⟩
    · have := daysBeforeMonth_mono (isLeapYear a.year) (a.month + 1) b.month (by omega) (by omega) (by omega)
      simp only [secondsOf, ← h]; omega
    · simp only [secondsOf, ← h, ← h']
      omega

theorem earlier_total (a b : Clock) : a = b ∨ Earlier a b ∨ Earlier b a := by
  obtain ⟨a1, a2, a3, a4, a5, a6⟩ := a
  obtain ⟨b1, b2, b3, b4, b5, b6⟩ := b
  simp only [Earlier, Clock.mk.injEq]
  omega

theorem secondsOf_inj (a b : Clock) (ha : ClockOk a) (hb : ClockOk b) (h : secondsOf a = secondsOf b) : a = b := by
  rcases earlier_total a b with e | e | e
  · exact e
  · have := earlier_lt a b ha hb e; omega
  · have := earlier_lt b a hb ha e; omega

/-- The valid dates and times are the ones the clock shows at some time. -/
theorem clockOk_iff (c : Clock) : ClockOk c ↔ ∃ n, Clock.after n = c := by
  constructor
  · intro h
    exact ⟨secondsOf c, secondsOf_inj _ _ (after_ok _).1 h (after_ok _).2⟩
  · rintro ⟨n, rfl⟩; exact (after_ok n).1

theorem createDateTime_eq (c : Clock) :
    createDateTime c.year c.month c.day c.hour c.minute c.second =
      if ClockOk c then .ok ⟨(secondsOf c : Int) - 719528 * 86400⟩ else .err .invalidValueError := by
  unfold createDateTime withYmdAndHms dayNumber secondOfDay
  by_cases hm : 1 ≤ c.month ∧ c.month ≤ 12
  · rw [daysBeforeMonth_succ c.year c.month hm.1 hm.2]
    by_cases h : ClockOk c
    · obtain ⟨h1, h2, h3, h4, h5, h6, h7⟩ := h
      rw [if_pos ⟨h1, h2, h3, by omega⟩, if_pos ⟨h5, h6, h7⟩, if_pos ⟨h1, h2, h3, h4, h5, h6, h7⟩]
      have e : ∀ a b : Nat, a = b → (⟨(a : Int) - 719528 * 86400⟩ : DateTime) = ⟨(b : Int) - 719528 * 86400⟩ := by
        intro a b hab; rw [hab]
      have := e ((daysBeforeYear c.year + daysBeforeMonth (isLeapYear c.year) c.month + (c.day - 1)) * 86400 +
        (c.hour * 3600 + c.minute * 60 + c.second)) (secondsOf c) (by unfold secondsOf; omega)
      rw [← this]
      dsimp only
      simp only [Int.natCast_add, Int.natCast_mul]
      rfl
    · rw [if_neg h]
      by_cases hd : 1 ≤ c.day ∧ c.day ≤ monthDays c.year c.month
      · have : ¬ (c.hour < 24 ∧ c.minute < 60 ∧ c.second < 60) := fun hx => h ⟨hm.1, hm.2, hd.1, hd.2, hx.1, hx.2.1, hx.2.2⟩
        rw [if_neg this]
        split <;> simp_all
      · rw [if_neg (by omega)]
  · rw [if_neg (show ¬ ClockOk c from fun h => hm ⟨h.1, h.2.1⟩), if_neg (fun h => hm ⟨h.1, h.2.1⟩)]

/-- The date and time in octets 13-19 of section 1 (WMO). -/
def storedTime (data : List UInt8) (s : SectionInfo) : Clock :=
  ⟨field data s.offset 13 14, field data s.offset 15 15, field data s.offset 16 16, field data s.offset 17 17,
    field data s.offset 18 18, field data s.offset 19 19⟩

theorem refTime_eq (data : List UInt8) (s : SectionInfo) (h : Faithful data s) (hn : s.num = 1) :
    ∃ i : Identification, s.body = some (.section1 i.payload) ∧
      i.refTime = createDateTime (storedTime data s).year (storedTime data s).month (storedTime data s).day
        (storedTime data s).hour (storedTime data s).minute (storedTime data s).second := by
  obtain ⟨h1, h2, h3⟩ := faithful_payload h (by omega) (by omega)
  have hb := h.body
  rw [hn] at hb h3
  simp only [BodyAt, minPayload] at hb h3
  refine ⟨⟨payloadAt data s.offset s.size⟩, hb, ?_⟩
  simp only [Identification.refTime, rdIdx_payload h1 h2, rdAs_payload (len := 2) h1 h2 (by omega)]
  simp only [
    if_pos (show 7 + 2 + 5 ≤ s.size by omega), if_pos (show 9 + 6 ≤ s.size by omega), if_pos (show 10 + 6 ≤ s.size by omega),
    if_pos (show 11 + 6 ≤ s.size by omega), if_pos (show 12 + 6 ≤ s.size by omega), if_pos (show 13 + 6 ≤ s.size by omega),
    Outcome.bind_ok, storedTime]

/-- C58: the reference time is an error exactly when the stored fields are no date and time of the calendar, and otherwise
the instant at which the calendar clock shows these fields (719528 days from its start to 1970-01-01); it never panics. -/
theorem C58_ref_time (data : List UInt8) (s : SectionInfo) (h : Faithful data s) (hn : s.num = 1) :
    ∃ i : Identification, s.body = some (.section1 i.payload) ∧
      (∀ n : Nat, Clock.after n = storedTime data s → i.refTime = .ok ⟨(n : Int) - 719528 * 86400⟩) ∧
      ((¬ ∃ n : Nat, Clock.after n = storedTime data s) → i.refTime = .err .invalidValueError) := by
  obtain ⟨i, hi, e⟩ := refTime_eq data s h hn
  refine ⟨i, hi, ?_, ?_⟩
  · intro n hc
    rw [e, createDateTime_eq, ← hc, if_pos (after_ok n).1, (after_ok n).2]
  · intro hc
    rw [e, createDateTime_eq, if_neg]
    rwa [clockOk_iff]

/-- C58: reference times are ordered like their fields, read from the year to the second; in particular equal instants have
equal fields. -/
theorem C58_order (data : List UInt8) (s s' : SectionInfo) (h : Faithful data s) (hn : s.num = 1) (h' : Faithful data s')
    (hn' : s'.num = 1) (i i' : Identification) (hi : s.body = some (.section1 i.payload))
    (hi' : s'.body = some (.section1 i'.payload)) (t t' : DateTime) (ht : i.refTime = .ok t) (ht' : i'.refTime = .ok t') :
    (t.timestamp < t'.timestamp ↔ Earlier (storedTime data s) (storedTime data s')) ∧
    (t = t' ↔ storedTime data s = storedTime data s') := by
  obtain ⟨j, hj, e⟩ := refTime_eq data s h hn
  obtain ⟨j', hj', e'⟩ := refTime_eq data s' h' hn'
  have q : i = j := by
    rw [hi] at hj; injection hj with hj; injection hj with hj; cases i; cases j; simp_all
  have q' : i' = j' := by
    rw [hi'] at hj'; injection hj' with hj'; injection hj' with hj'; cases i'; cases j'; simp_all
  subst q q'
  rw [createDateTime_eq, ht] at e
  rw [createDateTime_eq, ht'] at e'
  by_cases c : ClockOk (storedTime data s)
  · by_cases c' : ClockOk (storedTime data s')
    · rw [if_pos c] at e; rw [if_pos c'] at e'
      injection e with e; injection e' with e'
      subst e e'
      have key : Earlier (storedTime data s) (storedTime data s') ↔ secondsOf (storedTime data s) < secondsOf (storedTime data s') := by
        constructor
        · exact earlier_lt _ _ c c'
        · intro hl
          rcases earlier_total (storedTime data s) (storedTime data s') with x | x | x
          · rw [x] at hl; omega
          · exact x
          · have := earlier_lt _ _ c' c x; omega
      refine ⟨?_, ?_, ?_⟩
      · rw [key]; simp only; omega
      · intro hx
        injection hx with hx
        exact secondsOf_inj _ _ c c' (by omega)
      · intro hx; rw [hx]
    · rw [if_neg c'] at e'; simp at e'
  · rw [if_neg c] at e; simp at e

/-- C58, for every submessage a loop over an opened file yields: its reference time is decided by octets 13-19 of its own
section 1. -/
theorem C58_submessage (r : Rdr) (g : Grib2) (h : Grib2.read r = .ok g) (ix : Nat × Nat) (m : SubMessage)
    (hm : (ix, m) ∈ SubIter.drain (g.len + 1) g.iter) :
    m.s1.2.num = 1 ∧ Faithful r.data m.s1.2 ∧
    ∃ i : Identification, (m.identification : Outcome GribError Identification) = .ok i ∧
      (∀ n : Nat, Clock.after n = storedTime r.data m.s1.2 → i.refTime = .ok ⟨(n : Int) - 719528 * 86400⟩) ∧
      ((¬ ∃ n : Nat, Clock.after n = storedTime r.data m.s1.2) → i.refTime = .err .invalidValueError) := by
  obtain ⟨-, a1, -, -, -, hk⟩ := C17_accessors r g h ix m hm (ε := GribError)
  obtain ⟨k1, -, k3⟩ := hk (m.s1, 1) (by simp)
  obtain ⟨j, hj, e⟩ := C58_ref_time r.data m.s1.2 k3 k1
  have hb := k3.body
  rw [k1] at hb
  simp only [BodyAt] at hb
  rw [hb] at hj
  injection hj with hj; injection hj with hj
  refine ⟨k1, k3, ⟨payloadAt r.data m.s1.2.offset m.s1.2.size⟩, a1, ?_⟩
  have hj' : (⟨payloadAt r.data m.s1.2.offset m.s1.2.size⟩ : Identification) = j := by cases j; simp_all [payloadAt]
  rw [hj']
  exact e

/-- The theorems apply to the four submessages of the sample file; each has the reference time 2020-01-02 03:04:05. -/
example : ∃ g, Grib2.read ⟨messagesBytes sampleMessagesFile, 0, []⟩ = .ok g ∧
    (SubIter.drain (g.len + 1) g.iter).map (fun x => (x.2.identification : Outcome GribError Identification) >>= fun i => i.refTime) = List.replicate 4 (.ok ⟨1577934245⟩) := by
  obtain ⟨g, h1, h2⟩ := Outcome.exists_of_ok? (x := Grib2.read ⟨messagesBytes sampleMessagesFile, 0, []⟩)
    (f := fun (g : Grib2) => (SubIter.drain (g.len + 1) g.iter).map (fun x => (x.2.identification : Outcome GribError Identification) >>= fun i => i.refTime))
    (b := List.replicate 4 (.ok ⟨1577934245⟩)) (by decide +kernel)
  exact ⟨g, h1, h2⟩

/-- The calendar clock shows the unix epoch after 719528 days, 29 February 2024 exists and 29 February 2100 does not. -/
example : secondsOf ⟨1970, 1, 1, 0, 0, 0⟩ = 719528 * 86400 := by decide
example : createDateTime 2024 2 29 12 30 59 = .ok ⟨1709209859⟩ := by decide
example : createDateTime 2100 2 29 12 30 59 = .err .invalidValueError := by decide
example : createDateTime 2024 12 31 23 59 60 = .err .invalidValueError := by decide

end Grib.Props
