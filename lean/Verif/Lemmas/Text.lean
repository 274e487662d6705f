import Verif.Spec.Table
import Verif.Model.CodeTables

/-! # Lemmas: decimal numbers -/

namespace Grib
open Text Spec

theorem isDigit_iff (c : Char) : isDigit c = true ↔ ∃ d < 10, c = Char.ofNat (48 + d) := by
  constructor
  · intro h
    simp only [isDigit, Bool.and_eq_true, decide_eq_true_eq, Char.le_def, UInt32.le_iff_toNat_le] at h
    have h0 : ('0' : Char).val.toNat = 48 := rfl
    have h9 : ('9' : Char).val.toNat = 57 := rfl
    rw [h0, h9] at h
    refine ⟨c.toNat - 48, ?_, ?_⟩
    · have : c.toNat = c.val.toNat := rfl
      omega
    · have : c.toNat = c.val.toNat := rfl
      have h2 : 48 + (c.toNat - 48) = c.toNat := by omega
      rw [h2, Char.ofNat_toNat]
  · rintro ⟨d, hd, rfl⟩
    have : ∀ d < 10, isDigit (Char.ofNat (48 + d)) = true := by decide
    exact this d hd

theorem digit_ofNat {d : Nat} (h : d < 10) : digit (Char.ofNat (48 + d)) = d := by
  have : ∀ d < 10, digit (Char.ofNat (48 + d)) = d := by decide
  exact this d h

theorem digits_append (s : Str) (c : Char) : digits (s ++ [c]) = digits s * 10 + digit c := by
  simp [digits, List.foldl_append]

theorem IsDecimal_iff (s : Str) (n : Nat) :
    IsDecimal s n ↔ s ≠ [] ∧ s.all isDigit = true ∧ digits s = n := by
  constructor
  · intro h
    induction h with
    | one d h =>
      refine ⟨by simp, ?_, ?_⟩
      · simp only [List.all_cons, List.all_nil, Bool.and_true]
        exact (isDigit_iff _).2 ⟨d, h, rfl⟩
      · simp [digits, digit_ofNat h]
    | more s n d hs h ih =>
      obtain ⟨h1, h2, h3⟩ := ih
      refine ⟨by simp, ?_, ?_⟩
      · rw [List.all_append, h2]
        simp only [List.all_cons, List.all_nil, Bool.and_true, Bool.true_and]
        exact (isDigit_iff _).2 ⟨d, h, rfl⟩
      · rw [digits_append, digit_ofNat h, h3]; omega
  · rintro ⟨h1, h2, rfl⟩
    suffices H : ∀ k, ∀ s : Str, s.length = k → s ≠ [] → s.all isDigit = true → IsDecimal s (digits s) from
      H _ s rfl h1 h2
    clear h1 h2 s
    intro k
    induction k with
    | zero => intro s hl h1; exact absurd (List.length_eq_zero_iff.1 hl) h1
    | succ k ih =>
      intro s hl h1 h2
      rcases List.eq_nil_or_concat s with rfl | ⟨s, c, rfl⟩
      · exact absurd rfl h1
      have ih := ih s (by simpa using hl)
      rw [List.concat_eq_append] at *
      rw [List.all_append] at h2
      simp only [List.all_cons, List.all_nil, Bool.and_true, Bool.and_eq_true] at h2
      obtain ⟨d, hd, rfl⟩ := (isDigit_iff _).1 h2.2
      rw [digits_append, digit_ofNat hd]
      by_cases hs : s = []
      · subst hs
        simpa [digits] using IsDecimal.one d hd
      · have := IsDecimal.more s (digits s) d (ih hs h2.1) hd
        rwa [Nat.mul_comm] at this

theorem parseUnsigned_digits {limit : Nat} {s : Str} (h : s.all isDigit = true) :
    parseUnsigned limit s = if s ≠ [] ∧ digits s < limit then some (digits s) else none := by
  unfold parseUnsigned
  split
  · simp [isDigit] at h
  · simp [h]

theorem _root_.Grib.Spec.IsDecimal.parse {limit : Nat} {s : Str} {n : Nat} (h : IsDecimal s n) (hn : n < limit) :
    parseUnsigned limit s = some n := by
  obtain ⟨h1, h2, rfl⟩ := (IsDecimal_iff s n).1 h
  rw [parseUnsigned_digits h2, if_pos ⟨h1, hn⟩]

theorem _root_.Grib.Spec.IsDecimal.unique {s : Str} {n m : Nat} (h : IsDecimal s n) (h' : IsDecimal s m) : n = m := by
  obtain ⟨_, _, rfl⟩ := (IsDecimal_iff s n).1 h
  obtain ⟨_, _, rfl⟩ := (IsDecimal_iff s m).1 h'
  rfl

theorem showNat_decimal (n : Nat) : IsDecimal (showNat n) n := by
  unfold showNat
  induction n using Nat.strongRecOn with
  | _ n ih =>
    by_cases h : n < 10
    · have h1 : Nat.toDigits 10 n = [Char.ofNat (48 + n)] := by
        have : ∀ n < 10, Nat.toDigits 10 n = [Char.ofNat (48 + n)] := by decide
        exact this n h
      rw [h1]; exact .one n h
    · have h1 : Nat.toDigits 10 n = Nat.toDigits 10 (n / 10) ++ [Char.ofNat (48 + n % 10)] := by
        rw [Nat.toDigits_of_base_le (by omega) (by omega)]
        congr 1
        have : ∀ d < 10, [Nat.digitChar d] = [Char.ofNat (48 + d)] := by decide
        exact this _ (Nat.mod_lt _ (by omega))
      rw [h1]
      have := IsDecimal.more _ _ (n % 10) (ih (n / 10) (by omega)) (Nat.mod_lt _ (by omega))
      rwa [show 10 * (n / 10) + n % 10 = n by omega] at this

theorem showNat_inj {n m : Nat} (h : showNat n = showNat m) : n = m :=
  (showNat_decimal n).unique (h ▸ showNat_decimal m)

theorem parse_showNat {limit n : Nat} (h : n < limit) : parseUnsigned limit (showNat n) = some n :=
  (showNat_decimal n).parse h

theorem NoDigitFirst_iff (s : Str) : NoDigitFirst s ↔ ∀ c, s.head? = some c → isDigit c = false := by
  constructor
  · intro h c hc
    cases hd : isDigit c with
    | false => rfl
    | true =>
      obtain ⟨d, h1, rfl⟩ := (isDigit_iff c).1 hd
      exact absurd hc (h d h1)
  · intro h d hd hc
    have := h _ hc
    rw [(isDigit_iff _).2 ⟨d, hd, rfl⟩] at this
    cases this

theorem takeWhile_digits {s rest : Str} (h : s.all isDigit = true) (hr : NoDigitFirst rest) :
    (s ++ rest).takeWhile isDigit = s ∧ (s ++ rest).dropWhile isDigit = rest := by
  induction s with
  | nil =>
    cases rest with
    | nil => simp
    | cons c r =>
      have := (NoDigitFirst_iff _).1 hr c rfl
      simp [List.takeWhile_cons, List.dropWhile_cons, this]
  | cons c s ih =>
    simp only [List.all_cons, Bool.and_eq_true] at h
    have := ih h.2
    simp [List.takeWhile_cons, List.dropWhile_cons, h.1, this]

theorem takeWhile_all (s : Str) : (s.takeWhile isDigit).all isDigit = true := by
  induction s with
  | nil => rfl
  | cons c s ih =>
    rw [List.takeWhile_cons]; split <;> simp_all

theorem dropWhile_noDigit (s : Str) : NoDigitFirst (s.dropWhile isDigit) := by
  rw [NoDigitFirst_iff]
  induction s with
  | nil => simp
  | cons c s ih =>
    rw [List.dropWhile_cons]; split
    · exact ih
    · intro d hd; simp at hd; subst hd; simp_all

theorem readNumber_ok {s rest : Str} {n : Nat} :
    Gen.readNumber s = .ok (n, rest) ↔
      ∃ ds, s = ds ++ rest ∧ IsDecimal ds n ∧ n < 2 ^ 64 ∧ NoDigitFirst rest := by
  unfold Gen.readNumber
  rw [parseUnsigned_digits (takeWhile_all s)]
  constructor
  · intro h
    by_cases hc : s.takeWhile isDigit ≠ [] ∧ digits (s.takeWhile isDigit) < USIZE
    · rw [if_pos hc] at h
      simp only [Except.ok.injEq, Prod.mk.injEq] at h
      obtain ⟨rfl, rfl⟩ := h
      exact ⟨_, (List.takeWhile_append_dropWhile).symm,
        (IsDecimal_iff _ _).2 ⟨hc.1, takeWhile_all s, rfl⟩, hc.2, dropWhile_noDigit s⟩
    · rw [if_neg hc] at h; cases h
  · rintro ⟨ds, rfl, h1, h2, h3⟩
    obtain ⟨h4, h5, rfl⟩ := (IsDecimal_iff _ _).1 h1
    obtain ⟨h6, h7⟩ := takeWhile_digits h5 h3
    rw [h6, h7, if_pos ⟨h4, h2⟩]

theorem noDigit_nil : NoDigitFirst [] := by simp [NoDigitFirst]

theorem noDigit_hyphen (s : Str) : NoDigitFirst ('-' :: s) := by
  rw [NoDigitFirst_iff]; simp; decide

/-- The code column is read exactly as `Spec.Lists` says. -/
theorem parse_iff (s : Str) (r : Gen.CodeRange) :
    Gen.CodeRange.parse s = .ok r ↔ Lists s r.start r.stop := by
  constructor
  · intro h
    unfold Gen.CodeRange.parse at h
    cases h1 : Gen.readNumber s with
    | error e => rw [h1] at h; cases h
    | ok p =>
      obtain ⟨a, rest⟩ := p
      rw [h1] at h
      dsimp only at h
      obtain ⟨ds, rfl, hd, ha, hn⟩ := readNumber_ok.1 h1
      by_cases hr : rest = []
      · subst hr
        rw [if_pos rfl] at h
        cases h
        rw [List.append_nil]
        exact .single _ _ hd ha
      · rw [if_neg hr] at h
        cases rest with
        | nil => exact absurd rfl hr
        | cons c rest =>
          by_cases hc : c = '-'
          · subst hc
            simp only [Gen.readHyphen] at h
            cases h2 : Gen.readNumber rest with
            | error e => rw [h2] at h; cases h
            | ok p =>
              obtain ⟨b, rest'⟩ := p
              rw [h2] at h
              cases h
              obtain ⟨es, rfl, he, hb, hn'⟩ := readNumber_ok.1 h2
              have := Lists.range ds es rest' a b hd ha he hb hn'
              simpa using this
          · have : Gen.readHyphen (c :: rest) = .error .hyphenNotFound := by
              unfold Gen.readHyphen; split
              · simp_all
              · rfl
            rw [this] at h; cases h
  · obtain ⟨a, b⟩ := r
    intro h
    dsimp only at h
    unfold Gen.CodeRange.parse
    cases h with
    | single _ _ h ha =>
      have := readNumber_ok.2 ⟨s, (List.append_nil s).symm, h, ha, noDigit_nil⟩
      rw [this]; simp
    | range s t rest _ _ hs ha ht hb hr =>
      have h1 : Gen.readNumber (s ++ '-' :: t ++ rest) = .ok (a, '-' :: t ++ rest) :=
        readNumber_ok.2 ⟨s, by simp, hs, ha, noDigit_hyphen _⟩
      have h2 : Gen.readNumber (t ++ rest) = .ok (b, rest) := readNumber_ok.2 ⟨t, rfl, ht, hb, hr⟩
      rw [h1]
      simp [Gen.readHyphen, h2]

theorem parse_error {s : Str} {e : Gen.CodeRangeParseError} (h : Gen.CodeRange.parse s = .error e) :
    ¬ ∃ a b, Lists s a b := by
  rintro ⟨a, b, hl⟩
  rw [(parse_iff s ⟨a, b⟩).2 hl] at h
  cases h

theorem noEntry_iff (t : Str) : Gen.noEntry t = false ↔ Describes t := by
  have key : ∀ s : String, (t = s.toList) ↔ (String.ofList t = s) := by
    intro s
    constructor
    · rintro rfl; simp
    · rintro rfl; simp
  simp only [Gen.noEntry, Describes, placeholders, Bool.or_eq_false_iff, decide_eq_false_iff_not, key,
    List.mem_cons, List.not_mem_nil, or_false, not_or, and_assoc]

theorem _root_.Grib.Spec.Lists.unique {s : Str} {a b a' b' : Nat} (h : Lists s a b) (h' : Lists s a' b') : a = a' ∧ b = b' := by
  have h1 := (parse_iff s ⟨a, b⟩).2 h
  have h2 := (parse_iff s ⟨a', b'⟩).2 h'
  rw [h1] at h2
  cases h2; exact ⟨rfl, rfl⟩

end Grib
