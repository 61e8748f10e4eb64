import Verif.Lemmas.DateTime
/-!
C21, C22: dates, serial numbers and Unix timestamps.
-/
namespace Verif
open Spec

private theorem leap_1900 : isLeapYear 1900 = false := by decide

theorem validate_iff (d : YMD) : validateYmd d = true ↔
    (RealDate d ∧ 1900 ≤ d.year ∧ d.year ≤ 9999) ∨ d = ⟨1899, 12, 31⟩ ∨ d = ⟨1900, 2, 29⟩ := by
  rcases d with ⟨y, m, dd⟩
  unfold validateYmd
  simp only
  by_cases h1 : (y > 9999 || (y < 1900 && (y != 1899 || m != 12 || dd != 31))) = true
  · rw [if_pos h1]
    simp only [Bool.or_eq_true, Bool.and_eq_true, decide_eq_true_eq, bne_iff_ne, gt_iff_lt] at h1
    simp only [Bool.false_eq_true, YMD.mk.injEq, false_iff]
    rintro (⟨_, h⟩ | h | h) <;> omega
  · rw [if_neg h1]
    simp only [Bool.or_eq_true, Bool.and_eq_true, decide_eq_true_eq, bne_iff_ne, gt_iff_lt] at h1
    by_cases h2 : (!(1 ≤ m && m ≤ 12)) = true
    · rw [if_pos h2]
      simp only [Bool.not_eq_true', Bool.and_eq_false_iff, decide_eq_false_iff_not] at h2
      simp only [Bool.false_eq_true, YMD.mk.injEq, false_iff, RealDate]
      rintro (⟨⟨_, _, _⟩, h⟩ | h | h) <;> omega
    · rw [if_neg h2]
      have hm : 1 ≤ m ∧ m ≤ 12 := by
        simp only [Bool.not_eq_true, Bool.not_eq_false', Bool.and_eq_true, decide_eq_true_eq] at h2
        exact h2
      by_cases hy : y = 1900
      · subst hy
        have e : (isLeapYear 1900 || (1900 : Nat) == 1900) = true := by decide
        simp only [e]
        by_cases hf : m = 2
        · subst hf
          simp [monthsArr, RealDate, daysIn, Leap]; omega
        · have : (monthsArr true).getD (m - 1) 0 = daysIn 1900 m := by
            have := monthsArr_getD 1900 m hm.1 hm.2
            rw [← this]
            rcases month_cases hm.1 hm.2 with h|h|h|h|h|h|h|h|h|h|h|h <;> subst h <;>
              first | rfl | omega
          rw [this]
          simp [RealDate]; omega
      · have e : (isLeapYear y || y == 1900) = isLeapYear y := by simp [hy]
        simp only [e, monthsArr_getD y m hm.1 hm.2]
        by_cases hy2 : y = 1899
        · subst hy2
          have hx : m = 12 ∧ dd = 31 := by omega
          obtain ⟨rfl, rfl⟩ := hx
          simp [daysIn]
        · simp [RealDate]; omega

/-- C21: every date reached by counting `n` days forward from 1899-12-31 up to 9999-12-31 is
accepted, and its serial number is `n`, or `n + 1` from 1900-03-01 (day 60) on. -/
theorem C21_serial_counts_days (n : Nat)
    (h : (times tomorrow n ⟨1899, 12, 31⟩).year ≤ 9999) :
    validateYmd (times tomorrow n ⟨1899, 12, 31⟩) = true ∧
    serialDays (times tomorrow n ⟨1899, 12, 31⟩) false = some (if 60 ≤ n then n + 1 else n) := by
  obtain ⟨a, b, c⟩ := times_tomorrow real_1899 (by decide) n
  rw [ord_1899] at c
  by_cases hn : n = 0
  · subst hn; exact ⟨by decide, by decide⟩
  · have hy : 1900 ≤ (times tomorrow n ⟨1899, 12, 31⟩).year :=
      ord_ge_year a b (by omega) (by rw [ord_1900]; omega)
    refine ⟨(validate_iff _).mpr (.inl ⟨a, hy, h⟩), ?_⟩
    rw [serialDays_ord a hy, c]
    simp

/-- Non-vacuity: concrete dates in range. -/
example : times tomorrow 70 ⟨1899, 12, 31⟩ = ⟨1900, 3, 11⟩ ∧
    serialDays ⟨1900, 3, 11⟩ false = some 71 := by decide +kernel
example : serialDays ⟨2023, 3, 15⟩ false = some 45000 := by decide +kernel
example : serialDays ⟨9999, 12, 31⟩ false = some 2958465 := by decide +kernel

/-- C21: Excel's fictitious leap day. -/
theorem C21_fictitious_leap_day :
    validateYmd ⟨1900, 2, 29⟩ = true ∧ serialDays ⟨1900, 2, 29⟩ false = some 60 ∧
      ¬ RealDate ⟨1900, 2, 29⟩ := by
  refine ⟨by decide, by decide, ?_⟩
  intro h; exact absurd h.2.2.2 (by decide)

/-- C21: validation accepts exactly the calendar dates from 1899-12-31 to 9999-12-31, and
1900-02-29. -/
theorem C21_validation_exact (d : YMD) :
    validateYmd d = true ↔
      (∃ n, d = times tomorrow n ⟨1899, 12, 31⟩ ∧ d.year ≤ 9999) ∨ d = ⟨1900, 2, 29⟩ := by
  constructor
  · intro h
    rcases (validate_iff d).mp h with ⟨hr, h1, h2⟩ | h | h
    · left
      have hb := ord_year_bounds hr (by omega)
      have hm := yearStart_mono (show 1 ≤ 1900 by omega) h1
      rw [ord_1900] at hm
      obtain ⟨a, b, c⟩ := times_tomorrow real_1899 (by decide) (ord d - 693595)
      rw [ord_1899] at c
      exact ⟨ord d - 693595, ord_inj hr a (by omega) b (by omega), h2⟩
    · left; exact ⟨0, h, by rw [h]; decide⟩
    · right; exact h
  · rintro (⟨n, rfl, h⟩ | rfl)
    · exact (C21_serial_counts_days n h).1
    · decide

/-- C21: for an accepted date the conversion never underflows, two different accepted dates have
different serial numbers, and all serial numbers are at most 2958465. -/
theorem C21_serial_injective (d d' : YMD) (h : validateYmd d = true) (h' : validateYmd d' = true) :
    (∃ n, serialDays d false = some n ∧ n ≤ 2958465) ∧
      (serialDays d false = serialDays d' false → d = d') := by
  have key : ∀ d, validateYmd d = true →
      (d = ⟨1900, 2, 29⟩ ∧ serialDays d false = some 60) ∨
      (∃ n, d = times tomorrow n ⟨1899, 12, 31⟩ ∧ n ≤ 2958464 ∧
        serialDays d false = some (if 60 ≤ n then n + 1 else n)) := by
    intro d h
    rcases (C21_validation_exact d).mp h with ⟨n, rfl, hy⟩ | rfl
    · right
      refine ⟨n, rfl, ?_, (C21_serial_counts_days n hy).2⟩
      obtain ⟨a, b, c⟩ := times_tomorrow real_1899 (by decide) n
      have hb := ord_year_bounds a b
      have := yearStart_mono (show 1 ≤ (times tomorrow n ⟨1899, 12, 31⟩).year + 1 by omega)
        (show _ ≤ 10000 by omega)
      have e : yearStart 10000 = 3652059 := by decide
      rw [ord_1899] at c
      omega
    · left; exact ⟨rfl, by decide⟩
  constructor
  · rcases key d h with ⟨_, e⟩ | ⟨n, _, hn, e⟩
    · exact ⟨60, e, by omega⟩
    · exact ⟨_, e, by split <;> omega⟩
  · intro e
    rcases key d h with ⟨p, q⟩ | ⟨n, p, hn, q⟩ <;> rcases key d' h' with ⟨p', q'⟩ | ⟨n', p', hn', q'⟩
    · rw [p, p']
    · rw [q, q', Option.some.injEq] at e; split at e <;> omega
    · rw [q, q', Option.some.injEq] at e; split at e <;> omega
    · rw [q, q', Option.some.injEq] at e
      have : n = n' := by split at e <;> split at e <;> omega
      rw [p, p', this]

/-- C21: in the 1904 epoch the serial number is the number of days since 1904-01-01. -/
theorem C21_serial_1904 (n : Nat) :
    serialDays (times tomorrow n ⟨1904, 1, 1⟩) true = some n := by
  obtain ⟨a, b, c⟩ := times_tomorrow (d := ⟨1904, 1, 1⟩) (by simp [RealDate, daysIn]) (by decide) n
  generalize times tomorrow n ⟨1904, 1, 1⟩ = d at *
  have e0 : ord ⟨1904, 1, 1⟩ = 695056 := by decide
  have e1 : yearStart 1904 = 695055 := by decide
  rw [e0] at c
  have hy : 1904 ≤ d.year := ord_ge_year a b (by omega) (by omega)
  obtain ⟨k, hk⟩ : ∃ k, d.year = 1904 + k := ⟨d.year - 1904, by omega⟩
  have hys : yearStart d.year + (if isLeapYear d.year then 1 else 0) + (k + 4) / 100
      = 695056 + 365 * k + k / 4 + (k + 304) / 400 := by
    by_cases hl : isLeapYear d.year = true
    · have := (isLeap_iff _).mp hl
      simp only [Leap, Nat.dvd_iff_mod_eq_zero] at this
      simp only [hl, yearStart, if_true]
      omega
    · have h' := mt (isLeap_iff _).mpr hl
      simp only [Leap, Nat.dvd_iff_mod_eq_zero] at h'
      simp only [hl, yearStart, Bool.false_eq_true, if_false]
      omega
  have hys2 := yearStart_mono (show 1 ≤ 1904 by omega) hy
  rw [e1] at hys2
  have h3 := a.2.2.1
  generalize hc : cumDays d.year d.month = cc
  have ho : ord d = yearStart d.year + cc + d.day := by rw [ord, hc]
  unfold cumDays at hc
  have hr : subU d.year 1904 = some k := by
    unfold subU; rw [if_pos (by omega)]; exact congrArg some (by omega)
  have ss : (if isLeapYear d.year then 1 else 0) ≤ 1 := by split <;> omega
  have ez : d.year ≠ 0 := by omega
  unfold serialDays
  simp only [ez, if_false, hr, hc, Bool.not_true, Bool.false_and, Bool.false_eq_true, if_true,
    Option.bind_eq_bind, Option.bind_some]
  generalize hq : (if isLeapYear d.year then 1 else 0) = q at *
  have hs1 : subU (cc + d.day + k * 365 + k / 4) ((k + 4) / 100) =
      some (cc + d.day + k * 365 + k / 4 - (k + 4) / 100) := by
    unfold subU; rw [if_pos (by omega)]
  simp only [hs1, Option.bind_some]
  have hs2 : subU (cc + d.day + k * 365 + k / 4 - (k + 4) / 100 + (k + 4 + 300) / 400) q =
      some n := by
    unfold subU; rw [if_pos (by omega)]; exact congrArg some (by omega)
  simp only [hs2, Option.bind_some]
  rfl

/-- C21: with a time of day, the whole part of the serial number is the date's and the
fractional part (in milliseconds of a day) is the time's. -/
theorem C21_time_of_day (d : YMD) (h m s ms : Nat) (hd : validateYmd d = true)
    (hh : h < 24) (hm : m < 60) (hs : s < 60) (hms : ms < 1000) :
    ∃ v, serialMs d false h m (s * 1000 + ms) = some v ∧
      serialDays d false = some (v / 86400000) ∧
      v % 86400000 = ((h * 60 + m) * 60 + s) * 1000 + ms := by
  obtain ⟨⟨n, hn, _⟩, _⟩ := C21_serial_injective d d hd hd
  refine ⟨n * 86400000 + timeMs h m (s * 1000 + ms), by rw [serialMs, hn]; rfl, ?_, ?_⟩
  · rw [hn]; refine congrArg some ?_; unfold timeMs; omega
  · unfold timeMs; omega

/-- The date of day `k` relative to 1970, in ordinal terms. -/
theorem dateFrom1970_spec (k : Int) (hk : -700000 ≤ k) :
    RealDate (dateFrom1970 k) ∧ 1 ≤ (dateFrom1970 k).year ∧
      (ord (dateFrom1970 k) : Int) = 719163 + k := by
  cases k with
  | ofNat n =>
    obtain ⟨a, b, c⟩ := times_tomorrow real_1970 (by decide) n
    rw [ord_1970] at c
    refine ⟨a, b, ?_⟩
    simp only [dateFrom1970]; rw [c]; simp
  | negSucc n =>
    have e : yearStart 2 = 365 := by decide
    obtain ⟨a, b, c⟩ := times_yesterday real_1970 (by decide) (n+1)
      (by rw [ord_1970, e]; omega)
    rw [ord_1970] at c
    refine ⟨a, by simp only [dateFrom1970]; omega, ?_⟩
    simp only [dateFrom1970]; omega

private theorem shift400 (d : YMD) (hy : 401 ≤ d.year) (h : RealDate d) :
    RealDate ⟨d.year - 400, d.month, d.day⟩ ∧
      ord ⟨d.year - 400, d.month, d.day⟩ + 146097 = ord d := by
  obtain ⟨k, hk⟩ : ∃ k, d.year = k + 401 := ⟨d.year - 401, by omega⟩
  have hl : isLeapYear (d.year - 400) = isLeapYear d.year := by
    rw [Bool.eq_iff_iff, isLeap_iff, isLeap_iff]
    simp only [Leap, Nat.dvd_iff_mod_eq_zero]; omega
  have hl2 : Leap (d.year - 400) ↔ Leap d.year := by rw [← isLeap_iff, ← isLeap_iff, hl]
  constructor
  · obtain ⟨a, b, c, e⟩ := h
    refine ⟨a, b, c, ?_⟩
    simp only [daysIn, hl2] at e ⊢
    exact e
  · have : yearStart (d.year - 400) + 146097 = yearStart d.year := by
      unfold yearStart; omega
    simp only [ord, cumDays, hl]; omega

/-- C22: every timestamp in the accepted range converts, and the parts are the calendar date of
day `floor(ts / 86400)` counted from 1970-01-01 (backwards when negative) with the remaining
seconds split in hours, minutes and seconds. -/
theorem C22_timestamp (ts : Int) (h1 : -2209075200 ≤ ts) (h2 : ts < 253402300800) :
    ∃ h m s : Nat, fromTimestamp ts = some (dateFrom1970 (ts / 86400), h, m, s) ∧
      h < 24 ∧ m < 60 ∧ s < 60 ∧ ts = 86400 * (ts / 86400) + 3600 * h + 60 * m + s := by
  obtain ⟨t, ht⟩ : ∃ t : Nat, 12622780800 + ts = t := ⟨(12622780800 + ts).toNat, by omega⟩
  have htn : (12622780800 + ts).toNat = t := by omega
  obtain ⟨a, b, c⟩ := dayToYmd_spec (t / 86400)
  obtain ⟨a', b', c'⟩ := dateFrom1970_spec (ts / 86400) (by omega)
  obtain ⟨sr, so⟩ := shift400 (dayToYmd (t / 86400)) (by omega) a
  have hd : (⟨(dayToYmd (t / 86400)).year - 400, (dayToYmd (t / 86400)).month,
      (dayToYmd (t / 86400)).day⟩ : YMD) = dateFrom1970 (ts / 86400) := by
    refine ord_inj sr a' (by simp; omega) b' ?_
    omega
  have hv : validateYmd (dateFrom1970 (ts / 86400)) = true := by
    rw [validate_iff]
    have e99 : yearStart 10000 = 3652059 := by decide
    have hle : (dateFrom1970 (ts / 86400)).year ≤ 9999 := by
      rcases Nat.lt_or_ge 9999 (dateFrom1970 (ts / 86400)).year with hl | hl
      · have := ord_year_bounds a' b'
        have := yearStart_mono (show 1 ≤ 10000 by omega) hl
        omega
      · exact hl
    by_cases h0 : ts / 86400 = -25568
    · right; left
      refine ord_inj a' real_1899 b' (by decide) ?_
      rw [ord_1899]; omega
    · left
      refine ⟨a', ord_ge_year a' b' (by omega) (by rw [ord_1900]; omega), hle⟩
  refine ⟨t % 86400 / 3600, (t % 86400 - t % 86400 / 3600 * 3600) / 60,
    (t % 86400 - t % 86400 / 3600 * 3600 - (t % 86400 - t % 86400 / 3600 * 3600) / 60 * 60) % 60,
    ?_, by omega, by omega, by omega, by omega⟩
  have hsub : subU (dayToYmd (t / 86400)).year 400 = some ((dayToYmd (t / 86400)).year - 400) := by
    unfold subU; rw [if_pos (by omega)]
  unfold fromTimestamp
  rw [if_neg (by simp; omega)]
  simp only [htn, unixTimeToParts, hsub, hd, hv]
  have hvh : validateHms ((t % 86400 - t % 86400 / 3600 * 3600) / 60)
      ((t % 86400 - t % 86400 / 3600 * 3600 -
        (t % 86400 - t % 86400 / 3600 * 3600) / 60 * 60) % 60 * 1000) = true := by
    simp [validateHms]; omega
  simp [hvh]

example : fromTimestamp 1700000000 = some (⟨2023, 11, 14⟩, 22, 13, 20) := by decide +kernel
example : fromTimestamp (-2203891201) = some (⟨1900, 2, 28⟩, 23, 59, 59) := by decide +kernel

/-- C22: a timestamp is refused exactly when it is outside 1899-12-31 .. 9999-12-31. -/
theorem C22_timestamp_range (ts : Int) :
    fromTimestamp ts = none ↔ ts < -2209075200 ∨ 253402300800 ≤ ts := by
  constructor
  · intro h
    rcases Int.lt_or_le ts (-2209075200) with h1 | h1
    · exact .inl h1
    · rcases Int.lt_or_le ts 253402300800 with h2 | h2
      · obtain ⟨a, b, c, e, _⟩ := C22_timestamp ts h1 h2
        rw [e] at h; cases h
      · exact .inr h2
  · intro h
    unfold fromTimestamp
    rw [if_pos (by simp; omega)]

/-- C22: from 1900-03-01 on, the serial date of a converted timestamp is
`floor(ts / 86400) + 25569`, the usual Unix-to-Excel formula. -/
theorem C22_unix_to_serial (ts : Int) (h1 : -2203891200 ≤ ts) (h2 : ts < 253402300800) :
    ∃ d h m s n, fromTimestamp ts = some (d, h, m, s) ∧ serialDays d false = some n ∧
      (n : Int) = ts / 86400 + 25569 := by
  obtain ⟨h, m, s, e, _⟩ := C22_timestamp ts (by omega) h2
  obtain ⟨a', b', c'⟩ := dateFrom1970_spec (ts / 86400) (by omega)
  have hy : 1900 ≤ (dateFrom1970 (ts / 86400)).year :=
    ord_ge_year a' b' (by omega) (by rw [ord_1900]; omega)
  refine ⟨_, h, m, s, _, e, serialDays_ord a' hy, ?_⟩
  rw [if_pos (by omega)]; omega

end Verif
