import Verif.Spec.DateTime
namespace Verif
open Spec

/-- Days before 1 January of year `y` since 0001-01-01. -/
def yearStart (y : Nat) : Nat := 365 * (y - 1) + (y - 1) / 4 + (y - 1) / 400 - (y - 1) / 100

/-- Days of the year before month `m`. -/
def cumDays (y m : Nat) : Nat := prevMonthDays (monthsArr (isLeapYear y)) m

/-- Ordinal day number (0001-01-01 is 1). -/
def ord (d : YMD) : Nat := yearStart d.year + cumDays d.year d.month + d.day

theorem isLeap_iff (y : Nat) : isLeapYear y = true ↔ Leap y := by
  simp only [isLeapYear, Leap, Bool.and_eq_true, beq_iff_eq, Bool.or_eq_true, bne_iff_ne,
    Nat.dvd_iff_mod_eq_zero]
  omega

theorem isLeap_decide (y : Nat) : isLeapYear y = decide (Leap y) := by
  rw [Bool.eq_iff_iff, isLeap_iff]; simp

theorem month_cases {m : Nat} (h1 : 1 ≤ m) (h2 : m ≤ 12) : m = 1 ∨ m = 2 ∨ m = 3 ∨ m = 4 ∨ m = 5 ∨
    m = 6 ∨ m = 7 ∨ m = 8 ∨ m = 9 ∨ m = 10 ∨ m = 11 ∨ m = 12 := by omega

theorem monthsArr_getD (y m : Nat) (h1 : 1 ≤ m) (h2 : m ≤ 12) :
    (monthsArr (isLeapYear y)).getD (m - 1) 0 = daysIn y m := by
  have hl := isLeap_decide y
  rcases month_cases h1 h2 with h|h|h|h|h|h|h|h|h|h|h|h <;> subst h <;>
    simp [monthsArr, daysIn, hl]

theorem cumDays_succ (y m : Nat) (h1 : 1 ≤ m) (h2 : m < 12) :
    cumDays y (m + 1) = cumDays y m + daysIn y m := by
  have hl := isLeap_decide y
  rcases month_cases h1 (Nat.le_of_lt h2) with h|h|h|h|h|h|h|h|h|h|h|h <;> subst h <;>
    simp [cumDays, prevMonthDays, monthsArr, daysIn, hl] at h2 ⊢ <;> split <;> rfl

theorem cumDays_one (y : Nat) : cumDays y 1 = 0 := by simp [cumDays, prevMonthDays]

theorem cumDays_twelve (y : Nat) :
    cumDays y 12 + 31 = 365 + (if isLeapYear y then 1 else 0) := by
  cases h : isLeapYear y <;> simp [cumDays, prevMonthDays, monthsArr, h]

theorem yearStart_succ (y : Nat) (h : 1 ≤ y) :
    yearStart (y + 1) = yearStart y + 365 + (if isLeapYear y then 1 else 0) := by
  obtain ⟨k, rfl⟩ : ∃ k, y = k + 1 := ⟨y - 1, by omega⟩
  by_cases hl : isLeapYear (k+1) = true
  · have := (isLeap_iff _).mp hl
    simp only [Leap, Nat.dvd_iff_mod_eq_zero] at this
    simp only [hl, yearStart, if_true]
    omega
  · have h' := mt (isLeap_iff _).mpr hl
    simp only [Leap, Nat.dvd_iff_mod_eq_zero] at h'
    simp only [yearStart, hl]
    simp only [Nat.add_sub_cancel]
    simp only [Bool.false_eq_true, if_false]
    have g1 : k / 100 ≤ k := Nat.div_le_self _ _
    have g2 : (k + 1) / 100 ≤ k + 1 := Nat.div_le_self _ _
    have g3 : (k + 1) / 400 = k / 400 := by omega
    by_cases g4 : (k + 1) % 100 = 0
    · have g5 : (k + 1) / 100 = k / 100 + 1 := by omega
      have g6 : (k + 1) / 4 = k / 4 + 1 := by omega
      omega
    · have g5 : (k + 1) / 100 = k / 100 := by omega
      have g6 : (k + 1) / 4 = k / 4 := by omega
      rw [g3, g5, g6]
      generalize k / 400 = a, k / 100 = b, k / 4 = c at *
      omega

theorem daysIn_pos (y m : Nat) : 28 ≤ daysIn y m := by
  unfold daysIn; split <;> try split <;> try split
  all_goals omega

theorem daysIn_twelve (y : Nat) : daysIn y 12 = 31 := by simp [daysIn]

theorem real_tomorrow {d : YMD} (h : RealDate d) : RealDate (tomorrow d) := by
  obtain ⟨h1, h2, h3, h4⟩ := h
  unfold tomorrow
  split
  · exact ⟨h1, h2, by simp, by simp; omega⟩
  · split
    · refine ⟨by simp, by simp; omega, by simp, ?_⟩
      have := daysIn_pos d.year (d.month+1); simp; omega
    · refine ⟨by simp, by simp, by simp, ?_⟩
      have := daysIn_pos (d.year+1) 1; simp; omega

theorem ord_tomorrow {d : YMD} (h : RealDate d) (hy : 1 ≤ d.year) :
    ord (tomorrow d) = ord d + 1 := by
  obtain ⟨h1, h2, h3, h4⟩ := h
  unfold tomorrow
  split
  · simp [ord]; omega
  · split
    · rename_i h5 h6
      simp only [ord, cumDays_succ _ _ h1 h6]; omega
    · have hm : d.month = 12 := by omega
      have hd := daysIn_twelve d.year
      have := cumDays_twelve d.year
      simp only [ord, cumDays_one, yearStart_succ _ hy, hm] at *
      omega

theorem real_yesterday {d : YMD} (h : RealDate d) : RealDate (yesterday d) := by
  obtain ⟨h1, h2, h3, h4⟩ := h
  unfold yesterday
  split
  · exact ⟨h1, h2, by simp; omega, by simp; omega⟩
  · split
    · have := daysIn_pos d.year (d.month-1)
      exact ⟨by simp; omega, by simp; omega, by simp; omega, by simp⟩
    · exact ⟨by simp, by simp, by simp, by simp [daysIn_twelve]⟩

theorem ord_yesterday {d : YMD} (h : RealDate d) (hy : 2 ≤ d.year) :
    ord (yesterday d) + 1 = ord d := by
  obtain ⟨h1, h2, h3, h4⟩ := h
  unfold yesterday
  split
  · simp [ord]; omega
  · split
    · rename_i h5 h6
      have := cumDays_succ d.year (d.month - 1) (by omega) (by omega)
      rw [show d.month - 1 + 1 = d.month by omega] at this
      simp only [ord]; omega
    · have hm : d.month = 1 := by omega
      have := cumDays_twelve (d.year - 1)
      have h7 := yearStart_succ (d.year - 1) (by omega)
      rw [show d.year - 1 + 1 = d.year by omega] at h7
      simp only [ord, hm, cumDays_one]
      omega

theorem cumDays_mono (y : Nat) {m m' : Nat} (h1 : 1 ≤ m) (h : m < m') (h2 : m' ≤ 12) :
    cumDays y m + daysIn y m ≤ cumDays y m' := by
  induction m' with
  | zero => omega
  | succ k ih =>
    have hs := cumDays_succ y k (by omega) (by omega)
    by_cases hk : m = k
    · subst hk; omega
    · have := ih (by omega) (by omega); omega

theorem ord_year_bounds {d : YMD} (h : RealDate d) (hy : 1 ≤ d.year) :
    yearStart d.year < ord d ∧ ord d ≤ yearStart (d.year + 1) := by
  obtain ⟨h1, h2, h3, h4⟩ := h
  have h5 := yearStart_succ d.year hy
  have h6 := cumDays_twelve d.year
  refine ⟨by simp only [ord]; omega, ?_⟩
  simp only [ord]
  by_cases hm : d.month = 12
  · rw [hm] at h4 ⊢; rw [daysIn_twelve] at h4; omega
  · have := cumDays_mono d.year h1 (show d.month < 12 by omega) (Nat.le_refl _)
    omega

theorem yearStart_mono {y y' : Nat} (h1 : 1 ≤ y) (h : y ≤ y') : yearStart y ≤ yearStart y' := by
  induction y' with
  | zero => omega
  | succ k ih =>
    by_cases hk : y = k + 1
    · subst hk; exact Nat.le_refl _
    · have := yearStart_succ k (by omega); have := ih (by omega); omega

theorem ord_inj {d d' : YMD} (h : RealDate d) (h' : RealDate d') (hy : 1 ≤ d.year)
    (hy' : 1 ≤ d'.year) (e : ord d = ord d') : d = d' := by
  have b := ord_year_bounds h hy
  have b' := ord_year_bounds h' hy'
  have hyy : d.year = d'.year := by
    rcases Nat.lt_trichotomy d.year d'.year with hl | hl | hl
    · have := yearStart_mono (show 1 ≤ d.year + 1 by omega) hl; omega
    · exact hl
    · have := yearStart_mono (show 1 ≤ d'.year + 1 by omega) hl; omega
  obtain ⟨h1, h2, h3, h4⟩ := h
  obtain ⟨h1', h2', h3', h4'⟩ := h'
  have hmm : d.month = d'.month := by
    simp only [ord] at e
    rcases Nat.lt_trichotomy d.month d'.month with hl | hl | hl
    · have := cumDays_mono d.year h1 hl h2'
      rw [← hyy] at e; omega
    · exact hl
    · have := cumDays_mono d.year h1' hl h2
      rw [← hyy] at e h4'; omega
  cases d; cases d'
  simp only [ord] at *
  subst hyy; subst hmm
  congr; omega

theorem ord_year_lt {d d' : YMD} (h : RealDate d) (h' : RealDate d') (hy : 1 ≤ d.year)
    (e : ord d ≤ ord d') (hy' : 1 ≤ d'.year) : d.year ≤ d'.year := by
  have b := ord_year_bounds h hy
  have b' := ord_year_bounds h' hy'
  rcases Nat.lt_or_ge d'.year d.year with hl | hl
  · have := yearStart_mono (show 1 ≤ d'.year + 1 by omega) hl; omega
  · exact hl

theorem year_tomorrow (d : YMD) : d.year ≤ (tomorrow d).year := by
  unfold tomorrow; split
  · simp
  · split <;> simp

theorem times_tomorrow {d : YMD} (h : RealDate d) (hy : 1 ≤ d.year) (n : Nat) :
    RealDate (times tomorrow n d) ∧ 1 ≤ (times tomorrow n d).year ∧
      ord (times tomorrow n d) = ord d + n := by
  induction n with
  | zero => exact ⟨h, hy, rfl⟩
  | succ n ih =>
    obtain ⟨a, b, c⟩ := ih
    refine ⟨real_tomorrow a, ?_, ?_⟩
    · exact Nat.le_trans b (year_tomorrow _)
    · simp only [times]; rw [ord_tomorrow a b]; omega

theorem yearStart_le (y : Nat) : yearStart y ≤ 366 * (y - 1) := by
  unfold yearStart; omega

theorem ord_ge_year {d : YMD} (h : RealDate d) (hy : 1 ≤ d.year) {y : Nat} (h1 : 1 ≤ y)
    (ho : yearStart y < ord d) : y ≤ d.year := by
  have b := ord_year_bounds h hy
  rcases Nat.lt_or_ge d.year y with hl | hl
  · have := yearStart_mono (show 1 ≤ d.year + 1 by omega) hl; omega
  · exact hl

theorem year_yesterday (d : YMD) : d.year - 1 ≤ (yesterday d).year := by
  unfold yesterday; split
  · simp
  · split <;> simp

theorem times_yesterday {d : YMD} (h : RealDate d) (hy : 1 ≤ d.year) (n : Nat)
    (hn : n + yearStart 2 < ord d) :
    RealDate (times yesterday n d) ∧ 2 ≤ (times yesterday n d).year ∧
      ord (times yesterday n d) + n = ord d := by
  induction n with
  | zero => exact ⟨h, ord_ge_year h hy (by omega) (by omega), rfl⟩
  | succ n ih =>
    obtain ⟨a, b, c⟩ := ih (by omega)
    have hr := real_yesterday a
    have ho := ord_yesterday a b
    simp only [times]
    refine ⟨hr, ?_, by omega⟩
    have hy1 : 1 ≤ (yesterday (times yesterday n d)).year := by
      have := year_yesterday (times yesterday n d); omega
    exact ord_ge_year hr hy1 (by omega) (by omega)

theorem ord_1899 : ord ⟨1899, 12, 31⟩ = 693595 := by decide
theorem ord_1900 : yearStart 1900 = 693595 := by decide
theorem ord_1970 : ord ⟨1970, 1, 1⟩ = 719163 := by decide

theorem real_1899 : RealDate ⟨1899, 12, 31⟩ := by
  unfold RealDate; simp [daysIn]
theorem real_1970 : RealDate ⟨1970, 1, 1⟩ := by
  unfold RealDate; simp [daysIn]

/-- The serial number in terms of the ordinal. -/
theorem serialDays_ord {d : YMD} (h : RealDate d) (hy : 1900 ≤ d.year) :
    serialDays d false =
      some (if ord d - 693595 ≥ 60 then ord d - 693595 + 1 else ord d - 693595) := by
  have b := ord_year_bounds h (by omega)
  obtain ⟨h1, h2, h3, h4⟩ := h
  have e0 : d.year ≠ 0 := by omega
  have e1 : (d == (⟨1899,12,31⟩ : YMD)) = false := by
    rw [beq_eq_false_iff_ne]; rintro rfl; simp at hy
  have e2 : (d == (⟨1900,1,0⟩ : YMD)) = false := by
    rw [beq_eq_false_iff_ne]; rintro rfl; simp at h3
  have e3 : (d == (⟨1900,2,29⟩ : YMD)) = false := by
    rw [beq_eq_false_iff_ne]; rintro rfl
    exact absurd h4 (by decide)
  obtain ⟨k, hk⟩ : ∃ k, d.year = 1900 + k := ⟨d.year - 1900, by omega⟩
  have hys : yearStart d.year + (if isLeapYear d.year then 1 else 0) + k / 100
      = 693595 + 365 * k + k / 4 + (k + 300) / 400 := by
    by_cases hl : isLeapYear d.year = true
    · have := (isLeap_iff _).mp hl
      simp only [Leap, Nat.dvd_iff_mod_eq_zero] at this
      simp only [hl, yearStart, if_true]
      omega
    · have h' := mt (isLeap_iff _).mpr hl
      simp only [Leap, Nat.dvd_iff_mod_eq_zero] at h'
      simp only [hl, yearStart, Bool.false_eq_true, if_false]
      omega
  have hys2 := yearStart_mono (show 1 ≤ 1900 by omega) hy
  rw [ord_1900] at hys2
  generalize hc : cumDays d.year d.month = c
  have ho : ord d = yearStart d.year + c + d.day := by rw [ord, hc]
  unfold cumDays at hc
  have hr : subU d.year 1900 = some k := by
    unfold subU; rw [if_pos (by omega)]; exact congrArg some (by omega)
  have ss : (if isLeapYear d.year then 1 else 0) ≤ 1 := by split <;> omega
  unfold serialDays
  simp only [e0, e1, e2, e3, if_false, hr, hc, Bool.not_false, Bool.true_and, Bool.false_eq_true,
    Nat.add_zero, Option.bind_eq_bind, Option.bind_some, pure_bind]
  generalize hq : (if isLeapYear d.year then 1 else 0) = q at *
  have hs1 : subU (c + d.day + k * 365 + k / 4) (k / 100) =
      some (c + d.day + k * 365 + k / 4 - k / 100) := by
    unfold subU; rw [if_pos (by omega)]
  simp only [hs1, Option.bind_some]
  have hs2 : subU (c + d.day + k * 365 + k / 4 - k / 100 + (k + 300) / 400) q =
      some (ord d - 693595) := by
    unfold subU; rw [if_pos (by omega)]; exact congrArg some (by omega)
  have e4 : (k + 0) / 100 = k / 100 := by rw [Nat.add_zero]
  simp only [hs2, Option.bind_some]
  simp only [decide_eq_true_eq, gt_iff_lt, ge_iff_le]
  by_cases hc2 : 59 < ord d - 693595
  · rw [if_pos hc2, if_pos (by omega)]; rfl
  · rw [if_neg hc2, if_neg (by omega)]; rfl

theorem blocks100_spec (x : Nat) (h : x < 146097) :
    (blocks100 x).1 ≤ 3 ∧
    (((blocks100 x).1 = 0 ∧ x = (blocks100 x).2 ∧ (blocks100 x).2 < 36525) ∨
     (1 ≤ (blocks100 x).1 ∧ x = 36525 + 36524 * ((blocks100 x).1 - 1) + (blocks100 x).2 ∧
       (blocks100 x).2 < 36524)) := by
  unfold blocks100
  split
  · simp only; omega
  · simp only; omega

theorem blocks4_spec (b x : Nat) (h0 : b = 0 → x < 36525) (h1 : 1 ≤ b → x < 36524) :
    (blocks4 b x).1 ≤ 24 ∧
    ((b = 0 ∧ x = 1461 * (blocks4 b x).1 + (blocks4 b x).2.1 ∧ (blocks4 b x).2.1 < 1461 ∧
        (blocks4 b x).2.2 = false) ∨
     (1 ≤ b ∧ (blocks4 b x).1 = 0 ∧ x = (blocks4 b x).2.1 ∧ x < 1460 ∧
        (blocks4 b x).2.2 = true) ∨
     (1 ≤ b ∧ (blocks4 b x).1 = 1 ∧ x = 1460 ∧ (blocks4 b x).2.1 = 0 ∧
        (blocks4 b x).2.2 = true) ∨
     (1 ≤ b ∧ 1 ≤ (blocks4 b x).1 ∧ x = 1460 + 1461 * ((blocks4 b x).1 - 1) + (blocks4 b x).2.1 ∧
        (blocks4 b x).2.1 < 1461 ∧ (blocks4 b x).2.2 = false)) := by
  unfold blocks4
  split
  · simp; omega
  · split
    · simp; omega
    · simp; omega

theorem blocks1_spec (nl : Bool) (x : Nat) (h0 : nl = false → x < 1461) (h1 : nl = true → x < 1460) :
    (blocks1 nl x).1 ≤ 3 ∧
    ((nl = true ∧ x = 365 * (blocks1 nl x).1 + (blocks1 nl x).2 ∧ (blocks1 nl x).2 < 365) ∨
     (nl = false ∧ (blocks1 nl x).1 = 0 ∧ x = (blocks1 nl x).2 ∧ x < 366) ∨
     (nl = false ∧ 1 ≤ (blocks1 nl x).1 ∧
        x = 366 + 365 * ((blocks1 nl x).1 - 1) + (blocks1 nl x).2 ∧ (blocks1 nl x).2 < 365)) := by
  unfold blocks1
  cases nl
  · simp at h0 ⊢
    split
    · simp; omega
    · simp; omega
  · simp at h1 ⊢; omega

theorem yearStart_blocks (a b c e : Nat) (hb : b ≤ 3) (hc : c ≤ 24) (he : e ≤ 3) :
    yearStart (1600 + a * 400 + b * 100 + c * 4 + e) + (if b ≥ 1 ∧ (c ≥ 1 ∨ e ≥ 1) then 1 else 0)
      = 584022 + 146097 * a + 36524 * b + (if b ≥ 1 then 1 else 0) + 1461 * c + 365 * e +
        (if e ≥ 1 then 1 else 0) := by
  unfold yearStart
  have h4 : (1600 + a * 400 + b * 100 + c * 4 + e - 1) / 4 =
      399 + 100 * a + 25 * b + c + (if e ≥ 1 then 1 else 0) := by split <;> omega
  have h100 : (1600 + a * 400 + b * 100 + c * 4 + e - 1) / 100 =
      15 + 4 * a + b + (if c ≥ 1 ∨ e ≥ 1 then 1 else 0) := by split <;> omega
  have h400 : (1600 + a * 400 + b * 100 + c * 4 + e - 1) / 400 =
      3 + a + (if b ≥ 1 ∨ c ≥ 1 ∨ e ≥ 1 then 1 else 0) := by split <;> omega
  rw [h4, h100, h400]
  by_cases hb1 : b ≥ 1 <;> by_cases hc1 : c ≥ 1 <;> by_cases he1 : e ≥ 1 <;> simp [hb1, hc1, he1] <;> omega

theorem leap_blocks (a b c e : Nat) (hb : b ≤ 3) (hc : c ≤ 24) (he : e ≤ 3) :
    isLeapYear (1600 + a * 400 + b * 100 + c * 4 + e) = decide (e = 0 ∧ (b = 0 ∨ c ≥ 1)) := by
  rw [Bool.eq_iff_iff, isLeap_iff, decide_eq_true_eq]
  simp only [Leap, Nat.dvd_iff_mod_eq_zero]
  omega

theorem monthLoop_gen (l : List Nat) (m t : Nat) (h1 : 1 ≤ t) (h2 : t ≤ l.sum) :
    ∃ j, j < l.length ∧ monthLoop l m t = (m + j, t - (l.take j).sum) ∧
      (l.take j).sum < t ∧ t ≤ (l.take j).sum + l.getD j 0 := by
  induction l generalizing m t with
  | nil => simp at h2; omega
  | cons a l ih =>
    unfold monthLoop
    by_cases h : t > a
    · rw [if_pos h]
      obtain ⟨j, hj, e, b1, b2⟩ := ih (m + 1) (t - a) (by omega)
        (by simp only [List.sum_cons] at h2; omega)
      refine ⟨j + 1, by simpa using hj, ?_, ?_, ?_⟩
      · rw [e]; simp only [List.take_succ_cons, List.sum_cons]
        rw [Prod.mk.injEq]; omega
      · simp only [List.take_succ_cons, List.sum_cons]; omega
      · simp only [List.take_succ_cons, List.sum_cons, List.getD_cons_succ]; omega
    · rw [if_neg h]
      exact ⟨0, by simp, by simp, by simp; omega, by simpa using h⟩

theorem monthLoop_spec (y t : Nat) (h1 : 1 ≤ t)
    (h2 : t ≤ 365 + (if isLeapYear y then 1 else 0)) :
    RealDate ⟨y, (monthLoop (monthsArr (isLeapYear y)) 1 t).1,
        (monthLoop (monthsArr (isLeapYear y)) 1 t).2⟩ ∧
      cumDays y (monthLoop (monthsArr (isLeapYear y)) 1 t).1 +
        (monthLoop (monthsArr (isLeapYear y)) 1 t).2 = t := by
  have hs : (monthsArr (isLeapYear y)).sum = 365 + (if isLeapYear y then 1 else 0) := by
    cases isLeapYear y <;> rfl
  obtain ⟨j, hj, e, b1, b2⟩ := monthLoop_gen (monthsArr (isLeapYear y)) 1 t h1 (by rw [hs]; exact h2)
  have hj' : j < 12 := hj
  have hg := monthsArr_getD y (j + 1) (by omega) (by omega)
  rw [Nat.add_sub_cancel] at hg
  rw [hg] at b2
  rw [e]
  refine ⟨⟨by simp, by simp; omega, by simp; omega, ?_⟩, ?_⟩
  · simp only [Nat.add_comm 1 j]; omega
  · simp only [cumDays, prevMonthDays, Nat.add_sub_cancel_left]; omega

theorem dayToYmd_spec (n : Nat) :
    RealDate (dayToYmd n) ∧ 1600 ≤ (dayToYmd n).year ∧ ord (dayToYmd n) = n + 719163 := by
  have hx : (n + 135140) % 146097 < 146097 := Nat.mod_lt _ (by omega)
  have hdm := Nat.div_add_mod (n + 135140) 146097
  have s1 := blocks100_spec _ hx
  generalize hA : (n + 135140) / 146097 = a at *
  generalize hX : (n + 135140) % 146097 = x at *
  rcases hB : blocks100 x with ⟨b, x1⟩
  simp only [hB] at s1
  have s2 := blocks4_spec b x1 (by omega) (by omega)
  rcases hC : blocks4 b x1 with ⟨c, x2, nl⟩
  simp only [hC] at s2
  have s3 := blocks1_spec nl x2 (by intro h; subst h; simp at s2; omega)
    (by intro h; subst h; simp at s2; omega)
  rcases hD : blocks1 nl x2 with ⟨e, x3⟩
  simp only [hD] at s3
  have hY := yearStart_blocks a b c e s1.1 s2.1 s3.1
  have hL := leap_blocks a b c e s1.1 s2.1 s3.1
  generalize hy : 1600 + a * 400 + b * 100 + c * 4 + e = y at *
  have hyear : yearStart y + x3 = 584022 + (n + 135140) ∧
      x3 + 1 ≤ 365 + (if isLeapYear y then 1 else 0) := by
    rw [hL]
    simp only [decide_eq_true_eq]
    cases nl <;> simp only [Bool.false_eq_true, reduceCtorEq, false_and, and_false, or_false,
      false_or, true_and, and_true] at s2 s3 <;>
      (repeat' split at hY) <;> constructor <;> (try split) <;> omega
  have s4 := monthLoop_spec y (x3 + 1) (by omega) hyear.2
  have he : dayToYmd n =
      ⟨y, (monthLoop (monthsArr (isLeapYear y)) 1 (x3 + 1)).1,
        (monthLoop (monthsArr (isLeapYear y)) 1 (x3 + 1)).2⟩ := by
    unfold dayToYmd
    simp only [hA, hX, hB, hC, hD, hy]
  rw [he]
  refine ⟨s4.1, by simp; omega, ?_⟩
  have := s4.2
  simp only [ord]
  omega

end Verif
