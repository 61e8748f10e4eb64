import Verif.Props.CondMeaning
/-! The rules on dates apply to the days they are meant for (C56). -/
namespace Verif
open Spec

theorem realMonth_tomorrow (d : YMD) (h : 1 ≤ d.month ∧ d.month ≤ 12) :
    1 ≤ (tomorrow d).month ∧ (tomorrow d).month ≤ 12 := by
  unfold tomorrow
  split
  · exact h
  · split
    · dsimp only; omega
    · dsimp only; omega

theorem realMonth_yesterday (d : YMD) (h : 1 ≤ d.month ∧ d.month ≤ 12) :
    1 ≤ (yesterday d).month ∧ (yesterday d).month ≤ 12 := by
  unfold yesterday
  split
  · exact h
  · split
    · dsimp only; omega
    · dsimp only; omega

theorem realMonth_times (f : YMD → YMD) (hf : ∀ d : YMD, 1 ≤ d.month ∧ d.month ≤ 12 → 1 ≤ (f d).month ∧ (f d).month ≤ 12)
    (n : Nat) (d : YMD) (h : 1 ≤ d.month ∧ d.month ≤ 12) : 1 ≤ (times f n d).month ∧ (times f n d).month ≤ 12 := by
  induction n with
  | zero => exact h
  | succ n ih => exact hf _ ih

theorem serial_month (n : Int) : 1 ≤ (serialYM n).2 ∧ (serialYM n).2 ≤ 12 := by
  unfold serialYM
  split
  · decide
  · dsimp only
    generalize (if n < 60 then n - 25568 else n - 25569) = k
    cases k with
    | ofNat m => exact realMonth_times _ realMonth_tomorrow _ _ (by decide)
    | negSucc m => exact realMonth_times _ realMonth_yesterday _ _ (by decide)

/-! ### Arithmetic -/

theorem arith_minus (a b : Int) : arith true (.num a) (.num b) = .num ((a - b : Int) : Rat) := by
  show FVal.num ((a : Rat) - b) = _
  rw [Rat.intCast_sub]

theorem arith_plus (a b : Int) : arith false (.num a) (.num b) = .num ((a + b : Int) : Rat) := by
  show FVal.num ((a : Rat) + b) = _
  rw [Rat.intCast_add]

theorem compare_eq (e : FEnv) (a b : Int) : compareVal e .eq (.num a) (.num b) = .bool (decide (a = b)) := by
  show FVal.bool (decide ((a : Rat) = b)) = _
  simp only [Rat.intCast_inj]

theorem compare_le (e : FEnv) (a b : Int) : compareVal e .le (.num a) (.num b) = .bool (decide (a ≤ b)) := by
  show FVal.bool (decide ((a : Rat) ≤ b)) = _
  simp only [Rat.intCast_le_intCast]

theorem compare_lt (e : FEnv) (a b : Int) : compareVal e .lt (.num a) (.num b) = .bool (decide (a < b)) := by
  show FVal.bool (decide ((a : Rat) < b)) = _
  simp only [Rat.intCast_lt_intCast]

theorem compare_ge (e : FEnv) (a b : Int) : compareVal e .ge (.num a) (.num b) = .bool (decide (b ≤ a)) := by
  show FVal.bool (decide ((b : Rat) ≤ a)) = _
  simp only [Rat.intCast_le_intCast]

theorem compare_gt (e : FEnv) (a b : Int) : compareVal e .gt (.num a) (.num b) = .bool (decide (b < a)) := by
  show FVal.bool (decide ((b : Rat) < a)) = _
  simp only [Rat.intCast_lt_intCast]

theorem nat_as_int (n : Nat) : FVal.num (n : Rat) = .num ((n : Int) : Rat) := by
  rw [Rat.intCast_natCast]

theorem word_int (e : FEnv) {w : List Char} {n : Nat} (h : readNat w = some n) : wordVal e w = .num ((n : Int) : Rat) := by
  rw [wordVal_nat e h, nat_as_int]

/-- The day of a cell: its number rounded down. -/
theorem call_floor' (e : FEnv) (x : Rat) : callFn e "FLOOR".toList [.num x, .num (((1 : Nat) : Int) : Rat)] = .num x.floor := rfl

theorem call_roundDown' (e : FEnv) (x : Rat) (h : 0 ≤ x) :
    callFn e "ROUNDDOWN".toList [.num x, .num (((0 : Nat) : Int) : Rat)] = .num x.floor := call_roundDown e x h

theorem call_month' (e : FEnv) (x : Rat) (h : 0 ≤ x) :
    callFn e "MONTH".toList [.num x] = .num (((serialYM x.floor).2 : Int) : Rat) := by
  rw [call_month e x h, nat_as_int]

theorem call_year' (e : FEnv) (x : Rat) (h : 0 ≤ x) :
    callFn e "YEAR".toList [.num x] = .num (((serialYM x.floor).1 : Int) : Rat) := by
  rw [call_year e x h, nat_as_int]

/-- What the rules on dates say about cells with dates: all days, weeks and months, but the last month only if it is not
January or February today, and the next month only if it is not November or December. -/
theorem C56_dates_partial (rule : CondDate) (range f : List Char) (p : PeriodSeen) (first : Nat × Nat) (e : FEnv) (r c : Nat)
    (x : Rat)
    (hseen : ruleMeant (.date rule) range = some (.period p f))
    (hfirst : readA1 (firstCell range) = some first)
    (hcell : e.cell r c = .num x) (hx : 0 ≤ x) (htoday : 0 ≤ e.today)
    (hlast : rule = .lastMonth → 3 ≤ (serialYM e.today).2)
    (hnext : rule = .nextMonth → (serialYM e.today).2 ≤ 10) :
    applies e first f r c = true ↔ dateRuleMeans rule e.today x.floor := by
  simp only [ruleMeant, Option.some.injEq, RuleSeen.period.injEq] at hseen
  obtain ⟨-, rfl⟩ := hseen
  obtain ⟨ha, h0⟩ := readA1_word hfirst
  have hw : wordVal (e.seenAt first r c) (firstCell range) = .num x := by rw [seenAt_word e hfirst, hcell]
  have ht : (e.seenAt first r c).today = e.today := rfl
  have n0 := word_int (e.seenAt first r c) (show readNat "0".toList = some 0 by decide +kernel)
  have n1 := word_int (e.seenAt first r c) (show readNat "1".toList = some 1 by decide +kernel)
  have n6 := word_int (e.seenAt first r c) (show readNat "6".toList = some 6 by decide +kernel)
  have n7 := word_int (e.seenAt first r c) (show readNat "7".toList = some 7 by decide +kernel)
  have n12 := word_int (e.seenAt first r c) (show readNat "12".toList = some 12 by decide +kernel)
  have n15 := word_int (e.seenAt first r c) (show readNat "15".toList = some 15 by decide +kernel)
  have htr : (0 : Rat) ≤ e.today := Rat.intCast_nonneg.2 htoday
  have md := serial_month x.floor
  have mt := serial_month e.today
  cases rule with
  | yesterday =>
    rw [applies_eq _ _ _ _ _ _ (eval_yesterday _ _ ha h0), hw, n1, call_floor', call_today, ht, arith_minus, compare_eq]
    show decide _ = true ↔ x.floor = e.today - 1
    rw [decide_eq_true_iff]
    omega
  | today =>
    rw [applies_eq _ _ _ _ _ _ (eval_today _ _ ha h0), hw, n1, call_floor', call_today, ht, compare_eq]
    show decide _ = true ↔ x.floor = e.today
    rw [decide_eq_true_iff]
  | tomorrow =>
    rw [applies_eq _ _ _ _ _ _ (eval_tomorrow _ _ ha h0), hw, n1, call_floor', call_today, ht, arith_plus, compare_eq]
    show decide _ = true ↔ x.floor = e.today + 1
    rw [decide_eq_true_iff]
    omega
  | last7Days =>
    rw [applies_eq _ _ _ _ _ _ (eval_last7Days _ _ ha h0), hw, n1, n6, call_floor', call_today, ht, arith_minus, compare_le,
      compare_le, call_and]
    show (decide _ && decide _) = true ↔ e.today - 7 < x.floor ∧ x.floor ≤ e.today
    rw [Bool.and_eq_true, decide_eq_true_iff, decide_eq_true_iff]
    omega
  | lastWeek =>
    rw [applies_eq _ _ _ _ _ _ (eval_lastWeek _ _ ha h0), hw, n0, n7, call_roundDown' _ _ hx, call_today, ht, call_weekday _ _ htoday]
    simp only [arith_minus, arith_plus, compare_ge, compare_lt, call_and]
    show (decide _ && decide _) = true ↔ weekOf x.floor + 1 = weekOf e.today
    rw [Bool.and_eq_true, decide_eq_true_iff, decide_eq_true_iff]
    unfold weekOf serialWeekday
    omega
  | thisWeek =>
    rw [applies_eq _ _ _ _ _ _ (eval_thisWeek _ _ ha h0), hw, n0, n1, n7, call_roundDown' _ _ hx, call_today, ht,
      call_weekday _ _ htoday]
    simp only [arith_minus, compare_le, call_and]
    show (decide _ && decide _) = true ↔ weekOf x.floor = weekOf e.today
    rw [Bool.and_eq_true, decide_eq_true_iff, decide_eq_true_iff]
    unfold weekOf serialWeekday
    omega
  | nextWeek =>
    rw [applies_eq _ _ _ _ _ _ (eval_nextWeek _ _ ha h0), hw, n0, n15, n7, call_roundDown' _ _ hx, call_today, ht,
      call_weekday _ _ htoday]
    simp only [arith_minus, compare_gt, compare_lt, call_and]
    show (decide _ && decide _) = true ↔ weekOf x.floor = weekOf e.today + 1
    rw [Bool.and_eq_true, decide_eq_true_iff, decide_eq_true_iff]
    unfold weekOf serialWeekday
    omega
  | lastMonth =>
    have h3 := hlast rfl
    rw [applies_eq _ _ _ _ _ _ (eval_lastMonth _ _ ha h0), hw, n1, call_today, ht, call_month' _ _ hx, call_year' _ _ hx,
      call_month' _ _ htr, call_year' _ _ htr, Rat.floor_intCast]
    simp only [arith_minus, compare_eq, call_and, call_or]
    show (decide _ && (decide _ || (decide _ && decide _))) = true ↔ monthsOf x.floor + 1 = monthsOf e.today
    simp only [Bool.and_eq_true, Bool.or_eq_true, decide_eq_true_iff]
    unfold monthsOf
    omega
  | thisMonth =>
    rw [applies_eq _ _ _ _ _ _ (eval_thisMonth _ _ ha h0), hw, call_today, ht, call_month' _ _ hx, call_year' _ _ hx,
      call_month' _ _ htr, call_year' _ _ htr, Rat.floor_intCast]
    simp only [compare_eq, call_and]
    show (decide _ && decide _) = true ↔ monthsOf x.floor = monthsOf e.today
    simp only [Bool.and_eq_true, decide_eq_true_iff]
    unfold monthsOf
    omega
  | nextMonth =>
    have h3 := hnext rfl
    rw [applies_eq _ _ _ _ _ _ (eval_nextMonth _ _ ha h0), hw, n1, n12, call_today, ht, call_month' _ _ hx, call_year' _ _ hx,
      call_month' _ _ htr, call_year' _ _ htr, Rat.floor_intCast]
    simp only [arith_plus, compare_eq, call_and, call_or]
    show (decide _ && (decide _ || (decide _ && decide _))) = true ↔ monthsOf x.floor = monthsOf e.today + 1
    simp only [Bool.and_eq_true, Bool.or_eq_true, decide_eq_true_iff]
    unfold monthsOf
    omega

end Verif
