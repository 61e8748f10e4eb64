import Verif.Model.DateTime
/-!
Independent specification for dates: the proleptic Gregorian calendar as a day-by-day clock.
Only the record type `YMD` is shared with the model.
-/
namespace Verif.Spec

/-- A Gregorian leap year. -/
def Leap (y : Nat) : Prop := (4 ∣ y ∧ ¬ 100 ∣ y) ∨ 400 ∣ y

instance (y : Nat) : Decidable (Leap y) := by unfold Leap; infer_instance

/-- Days in a month: "thirty days hath September...". -/
def daysIn (y m : Nat) : Nat :=
  if m = 4 ∨ m = 6 ∨ m = 9 ∨ m = 11 then 30
  else if m = 2 then (if Leap y then 29 else 28) else 31

/-- A real calendar date. -/
def RealDate (d : YMD) : Prop := 1 ≤ d.month ∧ d.month ≤ 12 ∧ 1 ≤ d.day ∧ d.day ≤ daysIn d.year d.month

/-- Tomorrow. -/
def tomorrow (d : YMD) : YMD :=
  if d.day < daysIn d.year d.month then ⟨d.year, d.month, d.day + 1⟩
  else if d.month < 12 then ⟨d.year, d.month + 1, 1⟩
  else ⟨d.year + 1, 1, 1⟩

/-- Yesterday. -/
def yesterday (d : YMD) : YMD :=
  if 1 < d.day then ⟨d.year, d.month, d.day - 1⟩
  else if 1 < d.month then ⟨d.year, d.month - 1, daysIn d.year (d.month - 1)⟩
  else ⟨d.year - 1, 12, 31⟩

/-- `f` applied `n` times. -/
def times {α : Type} (f : α → α) : Nat → α → α
  | 0, a => a
  | n+1, a => f (times f n a)

/-- The date `k` days after 1970-01-01 (before, when `k` is negative). -/
def dateFrom1970 : Int → YMD
  | .ofNat n => times tomorrow n ⟨1970, 1, 1⟩
  | .negSucc n => times yesterday (n + 1) ⟨1970, 1, 1⟩

end Verif.Spec
