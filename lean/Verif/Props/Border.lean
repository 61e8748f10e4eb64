import Verif.Model.Border
/-! C37: a border drawn round a range. -/
namespace Verif
variable {σ κ ρ : Type}

/-- Specification: the format a cell of the range must get.  Each side comes from the border
format if the cell is on that edge of the rectangle, otherwise from the cell format; everything
else comes from the cell format. -/
def Spec.borderedFormat (r1 c1 r2 c2 row col : Nat) (cell border : BFormat σ κ ρ) :
    BFormat σ κ ρ where
  topStyle := if row = r1 then border.topStyle else cell.topStyle
  topColor := if row = r1 then border.topColor else cell.topColor
  bottomStyle := if row = r2 then border.bottomStyle else cell.bottomStyle
  bottomColor := if row = r2 then border.bottomColor else cell.bottomColor
  leftStyle := if col = c1 then border.leftStyle else cell.leftStyle
  leftColor := if col = c1 then border.leftColor else cell.leftColor
  rightStyle := if col = c2 then border.rightStyle else cell.rightStyle
  rightColor := if col = c2 then border.rightColor else cell.rightColor
  rest := cell.rest

private theorem mem_rangeIncl {a b i : Nat} : i ∈ rangeIncl a b ↔ a ≤ i ∧ i ≤ b := by
  simp only [rangeIncl, List.mem_map, List.mem_range]
  constructor
  · rintro ⟨j, hj, rfl⟩; omega
  · intro h; exact ⟨i - a, by omega, by omega⟩

private theorem combined_eq (r1 c1 r2 c2 row col : Nat) (cell border : BFormat σ κ ρ)
    (h1 : r1 ≤ row) (h2 : row ≤ r2) (h3 : c1 ≤ col) (h4 : col ≤ c2) :
    combinedBorderFormat cell border (borderPos r1 c1 r2 c2 row col) =
      Spec.borderedFormat r1 c1 r2 c2 row col cell border := by
  unfold borderPos Spec.borderedFormat
  by_cases a : row = r1 <;> by_cases b : row = r2 <;> by_cases c : col = c1 <;>
    by_cases d : col = c2 <;>
    (repeat' split) <;> first | (exfalso; omega) | (simp [*, combinedBorderFormat, BorderPosition.hasTop, BorderPosition.hasBottom,
      BorderPosition.hasLeft, BorderPosition.hasRight])

/-- C37: for every rectangle inside the grid the call succeeds and formats exactly the cells of
the rectangle, each with the sides of its own edges. -/
theorem C37_border_sides (r1 c1 r2 c2 : Nat) (cell border : BFormat σ κ ρ) (hr : r1 ≤ r2)
    (hc : c1 ≤ c2) (hR : r2 < 1048576) (hC : c2 < 16384) :
    ∃ calls, rangeBorderCalls r1 c1 r2 c2 cell border = some calls ∧
      ∀ row col f, (row, col, f) ∈ calls ↔
        (r1 ≤ row ∧ row ≤ r2 ∧ c1 ≤ col ∧ col ≤ c2 ∧
          f = Spec.borderedFormat r1 c1 r2 c2 row col cell border) := by
  have key := fun row col => combined_eq r1 c1 r2 c2 row col cell border
  unfold rangeBorderCalls
  rw [if_neg (by omega), if_neg (by omega)]
  split
  · rename_i h
    refine ⟨_, rfl, fun row col f => ?_⟩
    have hp : BorderPosition.all = borderPos r1 c1 r2 c2 r1 c1 := by simp [borderPos, h]
    rw [hp, key r1 c1 (by omega) (by omega) (by omega) (by omega)]
    simp only [List.mem_singleton, Prod.mk.injEq]
    constructor
    · rintro ⟨rfl, rfl, rfl⟩; exact ⟨by omega, by omega, by omega, by omega, rfl⟩
    · rintro ⟨a, b, c, d, rfl⟩
      obtain rfl : row = r1 := by omega
      obtain rfl : col = c1 := by omega
      exact ⟨rfl, rfl, rfl⟩
  · split
    · rename_i h
      refine ⟨_, rfl, fun row col f => ?_⟩
      simp only [List.mem_map, mem_rangeIncl, Prod.mk.injEq]
      constructor
      · rintro ⟨col', hc', rfl, rfl, rfl⟩
        exact ⟨by omega, by omega, by omega, by omega, key _ _ (by omega) (by omega) (by omega) (by omega)⟩
      · rintro ⟨a, b, c, d, rfl⟩
        obtain rfl : row = r1 := by omega
        exact ⟨col, ⟨c, d⟩, rfl, rfl, key _ _ (by omega) (by omega) (by omega) (by omega)⟩
    · split
      · rename_i h
        refine ⟨_, rfl, fun row col f => ?_⟩
        simp only [List.mem_map, mem_rangeIncl, Prod.mk.injEq]
        constructor
        · rintro ⟨row', hc', rfl, rfl, rfl⟩
          exact ⟨by omega, by omega, by omega, by omega, key _ _ (by omega) (by omega) (by omega) (by omega)⟩
        · rintro ⟨a, b, c, d, rfl⟩
          obtain rfl : col = c1 := by omega
          exact ⟨row, ⟨a, b⟩, rfl, rfl, key _ _ (by omega) (by omega) (by omega) (by omega)⟩
      · refine ⟨_, rfl, fun row col f => ?_⟩
        simp only [List.mem_flatMap, List.mem_map, mem_rangeIncl, Prod.mk.injEq]
        constructor
        · rintro ⟨row', hr', col', hc', rfl, rfl, rfl⟩
          exact ⟨by omega, by omega, by omega, by omega, key _ _ (by omega) (by omega) (by omega) (by omega)⟩
        · rintro ⟨a, b, c, d, rfl⟩
          exact ⟨row, ⟨a, b⟩, col, ⟨c, d⟩, rfl, rfl, key _ _ (by omega) (by omega) (by omega) (by omega)⟩

/-- C37: rectangles that leave the grid or have swapped corners are refused without any call. -/
theorem C37_refused (r1 c1 r2 c2 : Nat) (cell border : BFormat σ κ ρ) :
    rangeBorderCalls r1 c1 r2 c2 cell border = none ↔
      r1 ≥ 1048576 ∨ c1 ≥ 16384 ∨ r2 ≥ 1048576 ∨ c2 ≥ 16384 ∨ r1 > r2 ∨ c1 > c2 := by
  unfold rangeBorderCalls
  split
  · simp; omega
  · split
    · simp; omega
    · (repeat' split) <;> simp <;> omega

example : rangeBorderCalls 1 1 2 2 (⟨0, 0, 0, 0, 0, 0, 0, 0, 7⟩ : BFormat Nat Nat Nat)
    ⟨1, 1, 2, 2, 3, 3, 4, 4, 9⟩ =
    some [(1, 1, ⟨1, 1, 0, 0, 3, 3, 0, 0, 7⟩), (1, 2, ⟨1, 1, 0, 0, 0, 0, 4, 4, 7⟩),
      (2, 1, ⟨0, 0, 2, 2, 3, 3, 0, 0, 7⟩), (2, 2, ⟨0, 0, 2, 2, 0, 0, 4, 4, 7⟩)] := by decide

end Verif
