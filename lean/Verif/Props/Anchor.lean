import Verif.Model.Anchor
/-! C27: objects are anchored at the requested pixel rectangle. -/
namespace Verif

/-- Specification: distance in pixels from the sheet's edge to the start of cell `n`. -/
def Spec.pixelsBefore (size : Nat → Nat) : Nat → Nat
  | 0 => 0
  | n + 1 => pixelsBefore size n + size n

open Spec

private theorem foldl_range (size : Nat → Nat) (n : Nat) :
    (List.range n).foldl (fun a i => a + size i) 0 = pixelsBefore size n := by
  induction n with
  | zero => rfl
  | succ n ih => rw [List.range_succ, List.foldl_append, ih]; rfl

private theorem walk_spec (size : Nat → Nat) (fuel i off j o : Nat)
    (h : walk size fuel i off = some (j, o)) :
    i ≤ j ∧ o < size j ∧ pixelsBefore size j + o = pixelsBefore size i + off := by
  induction fuel generalizing i off with
  | zero => simp [walk] at h
  | succ f ih =>
    unfold walk at h
    split at h
    · obtain ⟨a, b, c⟩ := ih _ _ h
      simp only [pixelsBefore] at c
      exact ⟨by omega, b, by omega⟩
    · simp only [Option.some.injEq, Prod.mk.injEq] at h
      obtain ⟨rfl, rfl⟩ := h
      exact ⟨Nat.le_refl _, by omega, rfl⟩

private theorem walk_mono (size : Nat → Nat) (fuel i off : Nat) (r : Nat × Nat)
    (h : walk size fuel i off = some r) (k : Nat) : walk size (fuel + k) i off = some r := by
  induction fuel generalizing i off with
  | zero => simp [walk] at h
  | succ f ih =>
    rw [show f + 1 + k = (f + k) + 1 by omega]
    unfold walk at h ⊢
    split
    · rename_i hc; rw [if_pos hc] at h; exact ih _ _ h
    · rename_i hc; rw [if_neg hc] at h; exact h

private theorem walk_terminates (size : Nat → Nat) (N : Nat) (hN : ∀ i, N ≤ i → 0 < size i)
    (i off : Nat) : ∃ fuel r, walk size fuel i off = some r := by
  have main : ∀ m i off, (N - i) + off ≤ m → ∃ fuel r, walk size fuel i off = some r := by
    intro m
    induction m with
    | zero =>
      intro i off h
      refine ⟨1, (i, off), ?_⟩
      have := hN i (by omega)
      unfold walk; rw [if_neg (by omega)]
    | succ m ih =>
      intro i off h
      by_cases hc : off ≥ size i
      · by_cases hi : N ≤ i
        · have := hN i hi
          obtain ⟨f, r, hr⟩ := ih (i + 1) (off - size i) (by omega)
          exact ⟨f + 1, r, by unfold walk; rw [if_pos hc]; exact hr⟩
        · obtain ⟨f, r, hr⟩ := ih (i + 1) (off - size i) (by omega)
          exact ⟨f + 1, r, by unfold walk; rw [if_pos hc]; exact hr⟩
      · exact ⟨1, (i, off), by unfold walk; rw [if_neg hc]⟩
  exact main _ i off (Nat.le_refl _)

private theorem pixelsBefore_mul (size : Nat → Nat) (u n : Nat) :
    pixelsBefore (fun i => u * size i) n = u * pixelsBefore size n := by
  induction n with
  | zero => simp [pixelsBefore]
  | succ n ih => simp [pixelsBefore, ih, Nat.mul_add]

/-- C27: whenever positioning finishes, the from-anchor is exactly the requested position, the
to-anchor exactly position plus extent, both offsets lie strictly inside their cells and the
recorded absolute position is the requested one — for all cell sizes, offsets and extents
(fractional extents in units of `1/u` pixel). -/
theorem C27_anchor_rectangle (size : Nat → Nat) (u fuel start off extent : Nat) (a : Axis)
    (h : positionAxis size u fuel start off extent = some a) :
    a.absolute = pixelsBefore size start + off ∧
    pixelsBefore size a.fromCell + a.fromOff = a.absolute ∧
    a.fromOff < size a.fromCell ∧
    u * pixelsBefore size a.toCell + a.toOff = u * a.absolute + extent ∧
    a.toOff < u * size a.toCell ∧
    start ≤ a.fromCell ∧ a.fromCell ≤ a.toCell := by
  unfold positionAxis at h
  cases e1 : walk size fuel start off with
  | none => rw [e1] at h; simp at h
  | some p =>
    obtain ⟨c1, x1⟩ := p
    rw [e1] at h
    simp only [Option.bind_eq_bind, Option.bind_some] at h
    cases e2 : walk (fun i => u * size i) fuel c1 (extent + u * x1) with
    | none => rw [e2] at h; simp at h
    | some q =>
      obtain ⟨c2, x2⟩ := q
      rw [e2] at h
      simp only [Option.bind_some, pure, Option.some.injEq] at h
      subst h
      obtain ⟨a1, a2, a3⟩ := walk_spec _ _ _ _ _ _ e1
      obtain ⟨b1, b2, b3⟩ := walk_spec _ _ _ _ _ _ e2
      rw [pixelsBefore_mul, pixelsBefore_mul] at b3
      have habs : absPos size start off = pixelsBefore size start + off := by
        unfold absPos; rw [foldl_range]
      refine ⟨habs, by simp only [habs]; exact a3, a2, ?_, b2, a1, b1⟩
      simp only [habs, ← a3, Nat.mul_add]
      omega

/-- C27: if from some cell on every cell has a positive size, positioning finishes, and the
result does not depend on the step bound. -/
theorem C27_terminates (size : Nat → Nat) (u N start off extent : Nat) (hu : 0 < u)
    (hN : ∀ i, N ≤ i → 0 < size i) :
    ∃ a fuel, ∀ k, positionAxis size u (fuel + k) start off extent = some a := by
  obtain ⟨f1, ⟨c1, x1⟩, h1⟩ := walk_terminates size N hN start off
  obtain ⟨f2, ⟨c2, x2⟩, h2⟩ := walk_terminates (fun i => u * size i) N
    (fun i hi => Nat.mul_pos hu (hN i hi)) c1 (extent + u * x1)
  refine ⟨⟨absPos size start off, c1, x1, c2, x2⟩, f1 + f2, fun k => ?_⟩
  unfold positionAxis
  rw [show f1 + f2 + k = f1 + (f2 + k) by omega, walk_mono _ _ _ _ _ h1]
  simp only [Option.bind_eq_bind, Option.bind_some]
  rw [show f1 + (f2 + k) = f2 + (f1 + k) by omega, walk_mono _ _ _ _ _ h2]
  rfl

/-- C27: on every worksheet (finitely many changed columns) horizontal positioning always
finishes. -/
theorem C27_columns_terminate (changed : Nat → Option LineSize) (after : MoveAfter) (N : Nat)
    (hfin : ∀ i, N ≤ i → changed i = none) (u start off extent : Nat) (hu : 0 < u) :
    ∃ a fuel, ∀ k, positionAxis (columnPx changed after) u (fuel + k) start off extent = some a :=
  C27_terminates _ u N start off extent hu (fun i hi => by simp [columnPx, hfin i hi])

/-- C27: vertical positioning finishes whenever the default row height is at least one pixel
(0.75 points). -/
theorem C27_rows_terminate (changed : Nat → Option LineSize) (default : Nat) (after : MoveAfter)
    (N : Nat) (hfin : ∀ i, N ≤ i → changed i = none) (hd : 750 ≤ default)
    (u start off extent : Nat) (hu : 0 < u) :
    ∃ a fuel, ∀ k, positionAxis (rowPx changed default after) u (fuel + k) start off extent = some a :=
  C27_terminates _ u N start off extent hu (fun i hi => by simp [rowPx, hfin i hi]; omega)

/-- C27 (finding F22): with a default row height below 0.75 points, vertical positioning never
finishes, whatever the object. -/
theorem C27_zero_height_counterexample (default : Nat) (hd : default < 750) (after : MoveAfter)
    (u fuel start off extent : Nat) :
    positionAxis (rowPx (fun _ => none) default after) u fuel start off extent = none := by
  have hz : ∀ i, rowPx (fun _ => none) default after i = 0 := by
    intro i; simp only [rowPx]; omega
  have hw : ∀ fuel i off, walk (rowPx (fun _ => none) default after) fuel i off = none := by
    intro fuel
    induction fuel with
    | zero => intros; rfl
    | succ f ih => intro i off; unfold walk; rw [if_pos (by rw [hz]; omega)]; exact ih _ _
  unfold positionAxis
  rw [hw]; rfl

/-- Non-vacuity: column B hidden, C 2.5 characters wide (23 pixels); a 100.5 pixel object at A,
offset 70. -/
example : positionAxis (columnPx (fun i => if i = 1 then some ⟨8430, true⟩ else
    if i = 2 then some ⟨2500, false⟩ else none) false) 2 10 0 70 201 = some ⟨70, 2, 6, 4, 39⟩ := by
  decide

end Verif
