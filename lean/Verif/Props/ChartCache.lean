import Verif.Spec.Chart
import Verif.Props.FilterRows
/-!
C34, first part: the caches of the ranges of charts hold the values of the cells.
-/
set_option linter.unusedSectionVars false
namespace Verif
open Spec BMap
variable {Fmt : Type} [DecidableEq Fmt] {cfg : Cfg} {dflt : Fmt}

/-- What `addCell` does, in terms of what the cell shows. -/
def ChartCache.addContent (k : ChartCache) (c : Content) : ChartCache :=
  ⟨match c with
    | .text _ => .string
    | .number _ => if k.kind ≠ .string then .number else k.kind
    | .dateTime _ => if k.kind ≠ .string then .date else k.kind
    | _ => k.kind, k.data ++ [cachedText c]⟩

theorem addCell_content (k : ChartCache) (o : Option Cell) (h : ∀ t x, o ≠ some (.inlineString t x)) :
    k.addCell o = k.addContent (contentOf o) := by
  cases o with
  | none => rfl
  | some c => cases c <;> first | rfl | exact absurd rfl (h _ _)

/-- The kind of a cache after the cells `cs`. -/
def kindOf (k : CacheKind) (cs : List Content) : CacheKind :=
  if k = .string ∨ cs.any isTextCell then .string
  else match (cs.filterMap dateCell).getLast? with
    | none => k
    | some true => .date
    | some false => .number

theorem foldl_addContent (cs : List Content) (k : ChartCache) :
    cs.foldl ChartCache.addContent k = ⟨kindOf k.kind cs, k.data ++ cs.map cachedText⟩ := by
  induction cs generalizing k with
  | nil =>
    obtain ⟨kind, data⟩ := k
    cases kind <;> simp [kindOf]
  | cons c cs ih =>
    rw [List.foldl_cons, ih]
    congr 1
    · unfold kindOf ChartCache.addContent
      rw [List.any_cons, List.filterMap_cons]
      generalize cs.any isTextCell = a
      generalize hg : List.filterMap dateCell cs = g
      generalize k.kind = q
      cases c <;> cases q <;> cases a <;> dsimp only [isTextCell, dateCell] <;> (try rw [List.getLast?_cons]) <;>
        first | rfl | (rcases g.getLast? with _ | _ | _ <;> rfl)
    · simp [ChartCache.addContent]

theorem foldl_flatMap {α β γ : Type} (l : List α) (f : α → List β) (g : γ → β → γ) (k : γ) :
    (l.flatMap f).foldl g k = l.foldl (fun k a => (f a).foldl g k) k := by
  induction l generalizing k with
  | nil => rfl
  | cons a l ih => rw [List.flatMap_cons, List.foldl_append, ih]; rfl

/-- Every row of the range has a cell with content, or the range has one column. -/
def RowsThere (ct : Nat → Nat → Content) (d : Dims) : Prop :=
  d.firstCol = d.lastCol ∨ ∀ r, d.firstRow ≤ r → r ≤ d.lastRow → ∃ c, ct r c ≠ .blank

theorem foldl_congr_mem {α β : Type} (l : List α) (f g : β → α → β) (k : β) (h : ∀ a ∈ l, ∀ k, f k a = g k a) :
    l.foldl f k = l.foldl g k := by
  induction l generalizing k with
  | nil => rfl
  | cons a l ih =>
    rw [List.foldl_cons, List.foldl_cons, h a List.mem_cons_self, ih _ fun b hb => h b (List.mem_cons_of_mem _ hb)]

theorem cacheRow_eq {s : Sheet Fmt} {ct : Nat → Nat → Content} (h : Shows cfg dflt s ct) (d : Dims)
    (r : Nat) (hr : d.firstCol = d.lastCol ∨ ∃ c, ct r c ≠ .blank) (k : ChartCache) :
    s.cacheRow d k r = (List.range' d.firstCol (d.lastCol + 1 - d.firstCol)).foldl
      (fun k c => k.addContent (ct r c)) k := by
  unfold Sheet.cacheRow
  cases hg : s.table.get r with
  | some cols =>
    dsimp only
    refine foldl_congr_mem _ _ _ _ fun c _ k => ?_
    have hc := h.cellIn r c
    unfold cellIn at hc
    rw [hg, Option.bind_some] at hc
    rw [addCell_content _ _ hc.2, hc.1]
  | none =>
    have hb : ∀ c, ct r c = .blank := by
      intro c
      have hc := h.cellIn r c
      unfold cellIn at hc
      rw [hg, Option.bind_none] at hc
      exact hc.1.symm
    rcases hr with he | ⟨c, hc⟩
    · rw [← he, Nat.add_sub_cancel_left]
      simp [List.range', hb, ChartCache.addContent, cachedText]
    · exact absurd (hb c) hc

/-- The cache of a range. -/
theorem getCacheData_eq {s : Sheet Fmt} {ct : Nat → Nat → Content} (h : Shows cfg dflt s ct) (d : Dims)
    (hr : RowsThere ct d) :
    s.getCacheData d = ⟨kindOf .none ((rangeCells d).map fun p => ct p.1 p.2),
      (rangeCells d).map fun p => cachedText (ct p.1 p.2)⟩ := by
  have : s.getCacheData d = ((rangeCells d).map fun p => ct p.1 p.2).foldl ChartCache.addContent {} := by
    unfold Sheet.getCacheData rangeCells
    rw [List.map_flatMap, foldl_flatMap]
    refine foldl_congr_mem _ _ _ _ fun r hm k => ?_
    rw [List.mem_range'_1] at hm
    rw [cacheRow_eq h d r (hr.imp id fun f => f r hm.1 (by omega)), List.map_map, List.foldl_map]
    rfl
  rw [this, foldl_addContent, List.map_map]
  rfl

/-! ### The caches of all charts -/

theorem sheetNamed_lookup (sheets : List (Str × Sheet Fmt)) (n : Str) : sheetNamed sheets n = sheets.lookup n := by
  induction sheets with
  | nil => rfl
  | cons p r ih =>
    obtain ⟨m, s⟩ := p
    rw [sheetNamed, List.lookup_cons, ih]
    by_cases h : n = m
    · rw [if_pos h, h, BEq.rfl]
    · rw [if_neg h, beq_eq_false_iff_ne.mpr h]

theorem mem_foldl_insertRange (rs : List ChartRange) (m : CacheMap) (r : ChartRange) :
    (∃ k, (r, k) ∈ rs.foldl insertRange m) ↔ (∃ k, (r, k) ∈ m) ∨ (r ∈ rs ∧ r.hasData = true) := by
  induction rs generalizing m with
  | nil => simp
  | cons x rs ih =>
    rw [List.foldl_cons, ih]
    have : (∃ k, (r, k) ∈ insertRange m x) ↔ (∃ k, (r, k) ∈ m) ∨ (r = x ∧ r.hasData = true) := by
      unfold insertRange
      split
      · rename_i hx
        split
        · rename_i ha
          constructor
          · exact Or.inl
          · rintro (h | ⟨rfl, _⟩)
            · exact h
            · obtain ⟨p, hp, he⟩ := List.any_eq_true.mp ha
              rw [beq_iff_eq] at he
              exact ⟨p.2, by rw [← he]; exact hp⟩
        · constructor
          · rintro ⟨k, hk⟩
            rcases List.mem_append.mp hk with h | h
            · exact .inl ⟨k, h⟩
            · simp only [List.mem_singleton, Prod.mk.injEq] at h
              exact .inr ⟨h.1, h.1 ▸ hx⟩
          · rintro (⟨k, hk⟩ | ⟨rfl, _⟩)
            · exact ⟨k, List.mem_append_left _ hk⟩
            · exact ⟨_, List.mem_append_right _ List.mem_cons_self⟩
      · rename_i hx
        constructor
        · exact Or.inl
        · rintro (h | ⟨rfl, h⟩)
          · exact h
          · exact absurd h hx
    rw [this, List.mem_cons]
    constructor
    · rintro ((h | ⟨h, h'⟩) | ⟨h, h'⟩)
      · exact .inl h
      · exact .inr ⟨.inl h, h'⟩
      · exact .inr ⟨.inr h, h'⟩
    · rintro (h | ⟨h | h, h'⟩)
      · exact .inl (.inl h)
      · exact .inl (.inr ⟨h, h'⟩)
      · exact .inr ⟨h, h'⟩

theorem fillCaches_some {sheets : List (Str × Sheet Fmt)} {m out : CacheMap} (h : fillCaches sheets m = some out)
    (r : ChartRange) :
    ((∃ k, (r, k) ∈ m) → ∃ s, sheets.lookup r.sheet = some s ∧ out.lookup r = some (s.getCacheData r.d)) ∧
    ((¬ ∃ k, (r, k) ∈ m) → out.lookup r = none) := by
  induction m generalizing out with
  | nil => cases h; exact ⟨fun ⟨k, hk⟩ => by simp at hk, fun _ => rfl⟩
  | cons p m ih =>
    obtain ⟨x, k⟩ := p
    rw [fillCaches, sheetNamed_lookup] at h
    cases hs : sheets.lookup x.sheet with
    | none => rw [hs] at h; cases h
    | some s =>
      rw [hs] at h
      dsimp only at h
      obtain ⟨o, ho, rfl⟩ := Option.map_eq_some_iff.mp h
      have := ih ho
      rw [List.lookup_cons]
      by_cases hx : r = x
      · subst hx
        simp only [beq_self_eq_true]
        exact ⟨fun _ => ⟨s, hs, rfl⟩, fun hn => absurd ⟨k, List.mem_cons_self⟩ hn⟩
      · simp only [beq_eq_false_iff_ne.mpr hx]
        refine ⟨fun ⟨k', hk'⟩ => this.1 ?_, fun hn => this.2 fun ⟨k', hk'⟩ => hn ⟨k', List.mem_cons_of_mem _ hk'⟩⟩
        rcases List.mem_cons.mp hk' with h | h
        · cases h; exact absurd rfl hx
        · exact ⟨k', h⟩

theorem fillCaches_none {sheets : List (Str × Sheet Fmt)} {m : CacheMap} :
    fillCaches sheets m = none ↔ ∃ p ∈ m, sheets.lookup p.1.sheet = none := by
  induction m with
  | nil => simp [fillCaches]
  | cons p m ih =>
    obtain ⟨x, k⟩ := p
    rw [fillCaches, sheetNamed_lookup]
    cases hs : sheets.lookup x.sheet with
    | none => exact ⟨fun _ => ⟨_, List.mem_cons_self, hs⟩, fun _ => rfl⟩
    | some s =>
      dsimp only
      rw [Option.map_eq_none_iff, ih]
      constructor
      · rintro ⟨p, hp, h⟩; exact ⟨p, List.mem_cons_of_mem _ hp, h⟩
      · rintro ⟨p, hp, h⟩
        rcases List.mem_cons.mp hp with rfl | hp
        · rw [hs] at h; cases h
        · exact ⟨p, hp, h⟩

/-- C34: a save fails with an error if and only if a chart refers to a worksheet that is not there. -/
theorem C34_unknown_sheet (sheets : List (Str × Sheet Fmt)) (charts : List Chart) :
    prepareCaches sheets charts = none ↔
      ∃ c ∈ charts, ∃ r ∈ c.ranges, r.sheet ≠ [] ∧ r.sheet ∉ sheets.map Prod.fst := by
  unfold prepareCaches
  rw [Option.map_eq_none_iff, fillCaches_none]
  have hl : ∀ n, sheets.lookup n = none ↔ n ∉ sheets.map Prod.fst := by
    intro n
    induction sheets with
    | nil => simp
    | cons p r ih =>
      obtain ⟨m, s⟩ := p
      rw [List.lookup_cons]
      by_cases h : n = m
      · subst h; simp
      · simp only [beq_eq_false_iff_ne.mpr h, ih, List.map_cons, List.mem_cons, h, false_or]
  constructor
  · rintro ⟨p, hp, hn⟩
    have := (mem_foldl_insertRange (charts.flatMap (·.ranges)) [] p.1).mp ⟨p.2, hp⟩
    rcases this with ⟨k, hk⟩ | ⟨hm, hd⟩
    · simp at hk
    · obtain ⟨c, hc, hr⟩ := List.mem_flatMap.mp hm
      refine ⟨c, hc, p.1, hr, ?_, (hl _).mp hn⟩
      unfold ChartRange.hasData at hd
      intro he
      rw [he] at hd
      cases hd
  · rintro ⟨c, hc, r, hr, hne, hn⟩
    obtain ⟨k, hk⟩ := (mem_foldl_insertRange (charts.flatMap (·.ranges)) [] r).mpr (.inr
      ⟨List.mem_flatMap.mpr ⟨c, hc, hr⟩, by unfold ChartRange.hasData; cases hs : r.sheet <;> simp_all⟩)
    exact ⟨(r, k), hk, (hl _).mpr hn⟩

/-- The caches that `prepareCaches` puts into the ranges. -/
def CachesOf (sheets : List (Str × Sheet Fmt)) (ranges : List ChartRange) (m : CacheMap) : Prop :=
  ∀ r ∈ ranges, r.hasData = true → ∃ s, sheets.lookup r.sheet = some s ∧ m.lookup r = some (s.getCacheData r.d)

theorem prepareCaches_some {sheets : List (Str × Sheet Fmt)} {charts out : List Chart}
    (h : prepareCaches sheets charts = some out) :
    ∃ m, out = charts.map (·.update m) ∧ CachesOf sheets (charts.flatMap (·.ranges)) m := by
  unfold prepareCaches at h
  obtain ⟨m, hm, rfl⟩ := Option.map_eq_some_iff.mp h
  refine ⟨m, rfl, fun r hr hd => ?_⟩
  exact (fillCaches_some hm r).1 ((mem_foldl_insertRange _ _ r).mpr (.inr ⟨hr, hd⟩))

end Verif
