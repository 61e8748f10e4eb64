import Verif.Lemmas.Read
import Verif.Spec.Saves
/-! Saves keep the invariant of a workbook, and preparing a prepared workbook changes nothing. -/
set_option linter.unusedSectionVars false
set_option linter.unusedSimpArgs false
namespace Verif
open BMap
variable {Fmt : Type} [DecidableEq Fmt]

theorem Book.prepare_eq (b : Book Fmt) (extra : List Fmt) :
    b.prepare extra = ((b.registerExtra extra).registerSheets).assignIds := rfl

section
variable {cfgs : List Cfg} {dflt : Fmt} {b : Book Fmt} {ops : List (Nat × Op Fmt)}

theorem BookInv.registerExtra (h : BookInv cfgs dflt (StdR dflt) b ops) (extra : List Fmt) :
    BookInv cfgs dflt (StdR dflt) (b.registerExtra extra) ops := by
  have he := regFormats_spec extra h.gxfI
  have hsh : ∀ s : Sheet Fmt, Shared dflt (s.view b) b.sst (regFormats extra b.gxf).2 := fun s =>
    ⟨h.sstI, SstGrow.refl _, he.1, he.2.1 _ _ h.gxf0, he.2.1⟩
  exact ⟨h.len, h.sstI, he.1, he.2.1 _ _ h.gxf0, h.cfg,
    fun i s hs => (h.gen i s hs).shared (hsh s), fun i s hs => by have := StdR.shared (hsh s) (h.rel i s hs); exact this⟩

theorem BookInv.registerSheets (h : BookInv cfgs dflt (StdR dflt) b ops) :
    BookInv cfgs dflt (StdR dflt) b.registerSheets ops := by
  have hr := regSheets_spec b.sheets h.gxfI
  have hget : ∀ (i : Nat) (s' : Sheet Fmt), b.registerSheets.sheets[i]? = some s' →
      ∃ s l, b.sheets[i]? = some s ∧ s' = { s with globalXf := l } := by
    intro i s' hs'
    have hlt : i < b.sheets.length := by
      rw [← hr.2.2.1]; exact (List.getElem?_eq_some_iff.mp hs').1
    obtain ⟨l, hl, _⟩ := hr.2.2.2 i b.sheets[i] (List.getElem?_eq_getElem hlt)
    refine ⟨b.sheets[i], l, List.getElem?_eq_getElem hlt, ?_⟩
    have : (regSheets b.sheets b.gxf).1[i]? = some s' := hs'
    rw [hl] at this; cases this; rfl
  have hsh : ∀ s : Sheet Fmt, Shared dflt (s.view b) b.sst (regSheets b.sheets b.gxf).2 := fun s =>
    ⟨h.sstI, SstGrow.refl _, hr.1, hr.2.1 _ _ h.gxf0, hr.2.1⟩
  refine ⟨hr.2.2.1.trans h.len, h.sstI, hr.1, hr.2.1 _ _ h.gxf0, ?_, ?_, ?_⟩
  · intro i s' hs'
    obtain ⟨s, l, hs, rfl⟩ := hget i s' hs'
    exact h.cfg i s hs
  · intro i s' hs'
    obtain ⟨s, l, hs, rfl⟩ := hget i s' hs'
    have hG := (h.gen i s hs).shared (hsh s)
    exact ⟨⟨hG.xf.loc, hG.xf.fmts, hG.xf.glob, hG.xf.loc0, hG.xf.glob0⟩, hG.sst, hG.table, hG.ahead, hG.out,
      hG.rowsS, hG.colsS, hG.rowsV, hG.colsV⟩
  · intro i s' hs'
    obtain ⟨s, l, hs, rfl⟩ := hget i s' hs'
    have hR := (h.rel i s hs).shared (hsh s)
    refine ⟨hR.1.same (fun _ _ h => h) (DimsLe.refl _) rfl rfl (fun _ => rfl) (fun _ => rfl), ?_⟩
    intro hstd nr nf h1 h2
    exact (hR.2 hstd nr nf h1 h2).frame rfl rfl rfl rfl rfl rfl rfl id (fun _ _ h => h)

theorem BookInv.assignIds (h : BookInv cfgs dflt (StdR dflt) b ops) :
    BookInv cfgs dflt (StdR dflt) b.assignIds ops := by
  have hids : ∀ s ∈ b.sheets, TblAll (·.IdOk b.sst) s.table := by
    intro s hs
    obtain ⟨i, hi⟩ := List.getElem?_of_mem hs
    exact (h.gen i s hi).table.imp fun c hc => hc.1
  have hd := idSheets_spec _ h.sstI hids
  have hget : ∀ (i : Nat) (s' : Sheet Fmt), b.assignIds.sheets[i]? = some s' →
      ∃ s t', b.sheets[i]? = some s ∧ SstInv t' ∧ SstGrow b.sst t' ∧
        SstGrow (s.withIds t').2 b.assignIds.sst ∧ s' = (s.withIds t').1 := by
    intro i s' hs'
    have hlt : i < b.sheets.length := by
      rw [← hd.2.2.1]; exact (List.getElem?_eq_some_iff.mp hs').1
    obtain ⟨t', h1, h2, h3, h4⟩ := hd.2.2.2 i b.sheets[i] (List.getElem?_eq_getElem hlt)
    refine ⟨b.sheets[i], t', List.getElem?_eq_getElem hlt, h1, h2, h3, ?_⟩
    have : (idSheets b.sheets b.sst).1[i]? = some s' := hs'
    rw [h4] at this; cases this; rfl
  have hsh : ∀ s : Sheet Fmt, Shared dflt (s.view b) b.assignIds.sst b.gxf := fun s =>
    ⟨hd.1, hd.2.1, h.gxfI, h.gxf0, TblGrow.refl _⟩
  refine ⟨hd.2.2.1.trans h.len, hd.1, h.gxfI, h.gxf0, ?_, ?_, ?_⟩
  · intro i s' hs'
    obtain ⟨s, t', hs, _, _, _, rfl⟩ := hget i s' hs'
    rw [withIds_same]
    exact h.cfg i s hs
  · intro i s' hs'
    obtain ⟨s, t', hs, ht1, ht2, hg, rfl⟩ := hget i s' hs'
    have hG := h.gen i s hs
    have hG' := hG.shared (hsh s)
    have hids := (withIds_spec s ht1 (hG.table.imp fun c hc => hc.1.mono ht2)).2.2
    rw [withIds_same]
    refine ⟨⟨hG'.xf.loc, hG'.xf.fmts, hG'.xf.glob, hG'.xf.loc0, hG'.xf.glob0⟩, hG'.sst, ?_, hG'.ahead, hG'.out,
      hG'.rowsS, hG'.colsS, hG'.rowsV, hG'.colsV⟩
    intro q hq p hp
    have hq' : q ∈ (s.withIds t').1.table := hq
    refine ⟨(hids q hq' p hp).mono hg, ?_⟩
    obtain ⟨q', hq', _, c, hc, hx, _⟩ := withIds_cells _ _ hq' hp
    rw [hx]
    exact (hG'.table q' hq' _ hc).2
  · intro i s' hs'
    obtain ⟨s, t', hs, ht1, ht2, hg, rfl⟩ := hget i s' hs'
    have hR := h.rel i s hs
    have hR' := hR.shared (hsh s)
    refine ⟨?_, ?_⟩
    · rw [withIds_same]
      exact hR'.1.same (fun _ _ h => h) (DimsLe.refl _) rfl rfl (fun _ => rfl) (fun _ => rfl)
    · have ecfg : ((s.withIds t').1.view b.assignIds).cfg = s.cfg := by rw [withIds_same]; rfl
      rw [ecfg]
      intro hstd nr nf h1 h2
      have hrel := hR'.2 hstd nr nf h1 h2
      have hup : s.withIds t' = s.updateStringTableIds t' := by
        unfold Sheet.withIds; rw [if_neg]; simp [hstd.2.2.2]
      have hv : (s.withIds t').1.view b.assignIds =
          (({ (s.view b) with sst := b.assignIds.sst, gxf := b.gxf } : Sheet Fmt).updateStringTableIds t').1 := by
        rw [hup]
        unfold Sheet.updateStringTableIds Sheet.view
        dsimp only
        split <;> rfl
      rw [hv]
      exact (hrel.ids t').1

theorem BookInv.prepare (h : BookInv cfgs dflt (StdR dflt) b ops) (extra : List Fmt) :
    BookInv cfgs dflt (StdR dflt) (b.prepare extra) ops :=
  ((h.registerExtra extra).registerSheets).assignIds

theorem flushLastRow_sst (s : Sheet Fmt) : s.flushLastRow.sst = s.sst ∧ s.flushLastRow.gxf = s.gxf := by
  have : ∀ (l : List Nat) (s : Sheet Fmt), (l.foldl Sheet.flushDataRow s).sst = s.sst ∧
      (l.foldl Sheet.flushDataRow s).gxf = s.gxf := by
    intro l; induction l with
    | nil => intro s; exact ⟨rfl, rfl⟩
    | cons a l ih => intro s; simp only [List.foldl_cons]; rw [(ih _).1, (ih _).2]; exact ⟨rfl, rfl⟩
  exact this _ _

theorem view_flushLastRow (s : Sheet Fmt) (b : Book Fmt) :
    (s.view b).flushLastRow = s.flushLastRow.view b := by
  have key : ∀ (l : List Nat) (s : Sheet Fmt), (l.foldl Sheet.flushDataRow (s.view b)) =
      (l.foldl Sheet.flushDataRow s).view b := by
    intro l; induction l with
    | nil => intro s; rfl
    | cons a l ih => intro s; simp only [List.foldl_cons]; rw [← ih]; rfl
  exact key _ _

theorem StdR.packaged {s : Sheet Fmt} {l : List (Op Fmt)} (hG : Gen dflt s) (h : StdR dflt s l) :
    Gen dflt s.packaged ∧ StdR dflt s.packaged l ∧ s.packaged.cfg = s.cfg := by
  unfold Sheet.packaged
  cases e : s.cfg.constMem with
  | false => exact ⟨hG, h, rfl⟩
  | true =>
    have hs := hG.flushLastRow (rc := false)
    refine ⟨hs.1, ⟨h.1.same hs.2.fmt hs.2.dims (hs.2.rows rfl).1 (hs.2.rows rfl).2 (fun _ => rfl) (fun _ => rfl), ?_⟩,
      hs.2.cfg⟩
    intro hstd
    have : s.flushLastRow.cfg.constMem = false := hstd.1
    rw [hs.2.cfg, e] at this
    cases this

theorem view_packaged (s : Sheet Fmt) (b : Book Fmt) : s.packaged.view b = (s.view b).packaged := by
  unfold Sheet.packaged
  have : (s.view b).cfg = s.cfg := rfl
  rw [this]
  split
  · exact (view_flushLastRow s b).symm
  · rfl

theorem BookInv.package (h : BookInv cfgs dflt (StdR dflt) b ops) (n : Nat) :
    BookInv cfgs dflt (StdR dflt) (b.package n) ops := by
  have hlen : (b.package n).sheets.length = b.sheets.length := by
    simp only [Book.package, List.length_append, List.length_map, List.length_take, List.length_drop]; omega
  have hget : ∀ (i : Nat) (s' : Sheet Fmt), (b.package n).sheets[i]? = some s' →
      ∃ s, b.sheets[i]? = some s ∧ (s' = s ∨ s' = s.packaged) := by
    intro i s' hs'
    simp only [Book.package] at hs'
    by_cases e : i < (b.sheets.take n).length
    · rw [List.getElem?_append_left (by simpa using e), List.getElem?_map] at hs'
      rw [List.length_take] at e
      rw [List.getElem?_take_of_lt (by omega)] at hs'
      cases hs : b.sheets[i]? with
      | none => rw [hs] at hs'; cases hs'
      | some s => rw [hs] at hs'; cases hs'; exact ⟨s, rfl, Or.inr rfl⟩
    · rw [List.getElem?_append_right (by simpa using e), List.getElem?_drop] at hs'
      refine ⟨s', ?_, Or.inl rfl⟩
      rw [← hs']
      congr 1
      rw [List.length_map]
      rw [List.length_take] at e ⊢
      by_cases hn : n ≤ b.sheets.length
      · omega
      · exfalso
        have : b.sheets.length ≤ n + (i - (List.map Sheet.packaged (b.sheets.take n)).length) := by omega
        rw [List.getElem?_eq_none this] at hs'
        cases hs'
  have hpk := fun (i : Nat) (s : Sheet Fmt) (hs : b.sheets[i]? = some s) => (h.rel i s hs).packaged (h.gen i s hs)
  refine ⟨hlen.trans h.len, h.sstI, h.gxfI, h.gxf0, ?_, ?_, ?_⟩
  · intro i s' hs'
    obtain ⟨s, hs, rfl | rfl⟩ := hget i s' hs'
    · exact h.cfg i s' hs
    · rw [h.cfg i s hs]
      have := (hpk i s hs).2.2
      rw [← view_packaged] at this
      exact congrArg some this.symm
  · intro i s' hs'
    obtain ⟨s, hs, rfl | rfl⟩ := hget i s' hs'
    · exact h.gen i s' hs
    · show Gen dflt (s.packaged.view b)
      rw [view_packaged]; exact (hpk i s hs).1
  · intro i s' hs'
    obtain ⟨s, hs, rfl | rfl⟩ := hget i s' hs'
    · exact h.rel i s' hs
    · show StdR dflt (s.packaged.view b) _
      rw [view_packaged]; exact (hpk i s hs).2.1

theorem BookInv.saved (h : BookInv cfgs dflt (StdR dflt) b ops) (extra : List Fmt) (e : SaveEnd) :
    BookInv cfgs dflt (StdR dflt) (b.saved extra e) ops := by
  cases e with
  | names => exact h.registerExtra extra
  | content => exact (h.registerExtra extra).registerSheets
  | file n => exact (h.prepare extra).package n
  | done => exact (h.prepare extra).package _

theorem BookInv.step (h : BookInv cfgs dflt (StdR dflt) b ops) (ev : Event Fmt) :
    BookInv cfgs dflt (StdR dflt) (b.step ev) (ops ++ callsOf [ev]) := by
  cases ev with
  | call i op => exact h.exec (fun s l op => StdR.exec s l op) (fun s l t g _ hs h => StdR.shared hs h) i op
  | save extra e => rw [show ops ++ callsOf [Event.save extra e] = ops from List.append_nil ops]; exact h.saved extra e

theorem BookInv.history (h : BookInv cfgs dflt (StdR dflt) b ops) (evs : List (Event Fmt)) :
    BookInv cfgs dflt (StdR dflt) (b.history evs) (ops ++ callsOf evs) := by
  induction evs generalizing b ops with
  | nil => rw [show ops ++ callsOf ([] : List (Event Fmt)) = ops from List.append_nil ops]; exact h
  | cons ev evs ih =>
    have := ih (h.step ev)
    rw [List.append_assoc, show callsOf [ev] ++ callsOf evs = callsOf (ev :: evs) by
      cases ev <;> rfl] at this
    exact this
end

/-! ### Saving again without changes -/

theorem regFormats_again (fs : List Fmt) {g g2 : List (Fmt × Nat)} (h : TblInv g) (h2 : TblInv g2)
    (hg : TblGrow (regFormats fs g).2 g2) : regFormats fs g2 = ((regFormats fs g).1, g2) := by
  induction fs generalizing g with
  | nil => rfl
  | cons f fs ih =>
    have h1 := regFormat_spec h f
    have h3 := regFormats_spec fs h1.1
    have hl : g2.lookup f = some (regFormat g f).1 := lookup_of_get h2 (hg _ _ (h3.2.1 _ _ h1.2.2))
    have e1 : regFormat g2 f = ((regFormat g f).1, g2) := by
      conv => lhs; unfold regFormat
      rw [hl]
    have e2 := ih h1.1 hg
    show ((regFormat g2 f).1 :: (regFormats fs (regFormat g2 f).2).1, (regFormats fs (regFormat g2 f).2).2) = _
    rw [e1]
    dsimp only
    rw [e2]
    rfl

theorem regSheets_again (ss : List (Sheet Fmt)) {g g2 : List (Fmt × Nat)} (h : TblInv g) (h2 : TblInv g2)
    (hg : TblGrow (regSheets ss g).2 g2) : regSheets (regSheets ss g).1 g2 = ((regSheets ss g).1, g2) := by
  induction ss generalizing g with
  | nil => rfl
  | cons s ss ih =>
    have h1 := regFormats_spec s.xfFormats h
    have h3 := regSheets_spec ss h1.1
    have e1 := regFormats_again s.xfFormats h h2 (h3.2.1.trans hg)
    have e2 := ih h1.1 hg
    show (({ s with globalXf := (regFormats s.xfFormats g2).1 } : Sheet Fmt) ::
      (regSheets (regSheets ss (regFormats s.xfFormats g).2).1 (regFormats s.xfFormats g2).2).1,
      (regSheets (regSheets ss (regFormats s.xfFormats g).2).1 (regFormats s.xfFormats g2).2).2) = _
    rw [e1]
    dsimp only
    rw [e2]
    rfl

theorem assignId_again (c : Cell) (t t2 : SST) : (c.assignId t).1.assignId t2 = ((c.assignId t).1, t2) := by
  cases c with
  | string s x o => cases o <;> rfl
  | rich s raw x o => cases o <;> rfl
  | number n x => rfl
  | dateTime n x => rfl
  | inlineString s x => rfl
  | formula f r x => rfl
  | arrayFormula f r x d g => rfl
  | blank x => rfl
  | boolean b x => rfl
  | error v x => rfl

theorem assignIdsRow_again (m : BMap Cell) (t t2 : SST) :
    assignIdsRow (assignIdsRow m t).1 t2 = ((assignIdsRow m t).1, t2) := by
  induction m generalizing t with
  | nil => rfl
  | cons p m ih =>
    obtain ⟨k, c⟩ := p
    simp only [assignIdsRow]
    rw [assignId_again]
    dsimp only
    rw [ih]

theorem assignIdsTable_again (m : BMap (BMap Cell)) (t t2 : SST) :
    assignIdsTable (assignIdsTable m t).1 t2 = ((assignIdsTable m t).1, t2) := by
  induction m generalizing t with
  | nil => rfl
  | cons p m ih =>
    obtain ⟨k, c⟩ := p
    simp only [assignIdsTable]
    rw [assignIdsRow_again]
    dsimp only
    rw [ih]

theorem withIds_again (s : Sheet Fmt) (t t2 : SST) : (s.withIds t).1.withIds t2 = ((s.withIds t).1, t2) := by
  unfold Sheet.withIds Sheet.updateStringTableIds
  cases e : s.cfg.globalSst with
  | true => simp [e]
  | false =>
    cases e2 : s.hasLocalSst with
    | false => simp [e, e2]
    | true => simp [e, e2, assignIdsTable_again]

theorem idSheets_again (ss : List (Sheet Fmt)) (t t2 : SST) :
    idSheets (idSheets ss t).1 t2 = ((idSheets ss t).1, t2) := by
  have e : ∀ (s : Sheet Fmt) (ss : List (Sheet Fmt)) (t : SST), idSheets (s :: ss) t =
      ((s.withIds t).1 :: (idSheets ss (s.withIds t).2).1, (idSheets ss (s.withIds t).2).2) := fun _ _ _ => rfl
  induction ss generalizing t with
  | nil => rfl
  | cons s ss ih =>
    rw [e]
    dsimp only
    rw [e, withIds_again]
    dsimp only
    rw [ih]

/-- Assigning ids does not touch the lists that are registered. -/
theorem regSheets_ids (ss : List (Sheet Fmt)) (t : SST) (g : List (Fmt × Nat)) :
    regSheets (idSheets ss t).1 g =
      ((idSheets (regSheets ss g).1 t).1, (regSheets ss g).2) := by
  have e : ∀ (s : Sheet Fmt) (ss : List (Sheet Fmt)) (t : SST), idSheets (s :: ss) t =
      ((s.withIds t).1 :: (idSheets ss (s.withIds t).2).1, (idSheets ss (s.withIds t).2).2) := fun _ _ _ => rfl
  induction ss generalizing t g with
  | nil => rfl
  | cons s ss ih =>
    rw [e]
    have hx : (s.withIds t).1.xfFormats = s.xfFormats := by rw [withIds_same]
    have hw : ∀ l, (({ s with globalXf := l } : Sheet Fmt).withIds t) =
        ({ (s.withIds t).1 with globalXf := l }, (s.withIds t).2) := by
      intro l
      unfold Sheet.withIds Sheet.updateStringTableIds
      cases e : s.cfg.globalSst <;> cases e2 : s.hasLocalSst <;> simp [e, e2]
    simp only [regSheets]
    rw [hx, ih, e, hw (regFormats s.xfFormats g).1]
    dsimp only
    rw [hx]

theorem prepare_again {cfgs : List Cfg} {dflt : Fmt} {R : Sheet Fmt → List (Op Fmt) → Prop} {b : Book Fmt}
    {ops : List (Nat × Op Fmt)} (h : BookInv cfgs dflt R b ops) (extra : List Fmt) :
    (b.prepare extra).prepare extra = b.prepare extra := by
  have he := regFormats_spec extra h.gxfI
  have hr := regSheets_spec b.sheets he.1
  have e1 : regFormats extra (regSheets b.sheets (regFormats extra b.gxf).2).2 =
      ((regFormats extra b.gxf).1, (regSheets b.sheets (regFormats extra b.gxf).2).2) :=
    regFormats_again extra h.gxfI hr.1 hr.2.1
  have e2 := regSheets_again b.sheets he.1 hr.1 (TblGrow.refl _)
  unfold Book.prepare
  dsimp only
  rw [e1]
  dsimp only
  rw [regSheets_ids, e2]
  dsimp only
  rw [idSheets_again]

end Verif
