import Verif.Lemmas.Gen
import Verif.Lemmas.SheetOut
import Verif.Spec.Book
/-!
Lifting worksheet invariants to a workbook whose worksheets share the string and format tables
and are called in any interleaving, and the effect of `prepare`.
-/
set_option linter.unusedSectionVars false
set_option linter.unusedSimpArgs false
namespace Verif
open BMap
variable {Fmt : Type} [DecidableEq Fmt]

/-- The worksheet as it sees the shared tables. -/
def Sheet.view (s : Sheet Fmt) (b : Book Fmt) : Sheet Fmt := { s with sst := b.sst, gxf := b.gxf }

/-- Growth of the shared tables. -/
structure Shared (dflt : Fmt) (s : Sheet Fmt) (t : SST) (g : List (Fmt × Nat)) : Prop where
  sstI : SstInv t
  sst : SstGrow s.sst t
  gxfI : TblInv g
  gxf0 : (tblKeys g)[0]? = some dflt
  gxf : ∀ (i : Nat) (f : Fmt), (tblKeys s.gxf)[i]? = some f → (tblKeys g)[i]? = some f

theorem Shared.fmtOf {dflt : Fmt} {s : Sheet Fmt} {t : SST} {g : List (Fmt × Nat)} (h : Shared dflt s t g)
    (i : Nat) (f : Fmt) (hi : s.fmtOf i = some f) :
    ({ s with sst := t, gxf := g } : Sheet Fmt).fmtOf i = some f := by
  unfold Sheet.fmtOf at hi ⊢
  split at hi
  · rename_i hg; simp only [hg, if_true]; exact h.gxf i f hi
  · rename_i hg; simp only [hg]; exact hi

theorem Gen.shared {dflt : Fmt} {s : Sheet Fmt} (h : Gen dflt s) {t : SST} {g : List (Fmt × Nat)}
    (hs : Shared dflt s t g) : Gen dflt { s with sst := t, gxf := g } := by
  have hcv : ∀ c, CellV s c → CellV { s with sst := t, gxf := g } c := fun c hc =>
    ⟨hc.1.mono hs.sst, isSome_mono hs.fmtOf hc.2⟩
  refine ⟨⟨h.xf.loc, h.xf.fmts, hs.gxfI, h.xf.loc0, hs.gxf0⟩, hs.sstI, h.table.imp hcv, h.ahead.imp hcv, ?_,
    h.rowsS, h.colsS, fun r o e => isSome_mono hs.fmtOf (h.rowsV r o e), fun r o e => isSome_mono hs.fmtOf (h.colsV r o e)⟩
  intro ro hro p hp
  refine ⟨(h.out ro hro p hp).1.mono hs.sst, ?_⟩
  intro e
  obtain ⟨f, hf⟩ := Option.isSome_iff_exists.mp ((h.out ro hro p hp).2 e)
  simp only
  rw [hs.gxf _ _ hf]; rfl

/-- What `Book.run` preserves. -/
structure BookInv (cfgs : List Cfg) (dflt : Fmt) (R : Sheet Fmt → List (Op Fmt) → Prop) (b : Book Fmt)
    (ops : List (Nat × Op Fmt)) : Prop where
  len : b.sheets.length = cfgs.length
  sstI : SstInv b.sst
  gxfI : TblInv b.gxf
  gxf0 : (tblKeys b.gxf)[0]? = some dflt
  cfg : ∀ (i : Nat) (s : Sheet Fmt), b.sheets[i]? = some s → cfgs[i]? = some s.cfg
  gen : ∀ (i : Nat) (s : Sheet Fmt), b.sheets[i]? = some s → Gen dflt (s.view b)
  rel : ∀ (i : Nat) (s : Sheet Fmt), b.sheets[i]? = some s → R (s.view b) (opsFor i ops)

/-- A call keeps the invariant. -/
theorem BookInv.exec {cfgs : List Cfg} {dflt : Fmt} {R : Sheet Fmt → List (Op Fmt) → Prop}
    (hx : ∀ s l op, Gen dflt s → R s l → R (s.exec op).2 (l ++ [op]))
    (hg : ∀ s l t g, Gen dflt s → Shared dflt s t g → R s l → R { s with sst := t, gxf := g } l)
    {b : Book Fmt} {pre : List (Nat × Op Fmt)} (hb : BookInv cfgs dflt R b pre) (k : Nat) (op : Op Fmt) :
    BookInv cfgs dflt R (b.exec k op) (pre ++ [(k, op)]) := by
  have hof : ∀ i, opsFor i (pre ++ [(k, op)]) = if k = i then opsFor i pre ++ [op] else opsFor i pre := by
    intro i
    simp only [opsFor, List.filter_append, List.map_append]
    by_cases e : k = i
    · simp [e]
    · simp [e]
  unfold Book.exec
  cases hk : b.sheets[k]? with
  | none =>
    show BookInv cfgs dflt R b _
    refine ⟨hb.len, hb.sstI, hb.gxfI, hb.gxf0, hb.cfg, hb.gen, ?_⟩
    intro i s hs
    rw [hof]
    split
    · rename_i e; rw [← e, hk] at hs; cases hs
    · exact hb.rel i s hs
  | some s0 =>
    have hg0 := hb.gen k s0 hk
    have hst := hg0.exec op
    have hr := hx _ _ op hg0 (hb.rel k s0 hk)
    show BookInv cfgs dflt R ⟨b.sheets.set k ((s0.view b).exec op).2, ((s0.view b).exec op).2.sst,
      ((s0.view b).exec op).2.gxf⟩ _
    generalize hs' : ((s0.view b).exec op).2 = s' at hst hr
    have hget : ∀ (i : Nat) (s : Sheet Fmt), (b.sheets.set k s')[i]? = some s → (i = k ∧ s = s') ∨ (i ≠ k ∧ b.sheets[i]? = some s) := by
      intro i s h
      by_cases e : i = k
      · subst e
        left
        rw [List.getElem?_set_self (List.getElem?_eq_some_iff.mp hk).1] at h
        exact ⟨rfl, by cases h; rfl⟩
      · right
        rw [List.getElem?_set_ne (Ne.symm e)] at h
        exact ⟨e, h⟩
    have hsh : ∀ (s : Sheet Fmt), Shared dflt (s.view b) s'.sst s'.gxf := fun s =>
      ⟨hst.1.sst, hst.2.sst, hst.1.xf.glob, hst.1.xf.glob0, hst.2.gxf⟩
    refine ⟨by simp [hb.len], hst.1.sst, hst.1.xf.glob, hst.1.xf.glob0, ?_, ?_, ?_⟩
    · intro i s h
      rcases hget i s h with ⟨rfl, rfl⟩ | ⟨_, h⟩
      · rw [hst.2.cfg]; exact hb.cfg i s0 hk
      · exact hb.cfg i s h
    · intro i s h
      rcases hget i s h with ⟨rfl, rfl⟩ | ⟨_, h⟩
      · exact hst.1
      · exact (hb.gen i s h).shared (hsh s)
    · intro i s h
      rw [hof]
      rcases hget i s h with ⟨rfl, rfl⟩ | ⟨hne, h⟩
      · rw [if_pos rfl]; exact hr
      · rw [if_neg (Ne.symm hne)]
        exact hg (s.view b) _ s'.sst s'.gxf (hb.gen i s h) (hsh s) (hb.rel i s h)

/-- A worksheet invariant `R` relating a sheet to its own history holds of every worksheet of a
workbook, whatever the interleaving. -/
theorem book_lift (cfgs : List Cfg) (merge : Fmt → Fmt → Fmt) (dflt : Fmt)
    (R : Sheet Fmt → List (Op Fmt) → Prop)
    (h0 : ∀ cfg, R (Sheet.new cfg merge dflt) [])
    (hx : ∀ s l op, Gen dflt s → R s l → R (s.exec op).2 (l ++ [op]))
    (hg : ∀ s l t g, Gen dflt s → Shared dflt s t g → R s l → R { s with sst := t, gxf := g } l)
    (ops : List (Nat × Op Fmt)) :
    BookInv cfgs dflt R ((Book.new cfgs merge dflt).run ops) ops := by
  suffices H : ∀ (pre rest : List (Nat × Op Fmt)) (b : Book Fmt), BookInv cfgs dflt R b pre →
      BookInv cfgs dflt R (b.run rest) (pre ++ rest) by
    have base : BookInv cfgs dflt R (Book.new cfgs merge dflt) [] := by
      refine ⟨by simp [Book.new], SstInv.new, tblInv_single _, rfl, ?_, ?_, ?_⟩
      · intro i s hs
        simp only [Book.new, List.getElem?_map, Option.map_eq_some_iff] at hs
        obtain ⟨c, hc, rfl⟩ := hs
        rw [hc]; rfl
      · intro i s hs
        simp only [Book.new, List.getElem?_map, Option.map_eq_some_iff] at hs
        obtain ⟨c, hc, rfl⟩ := hs
        exact Gen.new c merge dflt
      · intro i s hs
        simp only [Book.new, List.getElem?_map, Option.map_eq_some_iff] at hs
        obtain ⟨c, hc, rfl⟩ := hs
        exact h0 c
    simpa using H [] ops _ base
  intro pre rest
  induction rest generalizing pre with
  | nil => intro b hb; simpa [Book.run] using hb
  | cons p rest ih =>
    intro b hb
    obtain ⟨k, op⟩ := p
    have hstep := hb.exec hx hg k op
    have := ih (pre ++ [(k, op)]) (b.exec k op) hstep
    simpa [Book.run] using this

/-! ### Registering formats -/

/-- `g'` extends the index table `g`. -/
def TblGrow (g g' : List (Fmt × Nat)) : Prop :=
  ∀ (i : Nat) (f : Fmt), (tblKeys g)[i]? = some f → (tblKeys g')[i]? = some f

theorem TblGrow.refl (g : List (Fmt × Nat)) : TblGrow g g := fun _ _ h => h
theorem TblGrow.trans {a b c : List (Fmt × Nat)} (h1 : TblGrow a b) (h2 : TblGrow b c) : TblGrow a c :=
  fun i f h => h2 i f (h1 i f h)

theorem regFormat_spec {g : List (Fmt × Nat)} (h : TblInv g) (f : Fmt) :
    TblInv (regFormat g f).2 ∧ TblGrow g (regFormat g f).2 ∧
    (tblKeys (regFormat g f).2)[(regFormat g f).1]? = some f := by
  unfold regFormat
  cases hl : g.lookup f with
  | some i => exact ⟨h, TblGrow.refl g, lookup_some_get h hl⟩
  | none =>
    refine ⟨tblInv_insert h (lookup_none_iff.mp hl), ?_, ?_⟩
    · intro i k hi
      simp only [tblKeys_cons]
      rw [List.getElem?_append_left (List.getElem?_eq_some_iff.mp hi).1]; exact hi
    · simp only [tblKeys_cons]
      rw [← tblKeys_length g]; simp

theorem regFormats_spec (fs : List Fmt) {g : List (Fmt × Nat)} (h : TblInv g) :
    TblInv (regFormats fs g).2 ∧ TblGrow g (regFormats fs g).2 ∧
    (∀ (k : Nat) (f : Fmt), fs[k]? = some f →
      ∃ j, (regFormats fs g).1[k]? = some j ∧ (tblKeys (regFormats fs g).2)[j]? = some f) := by
  induction fs generalizing g with
  | nil => exact ⟨h, TblGrow.refl g, by simp⟩
  | cons f fs ih =>
    have h1 := regFormat_spec h f
    have h2 := ih h1.1
    refine ⟨h2.1, h1.2.1.trans h2.2.1, ?_⟩
    intro k f' hk
    cases k with
    | zero =>
      simp at hk; subst hk
      exact ⟨(regFormat g f).1, by simp [regFormats], h2.2.1 _ _ h1.2.2⟩
    | succ k =>
      simp at hk
      simpa [regFormats] using h2.2.2 k f' hk

theorem regSheets_spec (ss : List (Sheet Fmt)) {g : List (Fmt × Nat)} (h : TblInv g) :
    TblInv (regSheets ss g).2 ∧ TblGrow g (regSheets ss g).2 ∧
    (regSheets ss g).1.length = ss.length ∧
    (∀ (i : Nat) (s : Sheet Fmt), ss[i]? = some s →
      ∃ l, (regSheets ss g).1[i]? = some { s with globalXf := l } ∧
        ∀ (k : Nat) (f : Fmt), s.xfFormats[k]? = some f →
          ∃ j, l[k]? = some j ∧ (tblKeys (regSheets ss g).2)[j]? = some f) := by
  induction ss generalizing g with
  | nil => exact ⟨h, TblGrow.refl g, rfl, by simp⟩
  | cons s ss ih =>
    have h1 := regFormats_spec s.xfFormats h
    have h2 := ih h1.1
    refine ⟨h2.1, h1.2.1.trans h2.2.1, by simp [regSheets, h2.2.2.1], ?_⟩
    intro i s' hi
    cases i with
    | zero =>
      simp at hi; subst hi
      refine ⟨(regFormats s.xfFormats g).1, by simp [regSheets], ?_⟩
      intro k f hk
      obtain ⟨j, hj, hf⟩ := h1.2.2 k f hk
      exact ⟨j, hj, h2.2.1 _ _ hf⟩
    | succ i =>
      simp at hi
      simpa [regSheets] using h2.2.2.2 i s' hi

/-! ### Assigning string ids -/

theorem SstGrow.refl (t : SST) : SstGrow t t := fun _ _ h => h
theorem SstGrow.trans {a b c : SST} (h1 : SstGrow a b) (h2 : SstGrow b c) : SstGrow a c :=
  fun i k h => h2 i k (h1 i k h)

theorem assignId_spec {t : SST} (h : SstInv t) (c : Cell) (hc : c.IdOk t) :
    SstInv (c.assignId t).2 ∧ SstGrow t (c.assignId t).2 ∧ (c.assignId t).1.IdOk (c.assignId t).2 := by
  cases c with
  | string s x o =>
    cases o with
    | some i => exact ⟨h, SstGrow.refl t, hc⟩
    | none =>
      have := sstIndex_spec h s
      exact ⟨this.1, this.2.1, this.2.2.1⟩
  | rich s raw x o =>
    cases o with
    | some i => exact ⟨h, SstGrow.refl t, hc⟩
    | none =>
      have := sstIndex_spec h s
      exact ⟨this.1, this.2.1, this.2.2.1⟩
  | number n x => exact ⟨h, SstGrow.refl t, hc⟩
  | dateTime n x => exact ⟨h, SstGrow.refl t, hc⟩
  | inlineString s x => exact ⟨h, SstGrow.refl t, hc⟩
  | formula f r x => exact ⟨h, SstGrow.refl t, hc⟩
  | arrayFormula f r x d g => exact ⟨h, SstGrow.refl t, hc⟩
  | blank x => exact ⟨h, SstGrow.refl t, hc⟩
  | boolean b x => exact ⟨h, SstGrow.refl t, hc⟩
  | error v x => exact ⟨h, SstGrow.refl t, hc⟩

theorem assignIdsRow_spec (m : BMap Cell) {t : SST} (h : SstInv t) (hm : ∀ p ∈ m, p.2.IdOk t) :
    SstInv (assignIdsRow m t).2 ∧ SstGrow t (assignIdsRow m t).2 ∧
    (∀ p ∈ (assignIdsRow m t).1, p.2.IdOk (assignIdsRow m t).2) := by
  induction m generalizing t with
  | nil => exact ⟨h, SstGrow.refl t, by simp [assignIdsRow]⟩
  | cons p m ih =>
    obtain ⟨k, c⟩ := p
    have h1 := assignId_spec h c (hm (k, c) List.mem_cons_self)
    have h2 := ih h1.1 (fun p hp => (hm p (List.mem_cons_of_mem _ hp)).mono h1.2.1)
    refine ⟨h2.1, h1.2.1.trans h2.2.1, ?_⟩
    intro p hp
    simp only [assignIdsRow] at hp
    rcases List.mem_cons.mp hp with rfl | hp
    · exact h1.2.2.mono h2.2.1
    · exact h2.2.2 p hp

theorem assignIdsTable_spec (m : BMap (BMap Cell)) {t : SST} (h : SstInv t)
    (hm : TblAll (·.IdOk t) m) :
    SstInv (assignIdsTable m t).2 ∧ SstGrow t (assignIdsTable m t).2 ∧
    TblAll (·.IdOk (assignIdsTable m t).2) (assignIdsTable m t).1 := by
  induction m generalizing t with
  | nil => exact ⟨h, SstGrow.refl t, by intro q hq; simp [assignIdsTable] at hq⟩
  | cons p m ih =>
    obtain ⟨k, c⟩ := p
    have h1 := assignIdsRow_spec c h (hm (k, c) List.mem_cons_self)
    have h2 := ih h1.1 (fun q hq p hp => (hm q (List.mem_cons_of_mem _ hq) p hp).mono h1.2.1)
    refine ⟨h2.1, h1.2.1.trans h2.2.1, ?_⟩
    intro q hq
    simp only [assignIdsTable] at hq
    rcases List.mem_cons.mp hq with rfl | hq
    · intro p hp; exact (h1.2.2 p hp).mono h2.2.1
    · exact h2.2.2 q hq

theorem update_spec (s : Sheet Fmt) {t : SST} (h : SstInv t) (hm : TblAll (·.IdOk t) s.table) :
    SstInv (s.updateStringTableIds t).2 ∧ SstGrow t (s.updateStringTableIds t).2 ∧
    TblAll (·.IdOk (s.updateStringTableIds t).2) (s.updateStringTableIds t).1.table := by
  unfold Sheet.updateStringTableIds
  split
  · exact ⟨h, SstGrow.refl t, hm⟩
  · exact assignIdsTable_spec s.table h hm

/-- The sheet after the string id loop. -/
def Sheet.withIds (s : Sheet Fmt) (t : SST) : Sheet Fmt × SST :=
  if s.cfg.globalSst then (s, t) else s.updateStringTableIds t

theorem withIds_spec (s : Sheet Fmt) {t : SST} (h : SstInv t) (hm : TblAll (·.IdOk t) s.table) :
    SstInv (s.withIds t).2 ∧ SstGrow t (s.withIds t).2 ∧
    TblAll (·.IdOk (s.withIds t).2) (s.withIds t).1.table := by
  unfold Sheet.withIds
  split
  · exact ⟨h, SstGrow.refl t, hm⟩
  · exact update_spec s h hm

theorem idSheets_spec (ss : List (Sheet Fmt)) {t : SST} (h : SstInv t)
    (hm : ∀ s ∈ ss, TblAll (·.IdOk t) s.table) :
    SstInv (idSheets ss t).2 ∧ SstGrow t (idSheets ss t).2 ∧ (idSheets ss t).1.length = ss.length ∧
    (∀ (i : Nat) (s : Sheet Fmt), ss[i]? = some s →
      ∃ t', SstInv t' ∧ SstGrow t t' ∧ SstGrow (s.withIds t').2 (idSheets ss t).2 ∧
        (idSheets ss t).1[i]? = some (s.withIds t').1) := by
  induction ss generalizing t with
  | nil => exact ⟨h, SstGrow.refl t, rfl, by simp⟩
  | cons s ss ih =>
    have e : idSheets (s :: ss) t = ((s.withIds t).1 :: (idSheets ss (s.withIds t).2).1,
        (idSheets ss (s.withIds t).2).2) := rfl
    rw [e]
    have h1 := withIds_spec s h (hm s List.mem_cons_self)
    have h2 := ih h1.1 (fun q hq => (hm q (List.mem_cons_of_mem _ hq)).imp fun c hc => hc.mono h1.2.1)
    refine ⟨h2.1, h1.2.1.trans h2.2.1, by simp [h2.2.2.1], ?_⟩
    intro i s' hi
    cases i with
    | zero =>
      simp at hi; subst hi
      exact ⟨t, h, SstGrow.refl t, h2.2.1, rfl⟩
    | succ i =>
      simp at hi
      obtain ⟨t', a, b, c, d⟩ := h2.2.2.2 i s' hi
      exact ⟨t', a, h1.2.1.trans b, c, d⟩

/-- What `prepare` does to worksheet `i`. -/
theorem prepare_spec {cfgs : List Cfg} {dflt : Fmt} {R : Sheet Fmt → List (Op Fmt) → Prop} {b : Book Fmt}
    {ops : List (Nat × Op Fmt)} (h : BookInv cfgs dflt R b ops) (extra : List Fmt) :
    TblInv (b.prepare extra).gxf ∧ TblGrow b.gxf (b.prepare extra).gxf ∧
    SstInv (b.prepare extra).sst ∧ SstGrow b.sst (b.prepare extra).sst ∧
    (b.prepare extra).sheets.length = b.sheets.length ∧
    (∀ (i : Nat) (s : Sheet Fmt), b.sheets[i]? = some s →
      ∃ l t', SstInv t' ∧ SstGrow b.sst t' ∧
        (∀ (k : Nat) (f : Fmt), s.xfFormats[k]? = some f →
          ∃ j, l[k]? = some j ∧ (tblKeys (b.prepare extra).gxf)[j]? = some f) ∧
        SstGrow (({ s with globalXf := l } : Sheet Fmt).withIds t').2 (b.prepare extra).sst ∧
        (b.prepare extra).sheets[i]? = some (({ s with globalXf := l } : Sheet Fmt).withIds t').1) := by
  have he := regFormats_spec extra h.gxfI
  have hr := regSheets_spec b.sheets he.1
  have hids : ∀ s ∈ (regSheets b.sheets (regFormats extra b.gxf).2).1, TblAll (·.IdOk b.sst) s.table := by
    intro s hs
    obtain ⟨i, hi⟩ := List.getElem?_of_mem hs
    have hlt : i < b.sheets.length := by
      rw [← hr.2.2.1]; exact (List.getElem?_eq_some_iff.mp hi).1
    obtain ⟨l, hl, _⟩ := hr.2.2.2 i b.sheets[i] (List.getElem?_eq_getElem hlt)
    rw [hl] at hi; cases hi
    have := (h.gen i _ (List.getElem?_eq_getElem hlt)).table
    exact this.imp fun c hc => hc.1
  have hd := idSheets_spec _ h.sstI hids
  refine ⟨hr.1, he.2.1.trans hr.2.1, hd.1, hd.2.1, by rw [← hr.2.2.1]; exact hd.2.2.1, ?_⟩
  intro i s hs
  obtain ⟨l, hl, hlk⟩ := hr.2.2.2 i s hs
  obtain ⟨t', h1, h2, h3, h4⟩ := hd.2.2.2 i _ hl
  exact ⟨l, t', h1, h2, hlk, h3, h4⟩

end Verif
