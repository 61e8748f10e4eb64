import Verif.Lemmas.Image
/-!
C35: reading the header of an image. Findings F42, F108 to F111.
-/
namespace Verif
open Spec

theorem newFromBuffer_cons {a b c d : UInt8} {rest : List UInt8} :
    Image.newFromBuffer (a :: b :: c :: d :: rest) = (do
      let im ← processByMarker (a :: b :: c :: d :: rest) [b, c, d] [a, b] [a, b, c, d]
        (a.toNat * 256 + b.toNat)
      if im.width = 0 ∨ im.height = 0 then .error .dimension else pure im) := by
  unfold Image.newFromBuffer unpackU16be
  have e1 : bslice (a :: b :: c :: d :: rest) 1 4 = .ok [b, c, d] :=
    bslice_mid (pre := [a]) (mid := [b, c, d]) (post := rest) (by simp) (by simp) (by simp)
  have e2 : bslice (a :: b :: c :: d :: rest) 0 2 = .ok [a, b] :=
    bslice_mid (pre := []) (mid := [a, b]) (post := c :: d :: rest) (by simp) (by simp) (by simp)
  have e3 : bslice (a :: b :: c :: d :: rest) 0 4 = .ok [a, b, c, d] :=
    bslice_mid (pre := []) (mid := [a, b, c, d]) (post := rest) (by simp) (by simp) (by simp)
  rw [e1, e2, e3]
  simp [bind, Except.bind, pure, Except.pure, fromBe, e2]

/-- Buffers of fewer than four bytes panic. -/
theorem newFromBuffer_short {data : List UInt8} (h : data.length < 4) :
    Image.newFromBuffer data = .error .panic := by
  unfold Image.newFromBuffer bslice
  rw [if_neg (by omega)]
  rfl

theorem split_one {α} (p : α → Bool) : ∀ l : List α, (l.filter p).length ≤ 1 →
    (∀ x ∈ l, p x = false) ∨
    ∃ a c b, l = a ++ c :: b ∧ p c = true ∧ (∀ x ∈ a, p x = false) ∧ (∀ x ∈ b, p x = false) := by
  intro l
  induction l with
  | nil => intro _; left; simp
  | cons x l ih =>
    intro h
    cases hx : p x with
    | false =>
      rw [List.filter_cons, if_neg (by simp [hx])] at h
      rcases ih h with h1 | ⟨a, c, b, e, hc, ha, hb⟩
      · left; intro y hy
        rcases List.mem_cons.mp hy with rfl | hy
        · exact hx
        · exact h1 y hy
      · right
        refine ⟨x :: a, c, b, by simp [e], hc, ?_, hb⟩
        intro y hy
        rcases List.mem_cons.mp hy with rfl | hy
        · exact hx
        · exact ha y hy
    | true =>
      rw [List.filter_cons, if_pos hx] at h
      simp only [List.length_cons] at h
      right
      refine ⟨[], x, l, rfl, hx, by simp, ?_⟩
      intro y hy
      have h0 : l.filter p = [] := List.eq_nil_of_length_eq_zero (by omega)
      have := List.filter_eq_nil_iff.mp h0 y hy
      simpa using this

/-- the fixed start of a PNG file -/
def pngSig : List UInt8 := [0x89, 80, 78, 71, 0x0D, 0x0A, 0x1A, 0x0A]

theorem ascii_PNG : ascii "PNG" = [80, 78, 71] := by decide +kernel

theorem pngFile_bytes_eq (p : PngFile) : p.bytes = pngSig ++ (p.header.bytes ++
    (p.chunks.flatMap PngChunk.bytes ++
    (({ type := pngIend, data := [], crc := p.endCrc } : PngChunk).bytes ++ p.rest))) := by
  simp [PngFile.bytes, ascii_PNG, ascii_IEND, pngSig]

theorem pngLoop_end {data pre post crc : List UInt8} (s : ImgScan) (hc : crc.length = 4)
    (h : data = pre ++ (({ type := pngIend, data := [], crc := crc } : PngChunk).bytes ++ post)) :
    pngLoop data pre.length s = .ok s := by
  rw [pngLoop_chunk s ⟨rfl, hc, by simp⟩ h rfl]
  dsimp only
  rw [pngDims_other s (by decide)]
  show (do let s ← pngDensity data pre.length pngIend s; _) = _
  rw [pngDensity_other s (by decide)]
  rfl

theorem pngLoop_file (p : PngFile) (ok : p.Ok) :
    ∃ s, pngLoop p.bytes 8 {} = .ok s ∧ s.width = p.width ∧ s.height = p.height ∧
      (∀ x y, p.StatesDpi x y → s.widthDpi = x ∧ s.heightDpi = y) ∧
      ((¬ ∃ x y, p.StatesDpi x y) → s.widthDpi = 96 ∧ s.heightDpi = 96) := by
  have hp := pngFile_bytes_eq p
  have hh : p.header.Ok := by
    refine ⟨?_, ok.crc, ?_⟩
    · show (ascii "IHDR").length = 4
      rw [ascii_IHDR]; rfl
    · simp [PngFile.header, ok.depth]
  have ht : p.header.type = pngIhdr := ascii_IHDR
  rw [pngLoop_chunk (pre := pngSig) {} hh hp (by rfl), ht,
    show pngDims p.bytes 8 pngIhdr {} = .ok { width := p.width, height := p.height } by
      rw [← ht]
      exact pngDims_header {} hh hp (by rfl) ht ok.width.2 ok.height.2 rfl]
  rw [ok_bind, pngDensity_other _ (by decide), ok_bind, if_neg (by decide)]
  have hk : ∀ c ∈ p.chunks, c.Ok ∧ c.type ≠ pngIhdr ∧ c.type ≠ pngIend := by
    intro c hc
    have := ok.chunks c hc
    rwa [ascii_IHDR, ascii_IEND] at this
  rcases split_one (fun c : PngChunk => c.type == ascii "pHYs") p.chunks ok.onePhys with
    h0 | ⟨a, c, b, e, hc, ha, hb⟩
  · have hno : ∀ c ∈ p.chunks, c.type ≠ pngPhys := by
      intro c hc
      have := h0 c hc
      rw [ascii_pHYs] at this
      simpa using this
    rw [pngLoop_skip p.chunks (pre := pngSig ++ p.header.bytes)
      (post := ({ type := pngIend, data := [], crc := p.endCrc } : PngChunk).bytes ++ p.rest) _
      (fun c hc => ⟨(hk c hc).1, (hk c hc).2.1, (hk c hc).2.2, hno c hc⟩) (by rw [hp]; simp)]
    rw [pngLoop_end (crc := p.endCrc) (post := p.rest) _ ok.endCrc (by rw [hp]; simp)]
    refine ⟨_, rfl, rfl, rfl, ?_, fun _ => ⟨rfl, rfl⟩⟩
    rintro x y ⟨c, hc, hct, _⟩
    rw [ascii_pHYs] at hct
    exact absurd hct (hno c hc)
  · have hcm : c ∈ p.chunks := by rw [e]; simp
    have hcp : c.type = pngPhys := by rw [ascii_pHYs] at hc; simpa using hc
    have hna : ∀ c ∈ a, c.type ≠ pngPhys := by
      intro c hc
      have := ha c hc
      rw [ascii_pHYs] at this
      simpa using this
    have hnb : ∀ c ∈ b, c.type ≠ pngPhys := by
      intro c hc
      have := hb c hc
      rw [ascii_pHYs] at this
      simpa using this
    obtain ⟨m, n, u, hm, hn, hd⟩ := ok.phys c hcm (by rw [ascii_pHYs]; exact hcp)
    rw [pngLoop_skip a (pre := pngSig ++ p.header.bytes)
      (post := c.bytes ++ (b.flatMap PngChunk.bytes ++
        (({ type := pngIend, data := [], crc := p.endCrc } : PngChunk).bytes ++ p.rest))) _
      (fun d hd => ⟨(hk d (by rw [e]; simp [hd])).1, (hk d (by rw [e]; simp [hd])).2.1,
        (hk d (by rw [e]; simp [hd])).2.2, hna d hd⟩) (by rw [hp, e]; simp)]
    have hD : p.bytes = (pngSig ++ p.header.bytes ++ a.flatMap PngChunk.bytes) ++ (c.bytes ++
        (b.flatMap PngChunk.bytes ++
        (({ type := pngIend, data := [], crc := p.endCrc } : PngChunk).bytes ++ p.rest))) := by
      rw [hp, e]; simp
    rw [pngLoop_chunk _ (hk c hcm).1 hD rfl, pngDims_other _ (hk c hcm).2.1]
    rw [ok_bind, pngDensity_phys _ (hk c hcm).1 hD rfl hcp hm hn hd, ok_bind, if_neg (hk c hcm).2.2]
    rw [pngLoop_skip b (post := ({ type := pngIend, data := [], crc := p.endCrc } : PngChunk).bytes ++ p.rest) _
      (fun d hd => ⟨(hk d (by rw [e]; simp [hd])).1, (hk d (by rw [e]; simp [hd])).2.1,
        (hk d (by rw [e]; simp [hd])).2.2, hnb d hd⟩) (by rw [hD]; simp)]
    rw [pngLoop_end (crc := p.endCrc) (post := p.rest) _ ok.endCrc (by rw [hD]; simp)]
    have key : ∀ x y, p.StatesDpi x y ↔ (u = 1 ∧ 0 < m ∧ 0 < n ∧
        x = (m : Rat) * 254 / 10000 ∧ y = (n : Rat) * 254 / 10000) := by
      intro x y
      constructor
      · rintro ⟨c', hc', ht', m', n', hm', hn', h0m, h0n, hd', hx, hy⟩
        have : c' = c := by
          rw [e] at hc'
          rw [ascii_pHYs] at ht'
          rcases List.mem_append.mp hc' with h | h
          · exact absurd ht' (hna _ h)
          · rcases List.mem_cons.mp h with h | h
            · exact h
            · exact absurd ht' (hnb _ h)
        subst this
        rw [hd] at hd'
        obtain ⟨h12, h3⟩ := List.append_inj hd' (by simp)
        obtain ⟨h1, h2⟩ := List.append_inj h12 (by simp)
        have em : m = m' := by rw [← fromBe_be32 hm, h1, fromBe_be32 hm']
        have en : n = n' := by rw [← fromBe_be32 hn, h2, fromBe_be32 hn']
        subst em; subst en
        exact ⟨by simpa using h3, h0m, h0n, hx, hy⟩
      · rintro ⟨hu, h0m, h0n, hx, hy⟩
        subst hu
        exact ⟨c, hcm, by rw [ascii_pHYs]; exact hcp, m, n, hm, hn, h0m, h0n, hd, hx, hy⟩
    by_cases hu : u = 1 ∧ m > 0 ∧ n > 0
    · rw [if_pos hu]
      refine ⟨_, rfl, rfl, rfl, ?_, ?_⟩
      · intro x y hs
        obtain ⟨_, _, _, hx, hy⟩ := (key x y).mp hs
        subst hx; subst hy
        constructor <;> grind
      · intro hs
        exact absurd ⟨_, _, (key _ _).mpr ⟨hu.1, hu.2.1, hu.2.2, rfl, rfl⟩⟩ hs
    · rw [if_neg hu]
      refine ⟨_, rfl, rfl, rfl, ?_, fun _ => ⟨rfl, rfl⟩⟩
      intro x y hs
      obtain ⟨h1, h2, h3, _⟩ := (key x y).mp hs
      exact absurd ⟨h1, h2, h3⟩ hu

/-- C35, PNG: every PNG file is read with its width and height and with the density it states, or 96
dots per inch. -/
theorem C35_png (p : PngFile) (ok : p.Ok) :
    ∃ im, Image.newFromBuffer p.bytes = .ok im ∧ im.kind = .png ∧
      im.width = p.width ∧ im.height = p.height ∧
      (∀ x y, p.StatesDpi x y → im.widthDpi = x ∧ im.heightDpi = y) ∧
      ((¬ ∃ x y, p.StatesDpi x y) → im.widthDpi = 96 ∧ im.heightDpi = 96) := by
  obtain ⟨s, hs, hw, hh, h1, h2⟩ := pngLoop_file p ok
  have hb : ∃ rest, p.bytes = 0x89 :: 80 :: 78 :: 71 :: rest := ⟨_, by rw [pngFile_bytes_eq p]; rfl⟩
  obtain ⟨rest, hb⟩ := hb
  rw [hb] at hs
  refine ⟨s.image .png, ?_, rfl, hw, hh, h1, h2⟩
  rw [hb, newFromBuffer_cons]
  unfold processByMarker
  rw [if_pos (by rfl), hs]
  show (if s.width = 0 ∨ s.height = 0 then _ else _) = _
  rw [if_neg]
  · rfl
  · have := ok.width; have := ok.height; omega

/-! JPEG -/

theorem jpgDims_frame {data pre post : List UInt8} (j : JpegFile) (s : ImgScan)
    (hs : j.sof ∈ sofCodes) (hw : j.width < 2 ^ 16) (hh : j.height < 2 ^ 16)
    (h : data = pre ++ (j.frame.bytes ++ post)) :
    jpgDims data pre.length (0xFF00 + j.sof.toNat) s = .ok { s with width := j.width, height := j.height } := by
  unfold jpgDims
  rw [if_pos ((jpgIsSof_code _).mpr hs)]
  have e1 : unpackU16be data (pre.length + 5) = .ok j.height := by
    apply u16be_mid (pre := pre ++ [0xFF, j.sof] ++ be16 (j.frame.data.length + 2) ++ [j.precision])
      (post := be16 j.width ++ j.components ++ post) _ hh (by simp)
    rw [h]; simp [JpegSegment.bytes, JpegFile.frame]
  have e2 : unpackU16be data (pre.length + 7) = .ok j.width := by
    apply u16be_mid (pre := pre ++ [0xFF, j.sof] ++ be16 (j.frame.data.length + 2) ++ [j.precision] ++ be16 j.height)
      (post := j.components ++ post) _ hw (by simp)
    rw [h]; simp [JpegSegment.bytes, JpegFile.frame]
  rw [e1, e2]
  rfl

theorem ascii_JFIF : ascii "JFIF" = [74, 70, 73, 70] := by decide +kernel

theorem jpgDensity_jfif {data pre post : List UInt8} (j : Jfif) (s : ImgScan)
    (hv : j.version.length = 2) (hx : j.x < 2 ^ 16) (hy : j.y < 2 ^ 16)
    (h : data = pre ++ (j.segment.bytes ++ post)) (h1 : s.widthDpi = 96) (h2 : s.heightDpi = 96) :
    jpgDensity data pre.length (0xFF00 + (0xE0 : UInt8).toNat) s =
      .ok { s with widthDpi := j.dpi.1, heightDpi := j.dpi.2 } := by
  unfold jpgDensity
  rw [if_pos (by rfl)]
  have e0 : bindex data (pre.length + 11) = .ok j.units := by
    apply bindex_mid (pre := pre ++ [0xFF, 0xE0] ++ be16 (j.segment.data.length + 2) ++ ascii "JFIF" ++ [0] ++ j.version)
      (post := be16 j.x ++ be16 j.y ++ j.thumbnail ++ post)
    · rw [h]; simp [JpegSegment.bytes, Jfif.segment]
    · simp [ascii_JFIF, hv]
  have e1 : unpackU16be data (pre.length + 12) = .ok j.x := by
    apply u16be_mid (pre := pre ++ [0xFF, 0xE0] ++ be16 (j.segment.data.length + 2) ++ ascii "JFIF" ++ [0] ++ j.version ++ [j.units])
      (post := be16 j.y ++ j.thumbnail ++ post) _ hx
    · simp [ascii_JFIF, hv]
    · rw [h]; simp [JpegSegment.bytes, Jfif.segment]
  have e2 : unpackU16be data (pre.length + 14) = .ok j.y := by
    apply u16be_mid (pre := pre ++ [0xFF, 0xE0] ++ be16 (j.segment.data.length + 2) ++ ascii "JFIF" ++ [0] ++ j.version ++ [j.units] ++ be16 j.x)
      (post := j.thumbnail ++ post) _ hy
    · simp [ascii_JFIF, hv]
    · rw [h]; simp [JpegSegment.bytes, Jfif.segment]
  rw [e0, e1, e2]
  simp only [bind, Except.bind, pure, Except.pure]
  have w96 : jpgWorkaround 96 = 96 := by decide +kernel
  have cm : ∀ x : Rat, x * (254 / 100) = x * 254 / 100 := by intro x; grind
  unfold Jfif.dpi
  by_cases u1 : j.units = 1
  · have u2 : ¬ (j.units = 2) := by rw [u1]; decide
    rw [if_pos u1, if_neg u2, if_pos u1]
    rfl
  · rw [if_neg u1, if_neg u1]
    by_cases u2 : j.units = 2
    · rw [if_pos u2, if_pos u2]
      simp only [cm]
      rfl
    · rw [if_neg u2, if_neg u2, h1, h2, w96]

theorem jpgLoop_jfif {data pre post : List UInt8} (j : Option Jfif) (s : ImgScan)
    (hj : ∀ h, j = some h → h.version.length = 2 ∧ h.x < 2 ^ 16 ∧ h.y < 2 ^ 16 ∧ h.segment.data.length + 2 < 2 ^ 16)
    (h : data = pre ++ (((j.map Jfif.segment).toList.flatMap JpegSegment.bytes) ++ post))
    (h1 : s.widthDpi = 96) (h2 : s.heightDpi = 96) (d : Rat × Rat)
    (hs : ∀ h, j = some h → d = h.dpi) (hn : j = none → d = (96, 96)) :
    jpgLoop data pre.length s = jpgLoop data (pre ++ (j.map Jfif.segment).toList.flatMap JpegSegment.bytes).length
      { s with widthDpi := d.1, heightDpi := d.2 } := by
  cases j with
  | none =>
    rw [hn rfl]
    simp only [Option.map_none, Option.toList_none, List.flatMap_nil, List.append_nil]
    congr 1
    cases s
    simp_all
  | some h0 =>
    obtain ⟨a, b, c, l⟩ := hj h0 rfl
    have h' : data = pre ++ (h0.segment.bytes ++ post) := by rw [h]; simp
    rw [jpgLoop_segment s l h' rfl]
    show (do let s ← jpgDims data pre.length (0xFF00 + (0xE0 : UInt8).toNat) s; _) = _
    rw [jpgDims_other s (by decide)]
    show (do let s ← jpgDensity data pre.length (0xFF00 + (0xE0 : UInt8).toNat) s; _) = _
    rw [jpgDensity_jfif h0 s a b c h' h1 h2]
    have hne : ¬ h0.segment.code = 0xDA := by show ¬ (0xE0 : UInt8) = 0xDA; decide
    simp only [bind, Except.bind]
    rw [if_neg hne, hs h0 rfl]
    simp

/-- C35, JPEG: every JPEG file whose only application segment 0 is a JFIF header and without fill
bytes before markers is read with the width and height of its frame header and the density of its JFIF
header, or 96 dots per inch. Missing: fill bytes (`C35_jpeg_fill_counterexample`) and further
application segments 0 (`C35_jpeg_app0_counterexample`). -/
theorem C35_jpeg_partial (j : JpegFile) (ok : j.Ok) :
    Image.newFromBuffer j.bytes = .ok
      { kind := .jpeg, width := j.width, height := j.height, widthDpi := j.dpi.1, heightDpi := j.dpi.2 } := by
  let sos : JpegSegment := { code := 0xDA, data := j.scan }
  have hp : j.bytes = [0xFF, 0xD8] ++ ((j.jfif.map Jfif.segment).toList.flatMap JpegSegment.bytes ++
      (j.before.flatMap JpegSegment.bytes ++ (j.frame.bytes ++ (j.after.flatMap JpegSegment.bytes ++
        (sos.bytes ++ j.rest))))) := by
    simp [JpegFile.bytes, JpegFile.segments, sos]
  have hl : ∀ s ∈ j.segments, s.data.length + 2 < 2 ^ 16 := ok.lengths
  have hskip : ∀ c ∈ j.before ++ j.after,
      c.data.length + 2 < 2 ^ 16 ∧ c.code ∉ sofCodes ∧ c.code ≠ 0xDA ∧ c.code ≠ 0xE0 := by
    intro c hc
    refine ⟨hl c ?_, (ok.others c hc).1, (ok.others c hc).2, ok.app0 c hc⟩
    simp only [JpegFile.segments, List.mem_append] at hc ⊢
    rcases hc with h | h <;> simp [h]
  have loop : jpgLoop j.bytes 2 {} = .ok
      { width := j.width, height := j.height, widthDpi := j.dpi.1, heightDpi := j.dpi.2 } := by
    have s1 := jpgLoop_jfif (data := j.bytes) (pre := [0xFF, 0xD8]) j.jfif {}
      (fun h e => ⟨(ok.jfif h e).1, (ok.jfif h e).2.1, (ok.jfif h e).2.2,
        hl _ (by simp [JpegFile.segments, e])⟩) hp rfl rfl j.dpi
      (fun h e => by unfold JpegFile.dpi; rw [e]) (fun e => by unfold JpegFile.dpi; rw [e])
    rw [show (2 : Nat) = [(0xFF : UInt8), 0xD8].length from rfl, s1]
    rw [jpgLoop_skip j.before (post := j.frame.bytes ++ (j.after.flatMap JpegSegment.bytes ++
        (sos.bytes ++ j.rest))) _ (fun c hc => hskip c (by simp [hc])) (by rw [hp]; simp)]
    have hD : j.bytes = ([0xFF, 0xD8] ++ (j.jfif.map Jfif.segment).toList.flatMap JpegSegment.bytes ++
      j.before.flatMap JpegSegment.bytes) ++ (j.frame.bytes ++ (j.after.flatMap JpegSegment.bytes ++
        (sos.bytes ++ j.rest))) := by rw [hp]; simp
    rw [jpgLoop_segment _ (hl j.frame (by simp [JpegFile.segments])) hD rfl]
    rw [show j.frame.code = j.sof from rfl, jpgDims_frame j _ ok.sof ok.width.2 ok.height.2 hD, ok_bind]
    have hE : j.sof ≠ 0xE0 := fun e => absurd ok.sof (by rw [e]; decide)
    have hA : j.sof ≠ 0xDA := fun e => absurd ok.sof (by rw [e]; decide)
    rw [jpgDensity_other _ hE, ok_bind, if_neg hA]
    rw [jpgLoop_skip j.after (post := sos.bytes ++ j.rest) _ (fun c hc => hskip c (by simp [hc])) (by rw [hD]; simp)]
    rw [jpgLoop_segment (c := sos) (post := j.rest) _ ok.scan (by rw [hD]; simp) rfl]
    rw [jpgDims_other (c := sos.code) _ (show (0xDA : UInt8) ∉ sofCodes by decide), ok_bind,
      jpgDensity_other (c := sos.code) _ (show (0xDA : UInt8) ≠ 0xE0 by decide)]
    rfl
  have hb : ∃ c d rest, j.bytes = 0xFF :: 0xD8 :: c :: d :: rest := by
    have : ∃ c d rest, j.segments.flatMap JpegSegment.bytes = c :: d :: rest := by
      cases e : j.segments with
      | nil => simp [JpegFile.segments] at e
      | cons s l => exact ⟨_, _, _, by simp [JpegSegment.bytes]; exact ⟨rfl, rfl, rfl⟩⟩
    obtain ⟨c, d, r, e⟩ := this
    exact ⟨c, d, _, by simp only [JpegFile.bytes, e]; rfl⟩
  obtain ⟨c, d, rest, hb⟩ := hb
  rw [hb] at loop
  rw [hb, newFromBuffer_cons]
  unfold processByMarker
  rw [if_neg (by simp), if_pos (by rfl), loop]
  show (if j.width = 0 ∨ j.height = 0 then _ else _) = _
  rw [if_neg]
  · rfl
  · have := ok.width; have := ok.height; omega

/-! GIF, BMP -/

theorem ascii_GIF : ascii "GIF" = [71, 73, 70] := by decide +kernel
theorem ascii_BM : ascii "BM" = [66, 77] := by decide +kernel

/-- C35, GIF: every GIF file (87a or 89a) is read with its logical screen size. -/
theorem C35_gif (version : String) (hv : version = "87a" ∨ version = "89a") (w h : Nat)
    (rest : List UInt8) (hw : 0 < w ∧ w < 2 ^ 16) (hh : 0 < h ∧ h < 2 ^ 16) :
    Image.newFromBuffer (gifBytes version w h rest) = .ok { kind := .gif, width := w, height := h } := by
  have hb : ∃ a b, gifBytes version w h rest = 71 :: 73 :: 70 :: 56 :: (a :: b :: (le16 w ++ (le16 h ++ rest))) := by
    rcases hv with rfl | rfl
    · refine ⟨55, 97, ?_⟩
      have : ascii "87a" = [56, 55, 97] := by decide +kernel
      simp [gifBytes, ascii_GIF, this]
    · refine ⟨57, 97, ?_⟩
      have : ascii "89a" = [56, 57, 97] := by decide +kernel
      simp [gifBytes, ascii_GIF, this]
  obtain ⟨a, b, hb⟩ := hb
  rw [hb, newFromBuffer_cons]
  unfold processByMarker
  rw [if_neg (by decide), if_neg (by decide), if_neg (by decide), if_pos (by rfl)]
  unfold processGif
  rw [show unpackU16le (71 :: 73 :: 70 :: 56 :: a :: b :: (le16 w ++ (le16 h ++ rest))) 6 = .ok w from
      u16le_mid (pre := [71, 73, 70, 56, a, b]) (post := le16 h ++ rest) (by simp) hw.2 rfl,
    show unpackU16le (71 :: 73 :: 70 :: 56 :: a :: b :: (le16 w ++ (le16 h ++ rest))) 8 = .ok h from
      u16le_mid (pre := [71, 73, 70, 56, a, b] ++ le16 w) (post := rest) (by simp) hh.2 rfl]
  show (if w = 0 ∨ h = 0 then _ else _) = _
  rw [if_neg (by omega)]
  rfl

theorem processBmp_bytes (fileHeader infoSize : List UInt8) (w h : Nat) (rest : List UInt8)
    (hf : fileHeader.length = 12) (hi : infoSize.length = 4) (hw : w < 2 ^ 32) (hh : h < 2 ^ 32) (d : List UInt8)
    (hd : d = ascii "BM" ++ fileHeader ++ infoSize ++ le32 w ++ le32 h ++ rest) :
    Image.newFromBuffer d = (if w = 0 ∨ h = 0 then .error .dimension
      else .ok { kind := .bmp, width := w, height := h }) := by
  match fileHeader, hf with
  | x :: y :: fh, hf =>
    have hb : d = 66 :: 77 :: x :: y :: (fh ++ (infoSize ++ (le32 w ++ (le32 h ++ rest)))) := by
      simp [hd, ascii_BM]
    rw [hb, newFromBuffer_cons]
    unfold processByMarker
    rw [if_neg (by simp), if_neg (by decide), if_pos (by rfl)]
    unfold processBmp
    simp only [List.length_cons] at hf
    rw [u32le_mid (n := w) (pre := 66 :: 77 :: x :: y :: (fh ++ infoSize)) (post := le32 h ++ rest) (by simp) hw
        (by simp; omega),
      u32le_mid (n := h) (pre := 66 :: 77 :: x :: y :: (fh ++ infoSize) ++ le32 w) (post := rest) (by simp) hh
        (by simp; omega)]
    rfl

/-- C35, BMP: every BMP file with an information header of 40 bytes or more and its rows bottom up is
read with its width and height. Missing: rows top down (`C35_bmp_topdown_counterexample`), the 12-byte
header (`C35_bmp_core_counterexample`). -/
theorem C35_bmp_partial (fileHeader infoSize : List UInt8) (w h : Int) (rest : List UInt8)
    (hf : fileHeader.length = 12) (hi : infoSize.length = 4)
    (hw : 0 < w ∧ w < 2 ^ 31) (hh : 0 < h ∧ h < 2 ^ 31) :
    ∃ im, Image.newFromBuffer (bmpBytes fileHeader infoSize w h rest) = .ok im ∧ im.kind = .bmp ∧
      (im.width : Int) = w ∧ (im.height : Int) = h ∧ im.widthDpi = 96 ∧ im.heightDpi = 96 := by
  have e := processBmp_bytes fileHeader infoSize (w % 2 ^ 32).toNat (h % 2 ^ 32).toNat rest hf hi
    (by omega) (by omega) _ rfl
  rw [if_neg (by omega)] at e
  exact ⟨_, e, rfl, by simp only; omega, by simp only; omega, rfl, rfl⟩

/-! Other buffers -/

/-- C35: a buffer of at least four bytes that does not start like one of the four formats is refused as
of unknown type. (Shorter buffers panic: `C35_short_counterexample`.) -/
theorem C35_unknown_partial (data : List UInt8) (hl : 4 ≤ data.length)
    (h1 : (data.drop 1).take 3 ≠ ascii "PNG") (h2 : data.take 2 ≠ [0xFF, 0xD8])
    (h3 : data.take 2 ≠ ascii "BM") (h4 : data.take 4 ≠ ascii "GIF8") :
    Image.newFromBuffer data = .error .unknownType := by
  match data, hl with
  | a :: b :: c :: d :: rest, _ =>
    rw [newFromBuffer_cons]
    unfold processByMarker
    have h4' : ascii "GIF8" = [71, 73, 70, 56] := by decide +kernel
    rw [ascii_PNG] at h1; rw [ascii_BM] at h3; rw [h4'] at h4
    simp only [List.drop_succ_cons, List.drop_zero, List.take_succ_cons, List.take_zero] at h1 h2 h3 h4
    rw [if_neg h1, if_neg, if_neg h3, if_neg h4]
    · rfl
    · intro e
      apply h2
      have ha := a.toNat_lt
      have hb := b.toNat_lt
      have e1 : a = 0xFF := UInt8.toNat_inj.mp (by show a.toNat = 255; omega)
      have e2 : b = 0xD8 := UInt8.toNat_inj.mp (by show b.toNat = 216; omega)
      rw [e1, e2]

/-! Accepted buffers -/

theorem bslice_ok {data m : List UInt8} {a b : Nat} (h : bslice data a b = .ok m) :
    ∃ pre post, data = pre ++ (m ++ post) ∧ pre.length = a ∧ m.length = b - a := by
  unfold bslice at h
  split at h
  · rename_i hc
    injection h with h
    refine ⟨data.take a, data.drop b, ?_, by simp; omega, ?_⟩
    · rw [← h]
      have : data.drop b = (data.drop a).drop (b - a) := by
        rw [List.drop_drop]; congr 1; omega
      rw [this, List.take_append_drop, List.take_append_drop]
    · rw [← h]; simp; omega
  · exact absurd h (by simp)

theorem be32_fromBe {b : List UInt8} (h : b.length = 4) : be32 (fromBe b) = b := by
  match b, h with
  | [w, x, y, z], _ =>
    have hw := w.toNat_lt; have hx := x.toNat_lt; have hy := y.toNat_lt; have hz := z.toNat_lt
    simp only [fromBe, List.foldl, be32]
    congr 1
    · apply UInt8.toNat_inj.mp; rw [u8_small (by omega)]; omega
    · congr 1
      · apply UInt8.toNat_inj.mp; rw [u8_small (by omega)]; omega
      · congr 1
        · apply UInt8.toNat_inj.mp; rw [u8_small (by omega)]; omega
        · congr 1
          apply UInt8.toNat_inj.mp; rw [u8_small (by omega)]; omega

theorem be16_fromBe {b : List UInt8} (h : b.length = 2) : be16 (fromBe b) = b := by
  match b, h with
  | [w, x], _ =>
    have hw := w.toNat_lt; have hx := x.toNat_lt
    simp only [fromBe, List.foldl, be16]
    congr 1
    · apply UInt8.toNat_inj.mp; rw [u8_small (by omega)]; omega
    · congr 1
      apply UInt8.toNat_inj.mp; rw [u8_small (by omega)]; omega

/-- the `n` bytes at an offset -/
def bytesAt (data : List UInt8) (off n : Nat) : List UInt8 := (data.drop off).take n

theorem bslice_at {data m : List UInt8} {a b : Nat} (h : bslice data a b = .ok m) :
    b ≤ data.length ∧ m = bytesAt data a (b - a) := by
  unfold bslice at h
  split at h
  · rename_i hc
    injection h with h
    exact ⟨hc.2, h.symm⟩
  · exact absurd h (by simp)

theorem u32be_at {data : List UInt8} {off n : Nat} (h : unpackU32be data off = .ok n) :
    off + 4 ≤ data.length ∧ bytesAt data off 4 = be32 n := by
  unfold unpackU32be at h
  cases e : bslice data off (off + 4) with
  | error x => rw [e] at h; exact absurd h (by simp [bind, Except.bind])
  | ok m =>
    rw [e] at h
    obtain ⟨h1, h2⟩ := bslice_at e
    obtain ⟨_, _, _, _, h3⟩ := bslice_ok e
    have : n = fromBe m := by
      simpa [bind, Except.bind, pure, Except.pure, eq_comm] using h
    subst this
    rw [be32_fromBe (by omega)]
    refine ⟨h1, ?_⟩
    rw [h2]; congr 1; omega

theorem u16be_at {data : List UInt8} {off n : Nat} (h : unpackU16be data off = .ok n) :
    off + 2 ≤ data.length ∧ bytesAt data off 2 = be16 n := by
  unfold unpackU16be at h
  cases e : bslice data off (off + 2) with
  | error x => rw [e] at h; exact absurd h (by simp [bind, Except.bind])
  | ok m =>
    rw [e] at h
    obtain ⟨h1, h2⟩ := bslice_at e
    obtain ⟨_, _, _, _, h3⟩ := bslice_ok e
    have : n = fromBe m := by
      simpa [bind, Except.bind, pure, Except.pure, eq_comm] using h
    subst this
    rw [be16_fromBe (by omega)]
    refine ⟨h1, ?_⟩
    rw [h2]; congr 1; omega

/-- An IHDR chunk with these dimensions is in the buffer, after the signature. -/
def HasIhdr (data : List UInt8) (w h : Nat) : Prop :=
  ∃ off, 8 ≤ off ∧ off + 16 ≤ data.length ∧ bytesAt data (off + 4) 4 = ascii "IHDR" ∧
    bytesAt data (off + 8) 4 = be32 w ∧ bytesAt data (off + 12) 4 = be32 h

/-- A frame header with these dimensions is in the buffer, after the start marker. -/
def HasFrame (data : List UInt8) (w h : Nat) : Prop :=
  ∃ off, 2 ≤ off ∧ off + 9 ≤ data.length ∧
    (∃ code ∈ sofCodes, bytesAt data off 2 = [0xFF, code]) ∧
    bytesAt data (off + 5) 2 = be16 h ∧ bytesAt data (off + 7) 2 = be16 w

theorem pngDensity_dims {data : List UInt8} {off : Nat} {m : List UInt8} {s s' : ImgScan}
    (h : pngDensity data off m s = .ok s') : s'.width = s.width ∧ s'.height = s.height := by
  unfold pngDensity at h
  split at h
  · cases e1 : bindex data (off + 16) with
    | error x => rw [e1] at h; exact absurd h (by simp [bind, Except.bind])
    | ok u =>
      cases e2 : unpackU32be data (off + 8) with
      | error x => rw [e1, e2] at h; exact absurd h (by simp [bind, Except.bind])
      | ok x =>
        cases e3 : unpackU32be data (off + 12) with
        | error x => rw [e1, e2, e3] at h; exact absurd h (by simp [bind, Except.bind])
        | ok y =>
          rw [e1, e2, e3, ok_bind, ok_bind, ok_bind] at h
          split at h <;> (injection h with h; subst h; exact ⟨rfl, rfl⟩)
  · injection h with h; subst h; exact ⟨rfl, rfl⟩

theorem pngDims_src {data : List UInt8} {off : Nat} {m : List UInt8} {s s' : ImgScan}
    (ho : 8 ≤ off) (hm : bslice data (off + 4) (off + 8) = .ok m)
    (h : pngDims data off m s = .ok s') :
    (s'.width = s.width ∧ s'.height = s.height) ∨ HasIhdr data s'.width s'.height := by
  unfold pngDims at h
  split at h
  · rename_i hi
    right
    cases e2 : unpackU32be data (off + 8) with
    | error x => rw [e2] at h; exact absurd h (by simp [bind, Except.bind])
    | ok x =>
      cases e3 : unpackU32be data (off + 12) with
      | error x => rw [e2, e3] at h; exact absurd h (by simp [bind, Except.bind])
      | ok y =>
        rw [e2, e3, ok_bind, ok_bind] at h
        injection h with h
        subst h
        have a := u32be_at e2
        have b := u32be_at e3
        have c := (bslice_at hm).2
        refine ⟨off, ho, by omega, ?_, a.2, b.2⟩
        rw [ascii_IHDR, ← hi, c]
        congr 1; omega
  · injection h with h; subst h; exact Or.inl ⟨rfl, rfl⟩

theorem pngLoop_src (data : List UInt8) : ∀ (k off : Nat) (s s' : ImgScan), data.length - off ≤ k → 8 ≤ off →
    pngLoop data off s = .ok s' →
    (s'.width = s.width ∧ s'.height = s.height) ∨ HasIhdr data s'.width s'.height := by
  intro k
  induction k with
  | zero =>
    intro off s s' hk ho h
    rw [pngLoop, dif_neg (by omega)] at h
    injection h with h; subst h; exact Or.inl ⟨rfl, rfl⟩
  | succ k ih =>
    intro off s s' hk ho h
    rw [pngLoop] at h
    split at h
    · cases e1 : bslice data (off + 4) (off + 8) with
      | error x => rw [e1] at h; exact absurd h (by simp [bind, Except.bind])
      | ok m =>
        cases e2 : unpackU32be data off with
        | error x => rw [e1, e2] at h; exact absurd h (by simp [bind, Except.bind])
        | ok l =>
          rw [e1, e2, ok_bind, ok_bind] at h
          cases e3 : pngDims data off m s with
          | error x => rw [e3] at h; exact absurd h (by simp [bind, Except.bind])
          | ok s1 =>
            rw [e3, ok_bind] at h
            cases e4 : pngDensity data off m s1 with
            | error x => rw [e4] at h; exact absurd h (by simp [bind, Except.bind])
            | ok s2 =>
              rw [e4, ok_bind] at h
              have d2 := pngDensity_dims e4
              have d1 := pngDims_src ho e1 e3
              rw [← d2.1, ← d2.2] at d1
              split at h
              · injection h with h; subst h; exact d1
              · rcases ih _ s2 s' (by omega) (by omega) h with h' | h'
                · rw [h'.1, h'.2]; exact d1
                · exact Or.inr h'
    · injection h with h; subst h; exact Or.inl ⟨rfl, rfl⟩

theorem jpgDensity_dims {data : List UInt8} {off m : Nat} {s s' : ImgScan}
    (h : jpgDensity data off m s = .ok s') : s'.width = s.width ∧ s'.height = s.height := by
  unfold jpgDensity at h
  split at h
  · cases e1 : bindex data (off + 11) with
    | error x => rw [e1] at h; exact absurd h (by simp [bind, Except.bind])
    | ok u =>
      cases e2 : unpackU16be data (off + 12) with
      | error x => rw [e1, e2] at h; exact absurd h (by simp [bind, Except.bind])
      | ok x =>
        cases e3 : unpackU16be data (off + 14) with
        | error x => rw [e1, e2, e3] at h; exact absurd h (by simp [bind, Except.bind])
        | ok y =>
          rw [e1, e2, e3, ok_bind, ok_bind, ok_bind] at h
          injection h with h
          subst h
          constructor
          · dsimp only; split <;> (try split) <;> rfl
          · dsimp only; split <;> (try split) <;> rfl
  · injection h with h; subst h; exact ⟨rfl, rfl⟩

theorem sof_bytes {n : Nat} (h : jpgIsSof n = true) (hn : n < 2 ^ 16) :
    ∃ code ∈ sofCodes, be16 n = [0xFF, code] := by
  have h255 : n / 256 = 255 := by
    have : ∀ q : Fin 256, ∀ r : Fin 256, jpgIsSof (256 * q.val + r.val) = true → q.val = 255 := by
      decide +kernel
    have hq : n / 256 < 256 := by omega
    have hr : n % 256 < 256 := by omega
    have := this ⟨n / 256, hq⟩ ⟨n % 256, hr⟩
    simp only at this
    rw [Nat.div_add_mod] at this
    exact this h
  have e : n = 0xFF00 + (UInt8.ofNat (n % 256)).toNat := by
    rw [u8_small (by omega)]; omega
  refine ⟨UInt8.ofNat (n % 256), ?_, ?_⟩
  · rw [e] at h; exact (jpgIsSof_code _).mp h
  · simp only [be16, h255]; rfl

theorem fromBe_two_lt {b : List UInt8} (h : b.length = 2) : fromBe b < 2 ^ 16 := by
  match b, h with
  | [w, x], _ =>
    have hw := w.toNat_lt; have hx := x.toNat_lt
    simp only [fromBe, List.foldl]; omega

theorem u16be_lt {data : List UInt8} {off n : Nat} (h : unpackU16be data off = .ok n) : n < 2 ^ 16 := by
  unfold unpackU16be at h
  cases e : bslice data off (off + 2) with
  | error x => rw [e] at h; exact absurd h (by simp [bind, Except.bind])
  | ok m =>
    rw [e] at h
    obtain ⟨_, _, _, _, h3⟩ := bslice_ok e
    have : n = fromBe m := by
      simpa [bind, Except.bind, pure, Except.pure, eq_comm] using h
    subst this
    exact fromBe_two_lt (by omega)

theorem jpgDims_src {data : List UInt8} {off m : Nat} {s s' : ImgScan}
    (ho : 2 ≤ off) (hm : unpackU16be data off = .ok m)
    (h : jpgDims data off m s = .ok s') :
    (s'.width = s.width ∧ s'.height = s.height) ∨ HasFrame data s'.width s'.height := by
  unfold jpgDims at h
  split at h
  · rename_i hi
    right
    cases e2 : unpackU16be data (off + 5) with
    | error x => rw [e2] at h; exact absurd h (by simp [bind, Except.bind])
    | ok x =>
      cases e3 : unpackU16be data (off + 7) with
      | error x => rw [e2, e3] at h; exact absurd h (by simp [bind, Except.bind])
      | ok y =>
        rw [e2, e3, ok_bind, ok_bind] at h
        injection h with h
        subst h
        have a := u16be_at e2
        have b := u16be_at e3
        have c := u16be_at hm
        obtain ⟨code, hc, hb⟩ := sof_bytes hi (u16be_lt hm)
        refine ⟨off, ho, by omega, ⟨code, hc, ?_⟩, a.2, b.2⟩
        rw [c.2, hb]
  · injection h with h; subst h; exact Or.inl ⟨rfl, rfl⟩

theorem jpgLoop_src (data : List UInt8) : ∀ (k off : Nat) (s s' : ImgScan), data.length - off ≤ k → 2 ≤ off →
    jpgLoop data off s = .ok s' →
    (s'.width = s.width ∧ s'.height = s.height) ∨ HasFrame data s'.width s'.height := by
  intro k
  induction k with
  | zero =>
    intro off s s' hk ho h
    rw [jpgLoop, dif_neg (by omega)] at h
    injection h with h; subst h; exact Or.inl ⟨rfl, rfl⟩
  | succ k ih =>
    intro off s s' hk ho h
    rw [jpgLoop] at h
    split at h
    · cases e1 : unpackU16be data off with
      | error x => rw [e1] at h; exact absurd h (by simp [bind, Except.bind])
      | ok m =>
        cases e2 : unpackU16be data (off + 2) with
        | error x => rw [e1, e2] at h; exact absurd h (by simp [bind, Except.bind])
        | ok l =>
          rw [e1, e2, ok_bind, ok_bind] at h
          cases e3 : jpgDims data off m s with
          | error x => rw [e3] at h; exact absurd h (by simp [bind, Except.bind])
          | ok s1 =>
            rw [e3, ok_bind] at h
            cases e4 : jpgDensity data off m s1 with
            | error x => rw [e4] at h; exact absurd h (by simp [bind, Except.bind])
            | ok s2 =>
              rw [e4, ok_bind] at h
              have d2 := jpgDensity_dims e4
              have d1 := jpgDims_src ho e1 e3
              rw [← d2.1, ← d2.2] at d1
              split at h
              · injection h with h; subst h; exact d1
              · rcases ih _ s2 s' (by omega) (by omega) h with h' | h'
                · rw [h'.1, h'.2]; exact d1
                · exact Or.inr h'
    · injection h with h; subst h; exact Or.inl ⟨rfl, rfl⟩

/-- C35: whatever the buffer, an accepted image has positive dimensions, starts with the marker of its
kind, and a PNG or JPEG image has the dimensions of an IHDR chunk (a frame header) of the buffer. -/
theorem C35_accepted (data : List UInt8) (im : Img) (h : Image.newFromBuffer data = .ok im) :
    0 < im.width ∧ 0 < im.height ∧
    (im.kind = .png → (data.drop 1).take 3 = ascii "PNG" ∧ HasIhdr data im.width im.height) ∧
    (im.kind = .jpeg → data.take 2 = [0xFF, 0xD8] ∧ HasFrame data im.width im.height) ∧
    (im.kind = .bmp → data.take 2 = ascii "BM" ∧ 26 ≤ data.length) ∧
    (im.kind = .gif → data.take 4 = ascii "GIF8" ∧ 10 ≤ data.length) := by
  have hl : 4 ≤ data.length := by
    apply Classical.byContradiction
    intro hc
    rw [newFromBuffer_short (by omega)] at h
    exact absurd h (by simp)
  match data, hl with
  | a :: b :: c :: d :: rest, _ =>
    rw [newFromBuffer_cons] at h
    cases e : processByMarker (a :: b :: c :: d :: rest) [b, c, d] [a, b] [a, b, c, d] (a.toNat * 256 + b.toNat) with
    | error x => rw [e] at h; exact absurd h (by simp [bind, Except.bind])
    | ok im' =>
      rw [e, ok_bind] at h
      split at h
      · exact absurd h (by simp)
      · rename_i hz
        injection h with h
        subst h
        have hw : 0 < im'.width := by omega
        have hh : 0 < im'.height := by omega
        refine ⟨hw, hh, ?_⟩
        unfold processByMarker at e
        split at e
        · rename_i hm
          cases e1 : pngLoop (a :: b :: c :: d :: rest) 8 {} with
          | error x => rw [e1] at e; exact absurd e (by simp [bind, Except.bind])
          | ok s =>
            rw [e1, ok_bind] at e
            injection e with e
            subst e
            refine ⟨fun _ => ⟨?_, ?_⟩, by simp [ImgScan.image], by simp [ImgScan.image], by simp [ImgScan.image]⟩
            · rw [ascii_PNG]; exact hm
            · rcases pngLoop_src _ _ 8 {} s (Nat.le_refl _) (by omega) e1 with h' | h'
              · have : s.width = 0 := h'.1
                have : 0 < s.width := hw
                omega
              · exact h'
        · split at e
          · rename_i hm
            cases e1 : jpgLoop (a :: b :: c :: d :: rest) 2 {} with
            | error x => rw [e1] at e; exact absurd e (by simp [bind, Except.bind])
            | ok s =>
              rw [e1, ok_bind] at e
              injection e with e
              subst e
              refine ⟨by simp [ImgScan.image], fun _ => ⟨?_, ?_⟩, by simp [ImgScan.image], by simp [ImgScan.image]⟩
              · have ha := a.toNat_lt
                have hb := b.toNat_lt
                have e1 : a = 0xFF := UInt8.toNat_inj.mp (by show a.toNat = 255; omega)
                have e2 : b = 0xD8 := UInt8.toNat_inj.mp (by show b.toNat = 216; omega)
                rw [e1, e2]; rfl
              · rcases jpgLoop_src _ _ 2 {} s (Nat.le_refl _) (by omega) e1 with h' | h'
                · have : s.width = 0 := h'.1
                  have : 0 < s.width := hw
                  omega
                · exact h'
          · split at e
            · rename_i hm
              unfold processBmp unpackU32le at e
              cases e1 : bslice (a :: b :: c :: d :: rest) 18 (18 + 4) with
              | error x => rw [e1] at e; exact absurd e (by simp [bind, Except.bind])
              | ok m =>
                cases e2 : bslice (a :: b :: c :: d :: rest) 22 (22 + 4) with
                | error x => rw [e1, e2] at e; exact absurd e (by simp [bind, Except.bind, pure, Except.pure])
                | ok n =>
                  rw [e1, e2] at e
                  injection e with e
                  subst e
                  refine ⟨by simp, by simp, fun _ => ⟨?_, ?_⟩, by simp⟩
                  · rw [ascii_BM]; exact hm
                  · exact (bslice_at e2).1
            · split at e
              · rename_i hm
                unfold processGif unpackU16le at e
                cases e1 : bslice (a :: b :: c :: d :: rest) 6 (6 + 2) with
                | error x => rw [e1] at e; exact absurd e (by simp [bind, Except.bind])
                | ok m =>
                  cases e2 : bslice (a :: b :: c :: d :: rest) 8 (8 + 2) with
                  | error x => rw [e1, e2] at e; exact absurd e (by simp [bind, Except.bind, pure, Except.pure])
                  | ok n =>
                    rw [e1, e2] at e
                    injection e with e
                    subst e
                    refine ⟨by simp, by simp, by simp, fun _ => ⟨?_, ?_⟩⟩
                    · have : ascii "GIF8" = [71, 73, 70, 56] := by decide +kernel
                      rw [this]; exact hm
                    · exact (bslice_at e2).1
              · exact absurd e (by simp)

/-! What does not hold -/

deriving instance DecidableEq for Except

/-- F42: a buffer of fewer than four bytes panics. -/
theorem C35_short_counterexample (data : List UInt8) (h : data.length < 4) :
    Image.newFromBuffer data = .error .panic := newFromBuffer_short h

/-- F42: so does a PNG file cut off in the middle, here after the header chunk and three more bytes. -/
theorem C35_truncated_counterexample :
    Image.newFromBuffer (pngSig ++ (be32 13 ++ ascii "IHDR" ++ be32 1 ++ be32 1 ++ [8, 0, 0, 0, 0] ++
      [1, 2, 3, 4]) ++ [0, 0, 0]) = .error .panic := by decide +kernel

/-- F108: a JPEG file with a fill byte (0xFF) before a marker, which ITU-T T.81 B.1.1.2 allows, is
refused: a 1 by 1 frame, the scan. -/
theorem C35_jpeg_fill_counterexample :
    Image.newFromBuffer ([0xFF, 0xD8] ++ [0xFF] ++
      ({ code := 0xC0, data := [8, 0, 1, 0, 1, 1, 1, 0x11, 0] } : JpegSegment).bytes ++
      ({ code := 0xDA, data := [1, 1, 0, 0, 63, 0] } : JpegSegment).bytes) = .error .dimension := by
  decide +kernel

/-- A JPEG file of 72 dots per inch with a JFIF extension segment holding a 1 by 1 RGB thumbnail. -/
def jfxxFile : JpegFile :=
  { jfif := some { version := [1, 2], units := 1, x := 72, y := 72, thumbnail := [0, 0] }
    before := [{ code := 0xE0, data := ascii "JFXX" ++ [0, 0x13, 1, 1, 200, 100, 50] }]
    sof := 0xC0, precision := 8, height := 5, width := 4, components := [1, 1, 0x11, 0], after := []
    scan := [1, 1, 0, 0, 63, 0], rest := [] }

/-- F109: the density is read from every application segment 0, so also from the thumbnail of a JFIF
extension segment: the file above states 72 dots per inch and is read as 51300 by 13055. -/
theorem C35_jpeg_app0_counterexample :
    jfxxFile.dpi = (72, 72) ∧ Image.newFromBuffer jfxxFile.bytes = .ok
      { kind := .jpeg, width := 4, height := 5, widthDpi := 51300, heightDpi := 13055 } := by
  constructor <;> decide +kernel

/-- F110: a BMP file with its rows top down (height -2) is read as 4294967294 pixels high. -/
theorem C35_bmp_topdown_counterexample :
    Image.newFromBuffer (bmpBytes (List.replicate 12 0) [40, 0, 0, 0] 3 (-2) []) = .ok
      { kind := .bmp, width := 3, height := 4294967294 } := by decide +kernel

/-- F110: a BMP file with the 12-byte core header (16-bit width 3 and height 2) is read with width
131075. -/
theorem C35_bmp_core_counterexample :
    Image.newFromBuffer (ascii "BM" ++ List.replicate 12 0 ++ [12, 0, 0, 0] ++ le16 3 ++ le16 2 ++
      le16 1 ++ le16 24) = .ok { kind := .bmp, width := 131075, height := 1572865 } := by decide +kernel

/-! The hypotheses are met -/

/-- A 10 by 20 PNG file with a density of 3780 pixels per metre. -/
def samplePng : PngFile :=
  { width := 10, height := 20, depth := [8, 2, 0, 0, 0], crc := [1, 2, 3, 4]
    chunks := [{ type := ascii "pHYs", data := be32 3780 ++ be32 3780 ++ [1], crc := [5, 6, 7, 8] },
      { type := ascii "IDAT", data := [1, 2, 3], crc := [0, 0, 0, 0] }]
    endCrc := [9, 9, 9, 9], rest := [7] }

theorem samplePng_ok : samplePng.Ok := by
  refine ⟨by decide, by decide, rfl, rfl, rfl, ?_, ?_, by decide +kernel⟩
  · intro c hc
    simp only [samplePng, List.mem_cons, List.not_mem_nil, or_false] at hc
    rcases hc with rfl | rfl
    · refine ⟨⟨by decide +kernel, rfl, by decide +kernel⟩, by decide +kernel, by decide +kernel⟩
    · refine ⟨⟨by decide +kernel, rfl, by decide +kernel⟩, by decide +kernel, by decide +kernel⟩
  · intro c hc ht
    simp only [samplePng, List.mem_cons, List.not_mem_nil, or_false] at hc
    rcases hc with rfl | rfl
    · exact ⟨3780, 3780, 1, by decide, by decide, rfl⟩
    · exact absurd ht (by decide +kernel)

example : samplePng.StatesDpi (3780 * 254 / 10000) (3780 * 254 / 10000) :=
  ⟨_, List.mem_cons_self, rfl, 3780, 3780, by decide, by decide, by decide, by decide, rfl, rfl, rfl⟩

example : { jfxxFile with before := [], after := [{ code := 0xC4, data := [0] }] }.Ok := by
  refine ⟨by decide, by decide, by decide, by decide, ?_, ?_, ?_, ?_⟩
  · decide +kernel
  · decide +kernel
  · decide +kernel
  · intro h e; injection e with e; subst e; decide

end Verif
