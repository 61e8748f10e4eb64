import Verif.Model.Image
import Verif.Spec.Image
/-! Lemmas for Props/Image: reading numbers at an offset, one chunk, one segment. -/
namespace Verif
open Spec

theorem ok_bind {ε α β : Type} (a : α) (f : α → Except ε β) : (Except.ok a >>= f) = f a := rfl

theorem bslice_mid {data pre mid post : List UInt8} {a b : Nat} (h : data = pre ++ (mid ++ post))
    (ha : a = pre.length) (hb : b = a + mid.length) : bslice data a b = .ok mid := by
  subst h; subst ha; subst hb
  unfold bslice
  rw [if_pos (by simp)]
  simp

theorem u8_small {n : Nat} (h : n < 256) : (UInt8.ofNat n).toNat = n := by
  simp; omega

theorem fromBe_be32 {n : Nat} (h : n < 2 ^ 32) : fromBe (be32 n) = n := by
  simp only [fromBe, be32, List.foldl]
  rw [u8_small (by omega), u8_small (by omega), u8_small (by omega), u8_small (by omega)]
  omega

theorem fromBe_be16 {n : Nat} (h : n < 2 ^ 16) : fromBe (be16 n) = n := by
  simp only [fromBe, be16, List.foldl]
  rw [u8_small (by omega), u8_small (by omega)]
  omega

theorem fromLe_le32 {n : Nat} (h : n < 2 ^ 32) : fromLe (le32 n) = n := by
  simp only [fromLe, le32, be32, List.reverse_cons, List.reverse_nil, List.nil_append,
    List.cons_append, List.foldr]
  rw [u8_small (by omega), u8_small (by omega), u8_small (by omega), u8_small (by omega)]
  omega

theorem fromLe_le16 {n : Nat} (h : n < 2 ^ 16) : fromLe (le16 n) = n := by
  simp only [fromLe, le16, be16, List.reverse_cons, List.reverse_nil, List.nil_append,
    List.cons_append, List.foldr]
  rw [u8_small (by omega), u8_small (by omega)]
  omega

theorem u32be_mid {data pre post : List UInt8} {n off : Nat} (h : data = pre ++ (be32 n ++ post))
    (hn : n < 2 ^ 32) (ho : off = pre.length) : unpackU32be data off = .ok n := by
  unfold unpackU32be
  rw [show bslice data off (off + 4) = .ok (be32 n) from bslice_mid h ho rfl]
  show Except.ok (fromBe (be32 n)) = _
  rw [fromBe_be32 hn]

theorem u16be_mid {data pre post : List UInt8} {n off : Nat} (h : data = pre ++ (be16 n ++ post))
    (hn : n < 2 ^ 16) (ho : off = pre.length) : unpackU16be data off = .ok n := by
  unfold unpackU16be
  rw [show bslice data off (off + 2) = .ok (be16 n) from bslice_mid h ho rfl]
  show Except.ok (fromBe (be16 n)) = _
  rw [fromBe_be16 hn]

theorem u32le_mid {data pre post : List UInt8} {n off : Nat} (h : data = pre ++ (le32 n ++ post))
    (hn : n < 2 ^ 32) (ho : off = pre.length) : unpackU32le data off = .ok n := by
  unfold unpackU32le
  rw [show bslice data off (off + 4) = .ok (le32 n) from bslice_mid h ho rfl]
  show Except.ok (fromLe (le32 n)) = _
  rw [fromLe_le32 hn]

theorem u16le_mid {data pre post : List UInt8} {n off : Nat} (h : data = pre ++ (le16 n ++ post))
    (hn : n < 2 ^ 16) (ho : off = pre.length) : unpackU16le data off = .ok n := by
  unfold unpackU16le
  rw [show bslice data off (off + 2) = .ok (le16 n) from bslice_mid h ho rfl]
  show Except.ok (fromLe (le16 n)) = _
  rw [fromLe_le16 hn]

theorem bindex_mid {data pre post : List UInt8} {b : UInt8} {i : Nat} (h : data = pre ++ (b :: post))
    (hi : i = pre.length) : bindex data i = .ok b := by
  subst h; subst hi
  simp [bindex]

@[simp] theorem be32_length (n : Nat) : (be32 n).length = 4 := rfl
@[simp] theorem be16_length (n : Nat) : (be16 n).length = 2 := rfl
@[simp] theorem le32_length (n : Nat) : (le32 n).length = 4 := rfl
@[simp] theorem le16_length (n : Nat) : (le16 n).length = 2 := rfl

theorem ascii_IHDR : ascii "IHDR" = pngIhdr := by decide +kernel
theorem ascii_pHYs : ascii "pHYs" = pngPhys := by decide +kernel
theorem ascii_IEND : ascii "IEND" = pngIend := by decide +kernel

/-! PNG -/

theorem pngDims_other {data : List UInt8} {off : Nat} {m : List UInt8} (s : ImgScan) (h : m ≠ pngIhdr) :
    pngDims data off m s = .ok s := by
  unfold pngDims; rw [if_neg h]; rfl

theorem pngDensity_other {data : List UInt8} {off : Nat} {m : List UInt8} (s : ImgScan)
    (h : m ≠ pngPhys) : pngDensity data off m s = .ok s := by
  unfold pngDensity; rw [if_neg h]; rfl

/-- One round of the loop reads one chunk. -/
theorem pngLoop_chunk {data pre post : List UInt8} {c : PngChunk} (s : ImgScan) (ok : c.Ok)
    (h : data = pre ++ (c.bytes ++ post)) {off : Nat} (ho : off = pre.length) :
    pngLoop data off s = (do
      let s ← pngDims data off c.type s
      let s ← pngDensity data off c.type s
      if c.type = pngIend then pure s else pngLoop data (pre ++ c.bytes).length s) := by
  obtain ⟨h1, h2, h3⟩ := ok
  rw [pngLoop]
  have hlt : off < data.length := by
    subst h; simp [PngChunk.bytes, ho, h1, h2]; omega
  rw [dif_pos hlt]
  have hm : bslice data (off + 4) (off + 8) = .ok c.type := by
    apply bslice_mid (pre := pre ++ be32 c.data.length) (post := c.data ++ c.crc ++ post)
    · rw [h]; simp [PngChunk.bytes]
    · simp [ho]
    · omega
  have hl : unpackU32be data off = .ok c.data.length := by
    apply u32be_mid (pre := pre) (post := c.type ++ c.data ++ c.crc ++ post) _ h3 ho
    rw [h]; simp [PngChunk.bytes]
  rw [hm, hl]
  have e : off + c.data.length + 12 = (pre ++ c.bytes).length := by
    simp [PngChunk.bytes, h1, h2, ho]; omega
  simp only [bind, Except.bind]
  rw [e]

/-- What a pHYs chunk does. -/
theorem pngDensity_phys {data pre post : List UInt8} {c : PngChunk} (s : ImgScan) (ok : c.Ok)
    (h : data = pre ++ (c.bytes ++ post)) {off : Nat} (ho : off = pre.length)
    (ht : c.type = pngPhys) {x y : Nat} {u : UInt8} (hx : x < 2 ^ 32) (hy : y < 2 ^ 32)
    (hd : c.data = be32 x ++ be32 y ++ [u]) :
    pngDensity data off c.type s = .ok (if u = 1 ∧ x > 0 ∧ y > 0 then
      { s with widthDpi := (x : Rat) * (254 / 10000), heightDpi := (y : Rat) * (254 / 10000) } else s) := by
  obtain ⟨h1, h2, h3⟩ := ok
  unfold pngDensity
  rw [if_pos ht]
  have e1 : bindex data (off + 16) = .ok u := by
    apply bindex_mid (pre := pre ++ be32 c.data.length ++ c.type ++ be32 x ++ be32 y)
      (post := c.crc ++ post)
    · rw [h]; simp [PngChunk.bytes, hd]
    · simp [h1, ho]
  have e2 : unpackU32be data (off + 8) = .ok x := by
    apply u32be_mid (pre := pre ++ be32 c.data.length ++ c.type) (post := be32 y ++ [u] ++ c.crc ++ post) _ hx
    · simp [h1, ho]
    · rw [h]; simp [PngChunk.bytes, hd]
  have e3 : unpackU32be data (off + 12) = .ok y := by
    apply u32be_mid (pre := pre ++ be32 c.data.length ++ c.type ++ be32 x) (post := [u] ++ c.crc ++ post) _ hy
    · simp [h1, ho]
    · rw [h]; simp [PngChunk.bytes, hd]
  rw [e1, e2, e3]
  simp only [bind, Except.bind, pure, Except.pure]
  split <;> rfl

/-- What an IHDR chunk does. -/
theorem pngDims_header {data pre post : List UInt8} {c : PngChunk} (s : ImgScan) (ok : c.Ok)
    (h : data = pre ++ (c.bytes ++ post)) {off : Nat} (ho : off = pre.length)
    (ht : c.type = pngIhdr) {x y : Nat} {d : List UInt8} (hx : x < 2 ^ 32) (hy : y < 2 ^ 32)
    (hd : c.data = be32 x ++ be32 y ++ d) :
    pngDims data off c.type s = .ok { s with width := x, height := y } := by
  obtain ⟨h1, h2, h3⟩ := ok
  unfold pngDims
  rw [if_pos ht]
  have e2 : unpackU32be data (off + 8) = .ok x := by
    apply u32be_mid (pre := pre ++ be32 c.data.length ++ c.type) (post := be32 y ++ d ++ c.crc ++ post) _ hx
    · simp [h1, ho]
    · rw [h]; simp [PngChunk.bytes, hd]
  have e3 : unpackU32be data (off + 12) = .ok y := by
    apply u32be_mid (pre := pre ++ be32 c.data.length ++ c.type ++ be32 x) (post := d ++ c.crc ++ post) _ hy
    · simp [h1, ho]
    · rw [h]; simp [PngChunk.bytes, hd]
  rw [e2, e3]
  rfl

/-- The middle chunks: without a pHYs chunk the scan does not change. -/
theorem pngLoop_skip {data : List UInt8} (cs : List PngChunk) : ∀ {pre post : List UInt8} (s : ImgScan),
    (∀ c ∈ cs, c.Ok ∧ c.type ≠ pngIhdr ∧ c.type ≠ pngIend ∧ c.type ≠ pngPhys) →
    data = pre ++ (cs.flatMap PngChunk.bytes ++ post) →
    pngLoop data pre.length s = pngLoop data (pre ++ cs.flatMap PngChunk.bytes).length s := by
  induction cs with
  | nil => intro pre post s _ _; simp
  | cons c cs ih =>
    intro pre post s hc h
    obtain ⟨ok, a, b, d⟩ := hc c (by simp)
    have h' : data = pre ++ (c.bytes ++ (cs.flatMap PngChunk.bytes ++ post)) := by
      rw [h]; simp
    rw [pngLoop_chunk s ok h' rfl, pngDims_other s a]
    show (do let s ← pngDensity data pre.length c.type s; _) = _
    rw [pngDensity_other s d]
    show (if c.type = pngIend then _ else _) = _
    rw [if_neg b, ih (pre := pre ++ c.bytes) (post := post) s (fun x hx => hc x (by simp [hx])) (by rw [h]; simp)]
    simp

/-! JPEG -/

theorem jpgIsSof_code (c : UInt8) : jpgIsSof (0xFF00 + c.toNat) = true ↔ c ∈ sofCodes := by
  have : ∀ n : Fin 256, jpgIsSof (0xFF00 + (UInt8.ofNat n.val).toNat) = true ↔ UInt8.ofNat n.val ∈ sofCodes := by
    decide +kernel
  have h := this ⟨c.toNat, c.toNat_lt⟩
  simpa using h

theorem code_ne {c d : UInt8} (h : c ≠ d) {k : Nat} (hk : k = 0xFF00 + d.toNat) :
    0xFF00 + c.toNat ≠ k := by
  intro e
  exact h (UInt8.toNat_inj.mp (by omega))

theorem fromBe_code (c : UInt8) : fromBe [0xFF, c] = 0xFF00 + c.toNat := by
  simp [fromBe]

theorem jpgDims_other {data : List UInt8} {off : Nat} {c : UInt8} (s : ImgScan) (h : c ∉ sofCodes) :
    jpgDims data off (0xFF00 + c.toNat) s = .ok s := by
  unfold jpgDims
  rw [if_neg]
  · rfl
  · rw [jpgIsSof_code]; exact h

theorem jpgDensity_other {data : List UInt8} {off : Nat} {c : UInt8} (s : ImgScan) (h : c ≠ 0xE0) :
    jpgDensity data off (0xFF00 + c.toNat) s = .ok s := by
  unfold jpgDensity
  rw [if_neg (show ¬ 0xFF00 + c.toNat = 0xFFE0 from code_ne (d := 0xE0) h rfl)]
  rfl

/-- One round of the loop reads one segment. -/
theorem jpgLoop_segment {data pre post : List UInt8} {c : JpegSegment} (s : ImgScan)
    (ok : c.data.length + 2 < 2 ^ 16)
    (h : data = pre ++ (c.bytes ++ post)) {off : Nat} (ho : off = pre.length) :
    jpgLoop data off s = (do
      let s ← jpgDims data off (0xFF00 + c.code.toNat) s
      let s ← jpgDensity data off (0xFF00 + c.code.toNat) s
      if c.code = 0xDA then pure s else jpgLoop data (pre ++ c.bytes).length s) := by
  rw [jpgLoop]
  have hlt : off < data.length := by
    subst h; simp [JpegSegment.bytes, ho]
  rw [dif_pos hlt]
  have hm : unpackU16be data off = .ok (0xFF00 + c.code.toNat) := by
    unfold unpackU16be
    have e : bslice data off (off + 2) = .ok [0xFF, c.code] := by
      apply bslice_mid (pre := pre) (mid := [0xFF, c.code]) (post := be16 (c.data.length + 2) ++ c.data ++ post) _ ho (by rfl)
      rw [h]; simp [JpegSegment.bytes]
    rw [e]
    show Except.ok (fromBe [0xFF, c.code]) = _
    rw [fromBe_code]
  have hl : unpackU16be data (off + 2) = .ok (c.data.length + 2) := by
    apply u16be_mid (pre := pre ++ [0xFF, c.code]) (post := c.data ++ post) _ ok (by simp [ho])
    rw [h]; simp [JpegSegment.bytes]
  rw [hm, hl]
  have e : off + (c.data.length + 2) + 2 = (pre ++ c.bytes).length := by
    simp [JpegSegment.bytes, ho]; omega
  simp only [bind, Except.bind]
  rw [e]
  have : (0xFF00 + c.code.toNat = 0xFFDA) ↔ c.code = 0xDA := by
    constructor
    · intro x
      apply Classical.byContradiction
      intro y
      exact code_ne (d := 0xDA) y rfl x
    · intro x; rw [x]; rfl
  simp only [this]

theorem jpgLoop_skip {data : List UInt8} (cs : List JpegSegment) : ∀ {pre post : List UInt8} (s : ImgScan),
    (∀ c ∈ cs, c.data.length + 2 < 2 ^ 16 ∧ c.code ∉ sofCodes ∧ c.code ≠ 0xDA ∧ c.code ≠ 0xE0) →
    data = pre ++ (cs.flatMap JpegSegment.bytes ++ post) →
    jpgLoop data pre.length s = jpgLoop data (pre ++ cs.flatMap JpegSegment.bytes).length s := by
  induction cs with
  | nil => intro pre post s _ _; simp
  | cons c cs ih =>
    intro pre post s hc h
    obtain ⟨ok, a, b, d⟩ := hc c (by simp)
    have h' : data = pre ++ (c.bytes ++ (cs.flatMap JpegSegment.bytes ++ post)) := by
      rw [h]; simp
    rw [jpgLoop_segment s ok h' rfl, jpgDims_other s a]
    show (do let s ← jpgDensity data pre.length _ s; _) = _
    rw [jpgDensity_other s d]
    show (if c.code = 0xDA then _ else _) = _
    rw [if_neg b, ih (pre := pre ++ c.bytes) (post := post) s (fun x hx => hc x (by simp [hx])) (by rw [h]; simp)]
    simp

end Verif
