import Verif.Model.Package
/-!
Images: the header of an image file (/repo/src/image.rs:245-273, 897-1072, 1189-1203) and the size an
image is shown at (/repo/src/image.rs:327-356, 409-434, 525-548, 1085-1091).

Simplifications. Floating point values are exact rationals (the dimensions of an image are integers
below 2^32, which an `f64` holds exactly; the densities are products of such an integer and a decimal
constant, which an `f64` may round). `usize` is unbounded. The hash of the image and the fields that
are only passed through (name, alt text, url, ...) are left out.
-/
namespace Verif

/-- How reading an image can end other than well: with a panic (a slice index out of bounds) or with
one of the two errors of `process_image`, /repo/src/image.rs:916-923. -/
inductive ImgStop where
  | panic | unknownType | dimension
deriving DecidableEq, Repr

/-- The fields of `Image` that its header and the scale functions set, /repo/src/image.rs:50-75,
246-268. -/
structure Img where
  kind : ImgType
  width : Nat
  height : Nat
  widthDpi : Rat := 96
  heightDpi : Rat := 96
  scaleWidth : Rat := 1
  scaleHeight : Rat := 1
deriving DecidableEq, Repr

/-- A slice `&data[a..b]`, which panics unless `a ≤ b ≤ data.len()`. -/
def bslice (data : List UInt8) (a b : Nat) : Except ImgStop (List UInt8) :=
  if a ≤ b ∧ b ≤ data.length then .ok ((data.drop a).take (b - a)) else .error .panic

/-- `u16::from_be_bytes`, `u32::from_be_bytes`: big endian. -/
def fromBe (b : List UInt8) : Nat := b.foldl (fun n x => n * 256 + x.toNat) 0

/-- `u16::from_le_bytes`, `u32::from_le_bytes`: little endian. -/
def fromLe (b : List UInt8) : Nat := b.foldr (fun x n => x.toNat + 256 * n) 0

/-- `unpack_u16_from_be_bytes`, /repo/src/image.rs:1189-1191. -/
def unpackU16be (data : List UInt8) (off : Nat) : Except ImgStop Nat := do
  let b ← bslice data off (off + 2)
  pure (fromBe b)

/-- `unpack_u16_from_le_bytes`, /repo/src/image.rs:1193-1195. -/
def unpackU16le (data : List UInt8) (off : Nat) : Except ImgStop Nat := do
  let b ← bslice data off (off + 2)
  pure (fromLe b)

/-- `unpack_u32_from_be_bytes`, /repo/src/image.rs:1197-1199. -/
def unpackU32be (data : List UInt8) (off : Nat) : Except ImgStop Nat := do
  let b ← bslice data off (off + 4)
  pure (fromBe b)

/-- `unpack_u32_from_le_bytes`, /repo/src/image.rs:1201-1203. -/
def unpackU32le (data : List UInt8) (off : Nat) : Except ImgStop Nat := do
  let b ← bslice data off (off + 4)
  pure (fromLe b)

/-- An index `data[i]`, which panics unless `i < data.len()`. -/
def bindex (data : List UInt8) (i : Nat) : Except ImgStop UInt8 :=
  match data[i]? with
  | some b => .ok b
  | none => .error .panic

/-- The local variables of `process_png` and `process_jpg`, /repo/src/image.rs:935-940, 983-988. -/
structure ImgScan where
  width : Nat := 0
  height : Nat := 0
  widthDpi : Rat := 96
  heightDpi : Rat := 96
deriving DecidableEq, Repr

/-- "IHDR", "pHYs", "IEND" as bytes. -/
def pngIhdr : List UInt8 := [73, 72, 68, 82]
/-- "pHYs" -/
def pngPhys : List UInt8 := [112, 72, 89, 115]
/-- "IEND" -/
def pngIend : List UInt8 := [73, 69, 78, 68]

/-- /repo/src/image.rs:948-952: the dimensions in an IHDR chunk. -/
def pngDims (data : List UInt8) (offset : Nat) (marker : List UInt8) (s : ImgScan) :
    Except ImgStop ImgScan :=
  if marker = pngIhdr then do
    let w ← unpackU32be data (offset + 8)
    let h ← unpackU32be data (offset + 12)
    pure { s with width := w, height := h }
  else pure s

/-- /repo/src/image.rs:954-965: the density in a pHYs chunk. -/
def pngDensity (data : List UInt8) (offset : Nat) (marker : List UInt8) (s : ImgScan) :
    Except ImgStop ImgScan :=
  if marker = pngPhys then do
    let units ← bindex data (offset + 16)
    let x ← unpackU32be data (offset + 8)
    let y ← unpackU32be data (offset + 12)
    if units = 1 ∧ x > 0 ∧ y > 0 then
      pure { s with widthDpi := (x : Rat) * (254 / 10000), heightDpi := (y : Rat) * (254 / 10000) }
    else pure s
  else pure s

/-- The loop of `process_png`, /repo/src/image.rs:944-972. -/
def pngLoop (data : List UInt8) (offset : Nat) (s : ImgScan) : Except ImgStop ImgScan :=
  if _h : offset < data.length then do
    let marker ← bslice data (offset + 4) (offset + 8)
    let length ← unpackU32be data offset
    let s ← pngDims data offset marker s
    let s ← pngDensity data offset marker s
    if marker = pngIend then pure s
    else pngLoop data (offset + length + 12) s
  else pure s
termination_by data.length - offset

/-- /repo/src/image.rs:998-1002: the markers with the dimensions of the image. -/
def jpgIsSof (marker : Nat) : Bool :=
  (marker &&& 0xFFF0) == 0xFFC0 && marker != 0xFFC4 && marker != 0xFFC8 && marker != 0xFFCC

/-- /repo/src/image.rs:996-1005: the dimensions. -/
def jpgDims (data : List UInt8) (offset marker : Nat) (s : ImgScan) : Except ImgStop ImgScan :=
  if jpgIsSof marker then do
    let h ← unpackU16be data (offset + 5)
    let w ← unpackU16be data (offset + 7)
    pure { s with width := w, height := h }
  else pure s

/-- /repo/src/image.rs:1024-1030: densities 0 and 1 count as 96. -/
def jpgWorkaround (dpi : Rat) : Rat := if dpi = 0 ∨ dpi = 1 then 96 else dpi

/-- /repo/src/image.rs:1007-1031: the density in an APP0 segment. -/
def jpgDensity (data : List UInt8) (offset marker : Nat) (s : ImgScan) : Except ImgStop ImgScan :=
  if marker = 0xFFE0 then do
    let units ← bindex data (offset + 11)
    let x ← unpackU16be data (offset + 12)
    let y ← unpackU16be data (offset + 14)
    let s : ImgScan :=
      if units = 1 then { s with widthDpi := (x : Rat), heightDpi := (y : Rat) } else s
    let s : ImgScan :=
      if units = 2 then
        { s with widthDpi := (x : Rat) * (254 / 100), heightDpi := (y : Rat) * (254 / 100) }
      else s
    pure { s with widthDpi := jpgWorkaround s.widthDpi, heightDpi := jpgWorkaround s.heightDpi }
  else pure s

/-- The loop of `process_jpg`, /repo/src/image.rs:992-1038. -/
def jpgLoop (data : List UInt8) (offset : Nat) (s : ImgScan) : Except ImgStop ImgScan :=
  if _h : offset < data.length then do
    let marker ← unpackU16be data offset
    let length ← unpackU16be data (offset + 2)
    let s ← jpgDims data offset marker s
    let s ← jpgDensity data offset marker s
    if marker = 0xFFDA then pure s
    else jpgLoop data (offset + length + 2) s
  else pure s
termination_by data.length - offset

/-- /repo/src/image.rs:974-978, 1040-1044: what the scan leaves in the image. -/
def ImgScan.image (s : ImgScan) (kind : ImgType) : Img :=
  { kind, width := s.width, height := s.height, widthDpi := s.widthDpi, heightDpi := s.heightDpi }

/-- `process_bmp`, /repo/src/image.rs:1048-1060. -/
def processBmp (data : List UInt8) : Except ImgStop Img := do
  let w ← unpackU32le data 18
  let h ← unpackU32le data 22
  pure { kind := .bmp, width := w, height := h }

/-- `process_gif`, /repo/src/image.rs:1063-1072. -/
def processGif (data : List UInt8) : Except ImgStop Img := do
  let w ← unpackU16le data 6
  let h ← unpackU16le data 8
  pure { kind := .gif, width := w, height := h }

/-- /repo/src/image.rs:905-918: choose the format by its marker. -/
def processByMarker (data png bmp gif : List UInt8) (jpg : Nat) : Except ImgStop Img :=
  if png = [80, 78, 71] then do
    let s ← pngLoop data 8 {}
    pure (s.image .png)
  else if jpg = 0xFFD8 then do
    let s ← jpgLoop data 2 {}
    pure (s.image .jpeg)
  else if bmp = [66, 77] then processBmp data
  else if gif = [71, 73, 70, 56] then processGif data
  else .error .unknownType

/-- `Image::new_from_buffer` and `process_image`, /repo/src/image.rs:245-273, 897-931. -/
def Image.newFromBuffer (data : List UInt8) : Except ImgStop Img := do
  let png ← bslice data 1 4
  let jpg ← unpackU16be data 0
  let bmp ← bslice data 0 2
  let gif ← bslice data 0 4
  let im ← processByMarker data png bmp gif jpg
  if im.width = 0 ∨ im.height = 0 then .error .dimension else pure im

/-! The size an image is shown at. -/

/-- `set_width`, /repo/src/image.rs:327-335. -/
def Img.setWidth (im : Img) (width : Nat) : Img :=
  if width = 0 then im else { im with scaleWidth := (width : Rat) / (im.width : Rat) }

/-- `set_height`, /repo/src/image.rs:348-356. -/
def Img.setHeight (im : Img) (height : Nat) : Img :=
  if height = 0 then im else { im with scaleHeight := (height : Rat) / (im.height : Rat) }

/-- `set_scale_height`, /repo/src/image.rs:409-416. -/
def Img.setScaleHeight (im : Img) (scale : Rat) : Img :=
  if scale ≤ 0 then im else { im with scaleHeight := scale }

/-- `set_scale_width`, /repo/src/image.rs:427-434. -/
def Img.setScaleWidth (im : Img) (scale : Rat) : Img :=
  if scale ≤ 0 then im else { im with scaleWidth := scale }

/-- `set_scale_to_size`, /repo/src/image.rs:525-548. -/
def Img.setScaleToSize (im : Img) (width height : Rat) (keep : Bool) : Img :=
  if width = 0 ∨ height = 0 then im
  else
    let sw := (width / (im.width : Rat)) * (im.widthDpi / 96)
    let sh := (height / (im.height : Rat)) * (im.heightDpi / 96)
    let sh' := if keep ∧ sw < sh then sw else sh
    let sw' := if keep ∧ ¬ sw < sh then sh else sw
    (im.setScaleWidth sw').setScaleHeight sh'

/-- `width_scaled`, /repo/src/image.rs:1085-1087: the width on the sheet in pixels. -/
def Img.widthScaled (im : Img) : Rat := (im.width : Rat) * im.scaleWidth * 96 / im.widthDpi

/-- `height_scaled`, /repo/src/image.rs:1089-1091. -/
def Img.heightScaled (im : Img) : Rat := (im.height : Rat) * im.scaleHeight * 96 / im.heightDpi

end Verif
