/-!
Image files as their own standards describe them: PNG (ISO/IEC 15948), JPEG/JFIF (ITU-T T.81, T.871),
GIF (87a, 89a) and BMP. Each format is given by the bytes of a file with given contents.
-/
namespace Verif.Spec

/-- `n` as four bytes, most significant first. -/
def be32 (n : Nat) : List UInt8 :=
  [UInt8.ofNat (n / 16777216), UInt8.ofNat (n / 65536 % 256), UInt8.ofNat (n / 256 % 256),
   UInt8.ofNat (n % 256)]

/-- `n` as two bytes, most significant first. -/
def be16 (n : Nat) : List UInt8 := [UInt8.ofNat (n / 256), UInt8.ofNat (n % 256)]

/-- `n` as four bytes, least significant first. -/
def le32 (n : Nat) : List UInt8 := (be32 n).reverse

/-- `n` as two bytes, least significant first. -/
def le16 (n : Nat) : List UInt8 := (be16 n).reverse

/-- The bytes of a text in ASCII. -/
def ascii (s : String) : List UInt8 := s.toList.map (fun c => UInt8.ofNat c.toNat)

/-! PNG -/

/-- A chunk of a PNG file: four letters, data and a check sum. -/
structure PngChunk where
  type : List UInt8
  data : List UInt8
  crc : List UInt8

/-- The bytes of a chunk: length, type, data, check sum. -/
def PngChunk.bytes (c : PngChunk) : List UInt8 := be32 c.data.length ++ c.type ++ c.data ++ c.crc

/-- The lengths of the fields are right. -/
def PngChunk.Ok (c : PngChunk) : Prop :=
  c.type.length = 4 ∧ c.crc.length = 4 ∧ c.data.length < 2 ^ 32

/-- A PNG file: signature, header chunk with the dimensions, chunks, end chunk, anything. -/
structure PngFile where
  width : Nat
  height : Nat
  /-- bit depth, colour type, compression, filter, interlace -/
  depth : List UInt8
  crc : List UInt8
  chunks : List PngChunk
  endCrc : List UInt8
  rest : List UInt8

def PngFile.header (p : PngFile) : PngChunk :=
  { type := ascii "IHDR", data := be32 p.width ++ be32 p.height ++ p.depth, crc := p.crc }

def PngFile.bytes (p : PngFile) : List UInt8 :=
  [0x89] ++ ascii "PNG" ++ [0x0D, 0x0A, 0x1A, 0x0A] ++ p.header.bytes ++
    p.chunks.flatMap PngChunk.bytes ++
    ({ type := ascii "IEND", data := [], crc := p.endCrc } : PngChunk).bytes ++ p.rest

/-- The standard's conditions on a file: dimensions are positive and fit their field, one header and
one end chunk, at most one pHYs chunk and that of nine bytes. -/
structure PngFile.Ok (p : PngFile) : Prop where
  width : 0 < p.width ∧ p.width < 2 ^ 32
  height : 0 < p.height ∧ p.height < 2 ^ 32
  depth : p.depth.length = 5
  crc : p.crc.length = 4
  endCrc : p.endCrc.length = 4
  chunks : ∀ c ∈ p.chunks, c.Ok ∧ c.type ≠ ascii "IHDR" ∧ c.type ≠ ascii "IEND"
  phys : ∀ c ∈ p.chunks, c.type = ascii "pHYs" →
    ∃ (x y : Nat) (unit : UInt8), x < 2 ^ 32 ∧ y < 2 ^ 32 ∧ c.data = be32 x ++ be32 y ++ [unit]
  onePhys : (p.chunks.filter (fun c => c.type == ascii "pHYs")).length ≤ 1

/-- The density a PNG file states in dots per inch, if it does: pixels per metre (unit 1), with both
numbers positive. -/
def PngFile.StatesDpi (p : PngFile) (x y : Rat) : Prop :=
  ∃ c ∈ p.chunks, c.type = ascii "pHYs" ∧ ∃ (m n : Nat),
    m < 2 ^ 32 ∧ n < 2 ^ 32 ∧ 0 < m ∧ 0 < n ∧
    c.data = be32 m ++ be32 n ++ [1] ∧ x = (m : Rat) * 254 / 10000 ∧ y = (n : Rat) * 254 / 10000

/-! JPEG -/

/-- A marker segment: code and data. -/
structure JpegSegment where
  code : UInt8
  data : List UInt8

/-- Marker, length (counting itself), data. -/
def JpegSegment.bytes (s : JpegSegment) : List UInt8 :=
  [0xFF, s.code] ++ be16 (s.data.length + 2) ++ s.data

/-- The start-of-frame codes: C0 to CF without DHT (C4), JPG (C8) and DAC (CC). -/
def sofCodes : List UInt8 :=
  [0xC0, 0xC1, 0xC2, 0xC3, 0xC5, 0xC6, 0xC7, 0xC9, 0xCA, 0xCB, 0xCD, 0xCE, 0xCF]

/-- The JFIF header: units, horizontal and vertical density, thumbnail. -/
structure Jfif where
  version : List UInt8
  units : UInt8
  x : Nat
  y : Nat
  thumbnail : List UInt8

def Jfif.segment (j : Jfif) : JpegSegment :=
  { code := 0xE0
    data := ascii "JFIF" ++ [0] ++ j.version ++ [j.units] ++ be16 j.x ++ be16 j.y ++ j.thumbnail }

/-- A JPEG file: start, perhaps a JFIF header, segments, the frame header with the dimensions, more
segments, the start of the scan, anything. -/
structure JpegFile where
  jfif : Option Jfif
  before : List JpegSegment
  sof : UInt8
  precision : UInt8
  height : Nat
  width : Nat
  components : List UInt8
  after : List JpegSegment
  scan : List UInt8
  rest : List UInt8

def JpegFile.frame (j : JpegFile) : JpegSegment :=
  { code := j.sof, data := [j.precision] ++ be16 j.height ++ be16 j.width ++ j.components }

def JpegFile.segments (j : JpegFile) : List JpegSegment :=
  (j.jfif.map Jfif.segment).toList ++ j.before ++ [j.frame] ++ j.after

def JpegFile.bytes (j : JpegFile) : List UInt8 :=
  [0xFF, 0xD8] ++ j.segments.flatMap JpegSegment.bytes ++
    ({ code := 0xDA, data := j.scan } : JpegSegment).bytes ++ j.rest

structure JpegFile.Ok (j : JpegFile) : Prop where
  width : 0 < j.width ∧ j.width < 2 ^ 16
  height : 0 < j.height ∧ j.height < 2 ^ 16
  sof : j.sof ∈ sofCodes
  scan : j.scan.length + 2 < 2 ^ 16
  lengths : ∀ s ∈ j.segments, s.data.length + 2 < 2 ^ 16
  /-- one frame header, no scan before the scan -/
  others : ∀ s ∈ j.before ++ j.after, s.code ∉ sofCodes ∧ s.code ≠ 0xDA
  /-- no application segment 0 other than the JFIF header -/
  app0 : ∀ s ∈ j.before ++ j.after, s.code ≠ 0xE0
  jfif : ∀ h, j.jfif = some h → h.version.length = 2 ∧ h.x < 2 ^ 16 ∧ h.y < 2 ^ 16

/-- A density of 0 or 1 dots per inch is taken as a mistake for 96. -/
def sensible (dpi : Rat) : Rat := if dpi = 0 ∨ dpi = 1 then 96 else dpi

/-- The density a JFIF header states: dots per inch (units 1), dots per centimetre (units 2), or no
density but an aspect ratio (units 0). -/
def Jfif.dpi (j : Jfif) : Rat × Rat :=
  if j.units = 1 then (sensible j.x, sensible j.y)
  else if j.units = 2 then (sensible (j.x * 254 / 100), sensible (j.y * 254 / 100))
  else (96, 96)

def JpegFile.dpi (j : JpegFile) : Rat × Rat :=
  match j.jfif with
  | some h => h.dpi
  | none => (96, 96)

/-! GIF and BMP -/

/-- A GIF file: signature and version, logical screen width and height, anything. -/
def gifBytes (version : String) (width height : Nat) (rest : List UInt8) : List UInt8 :=
  ascii "GIF" ++ ascii version ++ le16 width ++ le16 height ++ rest

/-- A BMP file with an information header of 40 bytes or more: file header of 14 bytes, size of the
information header, width, height as signed 32-bit numbers (the top row first if the height is
negative), anything. -/
def bmpBytes (fileHeader infoSize : List UInt8) (width height : Int) (rest : List UInt8) : List UInt8 :=
  ascii "BM" ++ fileHeader ++ infoSize ++ le32 (width % 2 ^ 32).toNat ++ le32 (height % 2 ^ 32).toNat ++ rest

end Verif.Spec
