import Verif.Spec.Bytes
/-
PNG files (ISO/IEC 15948): chunks, and the filters of the rows. PDF (ISO 32000-1, 7.4.4.4, predictor 15) uses the same filters.
-/
namespace Verif.Spec

/-- A number in four bytes, the highest first. -/
def be32 (n : Nat) : Bytes := [UInt8.ofNat (n / 16777216), UInt8.ofNat (n / 65536), UInt8.ofNat (n / 256), UInt8.ofNat n]

/-- A chunk: its type, its data and its check sum. -/
structure Chunk where
  type : Bytes
  data : Bytes
  crc : Bytes
  deriving DecidableEq

/-- Five bytes of type or check sum would not be a chunk. -/
def Chunk.Ok (c : Chunk) : Prop := c.type.length = 4 ∧ c.crc.length = 4 ∧ c.data.length < 2 ^ 31

def Chunk.text (c : Chunk) : Bytes := be32 c.data.length ++ c.type ++ c.data ++ c.crc

/-- A PNG file: width, height, bits per sample, colour type, check sum of the header, the chunks between the header and the end, and what follows the letters IEND. -/
structure Png where
  w : Nat
  h : Nat
  depth : UInt8
  ct : UInt8
  crc : Bytes
  chunks : List Chunk
  rest : Bytes

def Png.text (p : Png) : Bytes :=
  [0x89, 0x50, 0x4E, 0x47, 0x0D, 0x0A, 0x1A, 0x0A] ++ (be32 13 ++ B "IHDR" ++ (be32 p.w ++ be32 p.h ++ [p.depth, p.ct, 0, 0, 0]) ++ p.crc) ++ p.chunks.flatMap Chunk.text ++ (be32 0 ++ B "IEND" ++ p.rest)

/-- What the standard says of the header, and of the chunks that are of interest here. The chunks before the end are not empty (see `C31_empty_false`). -/
structure Png.Ok (p : Png) : Prop where
  w : 0 < p.w ∧ p.w < 2 ^ 31
  h : 0 < p.h ∧ p.h < 2 ^ 31
  crc : p.crc.length = 4
  chunk : ∀ c ∈ p.chunks, c.Ok ∧ c.data ≠ [] ∧ c.type ≠ B "IEND"
  trns : ∀ c ∈ p.chunks, c.type = B "tRNS" → (p.ct = 0 → c.data.length = 2) ∧ (p.ct = 2 → c.data.length = 6)
  phys : ∀ c ∈ p.chunks, c.type = B "pHYs" → ∃ x y : Nat, ∃ u : UInt8, x < 2 ^ 31 ∧ y < 2 ^ 31 ∧ c.data = be32 x ++ be32 y ++ [u]

/-- The data of the chunks of a type. -/
def Png.the (p : Png) (type : Bytes) : List Bytes := (p.chunks.filter fun c => c.type = type).map (·.data)

/-- The last one, if there is one. -/
def Png.last (p : Png) (type : Bytes) : Option Bytes := (p.the type).getLast?

/-! ### Filters -/

/-- The Paeth predictor. -/
def paeth (a b c : UInt8) : UInt8 :=
  let p : Int := a.toNat + b.toNat - c.toNat
  let pa := (p - a.toNat).natAbs
  let pb := (p - b.toNat).natAbs
  let pc := (p - c.toNat).natAbs
  if pa ≤ pb ∧ pa ≤ pc then a else if pb ≤ pc then b else c

/-- What is added to a byte in a row of filter type `t`: `a` is the byte to the left, `b` the byte above, `c` the byte above to the left. -/
def predict (t a b c : UInt8) : UInt8 :=
  if t = 1 then a else if t = 2 then b else if t = 3 then UInt8.ofNat ((a.toNat + b.toNat) / 2) else if t = 4 then paeth a b c else 0

/-- Byte `i` of row `r` of an image whose rows have `len` bytes, with `bpp` bytes to a pixel: `data` has the rows one after the other, each after its filter type. -/
def unfilter (bpp len : Nat) (data : Bytes) (r i : Nat) : UInt8 :=
  data.getD ((1 + len) * r + 1 + i) 0 +
    predict (data.getD ((1 + len) * r) 0) (if i < bpp ∨ bpp = 0 then 0 else unfilter bpp len data r (i - bpp)) (if r = 0 then 0 else unfilter bpp len data (r - 1) i)
      (if r = 0 ∨ i < bpp ∨ bpp = 0 then 0 else unfilter bpp len data (r - 1) (i - bpp))
termination_by r + i
decreasing_by all_goals omega

end Verif.Spec
