import Verif.Spec.Bytes
/-
TrueType files (OpenType specification: "Organization of an OpenType font", "cmap — Character to glyph index mapping table"). All numbers are big-endian.
-/
namespace Verif.Spec

def byteAt (f : Bytes) (i : Nat) : Nat := (f.getD i 0).toNat
def u16At (f : Bytes) (i : Nat) : Nat := byteAt f i * 256 + byteAt f (i + 1)
def u32At (f : Bytes) (i : Nat) : Nat := u16At f i * 65536 + u16At f (i + 2)

/-- The `n` bytes at `i`. -/
def sliceAt (f : Bytes) (i n : Nat) : Bytes := (f.drop i).take n

/-- A record of the table directory: "Table identifier; checksum for this table; offset from beginning of font file; length of this table." -/
structure DirEntry where
  tag : Bytes
  sum : Nat
  offset : Nat
  length : Nat
  deriving DecidableEq

/-- The record number `i`: the records follow a header of 12 bytes and have 16 bytes each. -/
def dirEntry (f : Bytes) (i : Nat) : DirEntry := ⟨sliceAt f (12 + 16 * i) 4, u32At f (12 + 16 * i + 4), u32At f (12 + 16 * i + 8), u32At f (12 + 16 * i + 12)⟩

/-- The checksum of a table or of a file: "the unsigned sum of the longs" (modulo 2³²), "the remaining bytes are zero" at the end. -/
def sum32 : Bytes → Nat
  | a :: b :: c :: d :: r => (a.toNat * 16777216 + b.toNat * 65536 + c.toNat * 256 + d.toNat + sum32 r) % 4294967296
  | [a, b, c] => a.toNat * 16777216 + b.toNat * 65536 + c.toNat * 256
  | [a, b] => a.toNat * 16777216 + b.toNat * 65536
  | [a] => a.toNat * 16777216
  | [] => 0

/-- The file with four bytes set to zero. -/
def zeroed (f : Bytes) (i : Nat) : Bytes := f.take i ++ [0, 0, 0, 0] ++ f.drop (i + 4)

/-! ### Character maps, format 4 -/

/-- The header of format 4 at `o`: format, length, language, segCountX2, searchRange, entrySelector, rangeShift; then the arrays endCode, a pad, startCode, idDelta, idRangeOffset. -/
def segCount (f : Bytes) (o : Nat) : Nat := u16At f (o + 6) / 2
def endCode (f : Bytes) (o i : Nat) : Nat := u16At f (o + 14 + 2 * i)
def startCode (f : Bytes) (o i : Nat) : Nat := u16At f (o + 16 + 2 * segCount f o + 2 * i)
def idDelta (f : Bytes) (o i : Nat) : Nat := u16At f (o + 16 + 4 * segCount f o + 2 * i)
def idRangePos (f : Bytes) (o i : Nat) : Nat := o + 16 + 6 * segCount f o + 2 * i

/-- "You search for the first endCode that is greater than or equal to the character code you want to map. If the corresponding startCode is less than or equal to the character code, then you use the
corresponding idDelta and idRangeOffset to map the character code to a glyph index (otherwise, the missingGlyph is returned). ... If the idRangeOffset value for the segment is not 0, the mapping of
character codes relies on glyphIdArray. ... If the idRangeOffset is 0, the idDelta value is added directly to the character code offset. The idDelta arithmetic is modulo 65536." -/
def cmapGlyph (f : Bytes) (o c : Nat) : Nat :=
  match (List.range (segCount f o)).find? fun i => decide (c ≤ endCode f o i) with
  | none => 0
  | some i =>
    if startCode f o i ≤ c then
      let r := u16At f (idRangePos f o i)
      if r = 0 then (c + idDelta f o i) % 65536
      else
        let g := u16At f (idRangePos f o i + r + 2 * (c - startCode f o i))
        if g = 0 then 0 else (g + idDelta f o i) % 65536
    else 0

end Verif.Spec
