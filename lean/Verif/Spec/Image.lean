import Verif.Spec.File
/-
What a PDF file says about an image: the dictionary of the image XObject (PDF 32000-1, 8.9.5).
-/
namespace Verif.Spec
open Verif

/-- A number with a sign, in decimal. -/
def signed (z : Int) : Bytes := if z < 0 then B "-" ++ decimal z.natAbs else decimal z.natAbs

/-- The image as a reader sees it. -/
structure Picture where
  width : Int
  height : Int
  space : Bytes
  /-- the number of the last colour of the palette of an indexed image, and the object with the palette -/
  palette : Option (Int × Nat) := none
  bits : Nat
  filter : Bytes
  parms : Bytes
  /-- the transparent colour, one number per channel -/
  key : List Int := []
  /-- the object with the soft mask -/
  mask : Option Nat := none

/-- The colour space. -/
def coloursText (space : Bytes) : Option (Int × Nat) → Bytes
  | some (hi, n) => B "/ColorSpace [/Indexed /DeviceRGB " ++ signed hi ++ B " " ++ decimal n ++ B " 0 R]\n"
  | none => B "/ColorSpace /" ++ space ++ B "\n" ++ (if space = B "DeviceCMYK" then B "/Decode [1 0 1 0 1 0 1 0]\n" else [])

/-- The reference to the soft mask. -/
def maskText : Option Nat → Bytes
  | some n => B "/SMask " ++ decimal n ++ B " 0 R\n"
  | none => []

/-- The dictionary, without the length. -/
def Picture.dict (p : Picture) : Bytes :=
  B "<</Type /XObject\n/Subtype /Image\n/Width " ++ signed p.width ++ B "\n/Height " ++ signed p.height ++ B "\n" ++ coloursText p.space p.palette ++
    (B "/BitsPerComponent " ++ decimal p.bits ++ B "\n") ++
    (if p.filter ≠ [] then B "/Filter /" ++ p.filter ++ B "\n" else []) ++
    (if p.parms ≠ [] then B "/DecodeParms <<" ++ p.parms ++ B ">>\n" else []) ++
    (if p.key ≠ [] then B "/Mask [" ++ (p.key.flatMap fun v => signed v ++ B " " ++ signed v ++ B " ") ++ B "]\n" else []) ++ maskText p.mask

/-- Object `n` of the file is the picture, with this data once decrypted. -/
def PictureAt (items : List (Nat × Body)) (decrypt : Nat → Bytes → Bytes) (n : Nat) (p : Picture) (data : Bytes) : Prop :=
  ∃ len b, (n, Body.stream (p.dict ++ len) b) ∈ items ∧ decrypt n b = data

end Verif.Spec
