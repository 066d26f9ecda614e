import Verif.Spec.Bytes
/- `/repo/util.go:109-144`. -/
namespace Verif.Model

/-- Loop of `utf8toutf16`, `/repo/util.go:119-142`. `none` models the Go run-time panic (index out of
range) when a multi-byte sequence is cut off by the end of the string. -/
def utf8toutf16Loop : Bytes → Option Bytes
  | [] => some []
  | c1 :: r =>
    if 224 ≤ c1 then
      match r with
      | c2 :: c3 :: r' =>
        (utf8toutf16Loop r').map fun t =>
          (((c1 &&& 0x0F) <<< 4) + ((c2 &&& 0x3C) >>> 2)) :: (((c2 &&& 0x03) <<< 6) + (c3 &&& 0x3F)) :: t
      | _ => none
    else if 192 ≤ c1 then
      match r with
      | c2 :: r' =>
        (utf8toutf16Loop r').map fun t =>
          ((c1 &&& 0x1C) >>> 2) :: (((c1 &&& 0x03) <<< 6) + (c2 &&& 0x3F)) :: t
      | _ => none
    else (utf8toutf16Loop r).map fun t => 0 :: c1 :: t

/-- `func utf8toutf16`, `/repo/util.go:109-144`. -/
def utf8toutf16 (s : Bytes) (withBOM : Bool := true) : Option Bytes :=
  (utf8toutf16Loop s).map fun t => (if withBOM then [0xFE, 0xFF] else []) ++ t

end Verif.Model
