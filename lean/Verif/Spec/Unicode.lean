import Verif.Spec.Bytes
/- UTF-8 encoding (RFC 3629) and UTF-16BE decoding (RFC 2781): the standards, not the library. -/
namespace Verif.Spec

/-- A Unicode scalar value. -/
def isScalar (cp : Nat) : Prop := cp < 0xD800 ∨ (0xE000 ≤ cp ∧ cp < 0x110000)

instance (cp : Nat) : Decidable (isScalar cp) := inferInstanceAs (Decidable (_ ∨ _))

/-- UTF-8 encoding of one code point. -/
def utf8Enc1 (cp : Nat) : Bytes :=
  if cp < 0x80 then [UInt8.ofNat cp]
  else if cp < 0x800 then [UInt8.ofNat (0xC0 + cp / 64), UInt8.ofNat (0x80 + cp % 64)]
  else if cp < 0x10000 then
    [UInt8.ofNat (0xE0 + cp / 4096), UInt8.ofNat (0x80 + cp / 64 % 64), UInt8.ofNat (0x80 + cp % 64)]
  else
    [UInt8.ofNat (0xF0 + cp / 262144), UInt8.ofNat (0x80 + cp / 4096 % 64),
      UInt8.ofNat (0x80 + cp / 64 % 64), UInt8.ofNat (0x80 + cp % 64)]

def utf8Enc (cps : List Nat) : Bytes := cps.flatMap utf8Enc1

/-- UTF-16BE decoding into code points. `none` for an odd number of bytes or an unpaired surrogate. -/
def utf16Dec : Bytes → Option (List Nat)
  | [] => some []
  | [_] => none
  | a :: b :: r =>
    let u := a.toNat * 256 + b.toNat
    if u < 0xD800 ∨ 0xE000 ≤ u then (utf16Dec r).map (u :: ·)
    else if u < 0xDC00 then
      match r with
      | c :: d :: r' =>
        let v := c.toNat * 256 + d.toNat
        if 0xDC00 ≤ v ∧ v < 0xE000 then
          (utf16Dec r').map ((0x10000 + (u - 0xD800) * 1024 + (v - 0xDC00)) :: ·)
        else none
      | _ => none
    else none

end Verif.Spec
