import Verif.Spec.Rc4
/-
`/repo/protect.go`. `md5` (crypto/md5) is a parameter; crypto/rc4 is RC4 as in `Verif.Spec.Rc4`.
-/
namespace Verif.Model
open Verif Verif.Spec

/-- `type protectType struct`, `/repo/protect.go:37-47`. `cipher = none` is the nil pointer. -/
structure Protect where
  encrypted : Bool := false
  uValue : Bytes := []
  oValue : Bytes := []
  pValue : Int := 0
  padding : Bytes := []
  encryptionKey : Bytes := []
  objNum : Nat := 0
  cipher : Option Rc4 := none
  rc4n : Nat := 0

/-- `func (p *protectType) objectKey`, `/repo/protect.go:57-65`. `n` is a `uint32`; only its three low
bytes are used. -/
def Protect.objectKey (md5 : Bytes → Bytes) (p : Protect) (n : Nat) : Bytes :=
  let b := p.encryptionKey ++ [UInt8.ofNat n, UInt8.ofNat (n / 256), UInt8.ofNat (n / 65536), 0, 0]
  (md5 b).take 10

/-- `func (p *protectType) rc4`, `/repo/protect.go:49-55`: the cipher is kept between calls for the same
object number. Returns the transformed buffer. -/
def Protect.rc4 (md5 : Bytes → Bytes) (p : Protect) (n : Nat) (buf : Bytes) : Protect × Bytes :=
  let p := match p.cipher with
    | some _ => if p.rc4n ≠ n then { p with cipher := some (Rc4.init (p.objectKey md5 n)), rc4n := n } else p
    | none => { p with cipher := some (Rc4.init (p.objectKey md5 n)), rc4n := n }
  match p.cipher with
  | some c => let (r, c') := c.xor buf; ({ p with cipher := some c' }, r)
  | none => (p, buf)  -- unreachable: just set

/-- `func oValueGen`, `/repo/protect.go:67-75`. -/
def oValueGen (md5 : Bytes → Bytes) (userPass ownerPass : Bytes) : Bytes :=
  ((Rc4.init ((md5 ownerPass).take 5)).xor userPass).1

/-- `func (p *protectType) uValueGen`, `/repo/protect.go:77-84`. -/
def Protect.uValueGen (p : Protect) : Bytes := ((Rc4.init p.encryptionKey).xor p.padding).1

/-- Flag constants, `/repo/protect.go:30-35`. -/
def cnProtectPrint : UInt8 := 4
@[inherit_doc cnProtectPrint] def cnProtectModify : UInt8 := 8
@[inherit_doc cnProtectPrint] def cnProtectCopy : UInt8 := 16
@[inherit_doc cnProtectPrint] def cnProtectAnnotForms : UInt8 := 32

/-- `func (p *protectType) setProtection`, `/repo/protect.go:86-114`. `rnd` is the 8-byte random owner
password used when `ownerPassStr` is empty (`math/rand`). -/
def Protect.setProtection (md5 : Bytes → Bytes) (rnd : Bytes) (p : Protect) (privFlag : UInt8)
    (userPassStr ownerPassStr : Bytes) : Protect :=
  let privFlag := 192 ||| (privFlag &&& (cnProtectCopy ||| cnProtectModify ||| cnProtectPrint ||| cnProtectAnnotForms))
  let p := { p with padding := [
    0x28, 0xBF, 0x4E, 0x5E, 0x4E, 0x75, 0x8A, 0x41,
    0x64, 0x00, 0x4E, 0x56, 0xFF, 0xFA, 0x01, 0x08,
    0x2E, 0x2E, 0x00, 0xB6, 0xD0, 0x68, 0x3E, 0x80,
    0x2F, 0x0C, 0xA9, 0xFE, 0x64, 0x53, 0x69, 0x7A] }
  let userPass := userPassStr
  let ownerPass := if ownerPassStr = [] then rnd else ownerPassStr
  let userPass := (userPass ++ p.padding).take 32
  let ownerPass := (ownerPass ++ p.padding).take 32
  let p := { p with encrypted := true, oValue := oValueGen md5 userPass ownerPass }
  let buf := userPass ++ p.oValue ++ [privFlag, 0xff, 0xff, 0xff]
  let p := { p with encryptionKey := (md5 buf).take 5 }
  let p := { p with uValue := p.uValueGen }
  { p with pValue := -(((privFlag ^^^ 255).toNat : Int) + 1) }

/-- The sequence of calls `f.protect.rc4(n, &b)` made while the document is written
(`textstring` `/repo/fpdf.go:3593-3600`, `putstream` `/repo/fpdf.go:3745-3753`). -/
def Protect.encryptAll (md5 : Bytes → Bytes) (p : Protect) : List (Nat × Bytes) → List Bytes
  | [] => []
  | (n, b) :: r => let (p', b') := p.rc4 md5 n b; b' :: Protect.encryptAll md5 p' r

end Verif.Model
