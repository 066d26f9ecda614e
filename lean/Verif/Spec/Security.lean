import Verif.Spec.Rc4
/-
PDF standard security handler, revision 2, 40-bit keys (ISO 32000-1, 7.6.3): what a *reader* does.
`md5` is a parameter.
-/
namespace Verif.Spec

/-- The padding string of algorithm 2. -/
def pwPad : Bytes := [
  0x28, 0xBF, 0x4E, 0x5E, 0x4E, 0x75, 0x8A, 0x41, 0x64, 0x00, 0x4E, 0x56, 0xFF, 0xFA, 0x01, 0x08,
  0x2E, 0x2E, 0x00, 0xB6, 0xD0, 0x68, 0x3E, 0x80, 0x2F, 0x0C, 0xA9, 0xFE, 0x64, 0x53, 0x69, 0x7A]

/-- Pad or truncate a password to 32 bytes. -/
def padPassword (pw : Bytes) : Bytes := (pw ++ pwPad).take 32

/-- Least significant byte first, 4 bytes, of a signed 32-bit value. -/
def le32 (z : Int) : Bytes :=
  let n := (z % 4294967296).toNat
  [UInt8.ofNat n, UInt8.ofNat (n / 256), UInt8.ofNat (n / 65536), UInt8.ofNat (n / 16777216)]

/-- What a reader finds in the encryption dictionary and trailer. -/
structure EncDict where
  O : Bytes
  U : Bytes
  P : Int
  id0 : Bytes

/-- Algorithm 2: encryption key from the user password. -/
def fileKey (md5 : Bytes → Bytes) (d : EncDict) (userPw : Bytes) : Bytes :=
  (md5 (padPassword userPw ++ d.O ++ le32 d.P ++ d.id0)).take 5

/-- Algorithms 4 and 6: authenticate the user password. -/
def authUser (md5 : Bytes → Bytes) (d : EncDict) (userPw : Bytes) : Bool :=
  rc4Crypt (fileKey md5 d userPw) pwPad = d.U

/-- Algorithm 7: the (padded) user password recovered from the owner password. -/
def userFromOwner (md5 : Bytes → Bytes) (d : EncDict) (ownerPw : Bytes) : Bytes :=
  rc4Crypt ((md5 (padPassword ownerPw)).take 5) d.O

def authOwner (md5 : Bytes → Bytes) (d : EncDict) (ownerPw : Bytes) : Bool :=
  authUser md5 d (userFromOwner md5 d ownerPw)

/-- Algorithm 1: per-object key (generation 0, 5-byte file key, so 10 bytes). -/
def objKey (md5 : Bytes → Bytes) (key : Bytes) (num : Nat) : Bytes :=
  (md5 (key ++ [UInt8.ofNat num, UInt8.ofNat (num / 256), UInt8.ofNat (num / 65536), 0, 0])).take 10

/-- A reader decrypts each string or stream of object `num` on its own, with a fresh cipher. -/
def decryptIn (md5 : Bytes → Bytes) (key : Bytes) (num : Nat) (data : Bytes) : Bytes :=
  rc4Crypt (objKey md5 key num) data

/-- Bit `b` (1-based, as in table 22) of the permission value. -/
def permBit (P : Int) (b : Nat) : Bool := P / (2 ^ (b - 1) : Int) % 2 = 1

end Verif.Spec
