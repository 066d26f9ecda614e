import Verif.Spec.Bytes
/- The RC4 stream cipher (as implemented by Go's crypto/rc4, which is trusted to be RC4). -/
namespace Verif.Spec

structure Rc4 where
  s : List Nat   -- permutation of 0..255
  i : Nat
  j : Nat
  deriving DecidableEq, Repr

def swapAt (s : List Nat) (i j : Nat) : List Nat :=
  let x := s.getD i 0
  let y := s.getD j 0
  (s.set i y).set j x

/-- Key scheduling. -/
def Rc4.init (key : Bytes) : Rc4 :=
  let k := key.map (·.toNat)
  let (s, _) := (List.range 256).foldl (fun (st : List Nat × Nat) i =>
    let j := (st.2 + st.1.getD i 0 + k.getD (i % k.length) 0) % 256
    (swapAt st.1 i j, j)) (List.range 256, 0)
  { s := s, i := 0, j := 0 }

/-- Next key-stream byte. -/
def Rc4.next (c : Rc4) : UInt8 × Rc4 :=
  let i := (c.i + 1) % 256
  let x := c.s.getD i 0
  let j := (c.j + x) % 256
  let y := c.s.getD j 0
  let s := swapAt c.s i j
  (UInt8.ofNat (s.getD ((x + y) % 256) 0), { s := s, i := i, j := j })

/-- XOR a byte string with the key stream (`XORKeyStream`): result and advanced cipher. -/
def Rc4.xor (c : Rc4) : Bytes → Bytes × Rc4
  | [] => ([], c)
  | b :: bs =>
    let (k, c') := c.next
    let (r, c'') := Rc4.xor c' bs
    ((b ^^^ k) :: r, c'')

/-- RC4 encryption / decryption of a whole byte string with a fresh cipher. -/
def rc4Crypt (key data : Bytes) : Bytes := ((Rc4.init key).xor data).1

end Verif.Spec
