/-
Common notions used by specifications: byte strings, ASCII literals, character classes of the
PDF syntax (ISO 32000-1, 7.2.2) and reading of decimal numbers.
Nothing here refers to the model of the Go code.
-/
namespace Verif

/-- A byte string (Go `[]byte`, or a Go `string`, which is a byte string). -/
abbrev Bytes := List UInt8

/-- ASCII literal as a byte string. -/
def B (s : String) : Bytes := s.toList.map (fun c => UInt8.ofNat c.toNat)

namespace Spec

/-- PDF white-space characters, ISO 32000-1 table 1. -/
def isWs (c : UInt8) : Bool := c = 0 || c = 9 || c = 10 || c = 12 || c = 13 || c = 32

/-- PDF delimiter characters, ISO 32000-1 table 2: `( ) < > [ ] { } / %`. -/
def isDelim (c : UInt8) : Bool :=
  c = 0x28 || c = 0x29 || c = 0x3C || c = 0x3E || c = 0x5B || c = 0x5D || c = 0x7B || c = 0x7D
    || c = 0x2F || c = 0x25

/-- Regular characters: everything else. -/
def isRegular (c : UInt8) : Bool := !isWs c && !isDelim c

def isDigit (c : UInt8) : Bool := 48 ≤ c && c ≤ 57

def isOctal (c : UInt8) : Bool := 48 ≤ c && c ≤ 55

/-- Value of a string of decimal digits, most significant first. -/
def digitsVal (ds : Bytes) : Nat := ds.foldl (fun a c => a * 10 + (c.toNat - 48)) 0

/-- Read a decimal natural number at the head of a byte string: the longest non-empty prefix of
digits, and what follows it. -/
def readNat (s : Bytes) : Option (Nat × Bytes) :=
  let ds := s.takeWhile isDigit
  if ds = [] then none else some (digitsVal ds, s.dropWhile isDigit)

/-- Read a PDF real number `-?digits[.digits]` occupying the *whole* byte string (no exponent),
as an exact rational. -/
def readReal (s : Bytes) : Option Rat :=
  let neg := s.head? = some 0x2D
  let body := if neg then s.tail else s
  let ip := body.takeWhile isDigit
  let rest := body.dropWhile isDigit
  let fp : Option Bytes := match rest with
    | [] => some []
    | c :: fs => if c = 0x2E ∧ fs.all isDigit then some fs else none
  match fp with
  | none => none
  | some fs =>
    if ip = [] ∧ fs = [] then none
    else
      let m : Rat := (digitsVal ip : Rat) + (digitsVal fs : Rat) / (10 : Rat) ^ fs.length
      some (if neg then -m else m)

end Spec
end Verif
