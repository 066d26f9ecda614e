import Verif.Spec.Bytes
/-
Go's conversions `[]rune(s)` and `string(runes)`.
-/
namespace Verif.Model

/-- A continuation byte of UTF-8, as in Go's conversions of strings to runes used in `/repo/fpdf.go:2498-2506`, `/repo/splittext.go:13-20`. -/
def isCont (c : UInt8) : Bool := 0x80 ≤ c && c ≤ 0xBF

/-- One rune of Go's `[]rune(s)` (package unicode/utf8 `DecodeRuneInString`): the rune and the number of
*further* bytes consumed; an invalid sequence gives U+FFFD and consumes one byte. `/repo/fpdf.go:963`. -/
def decodeRune (c : UInt8) (r : Bytes) : Nat × Nat :=
  let bad := (0xFFFD, 0)
  if c < 0x80 then (c.toNat, 0)
  else if 0xC2 ≤ c ∧ c ≤ 0xDF then
    match r with
    | c1 :: _ => if isCont c1 then ((c.toNat - 0xC0) * 64 + (c1.toNat - 0x80), 1) else bad
    | _ => bad
  else if 0xE0 ≤ c ∧ c ≤ 0xEF then
    match r with
    | c1 :: c2 :: _ =>
      if isCont c1 ∧ isCont c2 ∧ (c = 0xE0 → 0xA0 ≤ c1) ∧ (c = 0xED → c1 ≤ 0x9F) then
        ((c.toNat - 0xE0) * 4096 + (c1.toNat - 0x80) * 64 + (c2.toNat - 0x80), 2)
      else bad
    | _ => bad
  else if 0xF0 ≤ c ∧ c ≤ 0xF4 then
    match r with
    | c1 :: c2 :: c3 :: _ =>
      if isCont c1 ∧ isCont c2 ∧ isCont c3 ∧ (c = 0xF0 → 0x90 ≤ c1) ∧ (c = 0xF4 → c1 ≤ 0x8F) then
        ((c.toNat - 0xF0) * 262144 + (c1.toNat - 0x80) * 4096 + (c2.toNat - 0x80) * 64 + (c3.toNat - 0x80), 3)
      else bad
    | _ => bad
  else bad

/-- Loop of `[]rune(s)`; `skip` counts bytes of the current sequence still to be dropped. `/repo/fpdf.go:963`. -/
def runesGo : Nat → Bytes → List Nat
  | _, [] => []
  | k + 1, _ :: r => runesGo k r
  | 0, c :: r => (decodeRune c r).1 :: runesGo (decodeRune c r).2 r

/-- Go `[]rune(s)`. `/repo/fpdf.go:963`. -/
def runes (s : Bytes) : List Nat := runesGo 0 s

/-- Go `string(rune)`: UTF-8; surrogates and out-of-range values give U+FFFD. `/repo/fpdf.go:2692`. -/
def encodeRune (n : Nat) : Bytes :=
  let u := UInt8.ofNat
  if n < 0x80 then [u n]
  else if n < 0x800 then [u (0xC0 + n / 64), u (0x80 + n % 64)]
  else if (0xD800 ≤ n ∧ n < 0xE000) ∨ 0x110000 ≤ n then [0xEF, 0xBF, 0xBD]
  else if n < 0x10000 then [u (0xE0 + n / 4096), u (0x80 + n / 64 % 64), u (0x80 + n % 64)]
  else [u (0xF0 + n / 262144), u (0x80 + n / 4096 % 64), u (0x80 + n / 64 % 64), u (0x80 + n % 64)]

/-- Go `string(runes)`. `/repo/fpdf.go:2692`. -/
def runesToBytes (rs : List Nat) : Bytes := rs.flatMap encodeRune

/-- Tests. -/
example : runes [0x41, 0xC3, 0xA9, 0xE2, 0x82, 0xAC, 0xF0, 0x9F, 0x98, 0x80, 0xC3, 0x41]
    = [0x41, 0xE9, 0x20AC, 0x1F600, 0xFFFD, 0x41] := by decide
example : runesToBytes [0x41, 0xE9, 0x20AC, 0x1F600] = [0x41, 0xC3, 0xA9, 0xE2, 0x82, 0xAC, 0xF0, 0x9F, 0x98, 0x80] := by
  decide

end Verif.Model
