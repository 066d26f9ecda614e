import Verif.Spec.Bytes
/-
Number formatting used by `outf`/`sprintf` (Go package fmt), see `/repo/util.go:38-40` and
`/repo/fpdf.go:3794-3798`.
-/
namespace Verif.Model

/-- Go `%d` of a non-negative integer (used by e.g. `/repo/fpdf.go:3742` `outf("%d 0 obj", f.n)`):
minimal decimal digits. -/
def natDec (n : Nat) : Bytes :=
  if n < 10 then [UInt8.ofNat (48 + n)] else natDec (n / 10) ++ [UInt8.ofNat (48 + n % 10)]
termination_by n
decreasing_by omega

/-- Go `%d` of an integer. `/repo/fpdf.go:3742`. -/
def intDec (z : Int) : Bytes :=
  if z < 0 then 0x2D :: natDec z.natAbs else natDec z.natAbs

/-- Exactly `w` decimal digits of `n` (most significant first; higher digits dropped). `/repo/fpdf.go:4814`. -/
def padDec : Nat → Nat → Bytes
  | 0, _ => []
  | w + 1, n => padDec w (n / 10) ++ [UInt8.ofNat (48 + n % 10)]

/-- Go `%0wd` of a non-negative integer, e.g. `%010d` in `/repo/fpdf.go:4814`: zero padded to at least
`w` digits, never truncated. -/
def zeroPad (w n : Nat) : Bytes :=
  if n < 10 ^ w then padDec w n else natDec n

/-- `q * 10^p` (for `q ≥ 0`) rounded to the nearest integer, ties to even, as `strconv` does on the exact
value. `/repo/fpdf.go:1086`. -/
def roundScaled (p : Nat) (q : Rat) : Nat :=
  let x := q * (10 : Rat) ^ p
  let m := x.floor.toNat
  let r := x - x.floor
  if r < 1 / 2 then m
  else if 1 / 2 < r then m + 1
  else if m % 2 = 0 then m else m + 1

/-- Go `%.pf` (used throughout, e.g. `/repo/fpdf.go:1086` `"%.2f %.2f m ..."`).
SIMPLIFICATION: the argument is an exact rational (finite `float64` values are rationals; NaN and
infinities are not modelled, negative zero is identified with zero). A negative value that
rounds to zero keeps its sign, as in Go. -/
def fmtF (p : Nat) (q : Rat) : Bytes :=
  let neg := decide (q < 0)
  let m := roundScaled p (if q < 0 then -q else q)
  (if neg then [0x2D] else []) ++ natDec (m / 10 ^ p)
    ++ (if p = 0 then [] else 0x2E :: padDec p (m % 10 ^ p))

end Verif.Model
