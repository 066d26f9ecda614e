import Verif.Model.Num
/-
`sprintf` (`/repo/util.go:38-40`, a renaming of Go's `fmt.Sprintf`), for the directives this library uses.
-/
namespace Verif.Model

/-- An argument of a formatted write: a float64 (as an exact rational), an integer or a string. `/repo/util.go:38-40`. -/
inductive Arg
  | f (q : Rat)
  | d (z : Int)
  | s (b : Bytes)

/-- Go `fmt.Sprintf` for the directives `%%`, `%d`, `%s`, `%.Nf`, `%.NF`, `%010d`. (A directive without a
matching argument does not occur in this code base; it would be copied here.) `/repo/util.go:38-40`. -/
def sprintfB : Bytes → List Arg → Bytes
  | 0x25 :: 0x25 :: r, as => 0x25 :: sprintfB r as
  | 0x25 :: 0x64 :: r, .d z :: as => intDec z ++ sprintfB r as
  | 0x25 :: 0x73 :: r, .s b :: as => b ++ sprintfB r as
  | 0x25 :: 0x2E :: n :: 0x66 :: r, .f q :: as => fmtF (n.toNat - 48) q ++ sprintfB r as
  | 0x25 :: 0x2E :: n :: 0x46 :: r, .f q :: as => fmtF (n.toNat - 48) q ++ sprintfB r as
  | 0x25 :: 0x30 :: 0x31 :: 0x30 :: 0x64 :: r, .d z :: as => zeroPad 10 z.toNat ++ sprintfB r as
  | c :: r, as => c :: sprintfB r as
  | [], _ => []

/-- `sprintf(fmtStr, args...)`. `/repo/util.go:38-40`. -/
def sprintf (fmt : String) (args : List Arg) : Bytes := sprintfB (B fmt) args

/-- Test of the format interpreter. -/
example : sprintf "q %.2f %d (%s) Tj %% %010d" [.f (-3/8), .d 12, .s (B "ab"), .d 57]
    = B "q -0.38 12 (ab) Tj % 0000000057" := by decide +kernel

end Verif.Model
