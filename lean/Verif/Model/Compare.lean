import Verif.Spec.Bytes
/- `/repo/compare.go`. -/
namespace Verif.Model

/-- `func checkBytes`, `/repo/compare.go:78-85` (printing of the difference is not modelled). -/
def checkBytes (sl1 sl2 : Bytes) : Bool := sl1 = sl2

/-- Go cmpSlice expression `sl[a:b]` (within bounds). `/repo/compare.go:99-108`. -/
def cmpSlice (sl : Bytes) (a b : Nat) : Bytes := (sl.take b).drop a

/-- The loop of `CompareBytes`, `/repo/compare.go:99-108`, with the loop variables `posStart` and `diffs`.
`fuel` bounds the number of iterations (`posStart` grows by at least one in each). In Go
`length-1` is -1 for `length = 0`; the loop is then not entered, as here with truncated subtraction. -/
def compareLoop (sl1 sl2 : Bytes) (length : Nat) : Nat → Nat → Bool → Bool
  | 0, _, diffs => diffs
  | fuel + 1, posStart, diffs =>
    if posStart < length - 1 then
      let posEnd := posStart + 16
      let posEnd := if posEnd > length then length else posEnd
      let diffs := if ¬ checkBytes (cmpSlice sl1 posStart posEnd) (cmpSlice sl2 posStart posEnd) then true else diffs
      compareLoop sl1 sl2 length fuel posEnd diffs
    else diffs

/-- `func CompareBytes`, `/repo/compare.go:89-113`: `true` iff a non-nil error is returned. -/
def compareBytes (sl1 sl2 : Bytes) : Bool :=
  let length := sl1.length
  let length := if length > sl2.length then sl2.length else length
  compareLoop sl1 sl2 length length 0 false

end Verif.Model
