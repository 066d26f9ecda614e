import Verif.Spec.Bytes
/- String escaping: `/repo/fpdf.go:3584-3600`. -/
namespace Verif.Model

/-- Loop of `strings.Replace`; `skip` counts the bytes of a matched occurrence still to be dropped. `/repo/fpdf.go:2457-2459`. -/
def replaceGo (old new : Bytes) : Nat → Bytes → Bytes
  | _, [] => []
  | k + 1, _ :: cs => replaceGo old new k cs
  | 0, c :: cs =>
    if old.isPrefixOf (c :: cs) then new ++ replaceGo old new (old.length - 1) cs
    else c :: replaceGo old new 0 cs

/-- Go `strings.Replace(s, old, new, -1)`: leftmost, non-overlapping occurrences.
SIMPLIFICATION: the special case of an empty `old` (Go inserts `new` at every rune boundary) is not
modelled; here an empty `old` leaves `s` unchanged. Every theorem that uses it with a variable `old`
assumes `old ≠ []`. `/repo/fpdf.go:2457-2459`. -/
def replaceAll (old new s : Bytes) : Bytes :=
  if old = [] then s else replaceGo old new 0 s

/-- `func (f *Fpdf) escape`, `/repo/fpdf.go:3584-3590`. -/
def escape (s : Bytes) : Bytes :=
  let s := replaceAll (B "\\") (B "\\\\") s
  let s := replaceAll (B "(") (B "\\(") s
  let s := replaceAll (B ")") (B "\\)") s
  let s := replaceAll (B "\r") (B "\\r") s
  s

/-- `func (f *Fpdf) textstring`, `/repo/fpdf.go:3593-3600`, unencrypted branch (the encrypted branch is
`Verif.Model.Protect`). -/
def textstringPlain (s : Bytes) : Bytes := B "(" ++ escape s ++ B ")"

/-- The escaping of text shown by `CellFormat` with a non-UTF-8 font, `/repo/fpdf.go:2457-2459`: unlike `escape`, the carriage return is not escaped. -/
def escapeCell (s : Bytes) : Bytes :=
  let s := replaceAll (B "\\") (B "\\\\") s
  let s := replaceAll (B "(") (B "\\(") s
  let s := replaceAll (B ")") (B "\\)") s
  s

end Verif.Model
