import Verif.Model.Page
/-
The line breaking loops of `SplitLines` (`/repo/fpdf.go:2531-2573`), `SplitText` (`/repo/splittext.go:13-56`) and
`MultiCell` (`/repo/fpdf.go:2598-2786`).

Each of these Go functions is a single loop over `i` with variables `j` (start of the current line), `sep` (last
separator seen in it, -1 if none) and `l` (width so far). All three reset `sep`, `l` (and `ns`) whenever `j`
moves, so the loop is written here as two nested ones: `scan…` walks one line from `j`, and the outer
function starts again at the next `j`. Text is a list of characters (bytes or runes as numbers).
-/
namespace Verif.Model

/-- How a line that starts at `j` ends: the cell text is `s[j:stop]`, the next line starts at `next`. `/repo/fpdf.go:2552-2564`. -/
structure LineEnd where
  stop : Nat
  next : Nat
  deriving DecidableEq, Repr

/-- Walk one line in `SplitLines` / `SplitText`. `cs` is the text from index `i` on; `isSep` is the separator test;
`w` the width table. `none`: the end of the text was reached. `/repo/fpdf.go:2546-2568`. -/
def scanSplit (isSep : Nat → Bool) (w : Nat → Int) (wmax : Int) (j : Nat) :
    List Nat → Nat → Option Nat → Int → Option LineEnd
  | [], _, _, _ => none
  | c :: cs, i, sep, l =>
    let l := l + w c
    let sep := if isSep c then some i else sep
    if c = 10 ∨ l > wmax then
      match sep with
      | none => if i = j then some ⟨i + 1, i + 1⟩ else some ⟨i, i⟩
      | some p => some ⟨p, p + 1⟩
    else scanSplit isSep w wmax j cs (i + 1) sep l

/-- Every line end is beyond the start of the line (used for termination). -/
theorem scanSplit_next (isSep : Nat → Bool) (w : Nat → Int) (wmax : Int) (j : Nat) (cs : List Nat) :
    ∀ (i : Nat) (sep : Option Nat) (l : Int), j ≤ i → (∀ p, sep = some p → j ≤ p) →
      ∀ e, scanSplit isSep w wmax j cs i sep l = some e → j < e.next := by
  induction cs with
  | nil => intro i sep l _ _ e h; simp [scanSplit] at h
  | cons c cs ih =>
    intro i sep l hij hsep e h
    unfold scanSplit at h
    have hsep' : ∀ p, (if isSep c then some i else sep) = some p → j ≤ p := by
      intro p hp
      split at hp
      · cases hp; exact hij
      · exact hsep p hp
    generalize hs : (if isSep c then some i else sep) = sep' at h hsep'
    dsimp only at h
    split at h
    · cases sep' with
      | none =>
        dsimp only at h
        split at h <;> cases h <;> simp <;> omega
      | some p => dsimp only at h; cases h; have := hsep' p rfl; simp; omega
    · exact ih (i + 1) _ _ (by omega) hsep' e h

/-- The outer loop: the lines as index pairs `(start, stop)`. `/repo/fpdf.go:2546-2568`. -/
def splitLoop (isSep : Nat → Bool) (w : Nat → Int) (wmax : Int) (s : List Nat) (j : Nat) : List (Nat × Nat) :=
  if j < s.length then
    match _h : scanSplit isSep w wmax j (s.drop j) j none 0 with
    | some e => (j, e.stop) :: splitLoop isSep w wmax s e.next
    | none => [(j, s.length)]
  else []
termination_by s.length - j
decreasing_by
  have := scanSplit_next isSep w wmax j _ j none 0 (Nat.le_refl j) (by simp) e _h
  omega

/-- The variables of the Go loop of `SplitLines` and `SplitText`; `lines` are the slices appended so far. `/repo/fpdf.go:2542-2545`. -/
structure SplitSt where
  i : Nat := 0
  j : Nat := 0
  sep : Option Nat := none
  l : Int := 0
  lines : List (Nat × Nat) := []

/-- One iteration of the loop of `SplitLines`, `/repo/fpdf.go:2546-2568`, and of `SplitText`, `/repo/splittext.go:26-51`, statement by statement; `none` if its condition `i < nb` fails. -/
def splitStep (isSep : Nat → Bool) (w : Nat → Int) (wmax : Int) (s : List Nat) (v : SplitSt) : Option SplitSt :=
  match s[v.i]? with
  | none => none
  | some c =>
    let l := v.l + w c
    let sep := if isSep c then some v.i else v.sep
    if c = 10 ∨ l > wmax then
      let (i, sep) := match sep with
        | none => (if v.i = v.j then v.i + 1 else v.i, if v.i = v.j then v.i + 1 else v.i)
        | some p => (p + 1, p)
      some { i := i, j := i, sep := none, l := 0, lines := v.lines ++ [(v.j, sep)] }
    else some { v with i := v.i + 1, sep := sep, l := l }

/-- What follows the loop, `/repo/fpdf.go:2569-2571`, `/repo/splittext.go:52-54`. -/
def splitEnd (v : SplitSt) : List (Nat × Nat) := if v.i ≠ v.j then v.lines ++ [(v.j, v.i)] else v.lines

/-- `s[a:b]`. `/repo/fpdf.go:2561`. -/
def slice {α} (s : List α) (a b : Nat) : List α := (s.drop a).take (b - a)

/-- Drop all trailing newlines, `/repo/fpdf.go:2538-2541`, `/repo/splittext.go:18-21`. -/
def trimNl (s : List Nat) : List Nat := (s.reverse.dropWhile (· = 10)).reverse

/-- `SplitLines` on characters, given the width table and the maximum width. `/repo/fpdf.go:2531-2573`. -/
def splitLinesCore (w : Nat → Int) (wmax : Int) (txt : List Nat) : List (List Nat) :=
  let s := trimNl (txt.filter (· ≠ 13))
  (splitLoop (fun c => c = 32 ∨ c = 9 ∨ c = 10) w wmax s 0).map fun (a, b) => slice s a b

/-- `unicode.IsSpace`. `/repo/splittext.go:29`. -/
def isSpaceRune (c : Nat) : Bool :=
  c = 9 ∨ c = 10 ∨ c = 11 ∨ c = 12 ∨ c = 13 ∨ c = 32 ∨ c = 0x85 ∨ c = 0xA0 ∨ c = 0x1680 ∨ (0x2000 ≤ c ∧ c ≤ 0x200A)
    ∨ c = 0x2028 ∨ c = 0x2029 ∨ c = 0x202F ∨ c = 0x205F ∨ c = 0x3000

/-- `func isChinese`, `/repo/util.go`. `/repo/util.go:448-456`. -/
def isChinese (c : Nat) : Bool := 0x4e00 ≤ c ∧ c ≤ 0x9fa5

/-- `SplitText` on runes. `/repo/splittext.go:13-53`. -/
def splitTextCore (w : Nat → Int) (wmax : Int) (txt : List Nat) : List (List Nat) :=
  let s := trimNl txt
  (splitLoop (fun c => isSpaceRune c || isChinese c) w wmax s 0).map fun (a, b) => slice s a b

/-- How a line of `MultiCell` ends. `/repo/fpdf.go:2668-2763`. -/
inductive McEnd
  /-- newline character at `i`: cell `s[j:i]`, next line at `i+1` -/
  | newline (i : Nat)
  /-- no separator: cell `s[j:i]`, next line at `i` -/
  | cut (i : Nat)
  /-- break at the separator `p`; `ls` is the width before it and `ns` the separators of the line -/
  | atSep (p : Nat) (ls : Int) (ns : Nat)
  /-- end of text -/
  | eof
  /-- character without an entry in the width table -/
  | badChar
  deriving DecidableEq, Repr

/-- Walk one line in `MultiCell`, `/repo/fpdf.go:2668-2763`. -/
def scanMc (cw : List Int) (missing : Int) (wmax : Int) (j : Nat) :
    List Nat → Nat → Option (Nat × Int) → Int → Nat → McEnd
  | [], _, _, _, _ => .eof
  | c :: cs, i, sep, l, ns =>
    if c = 10 then .newline i
    else
      let isSep := c = 32 ∨ isChinese c
      let sep := if isSep then some (i, l) else sep
      let ns := if isSep then ns + 1 else ns
      match cw[c]? with
      | none => .badChar
      | some wc =>
        let l := if wc = 0 then l + missing else if wc ≠ 65535 then l + wc else l
        if l > wmax then
          match sep with
          | none => .cut (if i = j then i + 1 else i)
          | some (p, ls) => .atSep p ls ns
        else scanMc cw missing wmax j cs (i + 1) sep l ns

end Verif.Model
