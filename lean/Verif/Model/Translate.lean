import Verif.Model.Runes
/-
Code page translation: `/repo/util.go:152-288`.
-/
namespace Verif.Model

/-- ASCII white space, for `strings.TrimSpace`, package fmt and `bufio.ScanLines`. SIMPLIFICATION: the white space outside ASCII that Go also knows (U+0085, U+00A0, U+2000, ...) is not modelled. `/repo/util.go:217-222`. -/
def isSpaceB (c : UInt8) : Bool := c = 32 || (9 ≤ c && c ≤ 13)

/-- `strings.TrimSpace`, used in `/repo/util.go:220`. -/
def trimSpaceB (s : Bytes) : Bytes := ((s.dropWhile isSpaceB).reverse.dropWhile isSpaceB).reverse

/-- The lines of a `bufio.Scanner`, used in `/repo/util.go:217-219`: the text between newlines; nothing after the last newline if the text ends in one.
SIMPLIFICATION: the scanner also drops a carriage return at the end of a line, which `TrimSpace` does too; it gives up at a line of 64 kB. -/
def scanLines : Bytes → List Bytes
  | [] => []
  | c :: s =>
    if c = 10 then [] :: scanLines s
    else match scanLines s with
      | [] => [[c]]
      | l :: ls => (c :: l) :: ls

/-- Value of a hexadecimal digit. `/repo/util.go:222`. -/
def hexVal? (c : UInt8) : Option Nat :=
  if 48 ≤ c ∧ c ≤ 57 then some (c.toNat - 48)
  else if 65 ≤ c ∧ c ≤ 70 then some (c.toNat - 55)
  else if 97 ≤ c ∧ c ≤ 102 then some (c.toNat - 87)
  else none

/-- The verb `%wX` of `fmt.Sscanf`: white space, then at least one and at most `w` hexadecimal digits. `/repo/util.go:222`. -/
def scanHex (w : Nat) (s : Bytes) : Option (Nat × Bytes) :=
  let s := s.dropWhile isSpaceB
  let ds := (s.take w).takeWhile fun c => (hexVal? c).isSome
  if ds = [] then none else some (ds.foldl (fun a c => a * 16 + (hexVal? c).getD 0) 0, s.drop ds.length)

/-- A blank in the format of `fmt.Sscanf`: at least one blank, or the end of the input. `/repo/util.go:222`. -/
def scanBlank (s : Bytes) : Option Bytes :=
  match s with
  | [] => some []
  | c :: _ => if isSpaceB c then some (s.dropWhile isSpaceB) else none

/-- A character in the format of `fmt.Sscanf`. `/repo/util.go:222`. -/
def scanChar (c : UInt8) (s : Bytes) : Option Bytes :=
  match s with
  | [] => none
  | d :: s => if d = c then some s else none

/-- `fmt.Sscanf(lineStr, "!%2X U+%4X %s", ...)`, `/repo/util.go:222`: the two numbers, or `none` for an error. -/
def scanMapLine (s : Bytes) : Option (Nat × Nat) := do
  let s ← scanChar 0x21 s
  let (cPos, s) ← scanHex 2 s
  let s ← scanBlank s
  let s ← scanChar 0x55 s
  let s ← scanChar 0x2B s
  let (uPos, s) ← scanHex 4 s
  let s ← scanBlank s
  if s.dropWhile isSpaceB = [] then none else some (cPos, uPos)

/-- The map built from the lines and whether the last line that is not blank was in error, `/repo/util.go:214-229`. The latest entry is the first of the list. -/
def readMap (ls : List Bytes) : List (Nat × UInt8) × Bool :=
  ls.foldl (fun s l =>
    let l := trimSpaceB l
    if l = [] then s
    else match scanMapLine l with
      | none => (s.1, true)
      | some (c, u) => (if c ≥ 0x80 then (u, UInt8.ofNat c) :: s.1 else s.1, false)) ([], false)

/-- `repClosure`, `/repo/util.go:177-196`. -/
def repClosure (m : List (Nat × UInt8)) (str : Bytes) : Bytes :=
  (runes str).map fun r => if r < 0x80 then UInt8.ofNat r else (m.lookup r).getD 0x2E

/-- `UnicodeTranslator`, `/repo/util.go:213-236`: the function and whether there is an error. -/
def unicodeTranslator (r : Bytes) : (Bytes → Bytes) × Bool :=
  let m := readMap (scanLines r)
  if m.2 then (id, true) else (repClosure m.1, false)

end Verif.Model
