import Verif.Spec.Lex
/-
The width array of a CID font, ISO 32000-1, 9.7.4.3: "The W array allows the definition of widths for individual CIDs. The elements of the array shall be organized in groups of two
or three, where each group shall be in one of these two formats: c [w1 w2 … wn] and c_first c_last w. In the first format, c shall be an integer specifying a starting CID value; it
shall be followed by an array of n numbers that shall specify the widths for n consecutive CIDs, starting with c. The second format shall define the same width, w, for all CIDs in
the range c_first to c_last."
-/
namespace Verif.Spec

/-- Where a reader of a width array is. -/
inductive WidthPos
  | start                   -- before a group
  | first (c : Nat)         -- after the first number of a group
  | list (c : Nat)          -- inside the brackets: the next number is the width of `c`
  | range (c d : Nat)       -- after the second number of a group
  deriving DecidableEq

/-- A natural number, the whole word. -/
def wordNat (w : Bytes) : Option Nat :=
  match readNat w with
  | some (n, []) => some n
  | _ => none

/-- The characters and their widths that the elements of a width array define, in the order of the array. -/
def readWidths : WidthPos → List Tok → Option (List (Nat × Nat))
  | .start, [] => some []
  | .start, .word w :: t => (wordNat w).bind fun c => readWidths (.first c) t
  | .first c, .punct 0x5B :: t => readWidths (.list c) t
  | .first c, .word w :: t => (wordNat w).bind fun d => readWidths (.range c d) t
  | .list _, .punct 0x5D :: t => readWidths .start t
  | .list c, .word w :: t => (wordNat w).bind fun n => (readWidths (.list (c + 1)) t).map ((c, n) :: ·)
  | .range c d, .word w :: t => (wordNat w).bind fun n => (readWidths .start t).map ((List.range' c (d + 1 - c)).map (fun x => (x, n)) ++ ·)
  | _, _ => none

/-- The line is the entry `/W` with an array that defines these widths. -/
def WidthEntry (line : Bytes) (ws : List (Nat × Nat)) : Prop :=
  ∃ body, lex line = [.name (B "W"), .punct 0x5B] ++ body ++ [.punct 0x5D] ∧ readWidths .start body = some ws

/-- The width a reader uses for a character: that of the array, else the entry `/DW` ("default value: 1000", table 117). -/
def readerWidth (ws : List (Nat × Nat)) (dw : Option Int) (c : Nat) : Int :=
  match ws.lookup c with
  | some w => w
  | none => dw.getD 1000

end Verif.Spec
