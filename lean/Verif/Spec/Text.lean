import Verif.Spec.Drawing
/-
How text looks to a reader of a page.
-/
namespace Verif.Spec

/-- Instructions that select a fill colour: a grey level, three components, or a colour space and a tint. -/
inductive SelectsColour : List Instr → Prop
  | gray (a : Bytes) : SelectsColour [([.word a], B "g")]
  | rgb (a b c : Bytes) : SelectsColour [([.word a, .word b, .word c], B "rg")]
  | spot (n a : Bytes) : SelectsColour [([.name n], B "cs"), ([.word a], B "scn")]

/-- Instructions as they are, or with a colour of their own inside a saved graphics state. -/
def inColour (colour : Option (List Instr)) (is : List Instr) : List Instr :=
  match colour with
  | none => is
  | some c => [([], B "q")] ++ c ++ is ++ [([], B "Q")]

/-- One piece of text, shown at a position. -/
def showing (x y : Rat) (t : Bytes) : List (List Want × String) :=
  [([], "BT"), ([.num 2 x, .num 2 y], "Td"), ([.str t], "Tj"), ([], "ET")]

/-- `n` filled rectangles: underlining, striking out. -/
def Bars : Nat → List Instr → Prop
  | 0, l => l = []
  | n + 1, (ops, re) :: (ops', fl) :: l => (∃ a b c d, ops = [.word a, .word b, .word c, .word d]) ∧ re = B "re" ∧ ops' = [] ∧ fl = B "f" ∧ Bars n l
  | _ + 1, _ => False

/-- The instructions `is` show the text `t` at a position as a single string, followed by `n` bars, all of it in the given colour. -/
def Shows (is : List Instr) (colour : Option (List Instr)) (x y : Rat) (t : Bytes) (n : Nat) : Prop :=
  ∃ body bars, is = inColour colour (body ++ bars) ∧ Bars n bars ∧
    List.Forall₂ (fun (i : Instr) (w : List Want × String) => List.Forall₂ Meets i.1 w.1 ∧ i.2 = B w.2) body (showing x y t)

/-- The operands of `TJ` that show words with blanks between them; the adjustment `adj` stands in front of each blank. -/
def spacedWords (adj : Tok) (blank : Bytes) : List Bytes → List Tok
  | [] => []
  | [t] => [.str t]
  | t :: r => .str t :: adj :: .str blank :: spacedWords adj blank r

/-- The instructions `is` show words at a position as an array of strings and adjustments, in the given colour, followed by `n` bars: there is a blank between two words, which is moved to the right by `shift` (adjustments are subtracted
from the position, in thousandths of the font size). -/
def ShowsWords (is : List Instr) (colour : Option (List Instr)) (x y : Rat) (blank : Bytes) (words : List Bytes) (shift : Rat) (n : Nat) : Prop :=
  ∃ a b adj bars, is = inColour colour ([([], B "BT"), ([.word (B "0")], B "Tw"), ([a, b], B "Td"), (.punct 0x5B :: spacedWords adj blank words ++ [.punct 0x5D], B "TJ"), ([], B "ET")] ++ bars) ∧
    Bars n bars ∧ Meets a (.num 2 x) ∧ Meets b (.num 2 y) ∧ Meets adj (.num 3 (-shift))

/-- Where the text of a cell of width `w` starts, from its left side: according to the letters R, C in the alignment string; else at the margin inside the cell. -/
def alignX (align : Bytes) (w margin width : Rat) : Rat :=
  if align.contains 0x52 then w - margin - width else if align.contains 0x43 then (w - width) / 2 else margin

/-- The background of a cell at `x`, `y` (upper left corner), `w` wide and `h` high, in PDF coordinates: filled, with a frame for the border "1". -/
def background (x y w h : Rat) (border : Bytes) (fill : Bool) : List (List Want × String) :=
  if fill = true ∨ border = B "1" then
    [([.num 2 x, .num 2 y, .num 2 w, .num 2 (-h)], "re"), ([], if fill then (if border = B "1" then "B" else "f") else "S")]
  else []

/-- A line. -/
def stroke (a b c d : Rat) : List (List Want × String) := [([.num 2 a, .num 2 b], "m"), ([.num 2 c, .num 2 d], "l"), ([], "S")]

/-- The sides of a cell that are drawn: those whose letters are in the border string. -/
def sides (x y w h : Rat) (border : Bytes) : List (List Want × String) :=
  if border ≠ [] ∧ border ≠ B "1" then
    (if border.contains 0x4C then stroke x y x (y - h) else []) ++ (if border.contains 0x54 then stroke x y (x + w) y else []) ++
    (if border.contains 0x52 then stroke (x + w) y (x + w) (y - h) else []) ++ (if border.contains 0x42 then stroke x (y - h) (x + w) (y - h) else [])
  else []

end Verif.Spec
