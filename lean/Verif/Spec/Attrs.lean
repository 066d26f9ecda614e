import Verif.Spec.Content
/-
The part of the graphics state (ISO 32000-1, 8.4) that says how shapes are painted: the colour for filling (and for text), the colour for stroking and the line width,
and the stack on which `q` saves it and from which `Q` restores it.
-/
namespace Verif.Spec

/-- How shapes are painted. A colour is represented by the instructions that select it: one for the device colour spaces, two for another space (`cs`, `scn`). -/
structure Attr where
  fill : List Instr
  stroke : List Instr
  width : List Tok
deriving DecidableEq

/-- The values at the beginning of a page (8.4.1, table 52): black, one point. -/
def Attr.initial : Attr := ⟨[([.word (B "0")], B "g")], [([.word (B "0")], B "G")], [.word (B "1")]⟩

/-- The effect of one instruction on the attributes and the stack of saved ones. -/
def attrStep (s : Attr × List Attr) (i : Instr) : Attr × List Attr :=
  if i.2 = B "q" then (s.1, s.1 :: s.2)
  else if i.2 = B "Q" then (match s.2 with | [] => s | a :: r => (a, r))
  else if i.2 = B "g" ∨ i.2 = B "rg" ∨ i.2 = B "k" ∨ i.2 = B "cs" then ({ s.1 with fill := [i] }, s.2)
  else if i.2 = B "sc" ∨ i.2 = B "scn" then ({ s.1 with fill := s.1.fill.take 1 ++ [i] }, s.2)
  else if i.2 = B "G" ∨ i.2 = B "RG" ∨ i.2 = B "K" ∨ i.2 = B "CS" then ({ s.1 with stroke := [i] }, s.2)
  else if i.2 = B "SC" ∨ i.2 = B "SCN" then ({ s.1 with stroke := s.1.stroke.take 1 ++ [i] }, s.2)
  else if i.2 = B "w" then ({ s.1 with width := i.1 }, s.2)
  else s

/-- The effect of a sequence of instructions. -/
def attrRun (s : Attr × List Attr) (is : List Instr) : Attr × List Attr := is.foldl attrStep s

/-- The attributes in effect after the content `b` of a page. -/
def attrsAfter (b : Bytes) : Attr := (attrRun (Attr.initial, []) (instrs b)).1

example : (attrsAfter (B "q 1 0 0 rg 2 w Q 0.5 g 1 0 0 1 2 3 cm")).fill = instrs (B "0.5 g ") := by decide +kernel
example : (attrsAfter (B "q 1 0 0 rg 2 w Q 0.5 g")).width = [.word (B "1")] := by decide +kernel
example : (attrsAfter (B "/CS1 CS 0.5 SCN 0.7 SCN ")).stroke = instrs (B "/CS1 CS 0.7 SCN ") := by decide +kernel

end Verif.Spec
