import Verif.Model.Svg
/-
Vocabulary relating the library's data (segments, drawing calls) to the SVG specification of
`Verif.Spec.Svg`. Used in the statements of C36.
-/
namespace Verif.Proof
open Verif Verif.Model Verif.Spec

/-- The path command a parsed segment stands for (SVG command letters). -/
def decSeg (s : Seg) : Option SvgCmd :=
  if s.cmd = cM then some (.move false ⟨s.a0, s.a1⟩)
  else if s.cmd = cm then some (.move true ⟨s.a0, s.a1⟩)
  else if s.cmd = cL then some (.line false ⟨s.a0, s.a1⟩)
  else if s.cmd = cl then some (.line true ⟨s.a0, s.a1⟩)
  else if s.cmd = cC then some (.cubic false ⟨s.a0, s.a1⟩ ⟨s.a2, s.a3⟩ ⟨s.a4, s.a5⟩)
  else if s.cmd = cc then some (.cubic true ⟨s.a0, s.a1⟩ ⟨s.a2, s.a3⟩ ⟨s.a4, s.a5⟩)
  else if s.cmd = cQ then some (.quad false ⟨s.a0, s.a1⟩ ⟨s.a2, s.a3⟩)
  else if s.cmd = cq then some (.quad true ⟨s.a0, s.a1⟩ ⟨s.a2, s.a3⟩)
  else if s.cmd = cH then some (.horiz false s.a0)
  else if s.cmd = ch then some (.horiz true s.a0)
  else if s.cmd = cV then some (.vert false s.a0)
  else if s.cmd = cv then some (.vert true s.a0)
  else if s.cmd = cZ ∨ s.cmd = cz then some .close
  else none

def decSegs : List Seg → Option (List SvgCmd)
  | [] => some []
  | s :: r => match decSeg s, decSegs r with
    | some c, some cs => some (c :: cs)
    | _, _ => none

/-- No relative command is used while the current point is only determined by a preceding `closepath`.
`sync` says that the current point was set by an explicit coordinate pair. -/
def syncOK : Bool → List SvgCmd → Bool
  | _, [] => true
  | sync, c :: r =>
    match c with
    | .move rel _ => (sync || !rel) && syncOK true r
    | .line rel _ => (sync || !rel) && syncOK true r
    | .cubic rel _ _ _ => (sync || !rel) && syncOK true r
    | .quad rel _ _ => (sync || !rel) && syncOK true r
    | .horiz rel _ => (sync || !rel) && syncOK sync r
    | .vert rel _ => (sync || !rel) && syncOK sync r
    | .close => syncOK false r

/-- Is the command absolute? -/
def isAbs : SvgCmd → Bool
  | .move rel _ => !rel
  | .line rel _ => !rel
  | .horiz rel _ => !rel
  | .vert rel _ => !rel
  | .cubic rel _ _ _ => !rel
  | .quad rel _ _ => !rel
  | .close => true

/-- The strokes made by a list of drawing calls; `none` if an error was raised. -/
def callStrokes : List SvgCall → Option (List Stroke)
  | [] => some []
  | .setXY _ _ :: r => callStrokes r
  | .line a b c d :: r => (callStrokes r).map (Stroke.line ⟨a, b⟩ ⟨c, d⟩ :: ·)
  | .curveCubic x0 y0 cx0 cy0 x1 y1 cx1 cy1 :: r =>
    (callStrokes r).map (Stroke.cubic ⟨x0, y0⟩ ⟨cx0, cy0⟩ ⟨cx1, cy1⟩ ⟨x1, y1⟩ :: ·)
  | .curve x0 y0 cx cy x1 y1 :: r => (callStrokes r).map (Stroke.quad ⟨x0, y0⟩ ⟨cx, cy⟩ ⟨x1, y1⟩ :: ·)
  | .error :: _ => none

/-- Placement of a path point on the page: scaled and moved to the origin. -/
def place (ox oy scale : Rat) (p : Pt) : Pt := ⟨ox + scale * p.x, oy + scale * p.y⟩

/-- The values of the argument tokens. -/
def argVals (pf : Bytes → Option Rat) : List Bytes → Option (List Rat)
  | [] => some []
  | t :: r => match pf t, argVals pf r with
    | some v, some vs => some (v :: vs)
    | _, _ => none

/-- The commands of argument groups that continue the command `c`. -/
def moreCmds (pf : Bytes → Option Rat) (c : UInt8) : List (List Bytes) → Option (List SvgCmd)
  | [] => some []
  | g :: r =>
    match (argVals pf g).bind (cmdOf c), moreCmds pf c r with
    | some cmd, some cs => some (cmd :: cs)
    | _, _ => none

/-- The commands of all items. -/
def itemsCmds (pf : Bytes → Option Rat) : List PathItem → Option (List SvgCmd)
  | [] => some []
  | it :: r =>
    match (argVals pf it.args).bind (cmdOf it.letter), moreCmds pf (implied it.letter) it.more, itemsCmds pf r with
    | some cmd, some more, some cs => some (cmd :: (more ++ cs))
    | _, _, _ => none

end Verif.Proof
