import Verif.Model.Machine
import Verif.Model.Svg
/-
`SVGBasicWrite` as a call on the document.
-/
namespace Verif.Model
open Verif

/-- The drawing call made for one segment, `/repo/svgwrite.go:51-82`. `CurveCubic`, `/repo/fpdf.go:1277-1282`, passes its arguments on in the order of `CurveBezierCubic`. -/
def svgOp : SvgCall → Op
  | .setXY x y => .setXY x y
  | .line x1 y1 x2 y2 => .line x1 y1 x2 y2
  | .curveCubic x0 y0 cx0 cy0 x1 y1 cx1 cy1 => .curveBezierCubic x0 y0 cx0 cy0 cx1 cy1 x1 y1 (B "D")
  | .curve x0 y0 cx cy x1 y1 => .curve x0 y0 cx cy x1 y1 (B "D")
  | .error => .setError "Unexpected path command"

/-- `SVGBasicWrite`, `/repo/svgwrite.go:26-85`: all paths one after the other, with the position at the time of the call as origin; the loops stop once there is an error
(`f.Ok()`). -/
def svgBasicWrite (E : Ext) (cb : Cb) (f : Fpdf) (scale : Rat) (paths : List (List Seg)) : Fpdf :=
  (svgWriteFrom f.p.x f.p.y scale 0 0 0 0 paths.flatten).foldl (fun f c => if f.err = none then f.exec E cb (svgOp c) else f) f

end Verif.Model
