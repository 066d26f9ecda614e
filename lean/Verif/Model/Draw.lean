import Verif.Model.State
/-
Colours, line styles, shapes, clipping, transformations, transparency, gradients, layers:
`/repo/fpdf.go:854-1620`, `/repo/fpdf.go:4840-5000`, `/repo/fpdftrans.go`, `/repo/layer.go`, `/repo/spotcolor.go`.
-/
namespace Verif.Model

/-- Go `strings.ToUpper`. SIMPLIFICATION: ASCII letters only. `/repo/fpdf.go:1091`. -/
def toUpper (s : Bytes) : Bytes := s.map fun c => if 97 ≤ c ∧ c ≤ 122 then c - 32 else c

/-- Go `strings.ToLower`. SIMPLIFICATION: ASCII letters only. `/repo/fpdf.go:356`. -/
def toLower (s : Bytes) : Bytes := s.map fun c => if 65 ≤ c ∧ c ≤ 90 then c + 32 else c

/-- Trigonometry used by the drawing code (package math): arbitrary functions of the angle in degrees,
and arbitrary values for π and √2. `/repo/fpdf.go:4932-4998`. -/
structure Trig where
  cos : Rat → Rat := fun _ => 1
  sin : Rat → Rat := fun _ => 0
  tan : Rat → Rat := fun _ => 0
  pi : Rat := 3
  sqrt2 : Rat := 1

/-- `func colorComp`, `/repo/fpdf.go:854-861`. -/
def colorComp (v : Int) : Int × Rat :=
  let v := if v < 0 then 0 else if v > 255 then 255 else v
  (v, (v : Rat) / 255)

/-- `func rgbColorValue`, `/repo/fpdf.go:863-879`. -/
def rgbColorValue (r g b : Int) (grayStr fullStr : String) : Color :=
  let (ir, fr) := colorComp r
  let (ig, fg) := colorComp g
  let (ib, fb) := colorComp b
  let gray := ir = ig ∧ fr = fb
  let str :=
    if grayStr.length > 0 then
      if gray then sprintf "%.3f %s" [.f fr, .s (B grayStr)]
      else sprintf "%.3f %.3f %.3f %s" [.f fr, .f fg, .f fb, .s (B fullStr)]
    else sprintf "%.3f %.3f %.3f" [.f fr, .f fg, .f fb]
  { ir := ir, ig := ig, ib := ib, str := str }

/-- `func byteBound`, `/repo/spotcolor.go:24-29`. -/
def byteBound (v : Nat) : Nat := if v > 100 then 100 else v

/-- `func fillDrawOp`, `/repo/fpdf.go:1090-1111`. -/
def fillDrawOp (styleStr : Bytes) : Bytes :=
  let u := toUpper styleStr
  if u = B "" ∨ u = B "D" then B "S"
  else if u = B "F" then B "f"
  else if u = B "F*" then B "f*"
  else if u = B "FD" ∨ u = B "DF" then B "B"
  else if u = B "FD*" ∨ u = B "DF*" then B "B*"
  else styleStr

namespace Fpdf

/-- `setDrawColor`, `/repo/fpdf.go:889-894`. -/
def setDrawColor (f : Fpdf) (r g b : Int) : Fpdf :=
  let f := { f with c.draw := rgbColorValue r g b "G" "RG" }
  if f.page > 0 then f.out f.c.draw.str else f

/-- `setFillColor`, `/repo/fpdf.go:911-917`. -/
def setFillColor (f : Fpdf) (r g b : Int) : Fpdf :=
  let f := { f with c.fill := rgbColorValue r g b "g" "rg" }
  let f := { f with c.colorFlag := f.c.fill.str != f.c.text.str }
  if f.page > 0 then f.out f.c.fill.str else f

/-- `setTextColor`, `/repo/fpdf.go:933-936`. -/
def setTextColor (f : Fpdf) (r g b : Int) : Fpdf :=
  let f := { f with c.text := rgbColorValue r g b "g" "rg" }
  { f with c.colorFlag := f.c.fill.str != f.c.text.str }

/-- `AddSpotColor`, `/repo/spotcolor.go:36-54`. -/
def addSpotColor (f : Fpdf) (name : Bytes) (c m y k : Nat) : Fpdf :=
  if f.err = none then
    match lookup name f.r.spotColorMap with
    | none =>
      let id := f.r.spotColorMap.length + 1
      let clr : SpotColor := { id := id, c := byteBound c, m := byteBound m, y := byteBound y, k := byteBound k }
      { f with r.spotColorMap := Model.insert name clr f.r.spotColorMap }
    | some _ => f.assignErr "name is already associated with a spot color"
  else f

/-- `getSpotColor`, `/repo/spotcolor.go:56-64`. -/
def getSpotColor (f : Fpdf) (name : Bytes) : Fpdf × Option SpotColor :=
  if f.err = none then
    match lookup name f.r.spotColorMap with
    | some c => (f, some c)
    | none => (f.assignErr "spot color name is not registered", none)
  else (f, none)

/-- `SetDrawSpotColor`, `/repo/spotcolor.go:70-83`. -/
def setDrawSpotColor (f : Fpdf) (name : Bytes) (tint : Nat) : Fpdf :=
  match f.getSpotColor name with
  | (f, some clr) =>
    let f := { f with c.draw.spotStr := name,
                      c.draw.str := sprintf "/CS%d CS %.3f SCN" [.d clr.id, .f ((byteBound tint : Rat) / 100)] }
    if f.page > 0 then f.out f.c.draw.str else f
  | (f, none) => f

/-- `SetFillSpotColor`, `/repo/spotcolor.go:89-103`. -/
def setFillSpotColor (f : Fpdf) (name : Bytes) (tint : Nat) : Fpdf :=
  match f.getSpotColor name with
  | (f, some clr) =>
    let f := { f with c.fill.spotStr := name,
                      c.fill.str := sprintf "/CS%d cs %.3f scn" [.d clr.id, .f ((byteBound tint : Rat) / 100)] }
    let f := { f with c.colorFlag := f.c.fill.str != f.c.text.str }
    if f.page > 0 then f.out f.c.fill.str else f
  | (f, none) => f

/-- `SetTextSpotColor`, `/repo/spotcolor.go:109-120`; line 118 compares the text colour with itself. -/
def setTextSpotColor (f : Fpdf) (name : Bytes) (tint : Nat) : Fpdf :=
  match f.getSpotColor name with
  | (f, some clr) =>
    let f := { f with c.text.spotStr := name,
                      c.text.str := sprintf "/CS%d cs %.3f scn" [.d clr.id, .f ((byteBound tint : Rat) / 100)] }
    { f with c.colorFlag := f.c.text.str != f.c.text.str }
  | (f, none) => f

/-- `setLineWidth`, `/repo/fpdf.go:994-999`. -/
def setLineWidth (f : Fpdf) (w : Rat) : Fpdf :=
  let f := { f with line.width := w }
  if f.page > 0 then f.outf "%.2f w" [.f (w * f.k)] else f

/-- `SetLineCapStyle`, `/repo/fpdf.go:1010-1024`. -/
def setLineCapStyle (f : Fpdf) (s : Bytes) : Fpdf :=
  let f := { f with line.cap := if s = B "round" then 1 else if s = B "square" then 2 else 0 }
  if f.page > 0 then f.outf "%d J" [.d f.line.cap] else f

/-- `SetLineJoinStyle`, `/repo/fpdf.go:1029-1043`. -/
def setLineJoinStyle (f : Fpdf) (s : Bytes) : Fpdf :=
  let f := { f with line.join := if s = B "round" then 1 else if s = B "bevel" then 2 else 0 }
  if f.page > 0 then f.outf "%d j" [.d f.line.join] else f

/-- The numbers of a dash array, separated by spaces (`/repo/fpdf.go:1071-1076`). -/
def dashNums : List Rat → Bytes
  | [] => []
  | [a] => fmtF 2 a
  | a :: r => fmtF 2 a ++ B " " ++ dashNums r

/-- `outputDashPattern`, `/repo/fpdf.go:1068-1081`. -/
def outputDashPattern (f : Fpdf) : Fpdf :=
  f.out (B "[" ++ dashNums f.line.dashArray ++ B "] " ++ fmtF 2 f.line.dashPhase ++ B " d")

/-- `SetDashPattern`, `/repo/fpdf.go:1053-1066`. -/
def setDashPattern (f : Fpdf) (a : List Rat) (ph : Rat) : Fpdf :=
  let f := { f with line.dashArray := a.map (· * f.k), line.dashPhase := ph * f.k }
  if f.page > 0 then f.outputDashPattern else f

/-- `Line`, `/repo/fpdf.go:1085-1087`. -/
def drawLine (f : Fpdf) (x1 y1 x2 y2 : Rat) : Fpdf :=
  f.outf "%.2f %.2f m %.2f %.2f l S" [.f (x1 * f.k), .f ((f.p.h - y1) * f.k), .f (x2 * f.k), .f ((f.p.h - y2) * f.k)]

/-- `Rect`, `/repo/fpdf.go:1121-1123`. -/
def rect (f : Fpdf) (x y w h : Rat) (style : Bytes) : Fpdf :=
  f.outf "%.2f %.2f %.2f %.2f re %s"
    [.f (x * f.k), .f ((f.p.h - y) * f.k), .f (w * f.k), .f (-h * f.k), .s (fillDrawOp style)]

/-- `point`, `/repo/fpdf.go:1244-1246`. -/
def point (f : Fpdf) (x y : Rat) : Fpdf := f.outf "%.2f %.2f m" [.f (x * f.k), .f ((f.p.h - y) * f.k)]

/-- `curve`, `/repo/fpdf.go:1249-1253`. -/
def curve (f : Fpdf) (cx0 cy0 cx1 cy1 x y : Rat) : Fpdf :=
  f.outf "%.5f %.5f %.5f %.5f %.5f %.5f c" [.f (cx0 * f.k), .f ((f.p.h - cy0) * f.k), .f (cx1 * f.k),
    .f ((f.p.h - cy1) * f.k), .f (x * f.k), .f ((f.p.h - y) * f.k)]

/-- `DrawPath`, `/repo/fpdf.go:4909-4911`: the operator is used as a format string (only matters for an
undocumented style containing `%`). -/
def drawPath (f : Fpdf) (style : Bytes) : Fpdf := f.out (sprintfB (fillDrawOp style) [])

/-- `Polygon`, `/repo/fpdf.go:1197-1209`. -/
def polygon (f : Fpdf) (pts : List (Rat × Rat)) (style : Bytes) : Fpdf :=
  match pts with
  | p0 :: rest =>
    if pts.length > 2 then
      let f := f.point p0.1 p0.2
      let f := rest.foldl (fun f pt => f.outf "%.5f %.5f l " [.f (pt.1 * f.k), .f ((f.p.h - pt.2) * f.k)]) f
      let f := f.outf "%.5f %.5f l " [.f (p0.1 * f.k), .f ((f.p.h - p0.2) * f.k)]
      f.drawPath style
    else f
  | [] => f

/-- The curve loop of `Beziergon`, `/repo/fpdf.go:1232-1238`. -/
def beziergonLoop (f : Fpdf) : List (Rat × Rat) → Fpdf
  | a :: b :: c :: r => beziergonLoop (f.curve a.1 a.2 b.1 b.2 c.1 c.2) r
  | _ => f

/-- `Beziergon`, `/repo/fpdf.go:1222-1241`. -/
def beziergon (f : Fpdf) (pts : List (Rat × Rat)) (style : Bytes) : Fpdf :=
  match pts with
  | p0 :: rest => if pts.length < 4 then f else ((f.point p0.1 p0.2).beziergonLoop rest).drawPath style
  | [] => f

/-- `Curve`, `/repo/fpdf.go:1268-1272`. -/
def curveQuad (f : Fpdf) (x0 y0 cx cy x1 y1 : Rat) (style : Bytes) : Fpdf :=
  (f.point x0 y0).outf "%.5f %.5f %.5f %.5f v %s"
    [.f (cx * f.k), .f ((f.p.h - cy) * f.k), .f (x1 * f.k), .f ((f.p.h - y1) * f.k), .s (fillDrawOp style)]

/-- `CurveBezierCubic`, `/repo/fpdf.go:1300-1304`. -/
def curveBezierCubic (f : Fpdf) (x0 y0 cx0 cy0 cx1 cy1 x1 y1 : Rat) (style : Bytes) : Fpdf :=
  (f.point x0 y0).outf "%.5f %.5f %.5f %.5f %.5f %.5f c %s" [.f (cx0 * f.k), .f ((f.p.h - cy0) * f.k),
    .f (cx1 * f.k), .f ((f.p.h - cy1) * f.k), .f (x1 * f.k), .f ((f.p.h - y1) * f.k), .s (fillDrawOp style)]

/-- `MoveTo`, `/repo/fpdf.go:4840-4843`. -/
def moveTo (f : Fpdf) (x y : Rat) : Fpdf := { f.point x y with p.x := x, p.y := y }

/-- `LineTo`, `/repo/fpdf.go:4850-4853`. -/
def lineTo (f : Fpdf) (x y : Rat) : Fpdf :=
  { f.outf "%.2f %.2f l" [.f (x * f.k), .f ((f.p.h - y) * f.k)] with p.x := x, p.y := y }

/-- `CurveTo`, `/repo/fpdf.go:4863-4866`. -/
def curveTo (f : Fpdf) (cx cy x y : Rat) : Fpdf :=
  { f.outf "%.5f %.5f %.5f %.5f v" [.f (cx * f.k), .f ((f.p.h - cy) * f.k), .f (x * f.k), .f ((f.p.h - y) * f.k)] with
    p.x := x, p.y := y }

/-- `CurveBezierCubicTo`, `/repo/fpdf.go:4877-4880`. -/
def curveBezierCubicTo (f : Fpdf) (cx0 cy0 cx1 cy1 x y : Rat) : Fpdf :=
  { f.curve cx0 cy0 cx1 cy1 x y with p.x := x, p.y := y }

/-- `ClosePath`, `/repo/fpdf.go:4887-4889`. -/
def closePath (f : Fpdf) : Fpdf := f.outf "h" []

/-- Truncation towards zero, Go `int(x)`. `/repo/fpdf.go:4382`. -/
def truncRat (x : Rat) : Int := if x < 0 then -(-x).floor else x.floor

/-- One segment of `arc`, `/repo/fpdf.go:4973-4993`: state, current `(a0,b0,c0,d0)`. -/
def arcSeg (T : Trig) (degStart dtDeg dtm x y rx ry : Rat) (path : Bool) (s : Fpdf × Rat × Rat × Rat × Rat) (j : Nat) :
    Fpdf × Rat × Rat × Rat × Rat :=
  let (f, a0, b0, c0, d0) := s
  let t := (j : Rat) * dtDeg + degStart
  let a1 := x + rx * T.cos t
  let b1 := y + ry * T.sin t
  let c1 := -rx * T.sin t
  let d1 := ry * T.cos t
  let f := f.curve ((a0 + c0 * dtm) / f.k) (f.p.h - (b0 + d0 * dtm) / f.k) ((a1 - c1 * dtm) / f.k)
    (f.p.h - (b1 - d1 * dtm) / f.k) (a1 / f.k) (f.p.h - b1 / f.k)
  let f := if path then { f with p.x := a1 / f.k, p.y := f.p.h - b1 / f.k } else f
  (f, a1, b1, c1, d1)

/-- `arc`, `/repo/fpdf.go:4932-5001` (used by `Circle`, `Ellipse`, `Arc`, `ArcTo`). -/
def arc (T : Trig) (f : Fpdf) (x y rx ry degRotate degStart degEnd : Rat) (style : Bytes) (path : Bool) : Fpdf :=
  let x := x * f.k
  let y := (f.p.h - y) * f.k
  let rx := rx * f.k
  let ry := ry * f.k
  let segments := let s := (truncRat (degEnd - degStart)).tdiv 60; if s < 2 then 2 else s.toNat
  let dtDeg := (degEnd - degStart) / segments
  let dtm := dtDeg * T.pi / 180 / 3
  let (f, x, y) :=
    if degRotate ≠ 0 then
      (f.outf "q %.5f %.5f %.5f %.5f %.5f %.5f cm" [.f (T.cos (-degRotate)), .f (-1 * T.sin (-degRotate)),
        .f (T.sin (-degRotate)), .f (T.cos (-degRotate)), .f x, .f y], 0, 0)
    else (f, x, y)
  let a0 := x + rx * T.cos degStart
  let b0 := y + ry * T.sin degStart
  let c0 := -rx * T.sin degStart
  let d0 := ry * T.cos degStart
  let sx := a0 / f.k
  let sy := f.p.h - b0 / f.k
  let f :=
    if path then (if f.p.x ≠ sx ∨ f.p.y ≠ sy then f.lineTo sx sy else f)
    else f.point sx sy
  let f := ((List.range segments).foldl (fun s j => arcSeg T degStart dtDeg dtm x y rx ry path s (j + 1))
    (f, a0, b0, c0, d0)).1
  let f := if path then f else f.out (fillDrawOp style)
  if degRotate ≠ 0 then f.outs "Q" else f

/-- `clipArc`, `/repo/fpdf.go:1471-1475`. -/
def clipArc (f : Fpdf) (x1 y1 x2 y2 x3 y3 : Rat) : Fpdf :=
  f.outf "%.5f %.5f %.5f %.5f %.5f %.5f c " [.f (x1 * f.k), .f ((f.p.h - y1) * f.k), .f (x2 * f.k),
    .f ((f.p.h - y2) * f.k), .f (x3 * f.k), .f ((f.p.h - y3) * f.k)]

/-- `roundedRectPath`, `/repo/fpdf.go:1504-1533`. -/
def roundedRectPath (T : Trig) (f : Fpdf) (x y w h rTL rTR rBR rBL : Rat) : Fpdf :=
  let k := f.k
  let hp := f.p.h
  let myArc := (4 / 3) * (T.sqrt2 - 1)
  let f := f.outf "q %.5f %.5f m" [.f ((x + rTL) * k), .f ((hp - y) * k)]
  let xc := x + w - rTR
  let yc := y + rTR
  let f := f.outf "%.5f %.5f l" [.f (xc * k), .f ((hp - y) * k)]
  let f := if rTR ≠ 0 then f.clipArc (xc + rTR * myArc) (yc - rTR) (xc + rTR) (yc - rTR * myArc) (xc + rTR) yc else f
  let xc := x + w - rBR
  let yc := y + h - rBR
  let f := f.outf "%.5f %.5f l" [.f ((x + w) * k), .f ((hp - yc) * k)]
  let f := if rBR ≠ 0 then f.clipArc (xc + rBR) (yc + rBR * myArc) (xc + rBR * myArc) (yc + rBR) xc (yc + rBR) else f
  let xc := x + rBL
  let yc := y + h - rBL
  let f := f.outf "%.5f %.5f l" [.f (xc * k), .f ((hp - (y + h)) * k)]
  let f := if rBL ≠ 0 then f.clipArc (xc - rBL * myArc) (yc + rBL) (xc - rBL) (yc + rBL * myArc) (xc - rBL) yc else f
  let xc := x + rTL
  let yc := y + rTL
  let f := f.outf "%.5f %.5f l" [.f (x * k), .f ((hp - yc) * k)]
  if rTL ≠ 0 then f.clipArc (xc - rTL) (yc - rTL * myArc) (xc - rTL * myArc) (yc - rTL) xc (yc - rTL) else f

/-- `RoundedRectExt`, `/repo/fpdf.go:1157-1160`. -/
def roundedRectExt (T : Trig) (f : Fpdf) (x y w h rTL rTR rBR rBL : Rat) (style : Bytes) : Fpdf :=
  (f.roundedRectPath T x y w h rTL rTR rBR rBL).out (fillDrawOp style)

/-- Go `strIf`, `/repo/util.go`. `/repo/util.go:155-160`. -/
def strIf (c : Bool) (a b : String) : Bytes := if c then B a else B b

/-- `ClipRect`, `/repo/fpdf.go:1453-1456`. -/
def clipRect (f : Fpdf) (x y w h : Rat) (outline : Bool) : Fpdf :=
  let f := { f with clipNest := f.clipNest + 1 }
  f.outf "q %.2f %.2f %.2f %.2f re W %s"
    [.f (x * f.k), .f ((f.p.h - y) * f.k), .f (w * f.k), .f (-h * f.k), .s (strIf outline "S" "n")]

/-- `ClipText`, `/repo/fpdf.go:1466-1469`. -/
def clipText (f : Fpdf) (x y : Rat) (txt : Bytes) (outline : Bool) : Fpdf :=
  let f := { f with clipNest := f.clipNest + 1 }
  f.outf "q BT %.5f %.5f Td %d Tr (%s) Tj ET"
    [.f (x * f.k), .f ((f.p.h - y) * f.k), .d (if outline then 5 else 7), .s (escape txt)]

/-- `ClipRoundedRectExt`, `/repo/fpdf.go:1495-1499`. -/
def clipRoundedRectExt (T : Trig) (f : Fpdf) (x y w h rTL rTR rBR rBL : Rat) (outline : Bool) : Fpdf :=
  let f := { f with clipNest := f.clipNest + 1 }
  (f.roundedRectPath T x y w h rTL rTR rBR rBL).outf " W %s" [.s (strIf outline "S" "n")]

/-- `ClipEllipse`, `/repo/fpdf.go:1544-1568`. -/
def clipEllipse (T : Trig) (f : Fpdf) (x y rx ry : Rat) (outline : Bool) : Fpdf :=
  let f := { f with clipNest := f.clipNest + 1 }
  let lx := (4 / 3) * rx * (T.sqrt2 - 1)
  let ly := (4 / 3) * ry * (T.sqrt2 - 1)
  let k := f.k
  let h := f.p.h
  let f := f.outf "q %.5f %.5f m %.5f %.5f %.5f %.5f %.5f %.5f c" [.f ((x + rx) * k), .f ((h - y) * k),
    .f ((x + rx) * k), .f ((h - (y - ly)) * k), .f ((x + lx) * k), .f ((h - (y - ry)) * k), .f (x * k), .f ((h - (y - ry)) * k)]
  let f := f.outf "%.5f %.5f %.5f %.5f %.5f %.5f c" [.f ((x - lx) * k), .f ((h - (y - ry)) * k),
    .f ((x - rx) * k), .f ((h - (y - ly)) * k), .f ((x - rx) * k), .f ((h - y) * k)]
  let f := f.outf "%.5f %.5f %.5f %.5f %.5f %.5f c" [.f ((x - rx) * k), .f ((h - (y + ly)) * k),
    .f ((x - lx) * k), .f ((h - (y + ry)) * k), .f (x * k), .f ((h - (y + ry)) * k)]
  f.outf "%.5f %.5f %.5f %.5f %.5f %.5f c W %s" [.f ((x + lx) * k), .f ((h - (y + ry)) * k),
    .f ((x + rx) * k), .f ((h - (y + ly)) * k), .f ((x + rx) * k), .f ((h - y) * k), .s (strIf outline "S" "n")]

/-- The vertex loop of `ClipPolygon`, `/repo/fpdf.go:1599-1601`. -/
def clipPolyPts (f : Fpdf) (op : String) : List (Rat × Rat) → Bytes
  | [] => []
  | pt :: r => sprintf "%.5f %.5f %s " [.f (pt.1 * f.k), .f ((f.p.h - pt.2) * f.k), .s (B op)] ++ clipPolyPts f "l" r

/-- `ClipPolygon`, `/repo/fpdf.go:1593-1604`. -/
def clipPolygon (f : Fpdf) (pts : List (Rat × Rat)) (outline : Bool) : Fpdf :=
  let f := { f with clipNest := f.clipNest + 1 }
  f.out (B "q " ++ f.clipPolyPts "m" pts ++ sprintf "h W %s" [.s (strIf outline "S" "n")])

/-- `ClipEnd`, `/repo/fpdf.go:1612-1621`. -/
def clipEnd (f : Fpdf) : Fpdf :=
  if f.err = none then
    if f.clipNest > 0 then ({ f with clipNest := f.clipNest - 1 }).outs "Q"
    else f.assignErr "error attempting to end clip operation out of sequence"
  else f

/-- `TransformBegin`, `/repo/fpdftrans.go:23-26`. -/
def transformBegin (f : Fpdf) : Fpdf := ({ f with transformNest := f.transformNest + 1 }).outs "q"

/-- `Transform`, `/repo/fpdftrans.go:194-201`. -/
def transform (f : Fpdf) (a b c d e g : Rat) : Fpdf :=
  if f.transformNest > 0 then f.outf "%.5f %.5f %.5f %.5f %.5f %.5f cm" [.f a, .f b, .f c, .f d, .f e, .f g]
  else if f.err = none then f.assignErr "transformation context is not active"
  else f

/-- `TransformScale`, `/repo/fpdftrans.go:59-70`. -/
def transformScale (f : Fpdf) (sw sh x y : Rat) : Fpdf :=
  if sw = 0 ∨ sh = 0 then f.assignErr "scale factor cannot be zero"
  else
    let y := (f.p.h - y) * f.k
    let x := x * f.k
    let sw := sw / 100
    let sh := sh / 100
    f.transform sw 0 0 sh (x * (1 - sw)) (y * (1 - sh))

/-- `TransformTranslate`, `/repo/fpdftrans.go:127-129`. -/
def transformTranslate (f : Fpdf) (tx ty : Rat) : Fpdf := f.transform 1 0 0 1 (tx * f.k) (-ty * f.k)

/-- `TransformRotate`, `/repo/fpdftrans.go:136-148`. -/
def transformRotate (T : Trig) (f : Fpdf) (angle x y : Rat) : Fpdf :=
  let y := (f.p.h - y) * f.k
  let x := x * f.k
  let a := T.cos angle
  let b := T.sin angle
  f.transform a b (-b) a (x + b * y - a * x) (y - a * y - b * x)

/-- `TransformMirrorLine`, `/repo/fpdftrans.go:102-105`. -/
def transformMirrorLine (T : Trig) (f : Fpdf) (angle x y : Rat) : Fpdf :=
  (f.transformScale (-100) 100 x y).transformRotate T (-2 * (angle - 90)) x y

/-- `TransformSkew`, `/repo/fpdftrans.go:174-189`. -/
def transformSkew (T : Trig) (f : Fpdf) (ax ay x y : Rat) : Fpdf :=
  if ax ≤ -90 ∨ ax ≥ 90 ∨ ay ≤ -90 ∨ ay ≥ 90 then f.assignErr "skew values must be between -90 and 90"
  else
    let x := x * f.k
    let y := (f.p.h - y) * f.k
    let b := T.tan ay
    let c := T.tan ax
    f.transform 1 b c 1 (-c * y) (-b * x)

/-- `TransformEnd`, `/repo/fpdftrans.go:206-213`. -/
def transformEnd (f : Fpdf) : Fpdf :=
  if f.transformNest > 0 then ({ f with transformNest := f.transformNest - 1 }).outs "Q"
  else f.assignErr "error attempting to end transformation operation out of sequence"

/-- The blend modes accepted by `SetAlpha`, `/repo/fpdf.go:1350-1353`. -/
def blendModes : List Bytes :=
  [B "Normal", B "Multiply", B "Screen", B "Overlay", B "Darken", B "Lighten", B "ColorDodge", B "ColorBurn",
   B "HardLight", B "SoftLight", B "Difference", B "Exclusion", B "Hue", B "Saturation", B "Color", B "Luminosity"]

/-- `SetAlpha`, `/repo/fpdf.go:1344-1375`. (The local `bl.modeStr` is computed and not used by the code: the
list entry gets `blendModeStr` itself.) -/
def setAlpha (f : Fpdf) (alpha : Rat) (mode : Bytes) : Fpdf :=
  if f.err ≠ none then f
  else if mode ∉ blendModes ∧ mode ≠ [] then f.assignErr "unrecognized blend mode"
  else if alpha < 0 ∨ alpha > 1 then f.assignErr "alpha value (0.0 - 1.0) is out of range"
  else
    let f := { f with r.alpha := alpha, r.blendMode := mode }
    let alphaStr := sprintf "%.3f" [.f alpha]
    let keyStr := sprintf "%s %s" [.s alphaStr, .s mode]
    let (f, pos) := match lookup keyStr f.r.blendMap with
      | some pos => (f, pos)
      | none =>
        let pos := f.r.blendList.length + 1
        let bm : BlendMode := { strokeStr := alphaStr, fillStr := alphaStr, modeStr := mode }
        ({ f with r.blendList := f.r.blendList ++ [bm], r.blendMap := Model.insert keyStr pos f.r.blendMap }, pos)
    f.outf "/GS%d gs" [.d pos]

/-- `gradientClipStart`, `/repo/fpdf.go:1377-1382`. -/
def gradientClipStart (f : Fpdf) (x y w h : Rat) : Fpdf :=
  let f := f.outf "q %.2f %.2f %.2f %.2f re W n" [.f (x * f.k), .f ((f.p.h - y) * f.k), .f (w * f.k), .f (-h * f.k)]
  f.outf "%.5f 0 0 %.5f %.5f %.5f cm" [.f (w * f.k), .f (h * f.k), .f (x * f.k), .f ((f.p.h - (y + h)) * f.k)]

/-- `gradient`, `/repo/fpdf.go:1389-1396`. -/
def gradient (f : Fpdf) (tp : Nat) (c1 c2 : Int × Int × Int) (x1 y1 x2 y2 r : Rat) : Fpdf :=
  let pos := f.r.gradientList.length + 1
  let clr1 := rgbColorValue c1.1 c1.2.1 c1.2.2 "" ""
  let clr2 := rgbColorValue c2.1 c2.2.1 c2.2.2 "" ""
  let gr : Gradient :=
    { tp := tp, clr1Str := clr1.str, clr2Str := clr2.str, x1 := x1, y1 := y1, x2 := x2, y2 := y2, r := r }
  let f := { f with r.gradientList := f.r.gradientList ++ [gr] }
  f.outf "/Sh%d sh" [.d pos]

/-- `LinearGradient` (`tp = 2`, `/repo/fpdf.go:1414-1418`) and `RadialGradient` (`tp = 3`, `1438-1442`). -/
def areaGradient (f : Fpdf) (tp : Nat) (x y w h : Rat) (c1 c2 : Int × Int × Int) (x1 y1 x2 y2 r : Rat) : Fpdf :=
  (((f.gradientClipStart x y w h).gradient tp c1 c2 x1 y1 x2 y2 r)).outs "Q"

/-- `AddLayer`, `/repo/layer.go:45-49`. -/
def addLayer (f : Fpdf) (name : Bytes) (visible : Bool) : Fpdf :=
  { f with layer.list := f.layer.list ++ [{ name := name, visible := visible }] }

/-- `EndLayer`, `/repo/layer.go:65-70`. -/
def endLayer (f : Fpdf) : Fpdf :=
  match f.layer.currentLayer with
  | some _ =>
    let f := f.outs "EMC"
    { f with layer.currentLayer := none }
  | none => f

/-- `BeginLayer`, `/repo/layer.go:55-61`. -/
def beginLayer (f : Fpdf) (id : Int) : Fpdf :=
  let f := f.endLayer
  if 0 ≤ id ∧ id.toNat < f.layer.list.length then
    let f := f.outf "/OC /OC%d BDC" [.d id]
    { f with layer.currentLayer := some id.toNat }
  else f

end Fpdf
end Verif.Model
