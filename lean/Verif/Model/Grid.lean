import Verif.Model.Getters
import Mathlib.Data.Int.Log
import Mathlib.Data.Rat.Floor
import Mathlib.Algebra.Order.Group.Abs
import Mathlib.Algebra.Order.Field.Basic
import Mathlib.Tactic.FieldSimp
import Mathlib.Tactic.Ring
/-
Graph paper: `/repo/grid.go`, `/repo/label.go`. SIMPLIFICATION throughout: exact rational numbers instead of `float64`. A grid is built and drawn through the public
interface of a document only, so it is modelled as a program over `Fpdf.exec`.
-/
namespace Verif.Model

/-- `niceNum`, `/repo/label.go:30-59`, for a positive value. `⌊log10 val⌋` is `Int.log 10 val`. -/
def niceNum (val : Rat) (round : Bool) : Rat :=
  let e := Int.log 10 val
  let f := val / (10 : Rat) ^ e
  let nf : Rat :=
    if round then
      if f < 3 / 2 then 1 else if f < 3 then 2 else if f < 7 then 5 else 10
    else
      if f ≤ 1 then 1 else if f ≤ 2 then 2 else if f ≤ 5 then 5 else 10
  nf * (10 : Rat) ^ e

/-- `TickmarkPrecision`, `/repo/label.go:63-65`, for a positive division. -/
def tickmarkPrecision (div : Rat) : Nat := (-(Int.log 10 div)).toNat

/-- The loop of `Tickmarks`, `/repo/label.go:78-80`: values from `x` in steps of `d` as long as they are below `lim`. -/
def tickLoop (d lim x : Rat) : List Rat :=
  if h : 0 < d ∧ x < lim then x :: tickLoop d lim (x + d) else []
termination_by ⌈(lim - x) / d⌉.toNat
decreasing_by
  have hd : d ≠ 0 := ne_of_gt h.1
  have e : (lim - (x + d)) / d = (lim - x) / d - 1 := by field_simp; ring
  have hpos : 0 < (lim - x) / d := div_pos (sub_pos.mpr h.2) h.1
  rw [e]
  have h1 : ⌈(lim - x) / d - 1⌉ = ⌈(lim - x) / d⌉ - 1 := Int.ceil_sub_one _
  have h2 : 0 < ⌈(lim - x) / d⌉ := Int.ceil_pos.mpr hpos
  rw [h1]
  omega

/-- `Tickmarks`, `/repo/label.go:70-82`. -/
def tickmarks (min max : Rat) : List Rat × Nat :=
  if max > min then
    let spread := niceNum (max - min) false
    let d := niceNum (spread / 4) true
    let graphMin := (⌊min / d⌋ : Rat) * d
    let graphMax := (⌈max / d⌉ : Rat) * d
    (tickLoop d (graphMax + d / 2) graphMin, tickmarkPrecision d)
  else ([], 0)

/-- `linear`, `/repo/grid.go:99-105`. -/
def linear (x1 y1 x2 y2 : Rat) : Rat × Rat :=
  if x2 ≠ x1 then
    let slope := (y2 - y1) / (x2 - x1)
    (slope, y2 - x2 * slope)
  else (0, 0)

/-- `linearTickmark`, `/repo/grid.go:110-116`. -/
def linearTickmark (tm : List Rat) (lo hi : Rat) : Rat × Rat :=
  match tm.head?, tm.getLast? with
  | some a, some b => linear a lo b hi
  | _, _ => (0, 0)

/-- `RGBAType`, `/repo/grid.go:17-20`. -/
structure Rgba where
  r : Int := 0
  g : Int := 0
  b : Int := 0
  alpha : Rat := 0
deriving DecidableEq

/-- `GridType`, `/repo/grid.go:69-93`. -/
structure Grid where
  x : Rat
  y : Rat
  w : Rat
  h : Rat
  xm : Rat := 0
  xb : Rat := 0
  ym : Rat := 0
  yb : Rat := 0
  xTicks : List Rat := []
  yTicks : List Rat := []
  xLabelIn : Bool := false
  yLabelIn : Bool := false
  xLabelRotate : Bool := false
  /-- the formatter of the labels, `none` for `nil` -/
  xTickStr : Option (Rat → Nat → Bytes) := none
  yTickStr : Option (Rat → Nat → Bytes) := none
  xDiv : Int := 0
  yDiv : Int := 0
  xPrecision : Nat := 0
  yPrecision : Nat := 0
  clrText : Rgba := {}
  clrMain : Rgba := {}
  clrSub : Rgba := {}
  wdMain : Rat := 0
  wdSub : Rat := 0
  textSize : Rat := 0

namespace Grid

/-- The loop of `extent`, `/repo/grid.go:247-255`. -/
def extentLoop (min div : Rat) : Nat → List Rat
  | 0 => [min]
  | n + 1 => min :: extentLoop (min + div) div n

/-- `TickmarksContainX`, `/repo/grid.go:230-233`. -/
def tickmarksContainX (g : Grid) (min max : Rat) : Grid :=
  let t := tickmarks min max
  let m := linearTickmark t.1 g.x (g.x + g.w)
  { g with xTicks := t.1, xPrecision := t.2, xm := m.1, xb := m.2 }

/-- `TickmarksContainY`, `/repo/grid.go:242-245`. -/
def tickmarksContainY (g : Grid) (min max : Rat) : Grid :=
  let t := tickmarks min max
  let m := linearTickmark t.1 (g.y + g.h) g.y
  { g with yTicks := t.1, yPrecision := t.2, ym := m.1, yb := m.2 }

/-- `TickmarksExtentX`, `/repo/grid.go:264-267`, for `count ≥ 0`. -/
def tickmarksExtentX (g : Grid) (min div : Rat) (count : Nat) : Grid :=
  let t := extentLoop min div count
  let m := linearTickmark t g.x (g.x + g.w)
  { g with xTicks := t, xPrecision := tickmarkPrecision div, xm := m.1, xb := m.2 }

/-- `TickmarksExtentY`, `/repo/grid.go:276-279`, for `count ≥ 0`. -/
def tickmarksExtentY (g : Grid) (min div : Rat) (count : Nat) : Grid :=
  let t := extentLoop min div count
  let m := linearTickmark t (g.y + g.h) g.y
  { g with yTicks := t, yPrecision := tickmarkPrecision div, ym := m.1, yb := m.2 }

/-- `NewGrid`, `/repo/grid.go:130-151`, with `defaultFormatter`, `/repo/grid.go:62-64`. -/
def new (x y w h : Rat) : Grid :=
  let g : Grid := { x := x, y := y, w := w, h := h, textSize := 7 }
  let g := (g.tickmarksExtentX 0 1 1).tickmarksExtentY 0 1 1
  { g with xDiv := 10, yDiv := 10, clrText := ⟨0, 0, 0, 1⟩, clrMain := ⟨128, 160, 128, 1⟩, clrSub := ⟨192, 224, 192, 1⟩, wdMain := 1 / 10, wdSub := 1 / 10, yTickStr := some fun v p => fmtF p v, xTickStr := some fun v p => fmtF p v }

/-- `Wd`, `/repo/grid.go:161-163`. -/
def wd (g : Grid) (d : Rat) : Rat := g.xm * d
/-- `Ht`, `/repo/grid.go:195-197`. -/
def ht (g : Grid) (d : Rat) : Rat := g.ym * d
/-- `X`, `/repo/grid.go:183-185`. -/
def X (g : Grid) (d : Rat) : Rat := g.xm * d + g.xb
/-- `Y`, `/repo/grid.go:201-203`. -/
def Y (g : Grid) (d : Rat) : Rat := g.ym * d + g.yb
/-- `XY`, `/repo/grid.go:167-169`. -/
def XY (g : Grid) (a b : Rat) : Rat × Rat := (g.xm * a + g.xb, g.ym * b + g.yb)
/-- `Pos`, `/repo/grid.go:175-179`. -/
def pos (g : Grid) (xRel yRel : Rat) : Rat × Rat := (g.w * xRel + g.x, g.h * (1 - yRel) + g.y)
/-- `WdAbs`, `/repo/grid.go:155-157`. -/
def wdAbs (g : Grid) (d : Rat) : Rat := |g.xm * d|
/-- `HtAbs`, `/repo/grid.go:189-191`. -/
def htAbs (g : Grid) (d : Rat) : Rat := |g.ym * d|

/-- A line to be drawn and whether it is a main line. `/repo/grid.go:326-370`. -/
structure GLine where
  x1 : Rat
  y1 : Rat
  x2 : Rat
  y2 : Rat
  heavy : Bool
deriving DecidableEq

/-- The inner loops of `Grid`, `/repo/grid.go:348-351,365-368`: `n` further positions in steps of `d`. -/
def subPos (d : Rat) : Nat → Rat → List Rat
  | 0, _ => []
  | n + 1, p => (p + d) :: subPos d n (p + d)

/-- The loops over the tick marks, `/repo/grid.go:344-353,361-370`: position and weight of each line. `at'` is `X` or `Y`, `d` the distance of the lines in between. -/
def linePos (at' : Rat → Rat) (d : Rat) (sub : Nat) : List Rat → List (Rat × Bool)
  | [] => []
  | [t] => [(at' t, true)]
  | t :: ts => (at' t, true) :: ((subPos d sub (at' t)).map (·, false) ++ linePos at' d sub ts)

/-- The distance between neighbouring lines, `/repo/grid.go:339-343,356-360`. -/
def divOf (ticks : List Rat) (div : Int) : Rat :=
  let d := ticks.getD 1 0 - ticks.getD 0 0
  if div > 0 then d / div else d

/-- All lines that `Grid` draws, in order, `/repo/grid.go:326-370`. -/
def lines (g : Grid) : List GLine :=
  let xMin := g.xTicks.headD 0
  let xMax := g.xTicks.getLastD 0
  let yMin := g.yTicks.headD 0
  let yMax := g.yTicks.getLastD 0
  (linePos g.X (g.wd (divOf g.xTicks g.xDiv)) (g.xDiv - 1).toNat g.xTicks).map (fun p => ⟨p.1, g.Y yMax, p.1, g.Y yMin, p.2⟩) ++
  (linePos g.Y (g.ht (divOf g.yTicks g.yDiv)) (g.yDiv - 1).toNat g.yTicks).map (fun p => ⟨g.X xMin, p.1, g.X xMax, p.1, p.2⟩)

end Grid

/-- `StateType`, `/repo/grid.go:25-32`. -/
structure GState where
  draw : Int × Int × Int
  text : Int × Int × Int
  fill : Int × Int × Int
  lineWd : Rat
  fontSize : Rat
  alpha : Rat × Bytes
  cellMargin : Rat

/-- `StateGet`, `/repo/grid.go:35-44`. -/
def stateGet (f : Fpdf) : GState :=
  { draw := f.getDrawColor, fill := f.getFillColor, text := f.getTextColor, lineWd := f.getLineWidth, fontSize := f.getFontSize.2, alpha := f.getAlpha, cellMargin := f.getCellMargin }

/-- A program: calls made one after the other. `/repo/grid.go:296-422`. -/
def run (E : Ext) (cb : Cb) (f : Fpdf) (l : List Op) : Fpdf := l.foldl (fun f op => f.exec E cb op) f

/-- `Put`, `/repo/grid.go:48-56`. -/
def statePut (E : Ext) (cb : Cb) (st : GState) (f : Fpdf) : Fpdf :=
  run E cb f [.setDrawColor st.draw.1 st.draw.2.1 st.draw.2.2, .setFillColor st.fill.1 st.fill.2.1 st.fill.2.2, .setTextColor st.text.1 st.text.2.1 st.text.2.2, .setLineWidth st.lineWd, .setFontUnitSize st.fontSize, .setAlpha st.alpha.1 st.alpha.2, .setCellMargin st.cellMargin]

namespace Grid

/-- `lineAttr`, `/repo/grid.go:289-293`, and the function `line` of `Grid`, `/repo/grid.go:309-316`. -/
def lineOps (g : Grid) (l : GLine) : List Op :=
  let clr := if l.heavy then g.clrMain else g.clrSub
  let wd := if l.heavy then g.wdMain else g.wdSub
  [.setLineWidth wd, .setAlpha clr.alpha (B "Normal"), .setDrawColor clr.r clr.g clr.b, .line l.x1 l.y1 l.x2 l.y2]

/-- One label of the X axis, `/repo/grid.go:375-397`. The calls depend on the width of strings in the font in use. -/
def xLabel (g : Grid) (textSz strOfs bt : Rat) (fmt : Rat → Nat → Bytes) (f : Fpdf) (x : Rat) : List Op :=
  let str := fmt x g.xPrecision
  let strWd := f.getStringWidth str
  let drawX := g.X x
  if g.xLabelRotate then
    [.transformBegin, .transformRotate 90 drawX bt,
     if g.xLabelIn then .setXY (drawX + strOfs) (bt - textSz / 2) else .setXY (drawX - strOfs - strWd) (bt - textSz / 2),
     .cell strWd textSz str [] 0 (B "L") true 0 [], .transformEnd]
  else
    [if g.xLabelIn then .setXY (drawX - strWd / 2) (bt - textSz - strOfs) else .setXY (drawX - strWd / 2) (bt + strOfs),
     .cell strWd textSz str [] 0 (B "L") true 0 []]

/-- One label of the Y axis, `/repo/grid.go:404-414`. -/
def yLabel (g : Grid) (textSz strOfs lf : Rat) (fmt : Rat → Nat → Bytes) (f : Fpdf) (y : Rat) : List Op :=
  let str := fmt y g.yPrecision
  let strWd := f.getStringWidth str
  [if g.yLabelIn then .setXY (lf + strOfs) (g.Y y - textSz / 2) else .setXY (lf - strOfs - strWd) (g.Y y - textSz / 2),
   .cell strWd textSz str [] 0 (B "L") true 0 []]

/-- Drawing labels one after the other: each depends on the document as the previous ones have left it. `/repo/grid.go:371-420`. -/
def labels (E : Ext) (cb : Cb) (mk : Fpdf → Rat → List Op) (f : Fpdf) (ticks : List Rat) : Fpdf :=
  ticks.foldl (fun f t => run E cb f (mk f t)) f

/-- `Grid` (the method), `/repo/grid.go:296-422`. -/
def grid (E : Ext) (cb : Cb) (g : Grid) (f : Fpdf) : Fpdf :=
  if g.xTicks.length > 1 ∧ g.yTicks.length > 1 then
    let st := stateGet f
    let textSz := f.pointConvert g.textSize
    let f := run E cb f [.setAutoPageBreak false 0, .setFontUnitSize textSz]
    let strOfs := f.getStringWidth (B "0")
    let f := run E cb f [.setFillColor 255 255 255, .setCellMargin 0]
    let f := run E cb f (g.lines.flatMap g.lineOps)
    let f := match g.xTickStr with
      | some fmt => labels E cb (g.xLabel textSz strOfs (g.Y (g.yTicks.headD 0)) fmt) f g.xTicks
      | none => f
    let f := match g.yTickStr with
      | some fmt => labels E cb (g.yLabel textSz strOfs (g.X (g.xTicks.headD 0)) fmt) f g.yTicks
      | none => f
    statePut E cb st f
  else f

/-- State of the loop of `Plot`: the current abscissa and the last two points computed, and the lines drawn. `/repo/grid.go:427-446`. -/
structure PlotSt where
  x : Rat
  p0 : Rat × Rat
  p1 : Rat × Rat
  out : List Op

/-- One turn of the loop of `Plot`, `/repo/grid.go:432-444`. -/
def plotStep (g : Grid) (fnc : Rat → Rat) (delta : Rat) (s : PlotSt) (j : Nat) : PlotSt :=
  let s := if j = 0 then { s with p1 := (g.X s.x, g.Y (fnc s.x)) } else { s with out := s.out ++ [.line s.p0.1 s.p0.2 s.p1.1 s.p1.2] }
  let x := s.x + delta
  { s with x := x, p0 := s.p1, p1 := (g.X x, g.Y (fnc x)) }

/-- `Plot`, `/repo/grid.go:427-446`: the calls made. SIMPLIFICATION: the function plotted has no side effects. -/
def plot (g : Grid) (xMin xMax : Rat) (count : Nat) (fnc : Rat → Rat) : List Op :=
  if count > 0 then
    ((List.range (count + 1)).foldl (g.plotStep fnc ((xMax - xMin) / count)) ⟨xMin, (0, 0), (0, 0), []⟩).out
  else []

end Grid
end Verif.Model
