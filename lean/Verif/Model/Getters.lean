import Verif.Model.Machine
/-
The accessors of a document.
-/
namespace Verif.Model
namespace Fpdf

/-- `GetDrawColor`, `/repo/fpdf.go:899-901`. -/
def getDrawColor (f : Fpdf) : Int × Int × Int := (f.c.draw.ir, f.c.draw.ig, f.c.draw.ib)
/-- `GetFillColor`, `/repo/fpdf.go:922-924`. -/
def getFillColor (f : Fpdf) : Int × Int × Int := (f.c.fill.ir, f.c.fill.ig, f.c.fill.ib)
/-- `GetTextColor`, `/repo/fpdf.go:941-943`. -/
def getTextColor (f : Fpdf) : Int × Int × Int := (f.c.text.ir, f.c.text.ig, f.c.text.ib)
/-- `GetLineWidth`, `/repo/fpdf.go:1002-1004`. -/
def getLineWidth (f : Fpdf) : Rat := f.line.width
/-- `GetFontSize`, `/repo/fpdf.go:2138-2140`. -/
def getFontSize (f : Fpdf) : Rat × Rat := (f.t.fontSizePt, f.t.fontSize)
/-- `GetAlpha`, `/repo/fpdf.go:1327-1329`. -/
def getAlpha (f : Fpdf) : Rat × Bytes := (f.r.alpha, f.r.blendMode)
/-- `GetXY`, `/repo/fpdf.go:3351-3353`. -/
def getXY (f : Fpdf) : Rat × Rat := (f.p.x, f.p.y)
/-- `GetX`, `/repo/fpdf.go:3360-3362`. -/
def getX (f : Fpdf) : Rat := f.p.x
/-- `GetY`, `/repo/fpdf.go:3375-3377`. -/
def getY (f : Fpdf) : Rat := f.p.y
/-- `GetMargins`, `/repo/fpdf.go:307-313`. -/
def getMargins (f : Fpdf) : Rat × Rat × Rat × Rat := (f.p.lMargin, f.p.tMargin, f.p.rMargin, f.p.bMargin)
/-- `GetCellMargin`, `/repo/fpdf.go:340-342`. -/
def getCellMargin (f : Fpdf) : Rat := f.p.cMargin
/-- `GetPageSize`, `/repo/fpdf.go:298-302`. -/
def getPageSize (f : Fpdf) : Rat × Rat := (f.p.w, f.p.h)
/-- `GetAutoPageBreak`, `/repo/fpdf.go:495-499`. -/
def getAutoPageBreak (f : Fpdf) : Bool × Rat := (f.p.autoPageBreak, f.p.bMargin)
/-- `GetConversionRatio`, `/repo/fpdf.go:3341-3343`. -/
def getConversionRatio (f : Fpdf) : Rat := f.k
/-- `PageNo`, `/repo/fpdf.go:850-852`. -/
def pageNo (f : Fpdf) : Nat := f.page

/-- The id that `AddLayer` returns, `/repo/layer.go:45-49`. -/
def addLayerId (f : Fpdf) : Nat := f.layer.list.length

/-- `PointConvert`, `PointToUnitConvert`, `/repo/def.go:223-225`. -/
def pointConvert (f : Fpdf) (pt : Rat) : Rat := pt / f.k
/-- `UnitToPointConvert`, `/repo/def.go:236-238`. -/
def unitToPointConvert (f : Fpdf) (u : Rat) : Rat := u * f.k

/-- `returnSpotColor`, `/repo/spotcolor.go:122-137`: name and components of the spot colour of a colour
setting. The error recorded for an unregistered name is left out: a name in a colour setting is registered. -/
def returnSpotColor (f : Fpdf) (clr : Color) : Bytes × Nat × Nat × Nat × Nat :=
  if clr.spotStr ≠ [] then
    match (f.getSpotColor clr.spotStr).2 with
    | some s => (clr.spotStr, s.c, s.m, s.y, s.k)
    | none => (clr.spotStr, 0, 0, 0, 0)
  else ([], 0, 0, 0, 0)

/-- `GetDrawSpotColor`, `/repo/spotcolor.go:143-145`. -/
def getDrawSpotColor (f : Fpdf) : Bytes × Nat × Nat × Nat × Nat := f.returnSpotColor f.c.draw
/-- `GetTextSpotColor`, `/repo/spotcolor.go:151-153`. -/
def getTextSpotColor (f : Fpdf) : Bytes × Nat × Nat × Nat × Nat := f.returnSpotColor f.c.text
/-- `GetFillSpotColor`, `/repo/spotcolor.go:159-161`. -/
def getFillSpotColor (f : Fpdf) : Bytes × Nat × Nat × Nat × Nat := f.returnSpotColor f.c.fill

/-- `GetImageInfo`, `/repo/fpdf.go:3253-3255`. -/
def getImageInfo (f : Fpdf) (name : Bytes) : Option ImageInfo := (lookup name f.r.images).bind (f.r.imgHeap[·]?)

end Fpdf
end Verif.Model
