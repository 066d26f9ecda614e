import Verif.Model.Font
/-
Pages, margins, cursor: `/repo/fpdf.go:60-460`, `660-850`, `3366-3405`, `3509-3556`.
-/
namespace Verif.Model
namespace Fpdf

/-- `SetMargins`, `/repo/fpdf.go:318-325`. -/
def setMargins (f : Fpdf) (left top right : Rat) : Fpdf :=
  { f with p.lMargin := left, p.tMargin := top, p.rMargin := if right < 0 then left else right }

/-- `SetLeftMargin`, `/repo/fpdf.go:330-335`. -/
def setLeftMargin (f : Fpdf) (m : Rat) : Fpdf :=
  let f := { f with p.lMargin := m }
  if f.page > 0 ∧ f.p.x < m then { f with p.x := m } else f

/-- `SetTopMargin`, `/repo/fpdf.go:482-484`. -/
def setTopMargin (f : Fpdf) (m : Rat) : Fpdf := { f with p.tMargin := m }
/-- `SetRightMargin`, `/repo/fpdf.go:488-490`. -/
def setRightMargin (f : Fpdf) (m : Rat) : Fpdf := { f with p.rMargin := m }
/-- `SetCellMargin`, `/repo/fpdf.go:347-349`. -/
def setCellMargin (f : Fpdf) (m : Rat) : Fpdf := { f with p.cMargin := m }

/-- `SetAutoPageBreak`, `/repo/fpdf.go:505-509`. -/
def setAutoPageBreak (f : Fpdf) (auto : Bool) (m : Rat) : Fpdf :=
  { f with p.autoPageBreak := auto, p.bMargin := m, p.pageBreakTrigger := f.p.h - m }

/-- `SetX`, `/repo/fpdf.go:3366-3372`. -/
def setX (f : Fpdf) (x : Rat) : Fpdf := { f with p.x := if x ≥ 0 then x else f.p.w + x }

/-- `SetY`, `/repo/fpdf.go:3382-3390`. -/
def setY (f : Fpdf) (y : Rat) : Fpdf := { f with p.x := f.p.lMargin, p.y := if y ≥ 0 then y else f.p.h + y }

/-- `SetHomeXY`, `/repo/fpdf.go:3394-3397`. -/
def setHomeXY (f : Fpdf) : Fpdf := (f.setY f.p.tMargin).setX f.p.lMargin

/-- `SetXY`, `/repo/fpdf.go:3402-3405`. -/
def setXY (f : Fpdf) (x y : Rat) : Fpdf := (f.setY y).setX x

/-- The canonical name of a page box type, `/repo/fpdf.go:356-376`. -/
def boxName (t : Bytes) : Option Bytes :=
  let t := toLower t
  if t = B "trim" ∨ t = B "trimbox" then some (B "TrimBox")
  else if t = B "crop" ∨ t = B "cropbox" then some (B "CropBox")
  else if t = B "bleed" ∨ t = B "bleedbox" then some (B "BleedBox")
  else if t = B "art" ∨ t = B "artbox" then some (B "ArtBox")
  else none

/-- `SetPageBoxRec`, `/repo/fpdf.go:355-389`. -/
def setPageBoxRec (f : Fpdf) (t : Bytes) (pb : PageBox) : Fpdf :=
  match boxName t with
  | none => f.assignErr "not a valid page box type"
  | some t =>
    let x := pb.x * f.k
    let y := pb.y * f.k
    let pb : PageBox := { x := x, y := y, wd := pb.wd * f.k + x, ht := pb.ht * f.k + y }
    let f := if f.page > 0 then
        { f with p.pageBoxes := Model.insert f.page (Model.insert t pb ((lookup f.page f.p.pageBoxes).getD [])) f.p.pageBoxes }
      else f
    { f with p.defPageBoxes := Model.insert t pb f.p.defPageBoxes }

/-- `SetPage`, `/repo/fpdf.go:400-404`. -/
def setPage (f : Fpdf) (n : Int) : Fpdf :=
  if n > 0 ∧ n < f.pages.length then { f with page := n.toNat } else f

/-- `PageCount`, `/repo/fpdf.go:409-411`. -/
def pageCount (f : Fpdf) : Nat := f.pages.length - 1

/-- `PageSize`, `/repo/fpdf.go:701-709`. -/
def pageSize (f : Fpdf) (n : Nat) : Size :=
  match lookup n f.p.pageSizes with
  | some sz => { wd := sz.wd / f.k, ht := sz.ht / f.k }
  | none => f.p.defPageSize

/-- The dimensions of a page of the given size in the given orientation, `/repo/fpdf.go:3534-3540`. -/
def orient (o : Bytes) (s : Size) : Size := if o = B "P" then s else { wd := s.ht, ht := s.wd }

/-- Go `strings.ToUpper(s[0:1])`, `""` replaced by the default (`/repo/fpdf.go:3527-3531`). -/
def orientLetter (dflt o : Bytes) : Bytes := if o = [] then dflt else toUpper (o.take 1)

/-- `beginpage`, `/repo/fpdf.go:3509-3551`. -/
def beginpage (f : Fpdf) (orientation : Bytes) (size : Size) : Fpdf :=
  if f.err ≠ none then f
  else
    let f := { f with page := f.page + 1 }
    let f := { f with
      p.pageBoxes := Model.insert f.page f.p.defPageBoxes f.p.pageBoxes
      pages := f.pages ++ [[]]
      l.pageLinks := f.l.pageLinks ++ [[]]
      l.pageAttachments := f.l.pageAttachments ++ [[]]
      state := 2
      p.x := f.p.lMargin
      p.y := f.p.tMargin
      t.fontFamily := [] }
    let o := orientLetter f.p.defOrientation orientation
    let f : Fpdf :=
      if o ≠ f.p.curOrientation ∨ size ≠ f.p.curPageSize then
        let d := orient o size
        { f with p.w := d.wd, p.h := d.ht, p.wPt := d.wd * f.k, p.hPt := d.ht * f.k,
                 p.pageBreakTrigger := d.ht - f.p.bMargin, p.curOrientation := o, p.curPageSize := size }
      else f
    if o ≠ f.p.defOrientation ∨ size ≠ f.p.defPageSize then
      let sz : Size := { wd := f.p.wPt, ht := f.p.hPt }
      { f with p.pageSizes := Model.insert f.page sz f.p.pageSizes }
    else f

/-- `endpage`, `/repo/fpdf.go:3553-3556`. -/
def endpage (f : Fpdf) : Fpdf :=
  let f := f.endLayer
  { f with state := 1 }

/-- Running the footer call-back, `/repo/fpdf.go:744-753` and `677-684`. -/
def runFooter (cb : Cb) (last : Bool) (f : Fpdf) : Fpdf :=
  let f := { f with inFooter := true }
  let f := match cb.footer with
    | some fn => fn last { f with log := f.log ++ [CbEvent.footer f.page last] }
    | none => f
  { f with inFooter := false }

/-- Running the header call-back, `/repo/fpdf.go:789-797`. -/
def runHeader (cb : Cb) (f : Fpdf) : Fpdf :=
  match cb.header with
  | some fn =>
    let f := fn { f with inHeader := true, log := f.log ++ [CbEvent.header f.page] }
    let f := { f with inHeader := false }
    if f.headerHomeMode then f.setHomeXY else f
  | none => f

/-- Closing the current page before a new one is begun, `/repo/fpdf.go:744-756`. -/
def leavePage (cb : Cb) (f : Fpdf) : Fpdf :=
  let f := if f.page ≠ f.pages.length - 1 then { f with page := f.pages.length - 1 } else f
  let f := if f.state = 0 then { f with state := 1 } else f
  if f.page > 0 then (f.runFooter cb false).endpage else f

/-- The settings saved by `AddPageFormat`, `/repo/fpdf.go:729-742`. -/
structure Saved where
  family : Bytes
  style : Bytes
  size : Rat
  lw : Rat
  dc : Color
  fc : Color
  tc : Color
  cf : Bool

/-- `/repo/fpdf.go:729-742`. -/
def save (f : Fpdf) : Saved :=
  { family := f.t.fontFamily
    style := f.t.fontStyle ++ (if f.t.underline then B "U" else []) ++ (if f.t.strikeout then B "S" else [])
    size := f.t.fontSizePt, lw := f.line.width, dc := f.c.draw, fc := f.c.fill, tc := f.c.text, cf := f.c.colorFlag }

/-- The line styles written at the start of a page, `/repo/fpdf.go:759-770`. -/
def pageLines (f : Fpdf) (lw : Rat) : Fpdf :=
  let f := f.outf "%d J" [.d f.line.cap]
  let f := f.outf "%d j" [.d f.line.join]
  let f := { f with line.width := lw }
  let f := f.outf "%.2f w" [.f (lw * f.k)]
  if f.line.dashArray.length > 0 then f.outputDashPattern else f

/-- Setting the font again, `/repo/fpdf.go:771-777` and `805-810`. -/
def restoreFont (E : Ext) (f : Fpdf) (s : Saved) : Fpdf :=
  if s.family ≠ [] then f.setFont E s.family s.style s.size else f

/-- Setting the colours at the start of the page, `/repo/fpdf.go:778-788`. -/
def pageColors (f : Fpdf) (s : Saved) : Fpdf :=
  let f := { f with c.draw := s.dc }
  let f := if s.dc.str ≠ B "0 G" then f.out s.dc.str else f
  let f := { f with c.fill := s.fc }
  let f := if s.fc.str ≠ B "0 g" then f.out s.fc.str else f
  { f with c.text := s.tc, c.colorFlag := s.cf }

/-- Restoring line width, `/repo/fpdf.go:798-802`. -/
def restoreLine (f : Fpdf) (s : Saved) : Fpdf :=
  if f.line.width ≠ s.lw then
    let f := { f with line.width := s.lw }
    f.outf "%.2f w" [.f (s.lw * f.k)]
  else f

/-- Restoring colours after the header, `/repo/fpdf.go:810-820`. -/
def restoreColors (f : Fpdf) (s : Saved) : Fpdf :=
  let f := if f.c.draw.str ≠ s.dc.str then
      let f := { f with c.draw := s.dc }
      f.out s.dc.str
    else f
  let f := if f.c.fill.str ≠ s.fc.str then
      let f := { f with c.fill := s.fc }
      f.out s.fc.str
    else f
  { f with c.text := s.tc, c.colorFlag := s.cf }

/-- `AddPageFormat`, `/repo/fpdf.go:719-822`. -/
def addPageFormat (E : Ext) (cb : Cb) (f : Fpdf) (orientation : Bytes) (size : Size) : Fpdf :=
  if f.err ≠ none then f
  else
    let s := f.save
    let f := f.leavePage cb
    let f := f.beginpage orientation size
    let f := f.pageLines s.lw
    let f := f.restoreFont E s
    if s.family ≠ [] ∧ f.err ≠ none then f
    else
      let f := f.pageColors s
      let f := f.runHeader cb
      let f := f.restoreLine s
      let f := f.restoreFont E s
      if s.family ≠ [] ∧ f.err ≠ none then f
      else f.restoreColors s

/-- `AddPage`, `/repo/fpdf.go:838-845`. -/
def addPage (E : Ext) (cb : Cb) (f : Fpdf) : Fpdf :=
  if f.err ≠ none then f else f.addPageFormat E cb f.p.defOrientation f.p.defPageSize

/-- `SetDisplayMode`, `/repo/fpdf.go:530-552`. -/
def setDisplayMode (f : Fpdf) (zoom layout : Bytes) : Fpdf :=
  if f.err ≠ none then f
  else
    let layout := if layout = [] then B "default" else layout
    if zoom ∈ [B "fullpage", B "fullwidth", B "real", B "default"] then
      let f := { f with m.zoomMode := zoom }
      if layout ∈ [B "single", B "continuous", B "two", B "default", B "SinglePage", B "OneColumn",
          B "TwoColumnLeft", B "TwoColumnRight", B "TwoPageLeft", B "TwoPageRight"] then
        { f with m.layoutMode := layout }
      else f.assignErr "incorrect layout display mode"
    else f.assignErr "incorrect zoom display mode"

/-- The scale factor of a unit, `/repo/fpdf.go:124-136`. -/
def unitScale (unit : Bytes) : Option Rat :=
  if unit = B "pt" ∨ unit = B "point" then some 1
  else if unit = B "mm" then some (72 / (254 / 10))
  else if unit = B "cm" then some (72 / (254 / 100))
  else if unit = B "in" ∨ unit = B "inch" then some 72
  else none

/-- The standard page sizes in points, `/repo/fpdf.go:139-148`. -/
def stdPageSizes : List (Bytes × Size) :=
  [(B "a3", ⟨84189 / 100, 119055 / 100⟩), (B "a4", ⟨59528 / 100, 84189 / 100⟩), (B "a5", ⟨42094 / 100, 59528 / 100⟩),
   (B "a6", ⟨29764 / 100, 42094 / 100⟩), (B "a2", ⟨119055 / 100, 168378 / 100⟩), (B "a1", ⟨168378 / 100, 238394 / 100⟩),
   (B "letter", ⟨612, 792⟩), (B "legal", ⟨612, 1008⟩), (B "tabloid", ⟨792, 1224⟩)]

/-- `fpdfNew`, `/repo/fpdf.go:60-212` (`New`, `NewCustom`). `gl.catalogSort` and the other package defaults are at their
initial values. -/
def new (orientation unit sizeStr : Bytes) (size : Size) : Fpdf :=
  let orientation := if orientation = [] then B "p" else toLower orientation
  let unit := if unit = [] then B "mm" else unit
  let sizeStr := if sizeStr = [] then B "A4" else sizeStr
  let f : Fpdf := {}
  -- `SetFontSize(12)` and the colours are set before the scale factor is known; `fontSize` is then 12/0 = +Inf in
  -- the code, which only matters if text is measured before any font is set. Here it is 12/k.
  let f := { f with t.fontSizePt := 12 }
  let f := f.setDrawColor 0 0 0
  let f := f.setFillColor 0 0 0
  let f := f.setTextColor 0 0 0
  let f := { f with c.colorFlag := false }
  match unitScale unit with
  | none => f.assignErr "incorrect unit"
  | some k =>
    let f := { f with k := k, unitStr := unit, t.fontSize := 12 / k }
    let sz : Option Size := if size.wd > 0 ∧ size.ht > 0 then some size
      else (lookup (toLower sizeStr) stdPageSizes).map fun s => ⟨s.wd / k, s.ht / k⟩
    match sz with
    | none => f.assignErr "unknown page size"
    | some sz =>
      let f := { f with p.defPageSize := sz, p.curPageSize := sz }
      let o := if orientation = B "p" ∨ orientation = B "portrait" then some (B "P")
        else if orientation = B "l" ∨ orientation = B "landscape" then some (B "L") else none
      match o with
      | none => f.assignErr "incorrect orientation"
      | some o =>
        let d := orient o sz
        let f := { f with p.defOrientation := o, p.curOrientation := o, p.w := d.wd, p.h := d.ht,
                          p.wPt := d.wd * k, p.hPt := d.ht * k }
        let margin : Rat := 2835 / 100 / k
        let f := f.setMargins margin margin margin
        let f := { f with p.cMargin := margin / 10, line.width := 567 / 1000 / k }
        let f := f.setAutoPageBreak true (2 * margin)
        let f := f.setDisplayMode (B "default") (B "default")
        { f with r.blendMode := B "Normal", m.producer := u16 (B "FPDF 1.7") true }

end Fpdf
end Verif.Model
