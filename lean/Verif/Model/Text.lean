import Verif.Model.Wrap
/-
Text output, images and links: `/repo/fpdf.go:2136-3064`, `/repo/subwrite.go`.
-/
namespace Verif.Model

/-- `func reverseText`, `/repo/fpdf.go:2498-2506`. -/
def reverseText (s : Bytes) : Bytes := runesToBytes (runes s).reverse

/-- `func blankCount`, `/repo/fpdf.go:3602-3610`. -/
def blankCount (s : Bytes) : Nat := s.count 32

/-- Go `strings.Split(s, " ")`. `/repo/fpdf.go:2433`. -/
def splitSpaces : Bytes → List Bytes
  | [] => [[]]
  | c :: r =>
    match splitSpaces r with
    | t :: ts => if c = 32 then [] :: t :: ts else (c :: t) :: ts
    | [] => [[c]]

/-- Go `int(math.Ceil(x))`. `/repo/fpdf.go:2426`. -/
def ceilInt (x : Rat) : Int := x.ceil

namespace Fpdf

/-- `dounderline`, `/repo/fpdf.go:3619-3625`. -/
def dounderline (f : Fpdf) (x y : Rat) (txt : Bytes) : Bytes :=
  let up : Rat := f.t.currentFont.up
  let ut : Rat := f.t.currentFont.ut * f.t.userUnderlineThickness
  let w := f.getStringWidth txt + f.t.ws * blankCount txt
  sprintf "%.2f %.2f %.2f %.2f re f" [.f (x * f.k), .f ((f.p.h - (y - up / 1000 * f.t.fontSize)) * f.k), .f (w * f.k),
    .f (-ut / 1000 * f.t.fontSizePt)]

/-- `dostrikeout`, `/repo/fpdf.go:3627-3633`. -/
def dostrikeout (f : Fpdf) (x y : Rat) (txt : Bytes) : Bytes :=
  let up : Rat := f.t.currentFont.up
  let ut : Rat := f.t.currentFont.ut
  let w := f.getStringWidth txt + f.t.ws * blankCount txt
  sprintf "%.2f %.2f %.2f %.2f re f" [.f (x * f.k), .f ((f.p.h - (y + 4 * up / 1000 * f.t.fontSize)) * f.k), .f (w * f.k),
    .f (-ut / 1000 * f.t.fontSizePt)]

/-- Recording the runes of a text as used, `/repo/fpdf.go:2217-2219`. -/
def useRunes (f : Fpdf) (s : Bytes) : Fpdf :=
  { f with t.usedRunes := f.t.usedRunes ++ (runes s).map fun r => (f.t.currentFont.i, r) }

/-- `newLink`, `/repo/fpdf.go:2163-2171`. -/
def newLink (f : Fpdf) (x y w h : Rat) (link : Nat) (linkStr : Bytes) : Fpdf :=
  let r : LinkRec :=
    { x := x * f.k, y := f.p.hPt - y * f.k, wd := w * f.k, ht := h * f.k, link := link, linkStr := linkStr }
  { f with l.pageLinks := modifyAt f.page (· ++ [r]) f.l.pageLinks }

/-- `AddLink`, `/repo/fpdf.go:2146-2149`; the identifier returned is the old length of `links`. -/
def addLink (f : Fpdf) : Fpdf := { f with l.links := f.l.links ++ [(0, 0)] }

/-- `SetLink`, `/repo/fpdf.go:2152-2160`. `page = none` is -1; the code panics on an unknown link. -/
def setLink (f : Fpdf) (link : Nat) (y : Rat) (page : Option Nat) : Fpdf :=
  if link < f.l.links.length then
    { f with l.links := f.l.links.set link (page.getD f.page, if y = -1 then f.p.y else y) }
  else { f with panicked := true }

/-- `Bookmark`, `/repo/fpdf.go:2194-2202`. -/
def bookmark (f : Fpdf) (txt : Bytes) (level : Int) (y : Rat) : Fpdf :=
  let y := if y = -1 then f.p.y else y
  let f := if f.t.isUTF8 then f.noteU16 txt else f
  let txt := if f.t.isUTF8 then u16 txt true else txt
  let o : OutlineRec := { text := txt, level := level, y := y, p := f.page }
  { f with l.outlines := f.l.outlines ++ [o] }

/-- `Text`, `/repo/fpdf.go:2208-2233`. -/
def text (f : Fpdf) (x y : Rat) (txt : Bytes) : Fpdf :=
  let (f, x, txt, txt2) :=
    if f.t.isUTF8 then
      let (txt, x) := if f.t.isRTL then (reverseText txt, x - f.getStringWidth (reverseText txt)) else (txt, x)
      ((f.noteU16 txt).useRunes txt, x, txt, escape (u16 txt false))
    else (f, x, txt, escape txt)
  let s := sprintf "BT %.2f %.2f Td (%s) Tj ET" [.f (x * f.k), .f ((f.p.h - y) * f.k), .s txt2]
  let s := if f.t.underline ∧ txt ≠ [] then s ++ B " " ++ f.dounderline x y txt else s
  let s := if f.t.strikeout ∧ txt ≠ [] then s ++ B " " ++ f.dostrikeout x y txt else s
  let s := if f.c.colorFlag then sprintf "q %s %s Q" [.s f.c.text.str, .s s] else s
  f.out s

/-- `SetWordSpacing`, `/repo/fpdf.go:2237-2239`. -/
def setWordSpacing (f : Fpdf) (w : Rat) : Fpdf := f.outf "%.5f Tw" [.f (w * f.k)]

/-- `SetTextRenderingMode`, `/repo/fpdf.go:2252-2256`. -/
def setTextRenderingMode (f : Fpdf) (m : Int) : Fpdf := if m ≥ 0 ∧ m ≤ 7 then f.outf "%d Tr" [.d m] else f

/-- The page-break part of `CellFormat`, `/repo/fpdf.go:2326-2344`: `false` when the function returns there. -/
def cellBreak (E : Ext) (cb : Cb) (f : Fpdf) (h : Rat) : Fpdf × Bool :=
  if f.p.y + h > f.p.pageBreakTrigger ∧ ¬ f.inHeader ∧ ¬ f.inFooter then
    let (acc, f) := cb.accept f
    if acc then
      let x := f.p.x
      let ws := f.t.ws
      let f := if ws > 0 then
          let f := { f with t.ws := 0 }
          f.outs "0 Tw"
        else f
      let f := f.addPageFormat E cb f.p.curOrientation f.p.curPageSize
      if f.err ≠ none then (f, false)
      else
        let f := { f with p.x := x }
        if ws > 0 then
          let f := { f with t.ws := ws }
          (f.outf "%.3f Tw" [.f (ws * f.k)], true)
        else (f, true)
    else (f, true)
  else (f, true)

/-- Background and full border of a cell, `/repo/fpdf.go:2349-2365`. -/
def cellRect (f : Fpdf) (w h : Rat) (border : Bytes) (fill : Bool) : Bytes :=
  if fill ∨ border = B "1" then
    let op := if fill then (if border = B "1" then B "B" else B "f") else B "S"
    sprintf "%.2f %.2f %.2f %.2f re %s " [.f (f.p.x * f.k), .f ((f.p.h - f.p.y) * f.k), .f (w * f.k), .f (-h * f.k), .s op]
  else []

/-- One border line. `/repo/fpdf.go:2374-2385`. -/
def borderLine (a b c d : Rat) : Bytes := sprintf "%.2f %.2f m %.2f %.2f l S " [.f a, .f b, .f c, .f d]

/-- Border sides of a cell, `/repo/fpdf.go:2366-2386`. -/
def cellBorder (f : Fpdf) (w h : Rat) (border : Bytes) : Bytes :=
  if border ≠ [] ∧ border ≠ B "1" then
    let left := f.p.x * f.k
    let top := (f.p.h - f.p.y) * f.k
    let right := (f.p.x + w) * f.k
    let bottom := (f.p.h - (f.p.y + h)) * f.k
    (if border.contains 0x4C then borderLine left top left bottom else [])
      ++ (if border.contains 0x54 then borderLine left top right top else [])
      ++ (if border.contains 0x52 then borderLine right top right bottom else [])
      ++ (if border.contains 0x42 then borderLine left bottom right bottom else [])
  else []

/-- Horizontal offset, `/repo/fpdf.go:2389-2397`. -/
def cellDx (f : Fpdf) (w : Rat) (txt align : Bytes) : Rat :=
  if align.contains 0x52 then w - f.p.cMargin - f.getStringWidth txt
  else if align.contains 0x43 then (w - f.getStringWidth txt) / 2
  else f.p.cMargin

/-- Vertical offset, `/repo/fpdf.go:2399-2417`. -/
def cellDy (f : Fpdf) (h : Rat) (align : Bytes) : Rat :=
  if align.contains 0x54 then (f.t.fontSize - h) / 2
  else if align.contains 0x42 then (h - f.t.fontSize) / 2
  else if align.contains 0x41 then
    let d := f.t.currentFont
    let descent := if d.descent = 0 then -(19 / 100) * f.t.fontSize
      else (d.descent : Rat) * f.t.fontSize / ((d.ascent - d.descent : Int) : Rat)
    (h - f.t.fontSize) / 2 - descent
  else 0

/-- The pieces of a justified line, `/repo/fpdf.go:2430-2443`. -/
def justPieces (shift : Rat) : List Bytes → Bytes
  | [] => []
  | [t] => B "(" ++ escape (u16 t false) ++ B ") "
  | t :: r => B "(" ++ escape (u16 t false) ++ B ") " ++ fmtF 3 (-shift) ++ B "(" ++ escape (u16 (B " ") false) ++ B ") "
      ++ justPieces shift r

/-- The text operators of a cell, `/repo/fpdf.go:2421-2465`: the bytes, the state (runes recorded) and the text after a possible
reversal. -/
def cellText (f : Fpdf) (w h dx dy : Rat) (txt align : Bytes) : Fpdf × Bytes × Bytes :=
  if (f.t.ws ≠ 0 ∨ align = B "J") ∧ f.t.isUTF8 then
    let txt := if f.t.isRTL then reverseText txt else txt
    let wmax := ceilInt ((w - 2 * f.p.cMargin) * 1000 / f.t.fontSize)
    let f := (f.noteU16 txt).useRunes txt
    let strSize := f.getStringSymbolWidth txt
    let t := splitSpaces txt
    let shift : Rat := ((wmax - strSize : Int) : Rat) / ((t.length - 1 : Nat) : Rat)
    (f, sprintf "BT 0 Tw %.2f %.2f Td [" [.f ((f.p.x + dx) * f.k),
        .f ((f.p.h - (f.p.y + h / 2 + 3 / 10 * f.t.fontSize)) * f.k)] ++ justPieces shift t ++ B "] TJ ET", txt)
  else
    let txt := if f.t.isUTF8 ∧ f.t.isRTL then reverseText txt else txt
    let (f, txt2) := if f.t.isUTF8 then ((f.noteU16 txt).useRunes txt, escape (u16 txt false)) else (f, escapeCell txt)
    (f, sprintf "BT %.2f %.2f Td (%s)Tj ET" [.f ((f.p.x + dx) * f.k),
        .f ((f.p.h - (f.p.y + dy + h / 2 + 3 / 10 * f.t.fontSize)) * f.k), .s txt2], txt)

/-- Text of a cell with decorations, colour and link, `/repo/fpdf.go:2387-2479`. -/
def cellContent (f : Fpdf) (w h : Rat) (txt align : Bytes) (link : Nat) (linkStr : Bytes) : Fpdf × Bytes :=
  if txt.length > 0 then
    let dx := f.cellDx w txt align
    let dy := f.cellDy h align
    let (f, s, txt) := f.cellText w h dx dy txt align
    let y := f.p.y + dy + h / 2 + 3 / 10 * f.t.fontSize
    let s := if f.t.underline then s ++ B " " ++ f.dounderline (f.p.x + dx) y txt else s
    let s := if f.t.strikeout then s ++ B " " ++ f.dostrikeout (f.p.x + dx) y txt else s
    let s := if f.c.colorFlag then B "q " ++ f.c.text.str ++ B " " ++ s ++ B " Q" else s
    let f := if link > 0 ∨ linkStr ≠ [] then
        f.newLink (f.p.x + dx) (f.p.y + dy + h / 2 - f.t.fontSize / 2) (f.getStringWidth txt) f.t.fontSize link linkStr
      else f
    (f, s)
  else (f, [])

/-- The cursor after a cell, `/repo/fpdf.go:2484-2493`. -/
def cellAdvance (f : Fpdf) (w h : Rat) (ln : Int) : Fpdf :=
  let f := { f with p.lasth := h }
  if ln > 0 then
    let f := { f with p.y := f.p.y + h }
    if ln = 1 then { f with p.x := f.p.lMargin } else f
  else { f with p.x := f.p.x + w }

/-- The drawing part of `CellFormat`, `/repo/fpdf.go:2345-2494`. -/
def cellDraw (f : Fpdf) (w h : Rat) (txt border : Bytes) (ln : Int) (align : Bytes) (fill : Bool) (link : Nat)
    (linkStr : Bytes) : Fpdf :=
  let w := if w = 0 then f.p.w - f.p.rMargin - f.p.x else w
  let pre := f.cellRect w h border fill ++ f.cellBorder w h border
  let (f, s) := f.cellContent w h txt align link linkStr
  let str := pre ++ s
  let f := if str.length > 0 then f.out str else f
  f.cellAdvance w h ln

/-- `CellFormat`, `/repo/fpdf.go:2312-2495`. -/
def cellFormat (E : Ext) (cb : Cb) (f : Fpdf) (w h : Rat) (txt border : Bytes) (ln : Int) (align : Bytes) (fill : Bool)
    (link : Nat) (linkStr : Bytes) : Fpdf :=
  if f.err ≠ none then f
  else if f.t.currentFont.name = [] then f.assignErr "font has not been set; unable to render text"
  else
    let (f, goOn) := f.cellBreak E cb h
    if goOn then f.cellDraw w h txt (toUpper border) ln align fill link linkStr else f

/-- Ending word spacing, `/repo/fpdf.go:2678-2681`. -/
def endWs (f : Fpdf) : Fpdf :=
  if f.t.ws > 0 then
    let f := { f with t.ws := 0 }
    f.outs "0 Tw"
  else f

/-- Borders of the first and of the other cells of a `MultiCell`, `/repo/fpdf.go:2639-2660`. -/
def mcBorders (border : Bytes) : Bytes × Bytes × Bytes :=
  if border = [] then (border, B "0", [])
  else if border = B "1" then (B "LTRB", B "LRT", B "LR")
  else
    let b2 := (if border.contains 0x4C then B "L" else []) ++ (if border.contains 0x52 then B "R" else [])
    (border, if border.contains 0x54 then b2 ++ B "T" else b2, b2)

/-- Parameters of one `MultiCell` call that do not change during its loop. SIMPLIFICATION: the code reads the current font's
UTF-8 flag and missing width again for each character; they can only change if a call-back changes the font and the
following restore fails. `/repo/fpdf.go:2598-2610`. -/
structure McParams where
  w : Rat
  h : Rat
  s : List Nat
  utf8 : Bool
  cw : List Int
  miss : Int
  wmax : Int
  border : Bytes
  b2 : Bytes
  align : Bytes
  fill : Bool

/-- Text of characters `a` to `b`. `/repo/fpdf.go:2692`. -/
def McParams.sub (P : McParams) (a b : Nat) : Bytes :=
  if P.utf8 then runesToBytes (slice P.s a b) else (slice P.s a b).map UInt8.ofNat

/-- The loop of `MultiCell`, `/repo/fpdf.go:2668-2784`, from the line starting at `j`, the `nl`-th line, with border `b`. `fuel` bounds the
number of lines (it never runs out, `Verif.Props`). -/
def mcLoop (E : Ext) (cb : Cb) (P : McParams) : Nat → Fpdf → Nat → Nat → Bytes → Fpdf
  | 0, f, _, _, _ => f
  | fuel + 1, f, j, nl, b =>
    let nextB := if P.border.length > 0 ∧ nl + 1 = 2 then P.b2 else b
    match scanMc P.cw P.miss P.wmax j (P.s.drop j) j none 0 0 with
    | .newline i =>
      let f := f.endWs
      let al := if P.utf8 ∧ P.align = B "J" then (if f.t.isRTL then B "R" else B "L") else P.align
      let f := f.cellFormat E cb P.w P.h (P.sub j i) b 2 al P.fill 0 []
      mcLoop E cb P fuel f (i + 1) (nl + 1) nextB
    | .cut i =>
      let f := f.endWs
      let f := f.cellFormat E cb P.w P.h (P.sub j i) b 2 P.align P.fill 0 []
      mcLoop E cb P fuel f i (nl + 1) nextB
    | .atSep p ls ns =>
      let f := if P.align = B "J" then
          let ws : Rat := if ns > 1 then (((P.wmax - ls).tdiv 1000 : Int) : Rat) * f.t.fontSize / ((ns - 1 : Nat) : Rat) else 0
          let f := { f with t.ws := ws }
          f.outf "%.3f Tw" [.f (ws * f.k)]
        else f
      let f := f.cellFormat E cb P.w P.h (P.sub j p) b 2 P.align P.fill 0 []
      mcLoop E cb P fuel f (p + 1) (nl + 1) nextB
    | .badChar => f.assignErr "character outside the supported range"
    | .eof =>
      let f := f.endWs
      let b := if P.border.length > 0 ∧ P.border.contains 0x42 then b ++ B "B" else b
      let al := if P.utf8 ∧ P.align = B "J" then (if f.t.isRTL then B "R" else []) else P.align
      let f := f.cellFormat E cb P.w P.h (P.sub j P.s.length) b 2 al P.fill 0 []
      { f with p.x := f.p.lMargin }

/-- The characters `MultiCell` works on, `/repo/fpdf.go:2611-2637`: carriage returns dropped; for a UTF-8 font all trailing newlines
dropped, otherwise one. -/
def mcChars (utf8 : Bool) (txt : Bytes) : List Nat :=
  let s := txt.filter (· ≠ 13)
  if utf8 then trimNl (runes s)
  else
    let cs := s.map UInt8.toNat
    if cs.getLast? = some 10 then cs.dropLast else cs

/-- `MultiCell`, `/repo/fpdf.go:2598-2785`. -/
def multiCell (E : Ext) (cb : Cb) (f : Fpdf) (w h : Rat) (txt border align : Bytes) (fill : Bool) : Fpdf :=
  if f.err ≠ none then f
  else
    let align := if align = [] then B "J" else align
    let w := if w = 0 then f.p.w - f.p.rMargin - f.p.x else w
    let wmax := ceilInt ((w - 2 * f.p.cMargin) * 1000 / f.t.fontSize)
    let s := mcChars f.t.isUTF8 txt
    let (border, b, b2) := mcBorders border
    let P : McParams :=
      { w := w, h := h, s := s, utf8 := f.t.isUTF8, cw := f.t.currentFont.cw
        miss := f.t.currentFont.missingWidth, wmax := wmax, border := border, b2 := b2, align := align, fill := fill }
    mcLoop E cb P (s.length + 1) f 0 1 b

/-- Parameters of one call of `write`. `/repo/fpdf.go:2788-2803`. -/
structure WrParams where
  h : Rat
  s : List Nat
  utf8 : Bool
  cw : List Int
  link : Nat
  linkStr : Bytes

/-- Text of characters `a` to `b`. `/repo/fpdf.go:2820`. -/
def WrParams.sub (P : WrParams) (a b : Nat) : Bytes :=
  if P.utf8 then runesToBytes (slice P.s a b) else (slice P.s a b).map UInt8.ofNat

/-- Variables of the loop of `write`. `/repo/fpdf.go:2804-2808`. -/
structure WrVars where
  i : Nat
  j : Nat
  sep : Option Nat
  l : Rat
  nl : Nat
  w : Rat
  wmax : Rat

/-- Recomputing the available width, `/repo/fpdf.go:2828-2832`. -/
def wrReset (f : Fpdf) (v : WrVars) : Fpdf × WrVars :=
  let (f, v) :=
    if v.nl = 1 then
      let f := { f with p.x := f.p.lMargin }
      let w := f.p.w - f.p.rMargin - f.p.x
      (f, { v with w := w, wmax := (w - 2 * f.p.cMargin) * 1000 / f.t.fontSize })
    else (f, v)
  (f, { v with nl := v.nl + 1 })

/-- The loop of `write`, `/repo/fpdf.go:2809-2889`. `fuel` bounds the number of iterations. -/
def wrLoop (E : Ext) (cb : Cb) (P : WrParams) : Nat → Fpdf → WrVars → Fpdf
  | 0, f, _ => f
  | fuel + 1, f, v =>
    match P.s[v.i]? with
    | none =>
      if v.i ≠ v.j then
        f.cellFormat E cb (v.l / 1000 * f.t.fontSize) P.h (P.sub v.j P.s.length) [] 0 [] false P.link P.linkStr
      else f
    | some c =>
      if c = 10 then
        let f := f.cellFormat E cb v.w P.h (P.sub v.j v.i) [] 2 [] false P.link P.linkStr
        let v : WrVars := { v with i := v.i + 1, sep := none, j := v.i + 1, l := 0 }
        let (f, v) := f.wrReset v
        wrLoop E cb P fuel f v
      else
        let v := if c = 32 then { v with sep := some v.i } else v
        match P.cw[c]? with
        | none => { f with panicked := true }
        | some wc =>
          let v := { v with l := v.l + wc }
          if v.l > v.wmax then
            match v.sep with
            | none =>
              if f.p.x > f.p.lMargin then
                let f := { f with p.x := f.p.lMargin, p.y := f.p.y + P.h }
                let w := f.p.w - f.p.rMargin - f.p.x
                let v : WrVars := { v with w := w, wmax := (w - 2 * f.p.cMargin) * 1000 / f.t.fontSize }
                wrLoop E cb P fuel f { v with i := v.i + 1, nl := v.nl + 1 }
              else
                let i := if v.i = v.j then v.i + 1 else v.i
                let f := f.cellFormat E cb v.w P.h (P.sub v.j i) [] 2 [] false P.link P.linkStr
                let (f, v) := f.wrReset { v with i := i, sep := none, j := i, l := 0 }
                wrLoop E cb P fuel f v
            | some p =>
              let f := f.cellFormat E cb v.w P.h (P.sub v.j p) [] 2 [] false P.link P.linkStr
              let (f, v) := f.wrReset { v with i := p + 1, sep := none, j := p + 1, l := 0 }
              wrLoop E cb P fuel f v
          else wrLoop E cb P fuel f { v with i := v.i + 1 }

/-- `write`, `/repo/fpdf.go:2788-2898`. -/
def write (E : Ext) (cb : Cb) (f : Fpdf) (h : Rat) (txt : Bytes) (link : Nat) (linkStr : Bytes) : Fpdf :=
  let w := f.p.w - f.p.rMargin - f.p.x
  let wmax := (w - 2 * f.p.cMargin) * 1000 / f.t.fontSize
  let s := txt.filter (· ≠ 13)
  if f.t.isUTF8 ∧ s = B " " then { f with p.x := f.p.x + f.getStringWidth s }
  else
    let cs := if f.t.isUTF8 then runes s else s.map UInt8.toNat
    let P : WrParams := { h := h, s := cs, utf8 := f.t.isUTF8, cw := f.t.currentFont.cw, link := link, linkStr := linkStr }
    wrLoop E cb P ((cs.length + 2) * (cs.length + 2)) f { i := 0, j := 0, sep := none, l := 0, nl := 1, w := w, wmax := wmax }

/-- `SplitLines`, `/repo/fpdf.go:2531-2573`. -/
def splitLines (f : Fpdf) (txt : Bytes) (w : Rat) : List Bytes :=
  (splitLinesCore (fun c => f.t.currentFont.cw.getD c 0) (ceilInt ((w - 2 * f.p.cMargin) * 1000 / f.t.fontSize))
    (txt.map UInt8.toNat)).map (·.map UInt8.ofNat)

/-- `SplitText`, `/repo/splittext.go:13-53`. -/
def splitText (f : Fpdf) (txt : Bytes) (w : Rat) : List Bytes :=
  (splitTextCore (fun c => f.t.currentFont.cw.getD c 0) (ceilInt ((w - 2 * f.p.cMargin) * 1000 / f.t.fontSize))
    (runes txt)).map runesToBytes

/-- One line of `WriteAligned`, `/repo/fpdf.go:2957-2973`. -/
def writeAlignedLine (E : Ext) (cb : Cb) (lM rM pw width lh : Rat) (align : Bytes) (f : Fpdf) (line : Bytes) : Fpdf :=
  let lw := f.getStringWidth line
  if align = B "C" then
    ((f.setLeftMargin (lM + (width - lw) / 2)).write E cb lh line 0 []).setLeftMargin lM
  else if align = B "R" then
    ((f.setLeftMargin (lM + (width - lw) - 201 / 100 * f.p.cMargin)).write E cb lh line 0 []).setLeftMargin lM
  else
    ((f.setRightMargin (pw - lM - width)).write E cb lh line 0 []).setRightMargin rM

/-- `WriteAligned`, `/repo/fpdf.go:2935-2972`. -/
def writeAligned (E : Ext) (cb : Cb) (f : Fpdf) (width lh : Rat) (txt align : Bytes) : Fpdf :=
  let lM := f.p.lMargin
  let rM := f.p.rMargin
  let pw := f.p.w
  let width := if width = 0 then pw - (lM + rM) else width
  let lines := if f.t.isUTF8 then f.splitText txt width else f.splitLines txt width
  lines.foldl (writeAlignedLine E cb lM rM pw width lh align) f

/-- `SubWrite`, `/repo/subwrite.go:15-35`. -/
def subWrite (E : Ext) (cb : Cb) (f : Fpdf) (ht : Rat) (str : Bytes) (subFontSize subOffset : Rat) (link : Nat)
    (linkStr : Bytes) : Fpdf :=
  if f.err ≠ none then f
  else
    let old := f.t.fontSizePt
    let f := f.setFontSize subFontSize
    let off := (subFontSize - old) / f.k * (3 / 10) + subOffset / f.k
    let f := f.setXY f.p.x (f.p.y - off)
    let f := f.write E cb ht str link linkStr
    let f := f.setXY f.p.x (f.p.y + off)
    f.setFontSize old

/-- `Ln`, `/repo/fpdf.go:2979-2986`. -/
def ln (f : Fpdf) (h : Rat) : Fpdf :=
  { f with p.x := f.p.lMargin, p.y := if h < 0 then f.p.y + f.p.lasth else f.p.y + h }

/-- The size at which an image is drawn, `/repo/fpdf.go:3009-3036`. -/
def imageSize (k : Rat) (info : ImageInfo) (w h : Rat) : Rat × Rat :=
  let (w, h) := if w = 0 ∧ h = 0 then (-96, -96) else (w, h)
  let w := if w = -1 then -info.dpi else w
  let h := if h = -1 then -info.dpi else h
  let w := if w < 0 then -info.w * 72 / w / k else w
  let h := if h < 0 then -info.h * 72 / h / k else h
  let w := if w = 0 then h * info.w / info.h else w
  let h := if h = 0 then w * info.h / info.w else h
  (w, h)

/-- The page-break part of `imageOut`, `/repo/fpdf.go:3037-3050`: `true` when drawing goes on. -/
def imageBreak (E : Ext) (cb : Cb) (f : Fpdf) (h : Rat) : Fpdf × Bool :=
  if f.p.y + h > f.p.pageBreakTrigger ∧ ¬ f.inHeader ∧ ¬ f.inFooter then
    let (acc, f) := cb.accept f
    if acc then
      let x2 := f.p.x
      let f := f.addPageFormat E cb f.p.curOrientation f.p.curPageSize
      if f.err ≠ none then (f, false) else ({ f with p.x := x2 }, true)
    else (f, true)
  else (f, true)

/-- `imageOut`, `/repo/fpdf.go:3008-3062`. -/
def imageOut (E : Ext) (cb : Cb) (f : Fpdf) (info : ImageInfo) (x y w h : Rat) (allowNeg flow : Bool) (link : Nat)
    (linkStr : Bytes) : Fpdf :=
  let (w, h) := imageSize f.k info w h
  let (f, goOn) := if flow then f.imageBreak E cb h else (f, true)
  if goOn then
    let (f, y) := if flow then ({ f with p.y := f.p.y + h }, f.p.y) else (f, y)
    let x := if ¬ allowNeg ∧ x < 0 then f.p.x else x
    let f := f.outf "q %.5f 0 0 %.5f %.5f %.5f cm /I%s Do Q" [.f (w * f.k), .f (h * f.k), .f (x * f.k),
      .f ((f.p.h - (y + h)) * f.k), .s info.i]
    if link > 0 ∨ linkStr ≠ [] then f.newLink x y w h link linkStr else f
  else f

/-- `RegisterImageOptionsReader`, `/repo/fpdf.go:3163-3202`: `parsed` is the result of decoding (`none`: an error). Decoding a PNG with an
alpha channel raises the document version (`/repo/png.go:207-209`). -/
def registerImage (E : Ext) (f : Fpdf) (name : Bytes) (parsed : Option ImageInfo) : Fpdf :=
  if f.err ≠ none then f
  else
    match lookup name f.r.images with
    | some _ => f
    | none =>
      match parsed with
      | none => f.assignErr "cannot read image"
      | some info =>
        let info := { info with n := 0 }
        let info := { info with i := hexEnc (E.imgHash info) }
        let f := if info.smask.isSome ∧ f.m.pdfVersion < 4 then { f with m.pdfVersion := 4 } else f
        { f with r.images := Model.insert name f.r.imgHeap.length f.r.images, r.imgHeap := f.r.imgHeap ++ [info] }

/-- `RegisterImageOptions` (`RegisterImage`), `/repo/fpdf.go:3211-3248`: `opened` tells whether the file could be opened. -/
def registerImageFile (E : Ext) (f : Fpdf) (name : Bytes) (opened : Bool) (parsed : Option ImageInfo) : Fpdf :=
  match lookup name f.r.images with
  | some _ => f
  | none => if opened then f.registerImage E name parsed else f.assignErr "cannot open image file"

/-- `ImageOptions`, `/repo/fpdf.go:3112-3122` (and `Image`). -/
def image (E : Ext) (cb : Cb) (f : Fpdf) (name : Bytes) (parsed : Option ImageInfo) (x y w h : Rat) (allowNeg flow : Bool)
    (link : Nat) (linkStr : Bytes) : Fpdf :=
  if f.err ≠ none then f
  else
    let f := f.registerImageFile E name parsed.isSome parsed
    if f.err ≠ none then f
    else
      match (lookup name f.r.images).bind (f.r.imgHeap[·]?) with
      | some info => f.imageOut E cb info x y w h allowNeg flow link linkStr
      | none => f

end Fpdf
end Verif.Model
