import Verif.Model.Ext
/-
Fonts: `/repo/fpdf.go:1660-2150`.
-/
namespace Verif.Model

/-- `func fontFamilyEscape`, `/repo/util.go:458-462`. -/
def fontFamilyEscape (s : Bytes) : Bytes := replaceAll (B " ") (B "#20") s

/-- `func getFontKey`, `/repo/fpdf.go:1935-1942`. -/
def getFontKey (family style : Bytes) : Bytes :=
  let style := toUpper style
  toLower family ++ (if style = B "IB" then B "BI" else style)

/-- `f.coreFonts`, `/repo/fpdf.go:116-122`. -/
def coreFonts : List Bytes := [B "courier", B "helvetica", B "times", B "symbol", B "zapfdingbats"]

/-- Position of `d` in the list of encodings, 1-based (`/repo/fpdf.go:1964-1970`). -/
def diffIdx (d : Bytes) : List Bytes → Option Nat
  | [] => none
  | a :: r => if a = d then some 1 else (diffIdx d r).map (· + 1)

namespace Fpdf

/-- The common tail of `AddFontFromReader` (`/repo/fpdf.go:1947-1990`) and `addFontFromBytes` (`1872-1932`): `info` is the decoded
definition (`none`: reading or decoding failed), `ff` the font file entry. -/
def addFontDef (E : Ext) (f : Fpdf) (family style : Bytes) (info : Option FontDef) (ff : FontFile) : Fpdf :=
  if f.err ≠ none then f
  else
    let key := getFontKey (fontFamilyEscape family) style
    match lookup key f.t.fonts with
    | some _ => f
    | none =>
      match info with
      | none => f.assignErr "cannot load font"
      | some d =>
        let d := { d with i := hexEnc (E.fontHash d), n := 0 }
        let (f, d) :=
          if d.diff ≠ [] then
            match diffIdx d.diff f.t.diffs with
            | some n => (f, { d with diffN := n })
            | none => ({ f with t.diffs := f.t.diffs ++ [d.diff] }, { d with diffN := f.t.diffs.length + 1 })
          else (f, { d with diffN := 0 })
        let f := if d.file ≠ [] then { f with t.fontFiles := Model.insert d.file { ff with n := 0 } f.t.fontFiles } else f
        { f with t.fonts := Model.insert key d f.t.fonts }

/-- The UTF-8 branches of `addFont` (`/repo/fpdf.go:1679-1745`) and `addFontFromBytes` (`1822-1872`): `info = none` when the file cannot be
read or parsed. `fromFile`: `AddUTF8Font` records that failure, and does not look at errors recorded earlier; `AddUTF8FontFromBytes` does nothing
after an error, and only prints a message when the font cannot be parsed. -/
def addUTF8Font (E : Ext) (f : Fpdf) (family style file : Bytes) (info : Option FontDef) (fromFile : Bool) : Fpdf :=
  if f.err ≠ none ∧ fromFile = false then f
  else
    let key := getFontKey (fontFamilyEscape family) style
    match lookup key f.t.fonts with
    | some _ => f
    | none =>
      match info with
      | none => if fromFile then f.setErrorf "cannot load UTF-8 font" else f
      | some d =>
        let d := { d with tp := B "UTF8", name := key, file := file }
        let d := { d with i := hexEnc (E.fontHash d), n := 0 }
        let f := { f with t.fonts := Model.insert key d f.t.fonts }
        if file ≠ [] then
          let ff : FontFile := { fontType := B "UTF8" }
          { f with t.fontFiles := Model.insert file ff (Model.insert key ff f.t.fontFiles) }
        else f

/-- `AddFont` with a file of the font directory (`addFont`, `/repo/fpdf.go:1746-1767`): `opened` tells whether it could be opened. Without a font
loader. -/
def addFontFile (E : Ext) (f : Fpdf) (family style : Bytes) (opened : Bool) (info : Option FontDef) (ff : FontFile) : Fpdf :=
  if opened then f.addFontDef E family style info ff else f.assignErr "cannot open font file"

/-- The line selecting the current font, `/repo/fpdf.go:2104-2106`. -/
def outFont (f : Fpdf) : Fpdf :=
  if f.page > 0 then f.outf "BT /F%s %.2f Tf ET" [.s f.t.currentFont.i, .f f.t.fontSizePt] else f

/-- Normalisation of the style argument of `SetFont`, `/repo/fpdf.go:2045-2056`: underline, strikeout, remaining
style. -/
def parseStyle (style : Bytes) : Bool × Bool × Bytes :=
  let style := toUpper style
  let u := style.contains 0x55
  let style := if u then replaceAll (B "U") [] style else style
  let s := style.contains 0x53
  let style := if s then replaceAll (B "S") [] style else style
  (u, s, if style = B "IB" then B "BI" else style)

/-- The selection part of `SetFont`, `/repo/fpdf.go:2093-2107`. -/
def selectFont (f : Fpdf) (family style : Bytes) (size : Rat) (d : FontDef) : Fpdf :=
  let f := { f with t.fontFamily := family, t.fontStyle := style, t.fontSizePt := size, t.fontSize := size / f.k,
                    t.currentFont := d, t.isUTF8 := d.tp = B "UTF8" }
  f.outFont

/-- `SetFont`, `/repo/fpdf.go:2031-2108`. -/
def setFont (E : Ext) (f : Fpdf) (family style : Bytes) (size : Rat) : Fpdf :=
  if f.err ≠ none then f
  else
    let family := fontFamilyEscape family
    let family := if family = [] then f.t.fontFamily else toLower family
    let (u, s, style) := parseStyle style
    let f := { f with t.underline := u, t.strikeout := s }
    let size := if size = 0 then f.t.fontSizePt else size
    match lookup (family ++ style) f.t.fonts with
    | some d => f.selectFont family style size d
    | none =>
      let family := if family = B "arial" then B "helvetica" else family
      if family ∈ coreFonts then
        let family := if family = B "symbol" then B "zapfdingbats" else family
        let style := if family = B "zapfdingbats" then [] else style
        match lookup (family ++ style) f.t.fonts with
        | some d => f.selectFont family style size d
        | none =>
          match E.coreFont (family ++ style) with
          | none => f.setErrorf "could not locate font among embedded core font definition files"
          | some d =>
            let f := f.addFontDef E family style (some d) {}
            if f.err ≠ none then f
            else
              match lookup (family ++ style) f.t.fonts with
              | some d => f.selectFont family style size d
              | none => f.selectFont family style size {}
      else f.assignErr "undefined font"

/-- `SetFontStyle`, `/repo/fpdf.go:2111-2113`. -/
def setFontStyle (E : Ext) (f : Fpdf) (style : Bytes) : Fpdf := f.setFont E f.t.fontFamily style f.t.fontSizePt

/-- `SetFontSize`, `/repo/fpdf.go:2117-2123`. -/
def setFontSize (f : Fpdf) (size : Rat) : Fpdf :=
  let f := { f with t.fontSizePt := size, t.fontSize := size / f.k }
  f.outFont

/-- `SetFontUnitSize`, `/repo/fpdf.go:2127-2133`. -/
def setFontUnitSize (f : Fpdf) (size : Rat) : Fpdf :=
  let f := { f with t.fontSizePt := size * f.k, t.fontSize := size }
  f.outFont

/-- Width of one character of a UTF-8 font, `/repo/fpdf.go:965-976`. SIMPLIFICATION: the test `len(Cw) >= intChar` of the code
lets `intChar = len(Cw)` through to an out-of-range index; here that gives the missing width. -/
def runeWidth (d : FontDef) (c : Nat) : Int :=
  let w := d.cw.getD c 0
  if w > 0 then (if w ≠ 65535 then w else 0)
  else if d.missingWidth ≠ 0 then d.missingWidth else 500

/-- `GetStringSymbolWidth`, `/repo/fpdf.go:957-985`. SIMPLIFICATION: a byte outside the width table (a Go panic) counts 0. -/
def getStringSymbolWidth (f : Fpdf) (s : Bytes) : Int :=
  if f.err ≠ none then 0
  else if f.t.isUTF8 then ((runes s).map (runeWidth f.t.currentFont)).sum
  else ((s.takeWhile (· ≠ 0)).map fun c => f.t.currentFont.cw.getD c.toNat 0).sum

/-- `GetStringWidth`, `/repo/fpdf.go:947-953`. -/
def getStringWidth (f : Fpdf) (s : Bytes) : Rat :=
  if f.err ≠ none then 0 else (f.getStringSymbolWidth s : Rat) * f.t.fontSize / 1000

end Fpdf
end Verif.Model
