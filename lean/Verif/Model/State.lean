import Verif.Model.Sprintf
import Verif.Model.Escape
import Verif.Model.Utf16
import Verif.Model.Runes
import Verif.Model.Protect
/-
The document state (`type Fpdf struct`, `/repo/def.go:500-605`) and its elementary operations.
-/
namespace Verif.Model

/-- `SizeType`, `/repo/def.go:149-151`. -/
structure Size where
  wd : Rat := 0
  ht : Rat := 0
  deriving DecidableEq, Repr

/-- `PageBox`, `/repo/def.go:494-497`. -/
structure PageBox where
  x : Rat := 0
  y : Rat := 0
  wd : Rat := 0
  ht : Rat := 0
  deriving DecidableEq, Repr

/-- `colorType`, `/repo/def.go:127-134`. `mode`, `gray` and the float components, which are functions of the
integer ones, are dropped. -/
structure Color where
  ir : Int := 0
  ig : Int := 0
  ib : Int := 0
  spotStr : Bytes := []
  str : Bytes := []
  deriving DecidableEq, Repr

/-- `spotColorType`, `/repo/def.go:137-145`. -/
structure SpotColor where
  id : Nat
  objID : Nat := 0
  c : Nat
  m : Nat
  y : Nat
  k : Nat
  deriving DecidableEq, Repr

/-- `blendModeType`, `/repo/def.go:34-37`. -/
structure BlendMode where
  strokeStr : Bytes := []
  fillStr : Bytes := []
  modeStr : Bytes := []
  objNum : Nat := 0
  deriving DecidableEq, Repr

/-- `gradientType`, `/repo/def.go:39-45`. -/
structure Gradient where
  tp : Nat := 0
  clr1Str : Bytes := []
  clr2Str : Bytes := []
  x1 : Rat := 0
  y1 : Rat := 0
  x2 : Rat := 0
  y2 : Rat := 0
  r : Rat := 0
  objNum : Nat := 0
  deriving DecidableEq, Repr

/-- `layerType`, `/repo/layer.go:22-26`. -/
structure Layer where
  name : Bytes
  visible : Bool
  objNum : Nat := 0
  deriving DecidableEq, Repr

/-- The parts of `fontDefType` (`/repo/def.go:699-716`) that the modelled code reads. `cw` is the width
table (a slice, hence a list); `n` is the object number (`N`). `usedRunes`, a map shared by all
copies of the definition, lives in `TextSt.usedRunes`. -/
structure FontDef where
  tp : Bytes := []
  name : Bytes := []
  ascent : Int := 0
  descent : Int := 0
  capHeight : Int := 0
  flags : Nat := 0
  bbox : Int × Int × Int × Int := (0, 0, 0, 0)
  italicAngle : Int := 0
  stemV : Int := 0
  missingWidth : Int := 0
  up : Int := 0
  ut : Int := 0
  cw : List Int := []
  file : Bytes := []
  diff : Bytes := []
  diffN : Nat := 0
  i : Bytes := []
  n : Nat := 0
  deriving DecidableEq, Repr

/-- `fontFileType`, `/repo/def.go:264-270`. -/
structure FontFile where
  length1 : Nat := 0
  length2 : Nat := 0
  n : Nat := 0
  embedded : Bool := false
  content : Bytes := []
  fontType : Bytes := []
  deriving DecidableEq, Repr

/-- `ImageInfoType`, `/repo/def.go:167-182`. -/
structure ImageInfo where
  data : Bytes := []
  smask : Option Bytes := none
  n : Nat := 0
  w : Rat := 0
  h : Rat := 0
  cs : Bytes := []
  pal : Bytes := []
  bpc : Nat := 0
  f : Bytes := []
  dp : Bytes := []
  trns : List Int := []
  dpi : Rat := 72
  i : Bytes := []
  deriving DecidableEq, Repr

/-- `linkType`, `/repo/def.go:272-276`. -/
structure LinkRec where
  x : Rat
  y : Rat
  wd : Rat
  ht : Rat
  link : Nat
  linkStr : Bytes
  deriving DecidableEq, Repr

/-- `outlineType`, `/repo/def.go:284-291` (the link fields are computed in `putbookmarks`). -/
structure OutlineRec where
  text : Bytes
  level : Int
  y : Rat
  p : Nat
  deriving DecidableEq, Repr

/-- `FpdfTpl` (`/repo/template_impl.go:56-63`), restricted to its current page: `ptr` identifies the
object (interface values are compared by pointer), `images` are pointers into `ResSt.imgHeap`,
`deps` is `Templates()`. -/
inductive Tmpl
  | mk (ptr : Nat) (corner : Rat × Rat) (size : Size) (bytes : Bytes) (images : List (Bytes × Nat)) (deps : List Tmpl)

namespace Tmpl
/-- The parts of a template, `/repo/template_impl.go:57-64`. -/
def ptr : Tmpl → Nat | mk p _ _ _ _ _ => p
@[inherit_doc ptr] def corner : Tmpl → Rat × Rat | mk _ c _ _ _ _ => c
@[inherit_doc ptr] def size : Tmpl → Size | mk _ _ s _ _ _ => s
@[inherit_doc ptr] def bytes : Tmpl → Bytes | mk _ _ _ b _ _ => b
@[inherit_doc ptr] def images : Tmpl → List (Bytes × Nat) | mk _ _ _ _ i _ => i
@[inherit_doc ptr] def deps : Tmpl → List Tmpl | mk _ _ _ _ _ d => d
end Tmpl

/-- Page geometry, margins and cursor. `/repo/def.go:500-605`. -/
structure PageSt where
  defOrientation : Bytes := []
  curOrientation : Bytes := []
  defPageSize : Size := {}
  curPageSize : Size := {}
  pageSizes : List (Nat × Size) := []
  pageBoxes : List (Nat × List (Bytes × PageBox)) := []
  defPageBoxes : List (Bytes × PageBox) := []
  w : Rat := 0
  h : Rat := 0
  wPt : Rat := 0
  hPt : Rat := 0
  lMargin : Rat := 0
  tMargin : Rat := 0
  rMargin : Rat := 0
  bMargin : Rat := 0
  cMargin : Rat := 0
  x : Rat := 0
  y : Rat := 0
  lasth : Rat := 0
  autoPageBreak : Bool := false
  pageBreakTrigger : Rat := 0

/-- Fonts and text state. `/repo/def.go:500-605`. -/
structure TextSt where
  fontFamily : Bytes := []
  fontStyle : Bytes := []
  underline : Bool := false
  strikeout : Bool := false
  fontSizePt : Rat := 0
  fontSize : Rat := 0
  currentFont : FontDef := {}
  isUTF8 : Bool := false
  isRTL : Bool := false
  ws : Rat := 0
  userUnderlineThickness : Rat := 1
  fonts : List (Bytes × FontDef) := []
  fontFiles : List (Bytes × FontFile) := []
  diffs : List Bytes := []
  /-- (font id, rune) pairs recorded as used -/
  usedRunes : List (Bytes × Nat) := []

/-- Colours. `/repo/def.go:500-605`. -/
structure ColorSt where
  draw : Color := {}
  fill : Color := {}
  text : Color := {}
  colorFlag : Bool := false

/-- Line drawing parameters. `/repo/def.go:500-605`. -/
structure LineSt where
  width : Rat := 0
  cap : Nat := 0
  join : Nat := 0
  dashArray : List Rat := []
  dashPhase : Rat := 0

/-- Resource registries. `blendList[0]` and `gradientList[0]` are unused in the code; here they are left out,
so position `p` of the code is index `p - 1`. `/repo/def.go:500-605`. -/
structure ResSt where
  blendList : List BlendMode := []
  blendMap : List (Bytes × Nat) := []
  blendMode : Bytes := []
  alpha : Rat := 1
  gradientList : List Gradient := []
  spotColorMap : List (Bytes × SpotColor) := []
  /-- image name ↦ pointer into `imgHeap` -/
  images : List (Bytes × Nat) := []
  /-- the `ImageInfoType` objects, addressed by position -/
  imgHeap : List ImageInfo := []
  templates : List (Bytes × Tmpl) := []
  templateObjects : List (Bytes × Nat) := []

/-- Layers. `currentLayer = none` is -1. `/repo/layer.go:28-33`. -/
structure LayerSt where
  list : List Layer := []
  currentLayer : Option Nat := none
  openLayerPane : Bool := false

/-- Document level settings. `/repo/def.go:500-605`. -/
structure MetaSt where
  title : Bytes := []
  subject : Bytes := []
  author : Bytes := []
  keywords : Bytes := []
  creator : Bytes := []
  producer : Bytes := []
  xmp : Bytes := []
  javascript : Option Bytes := none
  nJs : Nat := 0
  zoomMode : Bytes := []
  layoutMode : Bytes := []
  compress : Bool := true
  catalogSort : Bool := false
  aliasNbPagesStr : Bytes := []
  aliasMap : List (Bytes × Bytes) := []
  /-- minor version: "1.3" is 3 (the code compares version strings, all of the form "1.d") -/
  pdfVersion : Nat := 3
  protect : Protect := {}
  outlineRoot : Nat := 0

/-- `Attachment`, `/repo/attachments.go:14-25`, identified by a pointer. -/
structure Attachment where
  content : Bytes
  filename : Bytes
  description : Bytes
  objectNumber : Nat := 0
  deriving DecidableEq, Repr

/-- `annotationAttach`, `/repo/attachments.go:101-105`: `ptr` identifies the attachment. -/
structure AnnotAttach where
  ptr : Nat
  x : Rat
  y : Rat
  w : Rat
  h : Rat
  deriving DecidableEq, Repr

/-- Links, bookmarks, attachments. `heap` maps attachment pointers to attachments. `/repo/def.go:500-605`. -/
structure LinkSt where
  links : List (Nat × Rat) := [(0, 0)]
  pageLinks : List (List LinkRec) := [[]]
  outlines : List OutlineRec := []
  attachments : List Attachment := []
  pageAttachments : List (List AnnotAttach) := [[]]
  heap : List (Nat × Attachment) := []

/-- A call of a user's function (ghost state; recorded where `/repo/fpdf.go:699-800` makes the call): the header of a page begun, the footer of a page (and whether it is said to be the last one). -/
inductive CbEvent
  | header (page : Nat)
  | footer (page : Nat) (last : Bool)
  deriving DecidableEq, Repr

/-- `type Fpdf struct`, `/repo/def.go:500-605`. `state`: 0 = no document, 1 = opened, between pages,
2 = page open, 3 = closed. `pages[0]` is unused, as in the code. `panicked` records a Go run-time
panic (index out of range), which in the real program would unwind. `log` is a ghost: it records the calls of the header and
footer functions and nothing reads it. -/
structure Fpdf where
  err : Option String := none
  panicked : Bool := false
  state : Nat := 0
  page : Nat := 0
  n : Nat := 2
  pages : List Bytes := [[]]
  buffer : Bytes := []
  offsets : List Nat := []
  k : Rat := 1
  unitStr : Bytes := []
  p : PageSt := {}
  t : TextSt := {}
  c : ColorSt := {}
  line : LineSt := {}
  r : ResSt := {}
  layer : LayerSt := {}
  clipNest : Nat := 0
  transformNest : Nat := 0
  inHeader : Bool := false
  inFooter : Bool := false
  headerHomeMode : Bool := false
  l : LinkSt := {}
  m : MetaSt := {}
  log : List CbEvent := []

/-- Association-list lookup (Go map read, e.g. `/repo/fpdf.go:1681`). -/
def lookup {α β} [DecidableEq α] (k : α) : List (α × β) → Option β
  | [] => none
  | (a, b) :: r => if a = k then some b else lookup k r

/-- Go map write: replace in place or append; e.g. `/repo/fpdf.go:1738`. -/
def insert {α β} [DecidableEq α] (k : α) (v : β) : List (α × β) → List (α × β)
  | [] => [(k, v)]
  | (a, b) :: r => if a = k then (a, v) :: r else (a, b) :: insert k v r

/-- Modify element `i` of a list (no effect when out of range), as in `f.pages[f.page]...`, `/repo/fpdf.go:3757-3759`. -/
def modifyAt {α} (i : Nat) (g : α → α) : List α → List α
  | [] => []
  | a :: r => match i with
    | 0 => g a :: r
    | i + 1 => a :: modifyAt i g r

/-- `utf8toutf16` (`/repo/util.go:109-144`), with `[]` where the code panics (truncated UTF-8); the operations that use it
also set `panicked` then. -/
def u16 (s : Bytes) (bom : Bool) : Bytes := (utf8toutf16 s bom).getD []

namespace Fpdf

/-- Record the panic of `utf8toutf16` on truncated input. `/repo/util.go:109-144`. -/
def noteU16 (f : Fpdf) (s : Bytes) : Fpdf := { f with panicked := f.panicked || (utf8toutf16 s).isNone }

/-- `func (f *Fpdf) out`, `/repo/fpdf.go:3756-3764`: append a line to the current page, or to the document
buffer when no page is open. -/
def out (f : Fpdf) (s : Bytes) : Fpdf :=
  if f.state = 2 then { f with pages := modifyAt f.page (fun b => b ++ s ++ [10]) f.pages }
  else { f with buffer := f.buffer ++ s ++ [10] }

/-- `out` with a literal. `/repo/fpdf.go:3756-3764`. -/
def outs (f : Fpdf) (s : String) : Fpdf := f.out (B s)

/-- `func (f *Fpdf) outf`, `/repo/fpdf.go:3794-3796`. -/
def outf (f : Fpdf) (fmt : String) (args : List Arg) : Fpdf := f.out (sprintf fmt args)

/-- `SetErrorf` / `SetError`, `/repo/fpdf.go:270-274`, `284-288`: only the first error is kept. -/
def setErrorf (f : Fpdf) (e : String) : Fpdf :=
  match f.err with
  | none => { f with err := some e }
  | some _ => f

/-- The assignment `f.err = ...` used in many places, e.g. `/repo/fpdf.go:134`: overwrites. -/
def assignErr (f : Fpdf) (e : String) : Fpdf := { f with err := some e }

/-- `ClearError`, `/repo/fpdf.go:260-262`. -/
def clearError (f : Fpdf) : Fpdf := { f with err := none }

/-- `func (f *Fpdf) newobj`, `/repo/fpdf.go:3735-3743`: the offset table is extended with zeros as needed. -/
def newobj (f : Fpdf) : Fpdf :=
  let n := f.n + 1
  let offs := f.offsets ++ List.replicate (n + 1 - f.offsets.length) 0
  let f := { f with n := n, offsets := offs.set n f.buffer.length }
  f.outf "%d 0 obj" [.d n]

/-- `func (f *Fpdf) putstream`, `/repo/fpdf.go:3745-3753`. (The code encrypts the caller's buffer in place; here
the caller's copy is not modified.) -/
def putstream (md5 : Bytes → Bytes) (f : Fpdf) (b : Bytes) : Fpdf :=
  let (f, b) :=
    if f.m.protect.encrypted then
      let (pr, b') := f.m.protect.rc4 md5 f.n b
      ({ f with m.protect := pr }, b')
    else (f, b)
  ((f.outs "stream").out b).outs "endstream"

/-- `func (f *Fpdf) textstring`, `/repo/fpdf.go:3593-3600`: returns the string object, and updates the cipher
state of a protected document. -/
def textstring (md5 : Bytes → Bytes) (f : Fpdf) (s : Bytes) : Fpdf × Bytes :=
  if f.m.protect.encrypted then
    let (pr, b') := f.m.protect.rc4 md5 f.n s
    ({ f with m.protect := pr }, B "(" ++ escape b' ++ B ")")
  else (f, B "(" ++ escape s ++ B ")")

end Fpdf
end Verif.Model
