import Verif.Model.Writer
/-
The document as a state machine: one `Op` per API call, `exec` its effect, `Reach` the states a program can bring a document to.
-/
namespace Verif.Model

/-- The document properties set by `SetTitle` etc. `/repo/fpdf.go:571-622`. -/
inductive MetaKey
  | title | subject | author | keywords | creator | producer
  deriving DecidableEq, Repr

/-- API calls of `*Fpdf` (`/repo/def.go:315-491`, interface `Pdf`). Calls that are abbreviations of others are listed with the constructor that covers them. -/
inductive Op
  /-- `SetError`, `SetErrorf` -/
  | setError (e : String)
  | clearError
  | setMargins (l t r : Rat)
  | setLeftMargin (m : Rat)
  | setTopMargin (m : Rat)
  | setRightMargin (m : Rat)
  | setCellMargin (m : Rat)
  | setAutoPageBreak (auto : Bool) (m : Rat)
  | setX (x : Rat)
  | setY (y : Rat)
  | setXY (x y : Rat)
  | setHomeXY
  | ln (h : Rat)
  /-- `SetPageBox`, `SetPageBoxRec` -/
  | setPageBox (t : Bytes) (pb : PageBox)
  | setPage (n : Int)
  | addPage
  | addPageFormat (o : Bytes) (sz : Size)
  | setDisplayMode (zoom layout : Bytes)
  | setCompression (b : Bool)
  | setMeta (key : MetaKey) (s : Bytes) (utf8 : Bool)
  | setXmp (s : Bytes)
  | aliasNbPages (a : Bytes)
  | registerAlias (a rep : Bytes)
  /-- `RTL`, `LTR` -/
  | setRTL (b : Bool)
  | setProtection (flag : UInt8) (user owner : Bytes)
  | setCatalogSort (b : Bool)
  | setJavascript (s : Bytes)
  /-- the home mode of `SetHeaderFuncMode` -/
  | setHeaderMode (b : Bool)
  | setUnderlineThickness (t : Rat)
  | setDrawColor (r g b : Int)
  | setFillColor (r g b : Int)
  | setTextColor (r g b : Int)
  | addSpotColor (name : Bytes) (c m y k : Nat)
  | setDrawSpotColor (name : Bytes) (tint : Nat)
  | setFillSpotColor (name : Bytes) (tint : Nat)
  | setTextSpotColor (name : Bytes) (tint : Nat)
  | setLineWidth (w : Rat)
  | setLineCapStyle (s : Bytes)
  | setLineJoinStyle (s : Bytes)
  | setDashPattern (a : List Rat) (ph : Rat)
  | line (x1 y1 x2 y2 : Rat)
  | rect (x y w h : Rat) (style : Bytes)
  /-- `RoundedRect`, `RoundedRectExt` -/
  | roundedRect (x y w h a b c d : Rat) (style : Bytes)
  | polygon (pts : List (Rat × Rat)) (style : Bytes)
  | beziergon (pts : List (Rat × Rat)) (style : Bytes)
  | curve (x0 y0 cx cy x1 y1 : Rat) (style : Bytes)
  /-- `CurveBezierCubic`, `CurveCubic` -/
  | curveBezierCubic (x0 y0 cx0 cy0 cx1 cy1 x1 y1 : Rat) (style : Bytes)
  /-- `Arc`, `Ellipse`, `Circle` (`path = false`), `ArcTo` (`path = true`) -/
  | arc (x y rx ry rot s e : Rat) (style : Bytes) (path : Bool)
  | moveTo (x y : Rat)
  | lineTo (x y : Rat)
  | curveTo (cx cy x y : Rat)
  | curveBezierCubicTo (cx0 cy0 cx1 cy1 x y : Rat)
  | closePath
  | drawPath (style : Bytes)
  | setAlpha (alpha : Rat) (mode : Bytes)
  /-- `LinearGradient` (`tp = 2`), `RadialGradient` (`tp = 3`) -/
  | gradient (radial : Bool) (x y w h : Rat) (c1 c2 : Int × Int × Int) (x1 y1 x2 y2 r : Rat)
  | clipRect (x y w h : Rat) (outline : Bool)
  | clipText (x y : Rat) (txt : Bytes) (outline : Bool)
  /-- `ClipRoundedRect`, `ClipRoundedRectExt` -/
  | clipRoundedRect (x y w h a b c d : Rat) (outline : Bool)
  /-- `ClipEllipse`, `ClipCircle` -/
  | clipEllipse (x y rx ry : Rat) (outline : Bool)
  | clipPolygon (pts : List (Rat × Rat)) (outline : Bool)
  | clipEnd
  | transformBegin
  | transform (a b c d e g : Rat)
  /-- `TransformScale…`, `TransformMirrorHorizontal`, `…Vertical`, `…Point` -/
  | transformScale (sw sh x y : Rat)
  | transformMirrorLine (angle x y : Rat)
  /-- `TransformTranslate…` -/
  | transformTranslate (tx ty : Rat)
  | transformRotate (angle x y : Rat)
  /-- `TransformSkew…` -/
  | transformSkew (ax ay x y : Rat)
  | transformEnd
  | addLayer (name : Bytes) (visible : Bool)
  | beginLayer (id : Int)
  | endLayer
  | openLayerPane
  /-- `AddFont` -/
  | addFontFile (family style : Bytes) (opened : Bool) (info : Option FontDef) (ff : FontFile)
  /-- `AddFontFromReader`, `AddFontFromBytes` -/
  | addFont (family style : Bytes) (info : Option FontDef) (ff : FontFile)
  /-- `AddUTF8Font`, `AddUTF8FontFromBytes` -/
  | addUTF8Font (family style file : Bytes) (info : Option FontDef) (fromFile : Bool)
  | setFont (family style : Bytes) (size : Rat)
  | setFontStyle (style : Bytes)
  | setFontSize (size : Rat)
  | setFontUnitSize (size : Rat)
  | addLink
  | setLink (link : Nat) (y : Rat) (page : Option Nat)
  /-- `Link`, `LinkString` -/
  | link (x y w h : Rat) (link : Nat) (linkStr : Bytes)
  | bookmark (txt : Bytes) (level : Int) (y : Rat)
  | text (x y : Rat) (txt : Bytes)
  | setWordSpacing (w : Rat)
  | setTextRenderingMode (m : Int)
  /-- `CellFormat`, `Cell`, `Cellf` -/
  | cell (w h : Rat) (txt border : Bytes) (ln : Int) (align : Bytes) (fill : Bool) (link : Nat) (linkStr : Bytes)
  | multiCell (w h : Rat) (txt border align : Bytes) (fill : Bool)
  /-- `Write`, `Writef`, `WriteLinkString`, `WriteLinkID` -/
  | write (h : Rat) (txt : Bytes) (link : Nat) (linkStr : Bytes)
  | writeAligned (width lh : Rat) (txt align : Bytes)
  | subWrite (ht : Rat) (str : Bytes) (size offset : Rat) (link : Nat) (linkStr : Bytes)
  /-- `RegisterImageReader`, `RegisterImageOptionsReader` -/
  | registerImage (name : Bytes) (parsed : Option ImageInfo)
  /-- `RegisterImage`, `RegisterImageOptions` -/
  | registerImageFile (name : Bytes) (opened : Bool) (parsed : Option ImageInfo)
  /-- `Image`, `ImageOptions` -/
  | image (name : Bytes) (parsed : Option ImageInfo) (x y w h : Rat) (allowNeg flow : Bool) (link : Nat) (linkStr : Bytes)
  /-- the effect of `CreateTemplate` on the document itself: images are allocated in the common heap -/
  | createTemplate (imgs : List ImageInfo)
  /-- `UseTemplate`, `UseTemplateScaled` -/
  | useTemplate (t : Option Tmpl) (corner : Rat × Rat) (size : Size)
  | setAttachments (as : List Attachment)
  /-- `AddAttachmentAnnotation` with a pointer to the given attachment -/
  | attachAnnotation (ptr : Nat) (a : Attachment) (x y w h : Rat)
  /-- `RawWriteStr`, `RawWriteBuf` -/
  | rawWrite (s : Bytes)
  | close
  /-- `Output`, `OutputAndClose`, `OutputFileAndClose` -/
  | output (writeFails : Bool)

namespace Fpdf

/-- `SetTitle` and the other document property setters, `/repo/fpdf.go:571-622`. -/
def setMeta (f : Fpdf) (key : MetaKey) (s : Bytes) (utf8 : Bool) : Fpdf :=
  let f := if utf8 then f.noteU16 s else f
  let s := if utf8 then u16 s true else s
  match key with
  | .title => { f with m.title := s }
  | .subject => { f with m.subject := s }
  | .author => { f with m.author := s }
  | .keywords => { f with m.keywords := s }
  | .creator => { f with m.creator := s }
  | .producer => { f with m.producer := s }

/-- `AliasNbPages`, `/repo/fpdf.go:634-639`. -/
def setAliasNbPages (f : Fpdf) (a : Bytes) : Fpdf := { f with m.aliasNbPagesStr := if a = [] then B "{nb}" else a }

/-- `AddAttachmentAnnotation`, `/repo/attachments.go:117-125`. The first use of a pointer makes it known to the heap. -/
def attachAnnotation (f : Fpdf) (ptr : Nat) (a : Attachment) (x y w h : Rat) : Fpdf :=
  let an : AnnotAttach := { ptr := ptr, x := x * f.k, y := f.p.hPt - y * f.k, w := w * f.k, h := h * f.k }
  let f := match lookup ptr f.l.heap with
    | some _ => f
    | none => { f with l.heap := Model.insert ptr a f.l.heap }
  { f with l.pageAttachments := modifyAt f.page (· ++ [an]) f.l.pageAttachments }

/-- The effect of one API call. Setters without a definition of their own: `SetCompression` `/repo/fpdf.go:565-567`, `SetXmpMetadata` `625-627`,
`RegisterAlias` `3849-3854`, `RTL`/`LTR` `642-649`, `SetProtection` `3425-3430`, `SetCatalogSort` `3808-3810`, `SetJavascript` `3841-3843`,
`SetHeaderFuncMode` `432-435`, `SetUnderlineThickness` `3614-3616`, `OpenLayerPane` `/repo/layer.go:74-76`, `SetAttachments` `/repo/attachments.go:76-78`. -/
def exec (E : Ext) (cb : Cb) (op : Op) (f : Fpdf) : Fpdf :=
  match op with
  | .setError e => f.setErrorf e
  | .clearError => f.clearError
  | .setMargins l t r => f.setMargins l t r
  | .setLeftMargin m => f.setLeftMargin m
  | .setTopMargin m => f.setTopMargin m
  | .setRightMargin m => f.setRightMargin m
  | .setCellMargin m => f.setCellMargin m
  | .setAutoPageBreak a m => f.setAutoPageBreak a m
  | .setX x => f.setX x
  | .setY y => f.setY y
  | .setXY x y => f.setXY x y
  | .setHomeXY => f.setHomeXY
  | .ln h => f.ln h
  | .setPageBox t pb => f.setPageBoxRec t pb
  | .setPage n => f.setPage n
  | .addPage => f.addPage E cb
  | .addPageFormat o sz => f.addPageFormat E cb o sz
  | .setDisplayMode z l => f.setDisplayMode z l
  | .setCompression b => { f with m.compress := b }
  | .setMeta k s u => f.setMeta k s u
  | .setXmp s => { f with m.xmp := s }
  | .aliasNbPages a => f.setAliasNbPages a
  | .registerAlias a r => { f with m.aliasMap := Model.insert a r f.m.aliasMap }
  | .setRTL b => { f with t.isRTL := b }
  | .setProtection fl u o =>
    if f.err ≠ none then f else { f with m.protect := f.m.protect.setProtection E.md5 E.rnd fl u o }
  | .setCatalogSort b => { f with m.catalogSort := b }
  | .setJavascript s => { f with m.javascript := some s }
  | .setHeaderMode b => { f with headerHomeMode := b }
  | .setUnderlineThickness t => { f with t.userUnderlineThickness := t }
  | .setDrawColor r g b => f.setDrawColor r g b
  | .setFillColor r g b => f.setFillColor r g b
  | .setTextColor r g b => f.setTextColor r g b
  | .addSpotColor n c m y k => f.addSpotColor n c m y k
  | .setDrawSpotColor n t => f.setDrawSpotColor n t
  | .setFillSpotColor n t => f.setFillSpotColor n t
  | .setTextSpotColor n t => f.setTextSpotColor n t
  | .setLineWidth w => f.setLineWidth w
  | .setLineCapStyle s => f.setLineCapStyle s
  | .setLineJoinStyle s => f.setLineJoinStyle s
  | .setDashPattern a p => f.setDashPattern a p
  | .line a b c d => f.drawLine a b c d
  | .rect x y w h s => f.rect x y w h s
  | .roundedRect x y w h a b c d s => f.roundedRectExt E.T x y w h a b c d s
  | .polygon p s => f.polygon p s
  | .beziergon p s => f.beziergon p s
  | .curve a b c d e g s => f.curveQuad a b c d e g s
  | .curveBezierCubic a b c d e g i j s => f.curveBezierCubic a b c d e g i j s
  | .arc x y rx ry r a b s p => f.arc E.T x y rx ry r a b s p
  | .moveTo x y => f.moveTo x y
  | .lineTo x y => f.lineTo x y
  | .curveTo a b x y => f.curveTo a b x y
  | .curveBezierCubicTo a b c d x y => f.curveBezierCubicTo a b c d x y
  | .closePath => f.closePath
  | .drawPath s => f.drawPath s
  | .setAlpha a m => f.setAlpha a m
  | .gradient rad x y w h c1 c2 x1 y1 x2 y2 r => f.areaGradient (if rad then 3 else 2) x y w h c1 c2 x1 y1 x2 y2 r
  | .clipRect x y w h o => f.clipRect x y w h o
  | .clipText x y t o => f.clipText x y t o
  | .clipRoundedRect x y w h a b c d o => f.clipRoundedRectExt E.T x y w h a b c d o
  | .clipEllipse x y rx ry o => f.clipEllipse E.T x y rx ry o
  | .clipPolygon p o => f.clipPolygon p o
  | .clipEnd => f.clipEnd
  | .transformBegin => f.transformBegin
  | .transform a b c d e g => f.transform a b c d e g
  | .transformScale sw sh x y => f.transformScale sw sh x y
  | .transformMirrorLine a x y => f.transformMirrorLine E.T a x y
  | .transformTranslate tx ty => f.transformTranslate tx ty
  | .transformRotate a x y => f.transformRotate E.T a x y
  | .transformSkew a b x y => f.transformSkew E.T a b x y
  | .transformEnd => f.transformEnd
  | .addLayer n v => f.addLayer n v
  | .beginLayer id => f.beginLayer id
  | .endLayer => f.endLayer
  | .openLayerPane => { f with layer.openLayerPane := true }
  | .addFontFile fam st o info ff => f.addFontFile E fam st o info ff
  | .addFont fam st info ff => f.addFontDef E fam st info ff
  | .addUTF8Font fam st file info se => f.addUTF8Font E fam st file info se
  | .setFont fam st sz => f.setFont E fam st sz
  | .setFontStyle st => f.setFontStyle E st
  | .setFontSize sz => f.setFontSize sz
  | .setFontUnitSize sz => f.setFontUnitSize sz
  | .addLink => f.addLink
  | .setLink l y p => f.setLink l y p
  | .link x y w h l s => f.newLink x y w h l s
  | .bookmark t l y => f.bookmark t l y
  | .text x y t => f.text x y t
  | .setWordSpacing w => f.setWordSpacing w
  | .setTextRenderingMode m => f.setTextRenderingMode m
  | .cell w h t b ln a fi l ls => f.cellFormat E cb w h t b ln a fi l ls
  | .multiCell w h t b a fi => f.multiCell E cb w h t b a fi
  | .write h t l ls => f.write E cb h t l ls
  | .writeAligned w lh t a => f.writeAligned E cb w lh t a
  | .subWrite ht s sz off l ls => f.subWrite E cb ht s sz off l ls
  | .registerImage n p => f.registerImage E n p
  | .registerImageFile n o p => f.registerImageFile E n o p
  | .image n p x y w h an fl l ls => f.image E cb n p x y w h an fl l ls
  | .createTemplate imgs =>
    { f with r.imgHeap := f.r.imgHeap ++ imgs.map fun i => { i with n := 0, i := hexEnc (E.imgHash { i with n := 0 }) } }
  | .useTemplate t c s => f.useTemplate E t c s
  | .setAttachments as => { f with l.attachments := as }
  | .attachAnnotation p a x y w h => f.attachAnnotation p a x y w h
  | .rawWrite s => f.out s
  | .close => f.close E cb
  | .output wf => (f.output E cb wf).2.1

end Fpdf

/-- (Models no code of `/repo`: programs that use the library.) A discipline for the programs considered: which calls are made, and in which states header and footer functions are called. -/
structure Guard where
  /-- the calls allowed -/
  op : Fpdf → Cb → Op → Prop
  /-- header and footer functions are only required to keep to the discipline when called in such states -/
  cb : Fpdf → Prop := fun _ => True

/-- (Models no code of `/repo`: programs that use the library.) `Reach E G f g`: some finite sequence of API calls, each allowed by `G` in the state it is made in, with call-backs that are themselves
such sequences, brings a document from state `f` to state `g`. The call-backs of each call are arbitrary functions, as long as what they do to
the document is done through the API. -/
inductive Reach (E : Ext) (G : Guard) : Fpdf → Fpdf → Prop
  | refl (f : Fpdf) : Reach E G f f
  | step {f g : Fpdf} (op : Op) (cb : Cb) :
      Reach E G f g → G.op g cb op →
      (∀ h, cb.header = some h → ∀ s, G.cb s → Reach E G s (h s)) →
      (∀ h, cb.footer = some h → ∀ b s, G.cb s → Reach E G s (h b s)) →
      (∀ s, Reach E G s (cb.accept s).2) →
      Reach E G f (g.exec E cb op)

/-- Any API call. (Models no code of `/repo`.) -/
def anyOp : Guard := { op := fun _ _ _ => True }

/-- (Models no code of `/repo`: what users' functions do.) The call-backs act on the document according to the relation `R`. -/
structure Cb.Rel (pre : Fpdf → Prop) (R : Fpdf → Fpdf → Prop) (cb : Cb) : Prop where
  header : ∀ h, cb.header = some h → ∀ s, pre s → R s (h s)
  footer : ∀ h, cb.footer = some h → ∀ b s, pre s → R s (h b s)
  accept : ∀ s, R s (cb.accept s).2

/-- Induction over histories for a reflexive and transitive relation. -/
theorem Reach.rel {E : Ext} {G : Guard} (R : Fpdf → Fpdf → Prop) (hrefl : ∀ f, R f f)
    (htrans : ∀ f g h, R f g → R g h → R f h)
    (hstep : ∀ f op cb, G.op f cb op → Cb.Rel G.cb R cb → R f (f.exec E cb op)) {f g : Fpdf} (h : Reach E G f g) : R f g := by
  induction h with
  | refl f => exact hrefl f
  | step op cb _ hok _ _ _ ih h1 h2 h3 => exact htrans _ _ _ ih (hstep _ op cb hok ⟨h1, h2, h3⟩)

/-- A program that keeps to a stricter discipline. -/
theorem Reach.mono {E : Ext} {G H : Guard} (ho : ∀ f cb op, G.op f cb op → H.op f cb op) (hc : ∀ s, H.cb s → G.cb s) {f g : Fpdf} (h : Reach E G f g) : Reach E H f g := by
  induction h with
  | refl f => exact .refl f
  | step op cb _ hok _ _ _ ih h1 h2 h3 => exact .step op cb ih (ho _ _ _ hok) (fun h hh s hs => h1 h hh s (hc s hs)) (fun h hh b s hs => h2 h hh b s (hc s hs)) h3

/-- One more piece of program. -/
theorem Reach.trans {E : Ext} {G : Guard} {f g h : Fpdf} (h1 : Reach E G f g) (h2 : Reach E G g h) : Reach E G f h := by
  induction h2 with
  | refl g => exact h1
  | step op cb _ hok a b c ih _ _ _ => exact .step op cb (ih h1) hok a b c

end Verif.Model
