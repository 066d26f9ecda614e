import Verif.Model.Text
import Verif.Model.Bookmarks
import Verif.Model.CidMap
/-
Writing the document: `/repo/fpdf.go:3856-4830`, `/repo/attachments.go`, `/repo/layer.go:78-121`, `/repo/spotcolor.go:163-184`,
`/repo/template.go:69-275`.

Not modelled: objects imported by gofpdi (`putImportedTemplates`, `/repo/fpdf.go:3272-3323`): the maps they come from are empty unless the
contrib package gofpdi fills them.
-/
namespace Verif.Model

/-- Lexicographic order of byte strings (Go string comparison). `/repo/fpdf.go:4038`. -/
def bytesLe : Bytes → Bytes → Bool
  | [], _ => true
  | _ :: _, [] => false
  | a :: r, b :: s => a < b || (a == b && bytesLe r s)

/-- Inserting a key into sorted keys, before those that are not smaller (part of `sort.SliceStable`). `/repo/fpdf.go:4038`. -/
def insertKey (le : Bytes → Bytes → Bool) (k : Bytes) : List Bytes → List Bytes
  | [] => [k]
  | a :: r => if le k a then k :: a :: r else a :: insertKey le k r

/-- Sorting keys: Go `sort.SliceStable` at `/repo/fpdf.go:3989`, `4038`, `4352`, `4450`, `4490` and `sort.Strings` at `/repo/template.go:138`, `187`. Keys that compare
equal stay in the order in which they come. -/
def sortKeys (le : Bytes → Bytes → Bool) (l : List Bytes) : List Bytes := l.foldr (insertKey le) []

/-- Keys of a map in the order in which the program visits them: sorted when the catalog is sorted, otherwise in the
iteration order of the map. `site` identifies the place in the program. `/repo/fpdf.go:4031-4039`. -/
def visit (E : Ext) (sorted : Bool) (site : Nat) (keys : List Bytes) (le : Bytes → Bytes → Bool) : List Bytes :=
  let ks := E.ord site keys
  if sorted then sortKeys le ks else ks

/-- All keys of a map. `/repo/fpdf.go:4034-4036`. -/
def keys {α β} (m : List (α × β)) : List α := m.map (·.1)

/-- Concatenation with a separator (Go `strings.Join`). `/repo/attachments.go:95`. -/
def joinB (sep : Bytes) : List Bytes → Bytes
  | [] => []
  | [a] => a
  | a :: r => a ++ sep ++ joinB sep r

/-- `templateChainDependencies`, `/repo/template.go:270-278` (the nil entries made by `make(…, len*2)` are filtered out by the
caller). -/
def chainDeps : Tmpl → List Tmpl
  | .mk p c s b i ds => chainDepsL ds ++ [.mk p c s b i ds]
where
  /-- over the list of requirements -/
  chainDepsL : List Tmpl → List Tmpl
    | [] => []
    | d :: r => chainDeps d ++ chainDepsL r

/-- Removing duplicates (same pointer), keeping first occurrences, `/repo/template.go:254-264`. -/
def dedupTmpl (sorted : List Tmpl) : List Tmpl → List Tmpl
  | [] => sorted
  | t :: r => if sorted.any (fun a => a.ptr == t.ptr) then dedupTmpl sorted r else dedupTmpl (sorted ++ [t]) r

/-- `ID()`, `/repo/template_impl.go:67-69`. -/
def Tmpl.id (E : Ext) (t : Tmpl) : Bytes := hexEnc (E.sha1 t.bytes)

/-- `sortTemplates`, `/repo/template.go:236-267`, given the keys in visiting order. -/
def sortTemplates (ks : List Bytes) (m : List (Bytes × Tmpl)) : List Tmpl :=
  dedupTmpl [] (ks.flatMap fun k => match lookup k m with | some t => chainDeps t | none => [])

namespace Fpdf

/-- `UseTemplateScaled`, `/repo/template.go:69-112` (`UseTemplate` passes the template's own corner and size). The images of the template
live in the same heap. -/
def useTemplate (E : Ext) (f : Fpdf) (t : Option Tmpl) (corner : Rat × Rat) (size : Size) : Fpdf :=
  match t with
  | none => f.setErrorf "template is nil"
  | some t =>
    if f.page = 0 then f.setErrorf "cannot use a template without first adding a page"
    else
      let id := t.id E
      let f := { f with r.templates := Model.insert id t f.r.templates }
      let tpls : List (Bytes × Tmpl) := t.deps.foldl (fun m (tt : Tmpl) => Model.insert (tt.id E) tt m) f.r.templates
      let f : Fpdf := { f with r.templates := tpls }
      let existing : List Bytes := f.r.images.filterMap fun x => (f.r.imgHeap[x.2]?).map (fun (im : ImageInfo) => im.i)
      let imgs : List (Bytes × Nat) := t.images.foldl (fun m x =>
        match f.r.imgHeap[x.2]? with
        | some info => if info.i ∈ existing then m else Model.insert (B "t" ++ id ++ B "-" ++ x.1) x.2 m
        | none => m) f.r.images
      let f := { f with r.images := imgs }
      let f := f.outf "q %.4f 0 0 %.4f %.4f %.4f cm" [.f (size.wd / t.size.wd), .f (size.ht / t.size.ht), .f (corner.1 * f.k),
        .f ((f.p.curPageSize.ht - corner.2 - size.ht) * f.k)]
      f.outf "/TPL%s Do Q" [.s id]

/-- `writeCompressedFileObject`, `/repo/attachments.go:39-49`. -/
def writeCompressedFileObject (E : Ext) (f : Fpdf) (content : Bytes) : Fpdf :=
  let c := E.deflate content
  let f := f.newobj
  let f := f.outf "<< /Type /EmbeddedFile /Length %d /Filter /FlateDecode /Params << /CheckSum <%s> /Size %d >> >>\n"
    [.d c.length, .s (hexEnc (E.md5 content)), .d content.length]
  (f.putstream E.md5 c).outs "endobj"

/-- `embed`, `/repo/attachments.go:52-68`. -/
def embed (E : Ext) (f : Fpdf) (a : Attachment) : Fpdf × Attachment :=
  if a.objectNumber ≠ 0 then (f, a)
  else
    let oldState := f.state
    let f := { f with state := 1 }
    let f := f.writeCompressedFileObject E a.content
    let streamID := f.n
    let f := f.newobj
    let (f, uf) := (f.noteU16 a.filename).textstring E.md5 (u16 a.filename true)
    let (f, desc) := (f.noteU16 a.description).textstring E.md5 (u16 a.description true)
    let f := f.outf "<< /Type /Filespec /F () /UF %s /EF << /F %d 0 R >> /Desc %s\n>>" [.s uf, .d streamID, .s desc]
    let f := f.outs "endobj"
    ({ f with state := oldState }, { a with objectNumber := f.n })

/-- The loop of `putAttachments`, `/repo/attachments.go:83-86`: `done` are the attachments already written back. -/
def putAttachmentsLoop (E : Ext) (f : Fpdf) (done : List Attachment) : List Attachment → Fpdf × List Attachment
  | [] => (f, done)
  | a :: r =>
    let (f, a) := f.embed E a
    putAttachmentsLoop E f (done ++ [a]) r

/-- `putAttachments`, `/repo/attachments.go:82-87`. -/
def putAttachments (E : Ext) (f : Fpdf) : Fpdf :=
  let (f, as) := f.putAttachmentsLoop E [] f.l.attachments
  { f with l.attachments := as }

/-- `f.embed(an.Attachment)` through the pointer, `/repo/attachments.go:133-140`. -/
def embedPtr (E : Ext) (f : Fpdf) (ptr : Nat) : Fpdf :=
  match lookup ptr f.l.heap with
  | some a =>
    let (f, a) := f.embed E a
    { f with l.heap := Model.insert ptr a f.l.heap }
  | none => { f with panicked := true }

/-- `putAnnotationsAttachments`, `/repo/attachments.go:130-141`. (The map `m` is never written, so `embed` itself prevents duplication.) -/
def putAnnotationsAttachments (E : Ext) (f : Fpdf) : Fpdf :=
  (f.l.pageAttachments.flatten).foldl (fun f an => f.embedPtr E an.ptr) f

/-- Applying one alias to the pages 1 .. `page`, `/repo/fpdf.go:3865-3872`. -/
def replaceOnPages (page : Nat) (alias rep : Bytes) (pages : List Bytes) : List Bytes :=
  pages.mapIdx fun i s => if 1 ≤ i ∧ i ≤ page then replaceAll alias rep s else s

/-- `replaceAliases`, `/repo/fpdf.go:3858-3875`. -/
def replaceAliases (E : Ext) (f : Fpdf) : Fpdf :=
  let go (mode : Bool) (f : Fpdf) (k : Bytes) : Fpdf :=
    match lookup k f.m.aliasMap with
    | none => f
    | some rep =>
      let f := if mode then (f.noteU16 k).noteU16 rep else f
      let (a, r) := if mode then (u16 k false, u16 rep false) else (k, rep)
      { f with pages := replaceOnPages f.page a r f.pages }
  let f := (E.ord 1 (keys f.m.aliasMap)).foldl (go false) f
  (E.ord 2 (keys f.m.aliasMap)).foldl (go true) f

/-- Annotation for one link, `/repo/fpdf.go:3913-3931`. -/
def linkAnnot (E : Ext) (hPt : Rat) (s : Fpdf × Bytes) (pl : LinkRec) : Fpdf × Bytes :=
  let (f, out) := s
  let out := out ++ sprintf "<</Type /Annot /Subtype /Link /Rect [%.2f %.2f %.2f %.2f] /Border [0 0 0] "
    [.f pl.x, .f pl.y, .f (pl.x + pl.wd), .f (pl.y - pl.ht)]
  if pl.link = 0 then
    let (f, u) := f.textstring E.md5 pl.linkStr
    (f, out ++ sprintf "/A <</S /URI /URI %s>>>>" [.s u])
  else
    match f.l.links[pl.link]? with
    | none => ({ f with panicked := true }, out)
    | some (page, y) =>
      let h := match lookup page f.p.pageSizes with
        | some sz => sz.ht
        | none => hPt
      (f, out ++ sprintf "/Dest [%d 0 R /XYZ 0 %.2f null]>>" [.d (1 + 2 * page : Nat), .f (h - y * f.k)])

/-- One attachment annotation, `/repo/attachments.go:145-155`. -/
def attachAnnot (E : Ext) (s : Fpdf × Bytes) (an : AnnotAttach) : Fpdf × Bytes :=
  let (f, out) := s
  match lookup an.ptr f.l.heap with
  | none => ({ f with panicked := true }, out)
  | some a =>
    let c : List Arg := [.f an.x, .f an.y, .f (an.x + an.w), .f (an.y - an.h)]
    let as := sprintf "<< /Type /XObject /Subtype /Form /BBox [%.2f %.2f %.2f %.2f] /Length 0 >>" c ++ B "\nstream\nendstream"
    let out := out ++ sprintf "<< /Type /Annot /Subtype /FileAttachment /Rect [%.2f %.2f %.2f %.2f] /Border [0 0 0]\n" c
    let (f, d) := (f.noteU16 a.description).textstring E.md5 (u16 a.description true)
    let (f, n) := (f.noteU16 a.filename).textstring E.md5 (u16 a.filename true)
    (f, out ++ sprintf "/Contents %s " [.s d] ++ sprintf "/T %s " [.s n] ++ sprintf "/AP << /N %s>>" [.s as]
      ++ sprintf "/FS %d 0 R >>\n" [.d a.objectNumber])

/-- The /Annots entry of page `n`, `/repo/fpdf.go:3909-3935`. -/
def putAnnots (E : Ext) (hPt : Rat) (f : Fpdf) (n : Nat) : Fpdf :=
  let pls := f.l.pageLinks.getD n []
  let pas := f.l.pageAttachments.getD n []
  if pls.length + pas.length > 0 then
    let (f, out) := pls.foldl (linkAnnot E hPt) (f, B "/Annots [")
    let (f, out) := pas.foldl (attachAnnot E) (f, out)
    f.out (out ++ B "]")
  else f

/-- A content stream object, `/repo/fpdf.go:3941-3951` and `4431-4438`. -/
def putContent (E : Ext) (f : Fpdf) (b : Bytes) : Fpdf :=
  let f := f.newobj
  let f := if f.m.compress then
      let data := E.deflate b
      (f.outf "<</Filter /FlateDecode /Length %d>>" [.d data.length]).putstream E.md5 data
    else (f.outf "<</Length %d>>" [.d b.length]).putstream E.md5 b
  f.outs "endobj"

/-- The MediaBox entry of page `n`, `/repo/fpdf.go:3901-3904`. -/
def putMediaBox (f : Fpdf) (n : Nat) : Fpdf :=
  match lookup n f.p.pageSizes with
  | some sz => f.outf "/MediaBox [0 0 %.2f %.2f]" [.f sz.wd, .f sz.ht]
  | none => f

/-- The other boxes of page `n`, `/repo/fpdf.go:3905-3907`. -/
def putPageBoxes (E : Ext) (f : Fpdf) (n : Nat) : Fpdf :=
  let boxes := (lookup n f.p.pageBoxes).getD []
  (E.ord (1000 + n) (keys boxes)).foldl (fun f t =>
    match lookup t boxes with
    | some pb => f.outf "/%s [%.2f %.2f %.2f %.2f]" [.s t, .f pb.x, .f pb.y, .f pb.wd, .f pb.ht]
    | none => f) f

/-- The dictionary of page `n`, `/repo/fpdf.go:3897-3940`, up to and including `endobj`. -/
def putPageDict (E : Ext) (hPt : Rat) (f : Fpdf) (n : Nat) : Fpdf :=
  let f := f.newobj
  let f := f.outs "<</Type /Page"
  let f := f.outs "/Parent 1 0 R"
  let f := f.putMediaBox n
  let f := f.putPageBoxes E n
  let f := f.outs "/Resources 2 0 R"
  let f := f.putAnnots E hPt n
  let f := if f.m.pdfVersion > 3 then f.outs "/Group <</Type /Group /S /Transparency /CS /DeviceRGB>>" else f
  let f := f.outf "/Contents %d 0 R>>" [.d (f.n + 1 : Nat)]
  f.outs "endobj"

/-- The loop of `putpages`, `/repo/fpdf.go:3895-3952`: pages `n`, `n+1`, … (`cnt` of them); `kids` collects the object numbers. -/
def putPagesLoop (E : Ext) (hPt : Rat) : Nat → Nat → Fpdf → List Nat → Fpdf × List Nat
  | 0, _, f, kids => (f, kids)
  | cnt + 1, n, f, kids =>
    let num := f.n + 1
    let f := f.putPageDict E hPt n
    let f := f.putContent E (f.pages.getD n [])
    putPagesLoop E hPt cnt (n + 1) f (kids ++ [num])

/-- `f.offsets[i] = f.buffer.Len()` (`/repo/fpdf.go:3954`, `4592`). -/
def setOffset (f : Fpdf) (i : Nat) : Fpdf := { f with offsets := f.offsets.set i f.buffer.length }

/-- The page tree root, `/repo/fpdf.go:3953-3967`. -/
def putPagesRoot (f : Fpdf) (nb : Nat) (kids : List Nat) (wPt hPt : Rat) : Fpdf :=
  let f := f.setOffset 1
  let f := f.outs "1 0 obj"
  let f := f.outs "<</Type /Pages"
  let f := f.out (B "/Kids [" ++ kids.flatMap (fun (k : Nat) => sprintf "%d 0 R " [.d (k : Int)]) ++ B "]")
  let f := f.outf "/Count %d" [.d nb]
  let f := f.outf "/MediaBox [0 0 %.2f %.2f]" [.f wPt, .f hPt]
  let f := f.outs ">>"
  f.outs "endobj"

/-- `putpages`, `/repo/fpdf.go:3877-3968`. -/
def putpages (E : Ext) (f : Fpdf) : Fpdf :=
  let nb := f.page
  let f := if f.m.aliasNbPagesStr ≠ [] then
      { f with m.aliasMap := Model.insert f.m.aliasNbPagesStr (sprintf "%d" [.d nb]) f.m.aliasMap }
    else f
  let f := f.replaceAliases E
  let d := orient f.p.defOrientation f.p.defPageSize
  let wPt := d.wd * f.k
  let hPt := d.ht * f.k
  let (f, kids) := f.putPagesLoop E hPt nb 1 []
  f.putPagesRoot nb kids wPt hPt

/-- `layerPutLayers`, `/repo/layer.go:86-93`. -/
def layerPutLayersLoop (E : Ext) (f : Fpdf) (done : List Layer) : List Layer → Fpdf × List Layer
  | [] => (f, done)
  | l :: r =>
    let f := f.newobj
    let num := f.n
    let (f, nm) := (f.noteU16 l.name).textstring E.md5 (u16 l.name true)
    let f := f.outf "<</Type /OCG /Name %s>>" [.s nm]
    let f := f.outs "endobj"
    layerPutLayersLoop E f (done ++ [{ l with objNum := num }]) r

/-- `layerPutLayers`, `/repo/layer.go:86-93`. -/
def layerPutLayers (E : Ext) (f : Fpdf) : Fpdf :=
  let (f, ls) := f.layerPutLayersLoop E [] f.layer.list
  { f with layer.list := ls }

/-- The loop of `putBlendModes`, `/repo/fpdf.go:4522-4532`. -/
def putBlendLoop (f : Fpdf) (done : List BlendMode) : List BlendMode → Fpdf × List BlendMode
  | [] => (f, done)
  | b :: r =>
    let f := f.newobj
    let num := f.n
    let f := f.outf "<</Type /ExtGState /ca %s /CA %s /BM /%s>>" [.s b.fillStr, .s b.strokeStr, .s b.modeStr]
    let f := f.outs "endobj"
    putBlendLoop f (done ++ [{ b with objNum := num }]) r

/-- `putBlendModes`, `/repo/fpdf.go:4522-4532`. -/
def putBlendModes (f : Fpdf) : Fpdf :=
  let (f, bs) := f.putBlendLoop [] f.r.blendList
  { f with r.blendList := bs }

/-- One gradient, `/repo/fpdf.go:4536-4556`. Gradients have `tp` 2 or 3. -/
def putGradient (f : Fpdf) (gr : Gradient) : Fpdf :=
  let f := f.newobj
  let f := f.outf "<</FunctionType 2 /Domain [0.0 1.0] /C0 [%s] /C1 [%s] /N 1>>" [.s gr.clr1Str, .s gr.clr2Str]
  let f := f.outs "endobj"
  let f1 := f.n
  let f := f.newobj
  let f := f.outf "<</ShadingType %d /ColorSpace /DeviceRGB" [.d gr.tp]
  let f := if gr.tp = 2 then
      f.outf "/Coords [%.5f %.5f %.5f %.5f] /Function %d 0 R /Extend [true true]>>"
        [.f gr.x1, .f gr.y1, .f gr.x2, .f gr.y2, .d f1]
    else
      f.outf "/Coords [%.5f %.5f 0 %.5f %.5f %.5f] /Function %d 0 R /Extend [true true]>>"
        [.f gr.x1, .f gr.y1, .f gr.x2, .f gr.y2, .f gr.r, .d f1]
  f.outs "endobj"

/-- The loop of `putGradients`, `/repo/fpdf.go:4534-4557`. -/
def putGradLoop (f : Fpdf) (done : List Gradient) : List Gradient → Fpdf × List Gradient
  | [] => (f, done)
  | g :: r =>
    let f := f.putGradient g
    putGradLoop f (done ++ [{ g with objNum := f.n }]) r

/-- `putGradients`, `/repo/fpdf.go:4534-4557`. -/
def putGradients (f : Fpdf) : Fpdf :=
  let (f, gs) := f.putGradLoop [] f.r.gradientList
  { f with r.gradientList := gs }

/-- One spot colour, `/repo/spotcolor.go:165-174`. -/
def putSpotColor (f : Fpdf) (name : Bytes) (v : SpotColor) : Fpdf :=
  let f := f.newobj
  let f := f.outf "[/Separation /%s" [.s (replaceAll (B " ") (B "#20") name)]
  let f := f.outs "/DeviceCMYK <<"
  let f := f.outs "/Range [0 1 0 1 0 1 0 1] /C0 [0 0 0 0] "
  let f := f.outf "/C1 [%.3f %.3f %.3f %.3f] " [.f ((v.c : Rat) / 100), .f ((v.m : Rat) / 100), .f ((v.y : Rat) / 100),
    .f ((v.k : Rat) / 100)]
  let f := f.outs "/FunctionType 2 /Domain [0 1] /N 1>>]"
  f.outs "endobj"

/-- `putSpotColors`, `/repo/spotcolor.go:163-176`. -/
def putSpotColors (E : Ext) (f : Fpdf) : Fpdf :=
  (E.ord 3 (keys f.r.spotColorMap)).foldl (fun f k =>
    match lookup k f.r.spotColorMap with
    | some v =>
      let f := f.putSpotColor k v
      { f with r.spotColorMap := Model.insert k { v with objID := f.n } f.r.spotColorMap }
    | none => f) f

/-- The encodings, `/repo/fpdf.go:3975-3980`. -/
def putDiffs (f : Fpdf) : Fpdf :=
  f.t.diffs.foldl (fun f d =>
    let f := f.newobj
    let f := f.outf "<</Type /Encoding /BaseEncoding /WinAnsiEncoding /Differences [%s]>>" [.s d]
    f.outs "endobj") f

/-- One font file, `/repo/fpdf.go:3991-4028`. -/
def putFontFile (E : Ext) (f : Fpdf) (file : Bytes) : Fpdf :=
  if f.err ≠ none then f
  else
    match lookup file f.t.fontFiles with
    | none => f
    | some info =>
      if info.fontType ≠ B "UTF8" then
        let f := f.newobj
        let f := { f with t.fontFiles := Model.insert file { info with n := f.n } f.t.fontFiles }
        match (if info.embedded then some info.content else E.fontFile file) with
        | none => f.assignErr "cannot load font file"
        | some font =>
          let compressed := file.drop (file.length - 2) = B ".z"
          let font := if ¬ compressed ∧ info.length2 > 0 then
              slice font 6 info.length1 ++ slice font (6 + info.length1 + 6) info.length2
            else font
          let f := f.outf "<</Length %d" [.d font.length]
          let f := if compressed then f.outs "/Filter /FlateDecode" else f
          let f := f.outf "/Length1 %d" [.d info.length1]
          let f := if info.length2 > 0 then f.outf "/Length2 %d /Length3 0" [.d info.length2] else f
          let f := f.outs ">>"
          (f.putstream E.md5 font).outs "endobj"
      else f

/-- A core font, `/repo/fpdf.go:4048-4058`. -/
def putCoreFont (f : Fpdf) (font : FontDef) : Fpdf :=
  let f := f.newobj
  let f := f.outs "<</Type /Font"
  let f := f.outf "/BaseFont /%s" [.s font.name]
  let f := f.outs "/Subtype /Type1"
  let f := if font.name ≠ B "Symbol" ∧ font.name ≠ B "ZapfDingbats" then f.outs "/Encoding /WinAnsiEncoding" else f
  let f := f.outs ">>"
  f.outs "endobj"

/-- A Type1 or TrueType font, `/repo/fpdf.go:4059-4106`. `nf` is the object number before the encodings. -/
def putSimpleFont (f : Fpdf) (font : FontDef) (nf : Nat) : Fpdf :=
  let f := f.newobj
  let f := f.outs "<</Type /Font"
  let f := f.outf "/BaseFont /%s" [.s font.name]
  let f := f.outf "/Subtype /%s" [.s font.tp]
  let f := f.outs "/FirstChar 32 /LastChar 255"
  let f := f.outf "/Widths %d 0 R" [.d (f.n + 1 : Nat)]
  let f := f.outf "/FontDescriptor %d 0 R" [.d (f.n + 2 : Nat)]
  let f := if font.diffN > 0 then f.outf "/Encoding %d 0 R" [.d (nf + font.diffN : Nat)] else f.outs "/Encoding /WinAnsiEncoding"
  let f := f.outs ">>"
  let f := f.outs "endobj"
  let f := f.newobj
  let f := f.out (B "[" ++ (List.range 224).flatMap (fun j => sprintf "%d " [.d (font.cw.getD (j + 32) 0)]) ++ B "]")
  let f := f.outs "endobj"
  let f := f.newobj
  let f := f.out (sprintf "<</Type /FontDescriptor /FontName /%s " [.s font.name] ++ sprintf "/Ascent %d " [.d font.ascent]
    ++ sprintf "/Descent %d " [.d font.descent] ++ sprintf "/CapHeight %d " [.d font.capHeight] ++ sprintf "/Flags %d " [.d font.flags]
    ++ sprintf "/FontBBox [%d %d %d %d] " [.d font.bbox.1, .d font.bbox.2.1, .d font.bbox.2.2.1, .d font.bbox.2.2.2]
    ++ sprintf "/ItalicAngle %d " [.d font.italicAngle] ++ sprintf "/StemV %d " [.d font.stemV]
    ++ sprintf "/MissingWidth %d " [.d font.missingWidth]
    ++ sprintf "/FontFile%s %d 0 R>>" [.s (if font.tp ≠ B "Type1" then B "2" else []),
        .d ((lookup font.file f.t.fontFiles).getD {}).n])
  f.outs "endobj"

/-- The runes recorded for a font (`font.usedRunes`), without rune 0 (`/repo/fpdf.go:4109-4110`). -/
def fontRunes (f : Fpdf) (font : FontDef) : List Nat :=
  (f.t.usedRunes.filterMap fun x => if x.1 = font.i then some x.2 else none).filter (· ≠ 0)

/-- The width array of a UTF-8 font, `/repo/fpdf.go:4126`: `generateCIDFontMap` up to `LastRune`, the greatest rune used (`/repo/utf8fontfile.go:534-541`). SIMPLIFICATION: `LastRune` is a field of the font and
keeps its value if the font was cut before; here it is taken from the runes used. Widths are non-negative. -/
def _root_.Verif.Model.widthLine (d : FontDef) (used : List Nat) : Bytes := cidFontMap (d.cw.map Int.toNat) used.contains (used.foldl max 0)

/-- A UTF-8 font, `/repo/fpdf.go:4107-4181`. -/
def putUtf8Font (E : Ext) (f : Fpdf) (font : FontDef) : Fpdf :=
  let fontName := B "utf8" ++ font.name
  let used := f.fontRunes font
  let stream := E.cutFont font used
  let comp := E.deflate stream
  let f := f.newobj
  let f := f.outf "<</Type /Font\n/Subtype /Type0\n/BaseFont /%s\n/Encoding /Identity-H\n/DescendantFonts [%d 0 R]\n/ToUnicode %d 0 R>>\nendobj"
    [.s fontName, .d (f.n + 1 : Nat), .d (f.n + 2 : Nat)]
  let f := f.newobj
  let f := f.out (B "<</Type /Font\n/Subtype /CIDFontType2\n/BaseFont /" ++ fontName ++ B "\n/CIDSystemInfo " ++ natDec (f.n + 2)
    ++ B " 0 R\n/FontDescriptor " ++ natDec (f.n + 3) ++ B " 0 R")
  let f := if font.missingWidth ≠ 0 then f.out (B "/DW " ++ intDec font.missingWidth) else f
  let f := f.out (widthLine font used)
  let f := f.out (B "/CIDToGIDMap " ++ natDec (f.n + 4) ++ B " 0 R>>")
  let f := f.outs "endobj"
  let f := f.newobj
  let f := f.out (B "<</Length " ++ natDec E.toUnicode.length ++ B ">>")
  let f := (f.putstream E.md5 E.toUnicode).outs "endobj"
  let f := f.newobj
  let f := f.outs "<</Registry (Adobe)\n/Ordering (UCS)\n/Supplement 0>>"
  let f := f.outs "endobj"
  let f := f.newobj
  let f := f.out (sprintf "<</Type /FontDescriptor /FontName /%s\n /Ascent %d" [.s fontName, .d font.ascent]
    ++ sprintf " /Descent %d" [.d font.descent] ++ sprintf " /CapHeight %d" [.d font.capHeight]
    ++ sprintf " /Flags %d" [.d (((font.flags ||| 4) - ((font.flags ||| 4) &&& 32) : Nat))]
    ++ sprintf "/FontBBox [%d %d %d %d] " [.d font.bbox.1, .d font.bbox.2.1, .d font.bbox.2.2.1, .d font.bbox.2.2.2]
    ++ sprintf " /ItalicAngle %d" [.d font.italicAngle] ++ sprintf " /StemV %d" [.d font.stemV]
    ++ sprintf " /MissingWidth %d" [.d font.missingWidth] ++ sprintf "/FontFile2 %d 0 R" [.d (f.n + 2 : Nat)] ++ B ">>")
  let f := f.outs "endobj"
  let gid := E.deflate (E.cidToGid font used)
  let f := f.newobj
  let f := f.out (B "<</Length " ++ natDec gid.length ++ B "/Filter /FlateDecode>>")
  let f := (f.putstream E.md5 gid).outs "endobj"
  let f := f.newobj
  let f := f.out (B "<</Length " ++ natDec comp.length)
  let f := f.outs "/Filter /FlateDecode"
  let f := f.out (B "/Length1 " ++ natDec stream.length)
  let f := f.outs ">>"
  (f.putstream E.md5 comp).outs "endobj"

/-- One font, `/repo/fpdf.go:4040-4186`. -/
def putFont (E : Ext) (nf : Nat) (f : Fpdf) (key : Bytes) : Fpdf :=
  if f.err ≠ none then f
  else
    match lookup key f.t.fonts with
    | none => f
    | some font =>
      let font := { font with n := f.n + 1 }
      let f := { f with t.fonts := Model.insert key font f.t.fonts }
      if font.tp = B "Core" then f.putCoreFont font
      else if font.tp = B "Type1" ∨ font.tp = B "TrueType" then f.putSimpleFont font nf
      else if font.tp = B "UTF8" then f.putUtf8Font E font
      else f.assignErr "unsupported font type"

/-- `putfonts`, `/repo/fpdf.go:3970-4189`. -/
def putfonts (E : Ext) (f : Fpdf) : Fpdf :=
  if f.err ≠ none then f
  else
    let nf := f.n
    let f := f.putDiffs
    let f := (visit E f.m.catalogSort 4 (keys f.t.fontFiles) bytesLe).foldl (putFontFile E) f
    if f.err ≠ none then f
    else (visit E f.m.catalogSort 5 (keys f.t.fonts) bytesLe).foldl (putFont E nf) f

/-- `image.n = …` through a pointer. `/repo/fpdf.go:4369`. -/
def setImgN (f : Fpdf) (ptr n : Nat) : Fpdf :=
  { f with r.imgHeap := modifyAt ptr (fun i => { i with n := n }) f.r.imgHeap }

/-- The image object of `putimage` (`/repo/fpdf.go:4378-4411`) up to its `endobj`. -/
def putImageObj (E : Ext) (f : Fpdf) (info : ImageInfo) : Fpdf :=
  let f := f.newobj
  let f := f.outs "<</Type /XObject"
  let f := f.outs "/Subtype /Image"
  let f := f.outf "/Width %d" [.d (truncRat info.w)]
  let f := f.outf "/Height %d" [.d (truncRat info.h)]
  let f := if info.cs = B "Indexed" then
      f.outf "/ColorSpace [/Indexed /DeviceRGB %d %d 0 R]" [.d ((info.pal.length / 3 : Nat) - 1 : Int), .d (f.n + 1 : Nat)]
    else
      let f := f.outf "/ColorSpace /%s" [.s info.cs]
      if info.cs = B "DeviceCMYK" then f.outs "/Decode [1 0 1 0 1 0 1 0]" else f
  let f := f.outf "/BitsPerComponent %d" [.d info.bpc]
  let f := if info.f ≠ [] then f.outf "/Filter /%s" [.s info.f] else f
  let f := if info.dp ≠ [] then f.outf "/DecodeParms <<%s>>" [.s info.dp] else f
  let f := if info.trns ≠ [] then f.outf "/Mask [%s]" [.s (info.trns.flatMap fun v => sprintf "%d %d " [.d v, .d v])] else f
  let f := if info.smask.isSome then f.outf "/SMask %d 0 R" [.d (f.n + 1 : Nat)] else f
  let f := f.outf "/Length %d>>" [.d info.data.length]
  (f.putstream E.md5 info.data).outs "endobj"

/-- `putimage`, `/repo/fpdf.go:4377-4439`: the image, its soft mask (itself an image without mask or palette) and its palette. -/
def putimage (E : Ext) (f : Fpdf) (info : ImageInfo) : Fpdf :=
  let f := f.putImageObj E info
  let f := match info.smask with
    | some sm =>
      if sm.length > 0 then
        f.putImageObj E { w := info.w, h := info.h, cs := B "DeviceGray", bpc := 8, f := info.f, data := sm
                          dp := sprintf "/Predictor 15 /Colors 1 /BitsPerComponent 8 /Columns %d" [.d (truncRat info.w)] }
      else f
    | none => f
  if info.cs = B "Indexed" then f.putContent E info.pal else f

/-- Comparison of image names by the width of the image, `/repo/fpdf.go:4352`. -/
def imgWidthLe (f : Fpdf) (a b : Bytes) : Bool :=
  let w (k : Bytes) : Rat := (((lookup k f.r.images).bind (f.r.imgHeap[·]?)).getD {}).w
  decide (w a ≤ w b)

/-- The loop of `putimages`, `/repo/fpdf.go:4359-4374`: `ins` is `insertedImages`. -/
def putImagesLoop (E : Ext) : List Bytes → Fpdf → List (Bytes × Nat) → Fpdf
  | [], f, _ => f
  | k :: r, f, ins =>
    match lookup k f.r.images with
    | none => putImagesLoop E r f ins
    | some ptr =>
      match f.r.imgHeap[ptr]? with
      | none => putImagesLoop E r f ins
      | some info =>
        match lookup info.i ins with
        | some n => putImagesLoop E r (f.setImgN ptr n) ins
        | none =>
          let num := f.n + 1
          let f := f.putimage E info
          putImagesLoop E r (f.setImgN ptr num) (Model.insert info.i num ins)

/-- `putimages`, `/repo/fpdf.go:4343-4375`. -/
def putimages (E : Ext) (f : Fpdf) : Fpdf :=
  putImagesLoop E (visit E f.m.catalogSort 6 (keys f.r.images) f.imgWidthLe) f []

/-- `templateFontCatalog`, `/repo/template.go:129-145`. -/
def templateFontCatalog (E : Ext) (f : Fpdf) : Fpdf :=
  let f := f.outs "/Font <<"
  let f := (visit E f.m.catalogSort 7 (keys f.t.fonts) bytesLe).foldl (fun f k =>
    match lookup k f.t.fonts with
    | some font => f.outf "/F%s %d 0 R" [.s font.i, .d font.n]
    | none => f) f
  f.outs ">>"

/-- The /XObject entry of a template, `/repo/template.go:175-202`. (`gl.catalogSort` is false unless changed by `SetDefaultCatalogSort`.) -/
def putTemplateXObjects (E : Ext) (f : Fpdf) (t : Tmpl) : Fpdf :=
  if t.images.length > 0 ∨ t.deps.length > 0 then
    let f := f.outs "/XObject <<"
    let f := (E.ord 8 (keys t.images)).foldl (fun f k =>
      match (lookup k t.images).bind (f.r.imgHeap[·]?) with
      | some ti => f.outf "/I%s %d 0 R" [.s ti.i, .d ti.n]
      | none => f) f
    let f := t.deps.foldl (fun f tt =>
      match lookup (tt.id E) f.r.templateObjects with
      | some o => f.outf "/TPL%s %d 0 R" [.s (tt.id E), .d o]
      | none => f) f
    f.outs ">>"
  else f

/-- One template, `/repo/template.go:157-214`. -/
def putTemplate (E : Ext) (f : Fpdf) (t : Tmpl) : Fpdf :=
  let f := f.newobj
  let f := { f with r.templateObjects := Model.insert (t.id E) f.n f.r.templateObjects }
  let f := f.outf "<<%s/Type /XObject" [.s (if f.m.compress then B "/Filter /FlateDecode " else [])]
  let f := f.outs "/Subtype /Form"
  let f := f.outs "/Formtype 1"
  let f := f.outf "/BBox [%.2f %.2f %.2f %.2f]" [.f (t.corner.1 * f.k), .f (t.corner.2 * f.k), .f ((t.corner.1 + t.size.wd) * f.k),
    .f ((t.corner.2 + t.size.ht) * f.k)]
  let f := if t.corner.1 ≠ 0 ∨ t.corner.2 ≠ 0 then
      f.outf "/Matrix [1 0 0 1 %.5f %.5f]" [.f (-t.corner.1 * f.k * 2), .f (t.corner.2 * f.k * 2)]
    else f
  let f := f.outs "/Resources "
  let f := f.outs "<</ProcSet [/PDF /Text /ImageB /ImageC /ImageI]"
  let f := f.templateFontCatalog E
  let f := f.putTemplateXObjects E t
  let f := f.outs ">>"
  let b := if f.m.compress then E.deflate t.bytes else t.bytes
  let f := f.outf "/Length %d >>" [.d b.length]
  (f.putstream E.md5 b).outs "endobj"

/-- `putTemplates`, `/repo/template.go:148-216`. -/
def putTemplates (E : Ext) (f : Fpdf) : Fpdf :=
  (sortTemplates (visit E f.m.catalogSort 9 (keys f.r.templates) bytesLe) f.r.templates).foldl (putTemplate E) f

/-- `putxobjectdict`, `/repo/fpdf.go:4441-4477`. -/
def putxobjectdict (E : Ext) (f : Fpdf) : Fpdf :=
  let imgI (k : Bytes) : Bytes := (((lookup k f.r.images).bind (f.r.imgHeap[·]?)).getD {}).i
  let f := (visit E f.m.catalogSort 10 (keys f.r.images) (fun a b => bytesLe (imgI a) (imgI b))).foldl (fun f k =>
    match (lookup k f.r.images).bind (f.r.imgHeap[·]?) with
    | some im => f.outf "/I%s %d 0 R" [.s im.i, .d im.n]
    | none => f) f
  (visit E f.m.catalogSort 11 (keys f.r.templates) bytesLe).foldl (fun f k =>
    match lookup k f.r.templates with
    | some t =>
      match lookup (t.id E) f.r.templateObjects with
      | some o => f.outf "/TPL%s %d 0 R" [.s (t.id E), .d o]
      | none => f
    | none => f) f

/-- Numbered entries of a resource dictionary, `/repo/fpdf.go:4505-4516`, `/repo/layer.go:98-101`: name prefix, first index and object
numbers. -/
def putNumbered (fmt : String) : Nat → List Nat → Fpdf → Fpdf
  | _, [], f => f
  | i, o :: r, f => putNumbered fmt (i + 1) r (f.outf fmt [.d i, .d o])

/-- `spotColorPutResourceDict`, `/repo/spotcolor.go:178-184`. -/
def spotColorPutResourceDict (E : Ext) (f : Fpdf) : Fpdf :=
  let f := f.outs "/ColorSpace <<"
  let f := (E.ord 12 (keys f.r.spotColorMap)).foldl (fun f k =>
    match lookup k f.r.spotColorMap with
    | some c => f.outf "/CS%d %d 0 R" [.d c.id, .d c.objID]
    | none => f) f
  f.outs ">>"

/-- The fonts of the resource dictionary, `/repo/fpdf.go:4482-4495`. -/
def putFontNames (E : Ext) (f : Fpdf) : Fpdf :=
  (visit E f.m.catalogSort 13 (keys f.t.fonts) (fun a b => bytesLe (((lookup a f.t.fonts).getD {}).i) (((lookup b f.t.fonts).getD {}).i))).foldl (fun f k =>
    match lookup k f.t.fonts with
    | some font => f.outf "/F%s %d 0 R" [.s font.i, .d font.n]
    | none => f) f

/-- The numbered resources, `/repo/fpdf.go:4500-4518` and `/repo/layer.go:97-105`. -/
def putNumberedNames (f : Fpdf) : Fpdf :=
  let f := if f.r.blendList.length > 0 then
      (putNumbered "/GS%d %d 0 R" 1 (f.r.blendList.map (·.objNum)) (f.outs "/ExtGState <<")).outs ">>"
    else f
  let f := if f.r.gradientList.length > 0 then
      (putNumbered "/Sh%d %d 0 R" 1 (f.r.gradientList.map (·.objNum)) (f.outs "/Shading <<")).outs ">>"
    else f
  if f.layer.list.length > 0 then
    (putNumbered "/OC%d %d 0 R" 0 (f.layer.list.map (·.objNum)) (f.outs "/Properties <<")).outs ">>"
  else f

/-- `putresourcedict`, `/repo/fpdf.go:4479-4520`. -/
def putresourcedict (E : Ext) (f : Fpdf) : Fpdf :=
  let f := f.outs "/ProcSet [/PDF /Text /ImageB /ImageC /ImageI]"
  let f := f.outs "/Font <<"
  let f := f.putFontNames E
  let f := f.outs ">>"
  let f := f.outs "/XObject <<"
  let f := f.putxobjectdict E
  let f := f.outs ">>"
  let f := f.putNumberedNames
  f.spotColorPutResourceDict E

/-- `putjavascript`, `/repo/fpdf.go:4559-4576`. -/
def putjavascript (E : Ext) (f : Fpdf) : Fpdf :=
  match f.m.javascript with
  | none => f
  | some js =>
    let f := f.newobj
    let f := { f with m.nJs := f.n }
    let f := f.outs "<<"
    let f := f.outf "/Names [(EmbeddedJS) %d 0 R]" [.d (f.n + 1 : Nat)]
    let f := f.outs ">>"
    let f := f.outs "endobj"
    let f := f.newobj
    let f := f.outs "<<"
    let f := f.outs "/S /JavaScript"
    let (f, s) := f.textstring E.md5 js
    let f := f.outf "/JS %s" [.s s]
    let f := f.outs ">>"
    f.outs "endobj"

/-- The encryption dictionary, `/repo/fpdf.go:4601-4613`. -/
def putEncrypt (f : Fpdf) : Fpdf :=
  if f.m.protect.encrypted then
    let f := f.newobj
    let f := { f with m.protect.objNum := f.n }
    let f := f.outs "<<"
    let f := f.outs "/Filter /Standard"
    let f := f.outs "/V 1"
    let f := f.outs "/R 2"
    let f := f.outf "/O (%s)" [.s (escape f.m.protect.oValue)]
    let f := f.outf "/U (%s)" [.s (escape f.m.protect.uValue)]
    let f := f.outf "/P %d" [.d f.m.protect.pValue]
    let f := f.outs ">>"
    f.outs "endobj"
  else f

/-- The resource dictionary object, `/repo/fpdf.go:4593-4599`. -/
def putResourceObj (E : Ext) (f : Fpdf) : Fpdf :=
  let f := f.setOffset 2
  let f := f.outs "2 0 obj"
  let f := f.outs "<<"
  let f := f.putresourcedict E
  let f := f.outs ">>"
  f.outs "endobj"

/-- `putresources`, `/repo/fpdf.go:4578-4615`. -/
def putresources (E : Ext) (f : Fpdf) : Fpdf :=
  if f.err ≠ none then f
  else
    let f := f.layerPutLayers E
    let f := f.putBlendModes
    let f := f.putGradients
    let f := f.putSpotColors E
    let f := f.putfonts E
    if f.err ≠ none then f
    else
      let f := f.putimages E
      let f := f.putTemplates E
      let f := f.putResourceObj E
      let f := f.putjavascript E
      f.putEncrypt

/-- One entry of the information dictionary. `/repo/fpdf.go:4625-4648`. -/
def putInfoEntry (E : Ext) (f : Fpdf) (key : String) (v : Bytes) : Fpdf :=
  let (f, s) := f.textstring E.md5 v
  f.out (B key ++ s)

/-- `putinfo`, `/repo/fpdf.go:4625-4648`, as an object (`4796-4800`). -/
def putinfo (E : Ext) (f : Fpdf) : Fpdf :=
  let f := f.newobj
  let f := f.outs "<<"
  let f := if f.m.producer ≠ [] then f.putInfoEntry E "/Producer " f.m.producer else f
  let f := if f.m.title ≠ [] then f.putInfoEntry E "/Title " f.m.title else f
  let f := if f.m.subject ≠ [] then f.putInfoEntry E "/Subject " f.m.subject else f
  let f := if f.m.author ≠ [] then f.putInfoEntry E "/Author " f.m.author else f
  let f := if f.m.keywords ≠ [] then f.putInfoEntry E "/Keywords " f.m.keywords else f
  let f := if f.m.creator ≠ [] then f.putInfoEntry E "/Creator " f.m.creator else f
  let f := f.putInfoEntry E "/CreationDate " (B "D:" ++ E.creation)
  let f := f.putInfoEntry E "/ModDate " (B "D:" ++ E.modified)
  let f := f.outs ">>"
  f.outs "endobj"

/-- `layerPutCatalog`, `/repo/layer.go:106-121`. -/
def layerPutCatalog (f : Fpdf) : Fpdf :=
  if f.layer.list.length > 0 then
    let on := f.layer.list.flatMap fun l => sprintf "%d 0 R " [.d l.objNum]
    let off := f.layer.list.flatMap fun l => if l.visible then [] else sprintf "%d 0 R " [.d l.objNum]
    let f := f.outf "/OCProperties <</OCGs [%s] /D <</OFF [%s] /Order [%s]>>>>" [.s on, .s off, .s on]
    if f.layer.openLayerPane then f.outs "/PageMode /UseOC" else f
  else f

/-- `getEmbeddedFiles`, `/repo/attachments.go:90-97`. -/
def embeddedFiles (f : Fpdf) : Bytes :=
  let names := f.l.attachments.mapIdx fun i a => sprintf "(Attachement%d) %d 0 R " [.d (i + 1 : Nat), .d a.objectNumber]
  B "<< /Names [\n " ++ joinB (B "\n") names ++ B " \n] >>"

/-- The zoom mode entry, `/repo/fpdf.go:4653-4660`. -/
def putZoom (f : Fpdf) : Fpdf :=
  if f.m.zoomMode = B "fullpage" then f.outs "/OpenAction [3 0 R /Fit]"
  else if f.m.zoomMode = B "fullwidth" then f.outs "/OpenAction [3 0 R /FitH null]"
  else if f.m.zoomMode = B "real" then f.outs "/OpenAction [3 0 R /XYZ null null 1]"
  else f

/-- The page layout entry, `/repo/fpdf.go:4663-4677`. -/
def putLayout (f : Fpdf) : Fpdf :=
  let m := f.m.layoutMode
  if m = B "single" ∨ m = B "SinglePage" then f.outs "/PageLayout /SinglePage"
  else if m = B "continuous" ∨ m = B "OneColumn" then f.outs "/PageLayout /OneColumn"
  else if m = B "two" ∨ m = B "TwoColumnLeft" then f.outs "/PageLayout /TwoColumnLeft"
  else if m = B "TwoColumnRight" then f.outs "/PageLayout /TwoColumnRight"
  else if m = B "TwoPageLeft" ∨ m = B "TwoPageRight" then
    let f := if f.m.pdfVersion < 5 then { f with m.pdfVersion := 5 } else f
    f.out (B "/PageLayout /" ++ m)
  else f

/-- `putcatalog`, `/repo/fpdf.go:4650-4696`, as an object (`4802-4806`). -/
def putcatalog (f : Fpdf) : Fpdf :=
  let f := f.newobj
  let f := f.outs "<<"
  let f := f.outs "/Type /Catalog"
  let f := f.outs "/Pages 1 0 R"
  let f := f.putZoom
  let f := f.putLayout
  let f := if f.l.outlines.length > 0 then
      (f.outf "/Outlines %d 0 R" [.d f.m.outlineRoot]).outs "/PageMode /UseOutlines"
    else f
  let f := f.layerPutCatalog
  let f := f.outs "/Names <<"
  let f := if f.m.javascript.isSome then f.outf "/JavaScript %d 0 R" [.d f.m.nJs] else f
  let f := f.out (B "/EmbeddedFiles " ++ f.embeddedFiles)
  let f := f.outs ">>"
  let f := f.outs ">>"
  f.outs "endobj"

/-- `layerEndDoc`, `/repo/layer.go:78-84`, and `putheader`, `/repo/fpdf.go:4698-4703`. -/
def putheader (f : Fpdf) : Fpdf :=
  let f := if f.layer.list.length > 0 ∧ f.m.pdfVersion < 5 then { f with m.pdfVersion := 5 } else f
  let f := if f.r.blendMap.length > 0 ∧ f.m.pdfVersion < 4 then { f with m.pdfVersion := 4 } else f
  f.out (B "%PDF-1." ++ natDec f.m.pdfVersion)

/-- `putxmp`, `/repo/fpdf.go:4715-4723`. -/
def putxmp (E : Ext) (f : Fpdf) : Fpdf :=
  if f.m.xmp = [] then f
  else
    let f := f.newobj
    let f := f.outf "<< /Type /Metadata /Subtype /XML /Length %d >>" [.d f.m.xmp.length]
    (f.putstream E.md5 f.m.xmp).outs "endobj"

/-- An optional reference of a bookmark object, as in `/repo/fpdf.go:4754-4765`. -/
def outRef (f : Fpdf) (fmt : String) (n : Nat) : Option Nat → Fpdf
  | some i => f.outf fmt [.d (n + i : Nat)]
  | none => f

/-- One bookmark object, `/repo/fpdf.go:4751-4768`; `n` is the object number of the first bookmark. -/
def putOutline (E : Ext) (n : Nat) (f : Fpdf) (x : OutlineRec × OutLinks) : Fpdf :=
  let (o, k) := x
  let f := f.newobj
  let (f, s) := f.textstring E.md5 o.text
  let f := f.outf "<</Title %s" [.s s]
  let f := f.outf "/Parent %d 0 R" [.d (n + k.parent : Nat)]
  let f := f.outRef "/Prev %d 0 R" n k.prev
  let f := f.outRef "/Next %d 0 R" n k.next
  let f := f.outRef "/First %d 0 R" n k.first
  let f := f.outRef "/Last %d 0 R" n k.last
  let f := f.outf "/Dest [%d 0 R /XYZ 0 %.2f null]" [.d (1 + 2 * o.p : Nat), .f ((f.p.h - o.y) * f.k)]
  let f := f.outs "/Count 0>>"
  f.outs "endobj"

/-- `putbookmarks`, `/repo/fpdf.go:4725-4776`. -/
def putbookmarks (E : Ext) (f : Fpdf) : Fpdf :=
  if f.l.outlines.length > 0 then
    let r := outlineLinks (f.l.outlines.map (·.level))
    let n := f.n + 1
    let f := (f.l.outlines.zip r.links).foldl (putOutline E n) f
    let f := f.newobj
    let f := { f with m.outlineRoot := f.n }
    let f := f.outf "<</Type /Outlines /First %d 0 R" [.d n]
    let f := f.outf "/Last %d 0 R>>" [.d (n + r.lastTop : Nat)]
    f.outs "endobj"
  else f

/-- The entries of the cross-reference table, `/repo/fpdf.go:4813-4815`, for `offs` the offsets of objects 1, 2, …. -/
def putXrefEntries (f : Fpdf) (offs : List Nat) : Fpdf := offs.foldl (fun f (o : Nat) => f.outf "%010d 00000 n " [.d (o : Int)]) f

/-- Cross-reference table and trailer, `/repo/fpdf.go:4808-4823` with `puttrailer` (`4705-4713`). -/
def putxref (f : Fpdf) : Fpdf :=
  let o := f.buffer.length
  let f := f.outs "xref"
  let f := f.outf "0 %d" [.d (f.n + 1 : Nat)]
  let f := f.outs "0000000000 65535 f "
  let f := f.putXrefEntries ((f.offsets.drop 1).take f.n)
  let f := f.outs "trailer"
  let f := f.outs "<<"
  let f := f.outf "/Size %d" [.d (f.n + 1 : Nat)]
  let f := f.outf "/Root %d 0 R" [.d f.n]
  let f := f.outf "/Info %d 0 R" [.d (f.n - 1 : Nat)]
  let f := if f.m.protect.encrypted then (f.outf "/Encrypt %d 0 R" [.d f.m.protect.objNum]).outs "/ID [()()]" else f
  let f := f.outs ">>"
  let f := f.outs "startxref"
  let f := f.outf "%d" [.d o]
  let f := f.out (B "%%EOF")
  { f with state := 3 }

/-- `enddoc`, `/repo/fpdf.go:4778-4826`. -/
def enddoc (E : Ext) (f : Fpdf) : Fpdf :=
  if f.err ≠ none then f
  else
    let f := f.putheader
    let f := f.putAttachments E
    let f := f.putAnnotationsAttachments E
    let f := f.putpages E
    let f := f.putresources E
    if f.err ≠ none then f
    else
      let f := f.putbookmarks E
      let f := f.putxmp E
      let f := f.putinfo E
      let f := f.putcatalog
      f.putxref

/-- `Close`, `/repo/fpdf.go:660-694`. -/
def close (E : Ext) (cb : Cb) (f : Fpdf) : Fpdf :=
  let f := if f.err = none then
      if f.clipNest > 0 then f.assignErr "clip procedure must be explicitly ended"
      else if f.transformNest > 0 then f.assignErr "transformation procedure must be explicitly ended"
      else f
    else f
  if f.err ≠ none then f
  else if f.state = 3 then f
  else
    let first := f.page = 0
    let f := if first then f.addPage E cb else f
    if first ∧ f.err ≠ none then f
    else ((f.runFooter cb true).endpage).enddoc E

/-- `Output`, `/repo/fpdf.go:3463-3476` (and, up to creating and closing the file, `OutputAndClose`, `OutputFileAndClose`): the bytes written to
the writer, the final state and the error returned. The buffer is drained by `WriteTo`; `wErr` tells whether the writer fails. -/
def output (E : Ext) (cb : Cb) (wErr : Bool) (f : Fpdf) : Bytes × Fpdf × Option String :=
  if f.err ≠ none then ([], f, f.err)
  else
    let f := if f.state < 3 then f.close E cb else f
    let w := f.buffer
    let f := { f with buffer := [] }
    let f := if wErr then f.assignErr "write error" else f
    (w, f, f.err)

end Fpdf
end Verif.Model
