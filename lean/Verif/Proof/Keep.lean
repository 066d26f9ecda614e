import Verif.Proof.Stages
/-
What each stage of writing the document leaves unchanged, besides `wfix`.
-/
namespace Verif.Proof
open Verif Verif.Model Verif.Spec

/-- The parts of the document that some stage of the writer changes. -/
structure Res where
  attachments : List Attachment
  heap : List (Nat × Attachment)
  fonts : List (Bytes × FontDef)
  fontFiles : List (Bytes × FontFile)
  blendList : List BlendMode
  gradientList : List Gradient
  spotColorMap : List (Bytes × SpotColor)
  imgHeap : List ImageInfo
  templateObjects : List (Bytes × Nat)
  layers : List Layer
  pdfVersion : Nat
  nJs : Nat
  outlineRoot : Nat
  objNum : Nat

/-- These parts of `f`. -/
def resOf (f : Fpdf) : Res :=
  { attachments := f.l.attachments, heap := f.l.heap, fonts := f.t.fonts, fontFiles := f.t.fontFiles, blendList := f.r.blendList, gradientList := f.r.gradientList
    spotColorMap := f.r.spotColorMap, imgHeap := f.r.imgHeap, templateObjects := f.r.templateObjects, layers := f.layer.list, pdfVersion := f.m.pdfVersion
    nJs := f.m.nJs, outlineRoot := f.m.outlineRoot, objNum := f.m.protect.objNum }

/-- Everything but what `d` erases is kept. -/
def Kp (d : Res → Res) (f g : Fpdf) : Prop := f.state = 1 → g.state = 1 ∧ d (resOf g) = d (resOf f)

variable {d : Res → Res}

theorem Kp.refl (f : Fpdf) : Kp d f f := fun h => ⟨h, rfl⟩
theorem Kp.trans {f g h : Fpdf} (h1 : Kp d f g) (h2 : Kp d g h) : Kp d f h := fun hs =>
  ⟨(h2 (h1 hs).1).1, (h2 (h1 hs).1).2.trans (h1 hs).2⟩
theorem Kp.of_pl {f g : Fpdf} (h : Pl f g) : Kp d f g := fun hs => by
  obtain ⟨b, hb⟩ := h.o hs
  refine ⟨hb.state.trans hs, ?_⟩
  have := congrArg resOf hb.fix
  exact congrArg d (show resOf g = resOf f from this)
theorem Kp.pl {f g h : Fpdf} (h1 : Kp d f g) (h2 : Pl g h) : Kp d f h := h1.trans (.of_pl h2)
theorem Kp.out {f g : Fpdf} (h : Kp d f g) (s : Bytes) : Kp d f (g.out s) := h.pl ((Pl.refl g).out s)
theorem Kp.outs {f g : Fpdf} (h : Kp d f g) (s : String) : Kp d f (g.outs s) := h.out _
theorem Kp.outf {f g : Fpdf} (h : Kp d f g) (s : String) (a : List Arg) : Kp d f (g.outf s a) := h.out _
theorem Kp.newobj {f g : Fpdf} (h : Kp d f g) : Kp d f g.newobj := h.trans fun hs => by
  obtain ⟨_, _, _, h4, h5⟩ := newobj_spec g hs
  have := congrArg resOf h5
  exact ⟨h4, congrArg d (show resOf g.newobj = resOf g from this)⟩
theorem Kp.putstream {f g : Fpdf} (h : Kp d f g) (md5 : Bytes → Bytes) (b : Bytes) : Kp d f (g.putstream md5 b) := h.trans fun hs => by
  obtain ⟨_, ho, _⟩ := putstream_out md5 g hs b
  have := congrArg resOf ho.fix
  exact ⟨ho.state.trans hs, congrArg d (show resOf _ = resOf g from this)⟩
theorem Kp.textstring {f g : Fpdf} (h : Kp d f g) (md5 : Bytes → Bytes) (b : Bytes) : Kp d f (g.textstring md5 b).1 := h.pl (Pl.textstring _ (Pl.refl _) _)
theorem Kp.noteU16 {f g : Fpdf} (h : Kp d f g) (b : Bytes) : Kp d f (g.noteU16 b) := h.pl ((Pl.refl _).noteU16 _)
theorem Kp.setOffset {f g : Fpdf} (h : Kp d f g) (i : Nat) : Kp d f (g.setOffset i) := h.trans fun hs => ⟨hs, rfl⟩
theorem Kp.upd {f g : Fpdf} (hs : g.state = f.state) (h : d (resOf g) = d (resOf f)) : Kp d f g := fun h1 => ⟨hs.trans h1, h⟩
theorem Kp.ite {f g h : Fpdf} {c : Prop} [Decidable c] (h1 : Kp d f g) (h2 : Kp d f h) : Kp d f (if c then g else h) := by
  split
  · exact h1
  · exact h2
theorem Kp.foldl {α} (F : Fpdf → α → Fpdf) (h : ∀ f a, Kp d f (F f a)) (l : List α) {f g : Fpdf} (h0 : Kp d f g) : Kp d f (l.foldl F g) := by
  induction l generalizing g with
  | nil => exact h0
  | cons a l ih => exact ih (h0.trans (h g a))

/-- Decompose a sequence of steps. -/
macro "kps" : tactic => `(tactic| repeat (with_reducible first
  | exact Kp.refl _
  | apply Kp.outs | apply Kp.outf | apply Kp.out | apply Kp.newobj | apply Kp.putstream | apply Kp.textstring | apply Kp.noteU16
  | apply Kp.ite))

theorem Kp.mono {d' : Res → Res} (hd : ∀ a b, d a = d b → d' a = d' b) {f g : Fpdf} (h : Kp d f g) : Kp d' f g := fun hs => ⟨(h hs).1, hd _ _ (h hs).2⟩

/-! ### Stages -/

theorem putContent_keep (E : Ext) (f : Fpdf) (b : Bytes) : Kp id f (f.putContent E b) := by
  unfold Fpdf.putContent
  dsimp only
  kps

theorem putPageDict_keep (E : Ext) (hPt : Rat) (f : Fpdf) (n : Nat) : Kp id f (f.putPageDict E hPt n) := by
  unfold Fpdf.putPageDict
  dsimp only
  have key : ∀ g, Kp id f g → Kp id f (g.putAnnots E hPt n) := fun g h => h.pl (putAnnots_pl E hPt (Pl.refl _) _)
  have key2 : ∀ g, Kp id f g → Kp id f (g.putPageBoxes E n) := fun g h => h.pl (putPageBoxes_pl E (Pl.refl _) _)
  have key3 : ∀ g, Kp id f g → Kp id f (g.putMediaBox n) := fun g h => h.pl (putMediaBox_pl (Pl.refl _) _)
  repeat (with_reducible first | apply key | apply key2 | apply key3 | exact Kp.refl _ | apply Kp.outs | apply Kp.outf | apply Kp.out | apply Kp.newobj | apply Kp.ite)

theorem putPagesLoop_keep (E : Ext) (hPt : Rat) (cnt : Nat) : ∀ (n : Nat) (f : Fpdf) (k : List Nat), Kp id f (Fpdf.putPagesLoop E hPt cnt n f k).1 := by
  induction cnt with
  | zero => intro n f k; exact Kp.refl f
  | succ c ih =>
    intro n f k
    unfold Fpdf.putPagesLoop
    exact ((putPageDict_keep E hPt f n).trans (putContent_keep E _ _)).trans (ih _ _ _)

theorem putPagesRoot_keep (f : Fpdf) (nb : Nat) (kids : List Nat) (wPt hPt : Rat) : Kp id f (f.putPagesRoot nb kids wPt hPt) := by
  unfold Fpdf.putPagesRoot
  dsimp only
  kps
  exact (Kp.refl f).setOffset 1

theorem layerLoop_keep (E : Ext) (l : List Layer) : ∀ (f : Fpdf) (done : List Layer), Kp id f (f.layerPutLayersLoop E done l).1 := by
  induction l with
  | nil => intro f done; exact Kp.refl f
  | cons a r ih =>
    intro f done
    unfold Fpdf.layerPutLayersLoop
    refine Kp.trans ?_ (ih _ _)
    exact Kp.outs (Kp.outf (Kp.textstring (Kp.noteU16 (Kp.newobj (Kp.refl f)) _) _ _) _ _) _

/-- Forget the layers. -/
def noLayers (r : Res) : Res := { r with layers := [] }
/-- Forget the blend modes. -/
def noBlend (r : Res) : Res := { r with blendList := [] }
/-- Forget the gradients. -/
def noGrad (r : Res) : Res := { r with gradientList := [] }
/-- Forget the spot colours. -/
def noSpot (r : Res) : Res := { r with spotColorMap := [] }
/-- Forget the fonts. -/
def noFonts (r : Res) : Res := { r with fonts := [], fontFiles := [] }
/-- Forget the images. -/
def noImages (r : Res) : Res := { r with imgHeap := [] }
/-- Forget the templates. -/
def noTemplates (r : Res) : Res := { r with templateObjects := [] }
/-- Forget the attachments. -/
def noAttach (r : Res) : Res := { r with attachments := [], heap := [] }

theorem layerPutLayers_keep (E : Ext) (f : Fpdf) : Kp noLayers f (f.layerPutLayers E) := by
  unfold Fpdf.layerPutLayers
  exact ((layerLoop_keep E _ f []).mono fun a b h => congrArg noLayers h).trans (Kp.upd rfl rfl)

theorem blendLoop_keep (l : List BlendMode) : ∀ (f : Fpdf) (done : List BlendMode), Kp id f (f.putBlendLoop done l).1 := by
  induction l with
  | nil => intro f done; exact Kp.refl f
  | cons a r ih =>
    intro f done
    unfold Fpdf.putBlendLoop
    refine Kp.trans ?_ (ih _ _)
    kps

theorem putBlendModes_keep (f : Fpdf) : Kp noBlend f f.putBlendModes := by
  unfold Fpdf.putBlendModes
  exact ((blendLoop_keep _ f []).mono fun a b h => congrArg noBlend h).trans (Kp.upd rfl rfl)

theorem gradLoop_keep (l : List Gradient) : ∀ (f : Fpdf) (done : List Gradient), Kp id f (f.putGradLoop done l).1 := by
  induction l with
  | nil => intro f done; exact Kp.refl f
  | cons a r ih =>
    intro f done
    unfold Fpdf.putGradLoop
    refine Kp.trans ?_ (ih _ _)
    unfold Fpdf.putGradient
    dsimp only
    kps

theorem putGradients_keep (f : Fpdf) : Kp noGrad f f.putGradients := by
  unfold Fpdf.putGradients
  exact ((gradLoop_keep _ f []).mono fun a b h => congrArg noGrad h).trans (Kp.upd rfl rfl)

theorem putSpotColor_keep (f : Fpdf) (k : Bytes) (v : SpotColor) : Kp noSpot f (f.putSpotColor k v) := by
  unfold Fpdf.putSpotColor
  dsimp only
  kps

theorem insSpot_keep (f : Fpdf) (m : List (Bytes × SpotColor)) : Kp noSpot f { f with r.spotColorMap := m } := Kp.upd rfl rfl

theorem putSpotColors_keep (E : Ext) (f : Fpdf) : Kp noSpot f (f.putSpotColors E) := by
  unfold Fpdf.putSpotColors
  refine Kp.foldl _ (fun f k => ?_) _ (Kp.refl f)
  split
  · exact (putSpotColor_keep f k _).trans (insSpot_keep _ _)
  · exact Kp.refl f

theorem putDiffs_keep (f : Fpdf) : Kp noFonts f f.putDiffs := by
  unfold Fpdf.putDiffs
  refine Kp.foldl _ (fun f k => ?_) _ (Kp.refl f)
  dsimp only
  kps

theorem putFontFile_keep (E : Ext) (f : Fpdf) (file : Bytes) : Kp noFonts f (f.putFontFile E file) := by
  unfold Fpdf.putFontFile
  split
  · exact Kp.refl f
  split
  · exact Kp.refl f
  split
  · dsimp only
    have hu : ∀ m : List (Bytes × FontFile), Kp noFonts f.newobj { f.newobj with t.fontFiles := m } := fun m => Kp.upd rfl rfl
    split
    · refine Kp.trans (g := f.newobj) (by kps) ?_
      exact (hu _).trans (Kp.upd rfl rfl)
    · refine Kp.trans (g := f.newobj) (by kps) ?_
      repeat (with_reducible first | apply hu | apply Kp.outs | apply Kp.outf | apply Kp.putstream | apply Kp.ite)
  · exact Kp.refl f

theorem putCoreFont_keep (f : Fpdf) (font : FontDef) : Kp noFonts f (f.putCoreFont font) := by
  unfold Fpdf.putCoreFont
  dsimp only
  kps

theorem putSimpleFont_keep (f : Fpdf) (font : FontDef) (nf : Nat) : Kp noFonts f (f.putSimpleFont font nf) := by
  unfold Fpdf.putSimpleFont
  dsimp only
  kps

theorem putUtf8Font_keep (E : Ext) (f : Fpdf) (font : FontDef) : Kp noFonts f (f.putUtf8Font E font) := by
  unfold Fpdf.putUtf8Font
  dsimp only
  generalize Fpdf.fontRunes f font = used
  generalize E.deflate (E.cutFont font used) = comp
  generalize List.length (E.cutFont font used) = clen
  generalize E.deflate (E.cidToGid font used) = gid
  generalize widthLine font used = cw
  generalize B "utf8" ++ font.name = fontName
  kps

theorem putFont_keep (E : Ext) (nf : Nat) (f : Fpdf) (key : Bytes) : Kp noFonts f (f.putFont E nf key) := by
  unfold Fpdf.putFont
  split
  · exact Kp.refl f
  split
  · exact Kp.refl f
  · rename_i font _
    dsimp only
    have hu : ∀ m : List (Bytes × FontDef), Kp noFonts f { f with t.fonts := m } := fun m => Kp.upd rfl rfl
    split
    · exact (hu _).trans (putCoreFont_keep _ _)
    split
    · exact (hu _).trans (putSimpleFont_keep _ _ _)
    split
    · exact (hu _).trans (putUtf8Font_keep _ _ _)
    · exact (hu _).trans (Kp.upd rfl rfl)

theorem putfonts_keep (E : Ext) (f : Fpdf) : Kp noFonts f (f.putfonts E) := by
  unfold Fpdf.putfonts
  split
  · exact Kp.refl f
  · dsimp only
    have h := Kp.foldl (Fpdf.putFontFile E) (putFontFile_keep E) (visit E f.putDiffs.m.catalogSort 4 (keys f.putDiffs.t.fontFiles) bytesLe) (putDiffs_keep f)
    split
    · exact h
    · exact Kp.foldl _ (putFont_keep E _) _ h

theorem putImageObj_keep (E : Ext) (f : Fpdf) (i : ImageInfo) : Kp noImages f (f.putImageObj E i) := by
  unfold Fpdf.putImageObj
  dsimp only
  kps

theorem putimage_keep (E : Ext) (f : Fpdf) (i : ImageInfo) : Kp noImages f (f.putimage E i) := by
  unfold Fpdf.putimage
  have key : ∀ g, Kp noImages f g → Kp noImages f (if i.cs = B "Indexed" then g.putContent E i.pal else g) := fun g h =>
    Kp.ite (h.trans ((putContent_keep E _ _).mono fun a b h => congrArg noImages h)) h
  refine key _ ((putImageObj_keep E f i).trans ?_)
  split
  · exact Kp.ite (putImageObj_keep E _ _) (Kp.refl _)
  · exact Kp.refl _

theorem setImgN_keep (f : Fpdf) (p n : Nat) : Kp noImages f (f.setImgN p n) := Kp.upd rfl rfl

theorem putImagesLoop_keep (E : Ext) (l : List Bytes) : ∀ (f : Fpdf) (ins : List (Bytes × Nat)), Kp noImages f (Fpdf.putImagesLoop E l f ins) := by
  induction l with
  | nil => intro f ins; exact Kp.refl f
  | cons k r ih =>
    intro f ins
    unfold Fpdf.putImagesLoop
    split
    · exact ih _ _
    split
    · exact ih _ _
    split
    · exact (setImgN_keep _ _ _).trans (ih _ _)
    · exact (putimage_keep E f _).trans ((setImgN_keep _ _ _).trans (ih _ _))

theorem putimages_keep (E : Ext) (f : Fpdf) : Kp noImages f (f.putimages E) := putImagesLoop_keep E _ _ _

theorem putTemplate_keep (E : Ext) (f : Fpdf) (t : Tmpl) : Kp noTemplates f (f.putTemplate E t) := by
  unfold Fpdf.putTemplate
  dsimp only
  have hu : ∀ m : List (Bytes × Nat), Kp noTemplates f.newobj { f.newobj with r.templateObjects := m } := fun m => Kp.upd rfl rfl
  have k1 : ∀ g, Kp noTemplates f g → Kp noTemplates f (g.templateFontCatalog E) := fun g h => h.pl (templateFontCatalog_pl E (Pl.refl _))
  have k2 : ∀ g, Kp noTemplates f g → Kp noTemplates f (g.putTemplateXObjects E t) := fun g h => h.pl (putTemplateXObjects_pl E (Pl.refl _) t)
  have k0 : ∀ m : List (Bytes × Nat), Kp noTemplates f { f.newobj with r.templateObjects := m } := fun m => Kp.trans (g := f.newobj) (by kps) (hu m)
  repeat (with_reducible first | apply k0 | apply k1 | apply k2 | apply Kp.outs | apply Kp.outf | apply Kp.putstream | apply Kp.ite)

theorem putTemplates_keep (E : Ext) (f : Fpdf) : Kp noTemplates f (f.putTemplates E) := Kp.foldl _ (putTemplate_keep E) _ (Kp.refl f)

theorem putResourceObj_keep (E : Ext) (f : Fpdf) : Kp id f (f.putResourceObj E) := by
  unfold Fpdf.putResourceObj
  dsimp only
  refine ((Kp.pl ?_ (putresourcedict_pl E (Pl.refl _))).outs _).outs _
  kps
  exact (Kp.refl f).setOffset 2

/-- Forget the version, the javascript, the outline and the encryption object. -/
def noTail (r : Res) : Res := { r with pdfVersion := 0, nJs := 0, outlineRoot := 0, objNum := 0 }

theorem putjavascript_keep (E : Ext) (f : Fpdf) : Kp noTail f (f.putjavascript E) := by
  unfold Fpdf.putjavascript
  split
  · exact Kp.refl f
  · dsimp only
    kps
    exact Kp.trans (g := f.newobj) (by kps) (Kp.upd rfl rfl)

theorem putEncrypt_keep (f : Fpdf) : Kp noTail f f.putEncrypt := by
  unfold Fpdf.putEncrypt
  refine Kp.ite ?_ (Kp.refl f)
  dsimp only
  kps
  exact Kp.trans (g := f.newobj) (by kps) (Kp.upd rfl rfl)

theorem putOutline_keep (E : Ext) (n : Nat) (f : Fpdf) (x : OutlineRec × OutLinks) : Kp id f (f.putOutline E n x) := by
  unfold Fpdf.putOutline
  obtain ⟨o, k⟩ := x
  dsimp only
  have opt : ∀ (m : Option Nat) (fmt : String) (g : Fpdf), Kp id f g → Kp id f (g.outRef fmt n m) := by
    intro m fmt g h
    cases m with
    | some i => exact h.outf _ _
    | none => exact h
  refine Kp.outs (Kp.outs (Kp.outf ?_ _ _) _) _
  refine opt k.last _ _ (opt k.first _ _ (opt k.next _ _ (opt k.prev _ _ ?_)))
  kps

theorem putbookmarks_keep (E : Ext) (f : Fpdf) : Kp noTail f (f.putbookmarks E) := by
  unfold Fpdf.putbookmarks
  refine Kp.ite ?_ (Kp.refl f)
  dsimp only
  have h1 : Kp noTail f ((f.l.outlines.zip (outlineLinks (f.l.outlines.map (·.level))).links).foldl (Fpdf.putOutline E (f.n + 1)) f) :=
    (Kp.foldl _ (putOutline_keep E _) _ (Kp.refl f)).mono fun a b h => congrArg noTail h
  refine Kp.outs (Kp.outf (Kp.outf ?_ _ _) _ _) _
  exact Kp.trans (g := ((f.l.outlines.zip (outlineLinks (f.l.outlines.map (·.level))).links).foldl (Fpdf.putOutline E (f.n + 1)) f).newobj) h1.newobj (Kp.upd rfl rfl)

theorem putxmp_keep (E : Ext) (f : Fpdf) : Kp id f (f.putxmp E) := by
  unfold Fpdf.putxmp
  dsimp only
  kps

theorem putinfo_keep (E : Ext) (f : Fpdf) : Kp id f (f.putinfo E) := by
  unfold Fpdf.putinfo
  dsimp only
  refine Kp.outs (Kp.pl (h := _) (g := f.newobj) (by kps) ?_) _
  repeat (with_reducible first | exact Pl.refl _ | apply Pl.outs | apply putInfoEntry_pl | apply Pl.opt)

theorem putLayout_keep {f g : Fpdf} (h : Kp noTail f g) : Kp noTail f g.putLayout := by
  unfold Fpdf.putLayout
  dsimp only
  repeat' with_reducible first | exact h | apply Kp.outs | apply Kp.out | refine Kp.ite ?_ ?_
  exact h.trans (Kp.upd rfl rfl)

theorem putcatalog_keep (f : Fpdf) : Kp noTail f f.putcatalog := by
  unfold Fpdf.putcatalog
  dsimp only
  have h1 : Kp noTail f ((((f.newobj.outs "<<").outs "/Type /Catalog").outs "/Pages 1 0 R").putZoom).putLayout := by
    apply putLayout_keep
    refine Kp.pl ?_ (putZoom_pl (Pl.refl _))
    kps
  revert h1
  generalize ((((f.newobj.outs "<<").outs "/Type /Catalog").outs "/Pages 1 0 R").putZoom).putLayout = g
  intro h1
  have key : ∀ g, Kp noTail f g → Kp noTail f g.layerPutCatalog := fun g h => h.pl (layerPutCatalog_pl (Pl.refl _))
  refine Kp.outs (Kp.outs (Kp.outs (Kp.out ?_ _) _) _) _
  refine Kp.ite (Kp.outf ?_ _ _) ?_
  · exact Kp.outs (key _ (Kp.ite (Kp.outs (Kp.outf h1 _ _) _) h1)) _
  · exact Kp.outs (key _ (Kp.ite (Kp.outs (Kp.outf h1 _ _) _) h1)) _

theorem writeCompressed_keep (E : Ext) (f : Fpdf) (c : Bytes) : Kp id f (f.writeCompressedFileObject E c) := by
  unfold Fpdf.writeCompressedFileObject
  kps

theorem Kp.inState {f g : Fpdf} (h : Kp d { f with state := 1 } g) : Kp d f { g with state := f.state } := fun hs => by
  exact ⟨hs, (h rfl).2⟩

theorem embed_keep (E : Ext) (f : Fpdf) (a : Attachment) : Kp id f (f.embed E a).1 := by
  unfold Fpdf.embed
  split
  · exact Kp.refl f
  · refine Kp.inState ?_
    refine Kp.outs (Kp.outf (Kp.textstring (Kp.noteU16 (Kp.textstring (Kp.noteU16 (Kp.newobj ?_) _) _ _) _) _ _) _ _) _
    exact writeCompressed_keep E _ _

theorem putAttachmentsLoop_keep (E : Ext) (l : List Attachment) : ∀ (f : Fpdf) (done : List Attachment), Kp id f (f.putAttachmentsLoop E done l).1 := by
  induction l with
  | nil => intro f done; exact Kp.refl f
  | cons a r ih =>
    intro f done
    unfold Fpdf.putAttachmentsLoop
    exact (embed_keep E f a).trans (ih _ _)

theorem attachments_keep (f : Fpdf) (m : List Attachment) : Kp noAttach f { f with l.attachments := m } := Kp.upd rfl rfl
theorem heap_keep (f : Fpdf) (m : List (Nat × Attachment)) : Kp noAttach f { f with l.heap := m } := Kp.upd rfl rfl

theorem putAttachments_keep (E : Ext) (f : Fpdf) : Kp noAttach f (f.putAttachments E) := by
  unfold Fpdf.putAttachments
  exact ((putAttachmentsLoop_keep E _ f []).mono fun a b h => congrArg noAttach h).trans (attachments_keep _ _)

theorem putAnnotationsAttachments_keep (E : Ext) (f : Fpdf) : Kp noAttach f (f.putAnnotationsAttachments E) := by
  unfold Fpdf.putAnnotationsAttachments
  refine Kp.foldl _ (fun f (an : AnnotAttach) => ?_) _ (Kp.refl f)
  unfold Fpdf.embedPtr
  split
  · exact ((embed_keep E f _).mono fun a b h => congrArg noAttach h).trans (heap_keep _ _)
  · exact Kp.upd rfl rfl

/-- Forget the pages of attachments but not the document attachments. -/
def noHeap (r : Res) : Res := { r with heap := [] }

theorem heap_keep' (f : Fpdf) (m : List (Nat × Attachment)) : Kp noHeap f { f with l.heap := m } := Kp.upd rfl rfl

theorem putAnnotationsAttachments_keep' (E : Ext) (f : Fpdf) : Kp noHeap f (f.putAnnotationsAttachments E) := by
  unfold Fpdf.putAnnotationsAttachments
  refine Kp.foldl _ (fun f (an : AnnotAttach) => ?_) _ (Kp.refl f)
  unfold Fpdf.embedPtr
  split
  · exact ((embed_keep E f _).mono fun a b h => congrArg noHeap h).trans (heap_keep' _ _)
  · exact Kp.upd rfl rfl

theorem putAttachmentsLoop_length (E : Ext) (l : List Attachment) : ∀ (f : Fpdf) (done : List Attachment), (f.putAttachmentsLoop E done l).2.length = done.length + l.length := by
  induction l with
  | nil => intro f done; rfl
  | cons a r ih =>
    intro f done
    unfold Fpdf.putAttachmentsLoop
    dsimp only
    rw [ih]; simp; omega

end Verif.Proof
