import Verif.Proof.Errors
/-
What each call can change. `foot op` blanks, in a document, the content, the error, and the settings that the call `op` is about; everything else is as before
the call.
-/
namespace Verif.Proof
open Verif Verif.Model Verif.Spec

/-- The document without its content and errors. -/
def ink (f : Fpdf) : Fpdf := { f with err := none, panicked := false, pages := [], buffer := [] }

/-- The document without what the call is about. -/
def wipe : Op → Fpdf → Fpdf
  | .setMargins .., f => { f with p.lMargin := 0, p.tMargin := 0, p.rMargin := 0 }
  | .setLeftMargin .., f => { f with p.lMargin := 0, p.x := 0 }
  | .setTopMargin .., f => { f with p.tMargin := 0 }
  | .setRightMargin .., f => { f with p.rMargin := 0 }
  | .setCellMargin .., f => { f with p.cMargin := 0 }
  | .setAutoPageBreak .., f => { f with p.autoPageBreak := false, p.bMargin := 0, p.pageBreakTrigger := 0 }
  | .setX .., f => { f with p.x := 0 }
  | .setY .., f | .setXY .., f | .setHomeXY, f | .ln .., f | .moveTo .., f | .lineTo .., f | .curveTo .., f | .curveBezierCubicTo .., f | .arc .., f =>
    { f with p.x := 0, p.y := 0 }
  | .setPageBox .., f => { f with p.pageBoxes := [], p.defPageBoxes := [] }
  | .setDisplayMode .., f => { f with m.zoomMode := [], m.layoutMode := [] }
  | .setCompression .., f => { f with m.compress := false }
  | .setMeta .., f => { f with m.title := [], m.subject := [], m.author := [], m.keywords := [], m.creator := [], m.producer := [] }
  | .setXmp .., f => { f with m.xmp := [] }
  | .aliasNbPages .., f => { f with m.aliasNbPagesStr := [] }
  | .registerAlias .., f => { f with m.aliasMap := [] }
  | .setRTL .., f => { f with t.isRTL := false }
  | .setProtection .., f => { f with m.protect := {} }
  | .setCatalogSort .., f => { f with m.catalogSort := false }
  | .setJavascript .., f => { f with m.javascript := none }
  | .setHeaderMode .., f => { f with headerHomeMode := false }
  | .setUnderlineThickness .., f => { f with t.userUnderlineThickness := 0 }
  | .setDrawColor .., f | .setDrawSpotColor .., f => { f with c.draw := {} }
  | .setFillColor .., f | .setFillSpotColor .., f => { f with c.fill := {}, c.colorFlag := false }
  | .setTextColor .., f | .setTextSpotColor .., f => { f with c.text := {}, c.colorFlag := false }
  | .addSpotColor .., f => { f with r.spotColorMap := [] }
  | .setLineWidth .., f => { f with line.width := 0 }
  | .setLineCapStyle .., f => { f with line.cap := 0 }
  | .setLineJoinStyle .., f => { f with line.join := 0 }
  | .setDashPattern .., f => { f with line.dashArray := [], line.dashPhase := 0 }
  | .setAlpha .., f => { f with r.alpha := 0, r.blendMode := [], r.blendList := [], r.blendMap := [] }
  | .gradient .., f => { f with r.gradientList := [] }
  | .clipRect .., f | .clipText .., f | .clipRoundedRect .., f | .clipEllipse .., f | .clipPolygon .., f | .clipEnd, f => { f with clipNest := 0 }
  | .transformBegin, f | .transformEnd, f => { f with transformNest := 0 }
  | .addLayer .., f => { f with layer.list := [] }
  | .beginLayer .., f | .endLayer, f => { f with layer.currentLayer := none }
  | .openLayerPane, f => { f with layer.openLayerPane := false }
  | .addFontFile .., f | .addFont .., f | .addUTF8Font .., f => { f with t.fonts := [], t.fontFiles := [], t.diffs := [] }
  | .setFont .., f | .setFontStyle .., f =>
    { f with t.fontFamily := [], t.fontStyle := [], t.fontSizePt := 0, t.fontSize := 0, t.underline := false, t.strikeout := false, t.currentFont := {}, t.isUTF8 := false, t.fonts := [], t.fontFiles := [], t.diffs := [] }
  | .setFontSize .., f | .setFontUnitSize .., f => { f with t.fontSizePt := 0, t.fontSize := 0 }
  | .addLink, f | .setLink .., f => { f with l.links := [] }
  | .link .., f => { f with l.pageLinks := [] }
  | .bookmark .., f => { f with l.outlines := [] }
  | .text .., f => { f with t.usedRunes := [] }
  | .registerImage .., f | .registerImageFile .., f => { f with r.images := [], r.imgHeap := [], m.pdfVersion := 0 }
  | .createTemplate .., f => { f with r.imgHeap := [] }
  | .useTemplate .., f => { f with r.templates := [], r.images := [] }
  | .setAttachments .., f => { f with l.attachments := [] }
  | .attachAnnotation .., f => { f with l.heap := [], l.pageAttachments := [] }
  | _, f => f

/-- The document without its content, errors and what the call is about. -/
def foot (op : Op) (f : Fpdf) : Fpdf := wipe op (ink f)

theorem ink_ink (f : Fpdf) : ink (ink f) = ink f := rfl

theorem out_ink (f : Fpdf) (s : Bytes) : ink (f.out s) = ink f := by unfold Fpdf.out; split <;> rfl
theorem outs_ink (f : Fpdf) (s : String) : ink (f.outs s) = ink f := out_ink f _
theorem outf_ink (f : Fpdf) (s : String) (a : List Arg) : ink (f.outf s a) = ink f := out_ink f _
theorem setErrorf_ink (f : Fpdf) (e : String) : ink (f.setErrorf e) = ink f := by unfold Fpdf.setErrorf; split <;> rfl
theorem assignErr_ink (f : Fpdf) (e : String) : ink (f.assignErr e) = ink f := rfl
theorem foldl_ink {α} (F : Fpdf → α → Fpdf) (h : ∀ f a, ink (F f a) = ink f) (l : List α) (f : Fpdf) : ink (l.foldl F f) = ink f := by
  induction l generalizing f with
  | nil => rfl
  | cons a l ih => exact (ih _).trans (h f a)

section
variable (f : Fpdf)

theorem ite_ink {c : Prop} [Decidable c] {g h k : Fpdf} (h1 : ink g = ink k) (h2 : ink h = ink k) : ink (if c then g else h) = ink k := by
  split <;> assumption
theorem ite_clipArc_ink {p : Prop} [Decidable p] (a b c d e g : Rat) : ink (if p then f.clipArc a b c d e g else f) = ink f := by
  split
  · exact outf_ink f _ _
  · rfl
theorem roundedRectPath_ink (T : Trig) (x y w h a b c d : Rat) : ink (f.roundedRectPath T x y w h a b c d) = ink f := by
  unfold Fpdf.roundedRectPath
  dsimp only
  simp only [ite_clipArc_ink, outf_ink]
theorem point_ink (x y : Rat) : ink (f.point x y) = ink f := outf_ink f _ _
theorem curve_ink (a b c d e g : Rat) : ink (f.curve a b c d e g) = ink f := outf_ink f _ _
theorem drawPath_ink (s : Bytes) : ink (f.drawPath s) = ink f := out_ink f _
theorem polygon_ink (p : List (Rat × Rat)) (s : Bytes) : ink (f.polygon p s) = ink f := by
  unfold Fpdf.polygon
  split
  · split
    · dsimp only
      rw [drawPath_ink, outf_ink, foldl_ink _ (fun f a => outf_ink f _ _), point_ink]
    · rfl
  · rfl
theorem beziergonLoop_ink (l : List (Rat × Rat)) : ink (f.beziergonLoop l) = ink f := by
  fun_induction Fpdf.beziergonLoop f l with
  | case1 f a b c r ih => rw [ih, curve_ink]
  | case2 f l h => rfl
theorem transform_ink (a b c d e g : Rat) : ink (f.transform a b c d e g) = ink f := by
  unfold Fpdf.transform
  exact ite_ink (outf_ink _ _ _) (ite_ink rfl rfl)

/-- Blank position. -/
def inkXY (f : Fpdf) : Fpdf := { ink f with p.x := 0, p.y := 0 }
theorem inkXY_of {g h : Fpdf} (e : ink g = ink h) : inkXY g = inkXY h := by unfold inkXY; rw [e]
theorem inkXY_upd (a b : Rat) : inkXY { f with p.x := a, p.y := b } = inkXY f := rfl

theorem arcSegs_ink (T : Trig) (a b c d e g h : Rat) (path : Bool) (l : List Nat) (s : Fpdf × Rat × Rat × Rat × Rat) :
    inkXY (l.foldl (fun s j => Fpdf.arcSeg T a b c d e g h path s (j + 1)) s).1 = inkXY s.1 := by
  induction l generalizing s with
  | nil => rfl
  | cons j l ih =>
    rw [List.foldl_cons, ih]
    unfold Fpdf.arcSeg
    dsimp only
    split
    · exact (inkXY_upd _ _ _).trans (inkXY_of (curve_ink _ _ _ _ _ _ _))
    · exact inkXY_of (curve_ink _ _ _ _ _ _ _)

theorem lineTo_ink (x y : Rat) : inkXY (f.lineTo x y) = inkXY f := (inkXY_upd _ _ _).trans (inkXY_of (outf_ink _ _ _))

theorem arc_ink (T : Trig) (x y rx ry r a b : Rat) (s : Bytes) (p : Bool) : inkXY (f.arc T x y rx ry r a b s p) = inkXY f := by
  unfold Fpdf.arc
  dsimp only
  generalize hp : (if r ≠ 0 then _ else (f, x * f.k, (f.p.h - y) * f.k)) = q
  have h1 : inkXY q.1 = inkXY f := by rw [← hp]; split <;> first | rfl | exact inkXY_of ((outf_ink _ _ _).trans (outs_ink _ _)) | exact inkXY_of (outf_ink _ _ _)
  split
  · refine (inkXY_of (outs_ink _ _)).trans ?_
    split
    · rw [arcSegs_ink]; dsimp only
      split
      · exact Eq.trans (lineTo_ink _ _ _) h1
      · exact h1
    · refine (inkXY_of (out_ink _ _)).trans ?_
      rw [arcSegs_ink]; dsimp only
      exact (inkXY_of (point_ink _ _ _)).trans h1
  · split
    · rw [arcSegs_ink]; dsimp only
      split
      · exact Eq.trans (lineTo_ink _ _ _) h1
      · exact h1
    · refine (inkXY_of (out_ink _ _)).trans ?_
      rw [arcSegs_ink]; dsimp only
      exact (inkXY_of (point_ink _ _ _)).trans h1

theorem getSpotColor_ink (n : Bytes) : ink (f.getSpotColor n).1 = ink f := by
  unfold Fpdf.getSpotColor
  split
  · split <;> rfl
  · rfl

/-- Blank layer. -/
def inkLay (f : Fpdf) : Fpdf := { ink f with layer.currentLayer := none }
theorem inkLay_of {g h : Fpdf} (e : ink g = ink h) : inkLay g = inkLay h := by unfold inkLay; rw [e]
theorem endLayer_ink : inkLay f.endLayer = inkLay f := by
  unfold Fpdf.endLayer
  split
  · exact Eq.trans (b := inkLay (f.outs "EMC")) rfl (inkLay_of (outs_ink _ _))
  · rfl
theorem beginLayer_ink (id : Int) : inkLay (f.beginLayer id) = inkLay f := by
  unfold Fpdf.beginLayer
  dsimp only
  split
  · refine Eq.trans ?_ (endLayer_ink f)
    refine Eq.trans (b := inkLay (f.endLayer.outf "/OC /OC%d BDC" [.d id])) rfl (inkLay_of (outf_ink _ _ _))
  · exact endLayer_ink f
end

/-- Blank fonts. -/
def inkFonts (f : Fpdf) : Fpdf := { ink f with t.fonts := [], t.fontFiles := [], t.diffs := [] }
theorem inkFonts_of {g h : Fpdf} (e : ink g = ink h) : inkFonts g = inkFonts h := by unfold inkFonts; rw [e]

theorem addFontDef_ink (E : Ext) (f : Fpdf) (fam st : Bytes) (info : Option FontDef) (ff : FontFile) : inkFonts (f.addFontDef E fam st info ff) = inkFonts f := by
  unfold Fpdf.addFontDef
  dsimp only
  split
  · rfl
  · split
    · rfl
    · split
      · exact inkFonts_of rfl
      · split
        · split
          · split <;> rfl
          · split <;> rfl
        · split <;> rfl

/-- Blank font and fonts. -/
def inkFont (f : Fpdf) : Fpdf :=
  { ink f with t.fontFamily := [], t.fontStyle := [], t.fontSizePt := 0, t.fontSize := 0, t.underline := false, t.strikeout := false, t.currentFont := {}, t.isUTF8 := false, t.fonts := [], t.fontFiles := [], t.diffs := [] }
theorem inkFont_of {g h : Fpdf} (e : ink g = ink h) : inkFont g = inkFont h := by unfold inkFont; rw [e]
theorem inkFont_fonts {g h : Fpdf} (e : inkFonts g = inkFonts h) : inkFont g = inkFont h :=
  congrArg (fun f : Fpdf => ({ f with t.fontFamily := [], t.fontStyle := [], t.fontSizePt := 0, t.fontSize := 0, t.underline := false, t.strikeout := false, t.currentFont := {}, t.isUTF8 := false } : Fpdf)) e

theorem outFont_ink (f : Fpdf) : ink f.outFont = ink f := by unfold Fpdf.outFont; split <;> simp only [outf_ink]

theorem selectFont_ink (f : Fpdf) (fam st : Bytes) (sz : Rat) (d : FontDef) : inkFont (f.selectFont fam st sz d) = inkFont f := by
  unfold Fpdf.selectFont
  exact (inkFont_of (outFont_ink _)).trans rfl

theorem setFont_ink (E : Ext) (f : Fpdf) (fam st : Bytes) (sz : Rat) : inkFont (f.setFont E fam st sz) = inkFont f := by
  unfold Fpdf.setFont
  split
  · rfl
  · dsimp only
    generalize (if fontFamilyEscape fam = [] then f.t.fontFamily else toLower (fontFamilyEscape fam)) = fam
    generalize Fpdf.parseStyle st = q
    obtain ⟨u, s, st⟩ := q
    dsimp only
    have h0 : inkFont ({ f with t.underline := u, t.strikeout := s } : Fpdf) = inkFont f := rfl
    generalize ({ f with t.underline := u, t.strikeout := s } : Fpdf) = g at h0 ⊢
    rw [← h0]
    generalize (if sz = 0 then g.t.fontSizePt else sz) = sz
    generalize (if fam = B "arial" then B "helvetica" else fam) = fam2
    split
    · exact selectFont_ink _ _ _ _ _
    · split
      · generalize (if fam2 = B "symbol" then B "zapfdingbats" else fam2) = fam3
        generalize (if fam3 = B "zapfdingbats" then [] else st) = st3
        split
        · exact selectFont_ink _ _ _ _ _
        · cases E.coreFont (fam3 ++ st3) with
          | none => exact inkFont_of (setErrorf_ink _ _)
          | some d =>
            dsimp only
            have h1 := inkFont_fonts (addFontDef_ink E g fam3 st3 (some d) {})
            generalize g.addFontDef E fam3 st3 (some d) {} = g2 at h1 ⊢
            split
            · exact h1
            · cases lookup (fam3 ++ st3) g2.t.fonts with
              | some d => exact (selectFont_ink _ _ _ _ _).trans h1
              | none => exact (selectFont_ink _ _ _ _ _).trans h1
      · rfl

/-- Blank images. -/
def inkImgs (f : Fpdf) : Fpdf := { ink f with r.images := [], r.imgHeap := [], m.pdfVersion := 0 }

theorem registerImage_ink (E : Ext) (f : Fpdf) (n : Bytes) (p : Option ImageInfo) : inkImgs (f.registerImage E n p) = inkImgs f := by
  unfold Fpdf.registerImage
  split
  · rfl
  · cases lookup n f.r.images with
    | some _ => rfl
    | none =>
      cases p with
      | none => exact congrArg (fun f : Fpdf => ({ f with r.images := [], r.imgHeap := [], m.pdfVersion := 0 } : Fpdf)) (assignErr_ink f _)
      | some info => dsimp only; split <;> rfl

theorem foot_ink (op : Op) {g h : Fpdf} (e : ink g = ink h) : foot op g = foot op h := congrArg (wipe op) e

/-- Output of a line, after changes of what the call is about. -/
macro "ft" : tactic => `(tactic| (first
  | rfl
  | exact foot_ink _ (out_ink _ _)
  | exact foot_ink _ (outf_ink _ _ _)
  | exact (foot_ink _ (out_ink _ _)).trans rfl
  | exact (foot_ink _ (outf_ink _ _ _)).trans rfl))

set_option maxHeartbeats 2000000 in
/-- A call changes nothing but content, error, and what it is about. -/
theorem exec_foot (E : Ext) (cb : Cb) (f : Fpdf) (op : Op) (hs : staysOnPage op = true) : foot op (f.exec E cb op) = foot op f := by
  cases op with
  | addPage | addPageFormat | setPage | cell | multiCell | write | writeAligned | subWrite | image | close | output | clearError =>
    simp [staysOnPage] at hs
  | setError e => exact setErrorf_ink f e
  | setLeftMargin m => show foot (.setLeftMargin m) (f.setLeftMargin m) = _; unfold Fpdf.setLeftMargin; dsimp only; split <;> rfl
  | setPageBox t pb =>
    show foot (.setPageBox t pb) (f.setPageBoxRec t pb) = _
    unfold Fpdf.setPageBoxRec
    split
    · rfl
    · dsimp only
      split <;> rfl
  | setDisplayMode z l =>
    show foot (.setDisplayMode z l) (f.setDisplayMode z l) = _
    unfold Fpdf.setDisplayMode
    dsimp only
    split
    · rfl
    · generalize (if l = [] then B "default" else l) = l
      split
      · split <;> rfl
      · rfl
  | setMeta k s u => show foot (.setMeta k s u) (f.setMeta k s u) = _; unfold Fpdf.setMeta; cases k <;> cases u <;> rfl
  | setProtection fl u o => show foot (.setProtection fl u o) (if f.err ≠ none then f else _) = _; split <;> rfl
  | setDrawColor r g b => show foot (.setDrawColor r g b) (f.setDrawColor r g b) = _; unfold Fpdf.setDrawColor; dsimp only; split <;> ft
  | setFillColor r g b => show foot (.setFillColor r g b) (f.setFillColor r g b) = _; unfold Fpdf.setFillColor; dsimp only; split <;> ft
  | addSpotColor n c m y k =>
    show foot (.addSpotColor n c m y k) (f.addSpotColor n c m y k) = _
    unfold Fpdf.addSpotColor
    split
    · split <;> rfl
    · rfl
  | setDrawSpotColor n t =>
    show foot (.setDrawSpotColor n t) (f.setDrawSpotColor n t) = _
    have h := foot_ink (.setDrawSpotColor n t) (getSpotColor_ink f n)
    unfold Fpdf.setDrawSpotColor
    split <;> rename_i hq <;> rw [hq] at h <;> dsimp only at h ⊢
    · split
      · exact Eq.trans (by ft) h
      · exact Eq.trans (by ft) h
    · exact h
  | setFillSpotColor n t =>
    show foot (.setFillSpotColor n t) (f.setFillSpotColor n t) = _
    have h := foot_ink (.setFillSpotColor n t) (getSpotColor_ink f n)
    unfold Fpdf.setFillSpotColor
    split <;> rename_i hq <;> rw [hq] at h <;> dsimp only at h ⊢
    · split
      · exact Eq.trans (by ft) h
      · exact Eq.trans (by ft) h
    · exact h
  | setTextSpotColor n t =>
    show foot (.setTextSpotColor n t) (f.setTextSpotColor n t) = _
    have h := foot_ink (.setTextSpotColor n t) (getSpotColor_ink f n)
    unfold Fpdf.setTextSpotColor
    split <;> rename_i hq <;> rw [hq] at h <;> exact Eq.trans rfl h
  | setLineWidth w => show foot (.setLineWidth w) (f.setLineWidth w) = _; unfold Fpdf.setLineWidth; dsimp only; split <;> ft
  | setLineCapStyle s => show foot (.setLineCapStyle s) (f.setLineCapStyle s) = _; unfold Fpdf.setLineCapStyle; dsimp only; split <;> ft
  | setLineJoinStyle s => show foot (.setLineJoinStyle s) (f.setLineJoinStyle s) = _; unfold Fpdf.setLineJoinStyle; dsimp only; split <;> ft
  | setDashPattern a p => show foot (.setDashPattern a p) (f.setDashPattern a p) = _; unfold Fpdf.setDashPattern; dsimp only; split <;> ft
  | line a b c d => ft
  | rect x y w h s => ft
  | roundedRect x y w h a b c d s => exact (out_ink _ _).trans (roundedRectPath_ink f _ _ _ _ _ _ _ _ _)
  | polygon p s => exact polygon_ink f p s
  | beziergon p s =>
    show ink (f.beziergon p s) = ink f
    unfold Fpdf.beziergon
    split
    · split
      · rfl
      · rw [drawPath_ink, beziergonLoop_ink, point_ink]
    · rfl
  | curve a b c d e g s => exact (outf_ink _ _ _).trans (point_ink f _ _)
  | curveBezierCubic a b c d e g i j s => exact (outf_ink _ _ _).trans (point_ink f _ _)
  | arc x y rx ry r a b s p => exact arc_ink f _ _ _ _ _ _ _ _ _ _
  | moveTo x y => exact (inkXY_upd _ _ _).trans (inkXY_of (point_ink f _ _))
  | lineTo x y => exact lineTo_ink f x y
  | curveTo a b x y => exact (inkXY_upd _ _ _).trans (inkXY_of (outf_ink f _ _))
  | curveBezierCubicTo a b c d x y => exact (inkXY_upd _ _ _).trans (inkXY_of (outf_ink f _ _))
  | closePath => ft
  | drawPath s => ft
  | setAlpha a m =>
    show foot (.setAlpha a m) (f.setAlpha a m) = _
    unfold Fpdf.setAlpha
    split
    · rfl
    · split
      · rfl
      · split
        · rfl
        · dsimp only
          refine (foot_ink _ (outf_ink _ _ _)).trans ?_
          split <;> rfl
  | gradient rad x y w h c1 c2 x1 y1 x2 y2 r =>
    show foot _ (f.areaGradient _ x y w h c1 c2 x1 y1 x2 y2 r) = _
    unfold Fpdf.areaGradient Fpdf.gradient
    refine (foot_ink _ ((outs_ink _ _).trans (outf_ink _ _ _))).trans ?_
    have hi : ink (f.gradientClipStart x y w h) = ink f := (outf_ink _ _ _).trans (outf_ink _ _ _)
    exact Eq.trans (b := foot (.gradient rad x y w h c1 c2 x1 y1 x2 y2 r) (f.gradientClipStart x y w h)) rfl (foot_ink _ hi)
  | clipRect x y w h o => ft
  | clipText x y t o => ft
  | clipRoundedRect x y w h a b c d o =>
    show foot _ (f.clipRoundedRectExt _ x y w h a b c d o) = _
    unfold Fpdf.clipRoundedRectExt
    exact (foot_ink _ ((outf_ink _ _ _).trans (roundedRectPath_ink _ _ _ _ _ _ _ _ _ _))).trans rfl
  | clipEllipse x y rx ry o =>
    show foot _ (f.clipEllipse _ x y rx ry o) = _
    unfold Fpdf.clipEllipse
    dsimp only
    exact (foot_ink _ ((outf_ink _ _ _).trans ((outf_ink _ _ _).trans ((outf_ink _ _ _).trans (outf_ink _ _ _))))).trans rfl
  | clipPolygon p o => ft
  | clipEnd =>
    show foot .clipEnd f.clipEnd = _
    unfold Fpdf.clipEnd
    split
    · split <;> ft
    · rfl
  | transformBegin => ft
  | transform a b c d e g => exact transform_ink f _ _ _ _ _ _
  | transformScale sw sh x y =>
    show ink (f.transformScale sw sh x y) = ink f
    unfold Fpdf.transformScale
    split
    · rfl
    · exact transform_ink f _ _ _ _ _ _
  | transformSkew a b x y =>
    show ink (f.transformSkew _ a b x y) = ink f
    unfold Fpdf.transformSkew
    split
    · rfl
    · exact transform_ink f _ _ _ _ _ _
  | transformEnd =>
    show foot .transformEnd f.transformEnd = _
    unfold Fpdf.transformEnd
    split <;> ft
  | transformMirrorLine a x y =>
    show ink ((f.transformScale (-100) 100 x y).transformRotate E.T _ x y) = ink f
    have h1 : ink (f.transformScale (-100) 100 x y) = ink f := by
      unfold Fpdf.transformScale
      rw [if_neg (by decide)]
      exact transform_ink f _ _ _ _ _ _
    exact (transform_ink _ _ _ _ _ _ _).trans h1
  | transformTranslate tx ty => exact transform_ink f _ _ _ _ _ _
  | transformRotate a x y => exact transform_ink f _ _ _ _ _ _
  | beginLayer id => exact beginLayer_ink f id
  | endLayer => exact endLayer_ink f
  | addFont fam st info ff => exact addFontDef_ink E f fam st info ff
  | addFontFile fam st o info ff =>
    show inkFonts (f.addFontFile E fam st o info ff) = inkFonts f
    unfold Fpdf.addFontFile
    split
    · exact addFontDef_ink E f fam st info ff
    · rfl
  | addUTF8Font fam st file info se =>
    show inkFonts (f.addUTF8Font E fam st file info se) = inkFonts f
    unfold Fpdf.addUTF8Font
    dsimp only
    split
    · rfl
    · cases lookup (getFontKey (fontFamilyEscape fam) st) f.t.fonts with
      | some _ => rfl
      | none =>
        cases info with
        | none =>
          dsimp only
          split
          · exact inkFonts_of (setErrorf_ink _ _)
          · rfl
        | some d => dsimp only; split <;> rfl
  | setFont fam st sz => exact setFont_ink E f fam st sz
  | setFontStyle st => exact setFont_ink E f _ st _
  | setFontSize sz => exact (foot_ink _ (outFont_ink _)).trans rfl
  | setFontUnitSize sz => exact (foot_ink _ (outFont_ink _)).trans rfl
  | setLink l y p => show foot _ (f.setLink l y p) = _; unfold Fpdf.setLink; split <;> rfl
  | bookmark t l y => show foot _ (f.bookmark t l y) = _; unfold Fpdf.bookmark; dsimp only; split <;> rfl
  | text x y t =>
    show foot _ (f.text x y t) = _
    unfold Fpdf.text
    dsimp only
    refine (foot_ink _ (out_ink _ _)).trans ?_
    split
    · split <;> rfl
    · rfl
  | setTextRenderingMode m => show ink (f.setTextRenderingMode m) = ink f; unfold Fpdf.setTextRenderingMode; exact ite_ink (outf_ink _ _ _) rfl
  | setWordSpacing w => ft
  | registerImage n p => exact registerImage_ink E f n p
  | registerImageFile n o p =>
    show inkImgs (f.registerImageFile E n o p) = inkImgs f
    unfold Fpdf.registerImageFile
    split
    · rfl
    · split
      · exact registerImage_ink E f n p
      · rfl
  | useTemplate t c s =>
    show foot _ (f.useTemplate E t c s) = _
    unfold Fpdf.useTemplate
    split
    · exact foot_ink _ (setErrorf_ink f _)
    · split
      · exact foot_ink _ (setErrorf_ink f _)
      · dsimp only
        exact (foot_ink _ ((outf_ink _ _ _).trans (outf_ink _ _ _))).trans rfl
  | attachAnnotation p a x y w h =>
    show foot _ (f.attachAnnotation p a x y w h) = _
    unfold Fpdf.attachAnnotation
    dsimp only
    split <;> rfl
  | rawWrite s => ft
  | setMargins | setTopMargin | setRightMargin | setCellMargin | setAutoPageBreak | setX | setY | setXY | setHomeXY | ln | setCompression | setXmp | aliasNbPages | registerAlias | setRTL | setCatalogSort | setJavascript | setHeaderMode | setUnderlineThickness | setTextColor | addLayer | openLayerPane | addLink | link | createTemplate | setAttachments => rfl

end Verif.Proof
