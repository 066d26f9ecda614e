import Verif.Proof.CellEmits
/-
The remaining operations; every API call that neither starts a page nor closes the document is `Frm`, and `Emits` under the conditions
`DrawOk`.
-/
namespace Verif.Proof
open Verif Verif.Model Verif.Spec
section
variable (f : Fpdf)

/-! Images and templates -/

theorem registerImage_emits (E : Ext) (name : Bytes) (parsed : Option ImageInfo) : Emits f (f.registerImage E name parsed) := by
  unfold Fpdf.registerImage
  refine Emits.ite (fun _ => Emits.refl f) (fun _ => ?_)
  cases hl : lookup name f.r.images with
  | some _ => exact Emits.refl f
  | none =>
    cases parsed with
    | none => exact assignErr_emits f _
    | some info =>
      dsimp only
      generalize hx : hexEnc (E.imgHash { info with n := 0 }) = hh
      have hreg : ∀ c ∈ hh, isRegular c = true := by rw [← hx]; exact hexEnc_regular _
      have key : ∀ im : ImageInfo, (∀ c ∈ im.i, isRegular c = true) → ∀ g : Fpdf, quiet g = quiet f → (f.err ≠ none → g.err ≠ none) →
          rest g = rest { f with r.images := Model.insert name f.r.imgHeap.length f.r.images, r.imgHeap := f.r.imgHeap ++ [im] } →
          Emits f g := by
        intro im him g hq he hr
        have hle : RegsLe (regsOf f) (regsOf { f with r.images := Model.insert name f.r.imgHeap.length f.r.images, r.imgHeap := f.r.imgHeap ++ [im] }) :=
          { RegsLe.refl _ with
            images := fun k c h => lookup_insert_fresh hl h
            heap := fun k c h => by
              show (f.r.imgHeap ++ [im])[k]? = some c
              have h' : f.r.imgHeap[k]? = some c := h
              rw [List.getElem?_append_left (List.getElem?_eq_some_iff.mp h').1]; exact h' }
        refine Emits.reg hq he (fun _ => ?_) ((rest_nest hr).trans rfl) ((rest_lay hr).trans rfl) (fun hi => rest_inv hr ?_)
        · rw [rest_regs hr]; exact hle
        · refine ⟨hi.draw.mono hle, hi.fill.mono hle, hi.text.mono hle, hi.font, hi.fonts, ?_, hi.bmap⟩
          intro x hx
          rcases List.mem_append.mp hx with hx | hx
          · exact hi.imgs x hx
          · rw [List.mem_singleton.mp hx]; exact him
      refine key { info with n := 0, i := hh } hreg _ ?_ ?_ ?_
      · split <;> rfl
      · split <;> exact id
      · split <;> rfl

theorem registerImageFile_emits (E : Ext) (name : Bytes) (o : Bool) (parsed : Option ImageInfo) : Emits f (f.registerImageFile E name o parsed) := by
  unfold Fpdf.registerImageFile
  cases lookup name f.r.images with
  | some _ => exact Emits.refl f
  | none => exact Emits.ite (fun _ => registerImage_emits f E name parsed) (fun _ => assignErr_emits f _)

theorem createTemplate_emits (E : Ext) (cb : Cb) (imgs : List ImageInfo) : Emits f (f.exec E cb (.createTemplate imgs)) := by
  have hle : RegsLe (regsOf f) (regsOf (f.exec E cb (.createTemplate imgs))) :=
    { RegsLe.refl _ with
      heap := fun k c h => by
        show (f.r.imgHeap ++ _)[k]? = some c
        have h' : f.r.imgHeap[k]? = some c := h
        rw [List.getElem?_append_left (List.getElem?_eq_some_iff.mp h').1]; exact h' }
  refine Emits.reg rfl id (fun _ => hle) rfl rfl (fun hi => ⟨hi.draw.mono hle, hi.fill.mono hle, hi.text.mono hle, hi.font, hi.fonts, ?_, hi.bmap⟩)
  intro x hx
  rcases List.mem_append.mp hx with hx | hx
  · exact hi.imgs x hx
  · obtain ⟨i, _, rfl⟩ := List.mem_map.mp hx
    exact hexEnc_regular _

/-- The name under which an image of a template is registered in the document that uses the template. -/
def tplImgName (E : Ext) (t : Tmpl) (name : Bytes) : Bytes := B "t" ++ t.id E ++ B "-" ++ name

/-- Using template `t` does not replace an image registered under a name of the form the library uses for a template's images, and the names of
the template's images are distinct. -/
def TplOk (E : Ext) (f : Fpdf) (t : Tmpl) : Prop :=
  (∀ x ∈ t.images, ∀ p, lookup (tplImgName E t x.1) f.r.images = some p → p = x.2) ∧
  (∀ x ∈ t.images, ∀ y ∈ t.images, x.1 = y.1 → x.2 = y.2)

omit f in
theorem lookup_isSome_insert {α β} [DecidableEq α] (k k' : α) (v : β) (l : List (α × β)) (h : (lookup k' l).isSome) :
    (lookup k' (Model.insert k v l)).isSome := by
  rw [lookup_insert]; split
  · rfl
  · exact h

omit f in
theorem tplImgName_inj (E : Ext) (t : Tmpl) {a b : Bytes} (h : tplImgName E t a = tplImgName E t b) : a = b := by
  unfold tplImgName at h
  exact List.append_cancel_left h

omit f in
/-- Registering a template's images keeps what was registered. -/
theorem tplImgs_keep (E : Ext) (t : Tmpl) (heap : List ImageInfo) (ex : List Bytes) (xs : List (Bytes × Nat)) (m : List (Bytes × Nat))
    (h1 : ∀ x ∈ xs, ∀ p, lookup (tplImgName E t x.1) m = some p → p = x.2) (h2 : ∀ x ∈ xs, ∀ y ∈ xs, x.1 = y.1 → x.2 = y.2)
    (k : Bytes) (c : Nat) (hk : lookup k m = some c) :
    lookup k (xs.foldl (fun m x => match heap[x.2]? with
      | some info => if info.i ∈ ex then m else Model.insert (B "t" ++ t.id E ++ B "-" ++ x.1) x.2 m
      | none => m) m) = some c := by
  induction xs generalizing m with
  | nil => exact hk
  | cons x xs ih =>
    rw [List.foldl_cons]
    apply ih
    · intro y hy p hp
      revert hp
      cases heap[x.2]? with
      | none => exact h1 y (by simp [hy]) p
      | some info =>
        dsimp only
        split
        · exact h1 y (by simp [hy]) p
        · rw [lookup_insert]
          split
          · next e =>
            intro e2; cases e2
            exact h2 x (by simp) y (by simp [hy]) (tplImgName_inj E t e).symm
          · exact h1 y (by simp [hy]) p
    · exact fun a ha b hb => h2 a (by simp [ha]) b (by simp [hb])
    · cases heap[x.2]? with
      | none => exact hk
      | some info =>
        dsimp only
        split
        · exact hk
        · rw [lookup_insert]
          split
          · next e => subst e; rw [h1 x (by simp) c hk]
          · exact hk

omit f in
theorem tplFold_isSome (E : Ext) (ds : List Tmpl) (m : List (Bytes × Tmpl)) (k : Bytes) (h : (lookup k m).isSome) :
    (lookup k (ds.foldl (fun m (tt : Tmpl) => Model.insert (tt.id E) tt m) m)).isSome := by
  induction ds generalizing m with
  | nil => exact h
  | cons d ds ih => exact ih _ (lookup_isSome_insert _ _ _ _ h)

omit f in
theorem tpl_frag (id : Bytes) (h : ∀ c ∈ id, isRegular c = true) :
    Frag (sprintf "/TPL%s Do Q" [.s id]) [([.name (B "TPL" ++ id)], B "Do"), ([], B "Q")] :=
  sprintf_frag "/TPL%s Do Q" [.reg id] rfl (by intro a ha; rw [List.mem_singleton.mp ha]; exact h)

theorem useTemplate_emits (E : Ext) (t : Option Tmpl) (c : Rat × Rat) (sz : Size) (ht : ∀ x, t = some x → TplOk E f x) :
    Emits f (f.useTemplate E t c sz) := by
  unfold Fpdf.useTemplate
  cases t with
  | none => exact setErrorf_emits f _
  | some t =>
    dsimp only
    refine Emits.ite (fun _ => setErrorf_emits f _) (fun _ => ?_)
    obtain ⟨h1, h2⟩ := ht t rfl
    generalize hi : (t.images.foldl _ f.r.images) = imgs
    generalize htp : (t.deps.foldl _ _) = tpls
    have hk : ∀ k c, lookup k f.r.images = some c → lookup k imgs = some c := by
      intro k c hk; rw [← hi]; exact tplImgs_keep E t _ _ t.images f.r.images h1 h2 k c hk
    have hts : ∀ k, (lookup k f.r.templates).isSome → (lookup k tpls).isSome := by
      intro k hk; rw [← htp]; exact tplFold_isSome E _ _ _ (lookup_isSome_insert _ _ _ _ hk)
    have htid : (lookup (t.id E) tpls).isSome := by
      rw [← htp]; exact tplFold_isSome E _ _ _ (by rw [lookup_insert_self]; rfl)
    have hle : RegsLe (regsOf f) (regsOf { f with r.templates := tpls, r.images := imgs }) :=
      { RegsLe.refl _ with images := hk, tpl := hts }
    have hE : Emits f { f with r.templates := tpls, r.images := imgs } :=
      Emits.reg rfl id (fun _ => hle) rfl rfl (fun hi => Inv'.mono hi hle rfl rfl)
    clear hi htp h1 h2 hk hts hle
    have e : ({ f with r.templates := tpls, r.images := imgs } : Fpdf).r.templates = tpls := rfl
    rw [← e] at htid
    refine Emits.trans hE ?_
    generalize ({ f with r.templates := tpls, r.images := imgs } : Fpdf) = g at htid ⊢
    refine EmitsD.done (EmitsD.trans (b := 1) (g := g.outf "q %.4f 0 0 %.4f %.4f %.4f cm" [.f (sz.wd / t.size.wd), .f (sz.ht / t.size.ht),
      .f (c.1 * f.k), .f ((f.p.curPageSize.ht - c.2 - sz.ht) * f.k)]) (EmitsD.open 0 rfl rfl rfl rfl) ?_)
    refine EmitsD.out rfl id rfl id fun _ => ⟨_, tpl_frag _ (hexEnc_regular _), fun d => ?_, ?_, ?_⟩
    rotate_left 2
    · refine KeepA.trans (a := [_]) (b := [_]) (m := 1 + nestOf (g.outf "q %.4f 0 0 %.4f %.4f %.4f cm" [.f (sz.wd / t.size.wd), .f (sz.ht / t.size.ht),
        .f (c.1 * f.k), .f ((f.p.curPageSize.ht - c.2 - sz.ht) * f.k)])) (Neutral.keep (PlainFrag.neutral rfl) _) ?_
      rw [Nat.add_comm 1, Nat.zero_add]; exact keep_Q _
    · simp [nestRun, nestStep, show B "Do" ≠ B "q" by decide, show B "Do" ≠ B "Q" by decide, show B "Do" ≠ B "BDC" by decide,
        show B "Do" ≠ B "BMC" by decide, show B "Do" ≠ B "EMC" by decide, show B "Q" ≠ B "q" by decide]
    · intro i hi
      simp only [List.mem_cons, List.not_mem_nil, or_false] at hi
      rcases hi with rfl | rfl
      · intro nm hnm
        simp only [Instr.names, List.filterMap_cons, List.filterMap_nil, List.mem_singleton] at hnm
        subst hnm
        show resolves _ (B "Do") _
        simp only [resolves, show B "Do" ≠ B "gs" by decide, show B "Do" ≠ B "sh" by decide, show B "Do" ≠ B "BDC" by decide,
          show ¬ (B "Do" = B "CS" ∨ B "Do" = B "cs") by decide, show B "Do" ≠ B "Tf" by decide, if_false, if_true]
        obtain ⟨x, hx⟩ := Option.isSome_iff_exists.mp htid
        refine .inr ⟨t.id E, x, ?_, rfl⟩
        show lookup _ (g.outf _ _).r.templates = _
        rw [show (g.outf _ _).r.templates = g.r.templates from by unfold Fpdf.outf Fpdf.out; split <;> rfl]
        exact hx
      · intro nm hnm; cases hnm

/-! Drawing with an arbitrary style string: the structure is kept. -/

theorem Frm.of {f g : Fpdf} (h : Emits f g) : Frm f g := h.frm

theorem drawPath_frm (style : Bytes) : Frm f (f.drawPath style) := Frm.out f _

theorem polygon_frm (pts : List (Rat × Rat)) (style : Bytes) : Frm f (f.polygon pts style) := by
  unfold Fpdf.polygon
  split
  · refine Frm.ite (fun _ => ?_) (fun _ => Frm.refl f)
    exact (((point_emits f _ _).frm.trans (Frm.foldl _ (fun f a => Frm.out f _) _ _)).trans (Frm.out _ _)).trans (Frm.out _ _)
  · exact Frm.refl f

theorem beziergon_frm (pts : List (Rat × Rat)) (style : Bytes) : Frm f (f.beziergon pts style) := by
  unfold Fpdf.beziergon
  split
  · refine Frm.ite (fun _ => Frm.refl f) (fun _ => ?_)
    exact ((point_emits f _ _).frm.trans (beziergonLoop_emits _ _).frm).trans (Frm.out _ _)
  · exact Frm.refl f

theorem arcLoop_frm (T : Trig) (a b c x y rx ry : Rat) (path : Bool) (l : List Nat) (s : Fpdf × Rat × Rat × Rat × Rat) :
    Frm s.1 (l.foldl (fun s j => Fpdf.arcSeg T a b c x y rx ry path s (j + 1)) s).1 := by
  induction l generalizing s with
  | nil => exact Frm.refl _
  | cons j l ih => exact (arcSeg_emits T a b c x y rx ry path s (j + 1)).frm.trans (ih _)

theorem arc_frm (T : Trig) (x y rx ry r a b : Rat) (style : Bytes) (path : Bool) : Frm f (f.arc T x y rx ry r a b style path) := by
  unfold Fpdf.arc
  dsimp only
  generalize hg : (if r ≠ 0 then _ else (f, x * f.k, (f.p.h - y) * f.k)) = p
  have h1 : Frm f p.1 := by
    rw [← hg]
    split
    · exact Frm.out f _
    · exact Frm.refl f
  obtain ⟨g, x', y'⟩ := p
  refine Frm.trans h1 ?_
  clear hg h1
  dsimp only
  refine Frm.ite (fun _ => ?_) (fun _ => ?_)
  · refine Frm.trans ?_ (Frm.out _ _)
    refine Frm.trans ?_ (Frm.ite (fun _ => Frm.refl _) (fun _ => Frm.out _ _))
    refine Frm.trans ?_ (arcLoop_frm T _ _ _ _ _ _ _ _ _ _)
    exact Frm.ite (fun _ => Frm.ite (fun _ => (lineTo_emits _ _ _).frm) (fun _ => Frm.refl _)) (fun _ => (point_emits _ _ _).frm)
  · refine Frm.trans ?_ (Frm.ite (fun _ => Frm.refl _) (fun _ => Frm.out _ _))
    refine Frm.trans ?_ (arcLoop_frm T _ _ _ _ _ _ _ _ _ _)
    exact Frm.ite (fun _ => Frm.ite (fun _ => (lineTo_emits _ _ _).frm) (fun _ => Frm.refl _)) (fun _ => (point_emits _ _ _).frm)

theorem roundedRectPath_frm (T : Trig) (x y w h a b c d : Rat) : Frm f (f.roundedRectPath T x y w h a b c d) := by
  unfold Fpdf.roundedRectPath
  dsimp only
  refine Frm.ite (fun _ => Frm.trans ?_ (clipArc_emits _ _ _ _ _ _ _).frm) (fun _ => ?_) <;>
  · refine Frm.trans ?_ (Frm.out _ _)
    refine Frm.trans ?_ (Frm.ite (fun _ => (clipArc_emits _ _ _ _ _ _ _).frm) (fun _ => Frm.refl _))
    refine Frm.trans ?_ (Frm.out _ _)
    refine Frm.trans ?_ (Frm.ite (fun _ => (clipArc_emits _ _ _ _ _ _ _).frm) (fun _ => Frm.refl _))
    refine Frm.trans ?_ (Frm.out _ _)
    refine Frm.trans ?_ (Frm.ite (fun _ => (clipArc_emits _ _ _ _ _ _ _).frm) (fun _ => Frm.refl _))
    exact Frm.trans (Frm.out _ _) (Frm.out _ _)

theorem roundedRectExt_frm (T : Trig) (x y w h a b c d : Rat) (style : Bytes) : Frm f (f.roundedRectExt T x y w h a b c d style) :=
  (roundedRectPath_frm f T x y w h a b c d).trans (Frm.out _ _)

theorem useTemplate_frm (E : Ext) (t : Option Tmpl) (c : Rat × Rat) (sz : Size) : Frm f (f.useTemplate E t c sz) := by
  unfold Fpdf.useTemplate
  cases t with
  | none => exact (setErrorf_emits f _).frm
  | some t =>
    dsimp only
    refine Frm.ite (fun _ => (setErrorf_emits f _).frm) (fun _ => ?_)
    refine Frm.trans ?_ (Frm.out _ _)
    refine Frm.trans ?_ (Frm.out _ _)
    exact Frm.upd rfl id

/-! Setters -/

theorem setMargins_emits (a b c : Rat) : Emits f (f.setMargins a b c) := Emits.upd rfl rfl id
theorem setLeftMargin_emits (m : Rat) : Emits f (f.setLeftMargin m) := by
  unfold Fpdf.setLeftMargin; dsimp only; exact Emits.ite (fun _ => Emits.upd rfl rfl id) (fun _ => Emits.upd rfl rfl id)
theorem setPageBoxRec_emits (t : Bytes) (pb : PageBox) : Emits f (f.setPageBoxRec t pb) := by
  unfold Fpdf.setPageBoxRec
  split
  · exact assignErr_emits f _
  · dsimp only; split <;> exact Emits.upd rfl rfl id
theorem setDisplayMode_emits (z l : Bytes) : Emits f (f.setDisplayMode z l) := by
  unfold Fpdf.setDisplayMode
  dsimp only
  refine Emits.ite (fun _ => Emits.refl f) (fun _ => Emits.ite (fun _ => Emits.ite (fun _ => ?_) (fun _ => ?_)) (fun _ => assignErr_emits f _))
  · exact Emits.upd rfl rfl id
  · exact Emits.upd rfl rfl (by simp [Fpdf.assignErr])
theorem setMeta_emits (k : MetaKey) (s : Bytes) (u : Bool) : Emits f (f.setMeta k s u) := by
  unfold Fpdf.setMeta; dsimp only; cases u <;> cases k <;> exact Emits.upd rfl rfl id
theorem attachAnnotation_emits (p : Nat) (a : Attachment) (x y w h : Rat) : Emits f (f.attachAnnotation p a x y w h) := by
  unfold Fpdf.attachAnnotation; dsimp only; split <;> exact Emits.upd rfl rfl id
theorem setAutoPageBreak_emits (a : Bool) (m : Rat) : Emits f (f.setAutoPageBreak a m) := by
  refine ⟨⟨rfl, ⟨[], App.refl f⟩, id, fun _ => rfl⟩, fun hi => ⟨[], ⟨⟨[], App.refl f, Lines.nil⟩, RegsLe.refl _, fun d => rfl, hi, by simp⟩, KeepA.nil _⟩⟩

end

/-! ### Classification of the API -/

/-- Calls that neither start, select or finish a page nor forget an error. -/
def staysOnPage : Op → Bool
  | .addPage | .addPageFormat .. | .setPage _ | .cell .. | .multiCell .. | .write .. | .writeAligned .. | .subWrite .. | .image .. | .close
  | .output _ | .clearError => false
  | _ => true

/-- Conditions under which a call writes well-formed, balanced content: documented style strings, none of `RoundedRect`, `RawWriteStr`,
`RawWriteBuf`, and no clash of template image names. -/
def DrawOk (E : Ext) (f : Fpdf) : Op → Prop
  | .rect _ _ _ _ s | .polygon _ s | .beziergon _ s | .curve _ _ _ _ _ _ s | .curveBezierCubic _ _ _ _ _ _ _ _ s | .arc _ _ _ _ _ _ _ s _
  | .drawPath s => fillDrawOp s ∈ paintOps
  | .roundedRect .. | .rawWrite _ => False
  | .useTemplate (some t) _ _ => TplOk E f t
  | _ => True

/-- Calls that set a colour or the line width. -/
def setsAttr : Op → Bool
  | .setDrawColor .. | .setFillColor .. | .setTextColor .. | .setDrawSpotColor .. | .setFillSpotColor .. | .setTextSpotColor .. | .setLineWidth _ => true
  | _ => false

/-- The conditions do not depend on the state, except for templates. -/
theorem exec_steady (E : Ext) (cb : Cb) (f : Fpdf) (op : Op) (hs : staysOnPage op = true) (ha : setsAttr op = false) (hd : DrawOk E f op) : Emits f (f.exec E cb op) := by
  cases op with
  | addPage | addPageFormat | setPage | cell | multiCell | write | writeAligned | subWrite | image | close | output | clearError =>
    simp [staysOnPage] at hs
  | roundedRect | rawWrite => exact hd.elim
  | setError e => exact setErrorf_emits f _
  | setLeftMargin m => exact setLeftMargin_emits f m
  | setPageBox t pb => exact setPageBoxRec_emits f t pb
  | setDisplayMode z l => exact setDisplayMode_emits f z l
  | setMeta k s u => exact setMeta_emits f k s u
  | setAutoPageBreak a m => exact setAutoPageBreak_emits f a m
  | setProtection fl u o => exact Emits.ite (fun _ => Emits.refl f) (fun _ => Emits.upd rfl rfl id)
  | setDrawColor | setFillColor | setTextColor | setDrawSpotColor | setFillSpotColor | setTextSpotColor | setLineWidth => simp [setsAttr] at ha
  | addSpotColor n c m y k => exact addSpotColor_emits f n c m y k
  | setLineCapStyle s => exact setLineCapStyle_emits f s
  | setLineJoinStyle s => exact setLineJoinStyle_emits f s
  | setDashPattern a p => exact setDashPattern_emits f a p
  | line a b c d => exact drawLine_emits f a b c d
  | rect x y w h s => exact rect_emits f hd x y w h
  | polygon p s => exact polygon_emits f hd p
  | beziergon p s => exact beziergon_emits f hd p
  | curve a b c d e g s => exact curveQuad_emits f hd a b c d e g
  | curveBezierCubic a b c d e g i j s => exact curveBezierCubic_emits f hd a b c d e g i j
  | arc x y rx ry r a b s p => exact arc_emits f hd E.T x y rx ry r a b p
  | moveTo x y => exact moveTo_emits f x y
  | lineTo x y => exact lineTo_emits f x y
  | curveTo a b x y => exact curveTo_emits f a b x y
  | curveBezierCubicTo a b c d x y => exact curveBezierCubicTo_emits f a b c d x y
  | closePath => exact closePath_emits f
  | drawPath s => exact drawPath_emits f hd
  | setAlpha a m => exact setAlpha_emits f a m
  | gradient rad x y w h c1 c2 x1 y1 x2 y2 r => exact areaGradient_emits f _ x y w h c1 c2 x1 y1 x2 y2 r
  | clipRect x y w h o => exact clipRect_emits f x y w h o
  | clipText x y t o => exact clipText_emits f x y t o
  | clipRoundedRect x y w h a b c d o => exact clipRoundedRectExt_emits f E.T x y w h a b c d o
  | clipEllipse x y rx ry o => exact clipEllipse_emits f E.T x y rx ry o
  | clipPolygon p o => exact clipPolygon_emits f p o
  | clipEnd => exact clipEnd_emits f
  | transformBegin => exact transformBegin_emits f
  | transform a b c d e g => exact transform_emits f a b c d e g
  | transformScale sw sh x y => exact transformScale_emits f sw sh x y
  | transformMirrorLine a x y => exact transformMirrorLine_emits f E.T a x y
  | transformTranslate tx ty => exact transform_emits f _ _ _ _ _ _
  | transformRotate a x y => exact transformRotate_emits f E.T a x y
  | transformSkew a b x y => exact transformSkew_emits f E.T a b x y
  | transformEnd => exact transformEnd_emits f
  | addLayer n v => exact addLayer_emits f n v
  | beginLayer id => exact beginLayer_emits f id
  | endLayer => exact endLayer_emits f
  | addFontFile fam st o info ff => exact addFontFile_emits f E fam st o info ff
  | addFont fam st info ff => exact addFontDef_emits f E fam st info ff
  | addUTF8Font fam st file info se => exact addUTF8Font_emits f E fam st file info se
  | setFont fam st sz => exact setFont_emits f E fam st sz
  | setFontStyle st => exact setFontStyle_emits f E st
  | setFontSize sz => exact setFontSize_emits f sz
  | setFontUnitSize sz => exact setFontUnitSize_emits f sz
  | text x y t => exact text_emits f x y t
  | setWordSpacing w => exact setWordSpacing_emits f w
  | setTextRenderingMode m => exact setTextRenderingMode_emits f m
  | registerImage n p => exact registerImage_emits f E n p
  | registerImageFile n o p => exact registerImageFile_emits f E n o p
  | createTemplate imgs => exact createTemplate_emits f E cb imgs
  | useTemplate t c s => exact useTemplate_emits f E t c s (fun x hx => by subst hx; exact hd)
  | attachAnnotation p a x y w h => exact attachAnnotation_emits f p a x y w h
  | setLink l y p => unfold Fpdf.exec Fpdf.setLink; dsimp only; repeat' split
                     all_goals exact Emits.upd rfl rfl id
  | bookmark t l y => unfold Fpdf.exec Fpdf.bookmark; dsimp only; repeat' split
                      all_goals exact Emits.upd rfl rfl id
  | _ => exact Emits.upd rfl rfl id

/-- Every such call. -/
theorem exec_emits (E : Ext) (cb : Cb) (f : Fpdf) (op : Op) (hs : staysOnPage op = true) (hd : DrawOk E f op) : EmitsL f (f.exec E cb op) := by
  cases ha : setsAttr op with
  | false => exact (exec_steady E cb f op hs ha hd).loose
  | true =>
    cases op with
    | setDrawColor r g b => exact setDrawColor_emits f r g b
    | setFillColor r g b => exact setFillColor_emits f r g b
    | setTextColor r g b => exact setTextColor_emits f r g b
    | setDrawSpotColor n t => exact setDrawSpotColor_emits f n t
    | setFillSpotColor n t => exact setFillSpotColor_emits f n t
    | setTextSpotColor n t => exact setTextSpotColor_emits f n t
    | setLineWidth w => exact setLineWidth_emits f w
    | _ => simp [setsAttr] at ha

theorem exec_frm (E : Ext) (cb : Cb) (f : Fpdf) (op : Op) (hs : staysOnPage op = true) : Frm f (f.exec E cb op) := by
  cases op with
  | roundedRect x y w h a b c d s => exact roundedRectExt_frm f E.T x y w h a b c d s
  | rawWrite s => exact Frm.out f s
  | rect x y w h s => exact Frm.out f _
  | polygon p s => exact polygon_frm f p s
  | beziergon p s => exact beziergon_frm f p s
  | curve a b c d e g s => exact (point_emits f _ _).frm.trans (Frm.out _ _)
  | curveBezierCubic a b c d e g i j s => exact (point_emits f _ _).frm.trans (Frm.out _ _)
  | arc x y rx ry r a b s p => exact arc_frm f E.T x y rx ry r a b s p
  | drawPath s => exact drawPath_frm f s
  | useTemplate t c s => exact useTemplate_frm f E t c s
  | _ => exact (exec_emits E cb f _ hs trivial).frm

end Verif.Proof
