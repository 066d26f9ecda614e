import Verif.Proof.Writes
/-
Every function that writes the document writes whole, consecutively numbered objects.
-/
namespace Verif.Proof
open Verif Verif.Model Verif.Spec

/-- Decompose a sequence of steps inside an object. -/
macro "ps" : tactic => `(tactic| repeat (with_reducible first
  | exact Ps.refl _
  | exact Pl.refl _
  | apply Ps.outs | apply Ps.outf | apply Ps.out
  | apply Pl.outs | apply Pl.outf | apply Pl.out
  | apply Ln.outs | apply Ln.outf | apply Ln.out
  | apply Ps.opt | apply Pl.opt | apply Ln.opt
  | apply Pl.noteU16))

/-- One more plain object. -/
theorem Writes.plain' {f f1 g : Fpdf} (h : Ps f1.newobj g) (h0 : Writes f f1) : Writes f (g.outs "endobj") := h0.trans (Writes.plain h)
/-- One more stream object. -/
theorem Writes.stream' {f f1 g : Fpdf} {md5 : Bytes → Bytes} {data : Bytes} (h : Ln data.length f1.newobj g) (h0 : Writes f f1) :
    Writes f ((g.putstream md5 data).outs "endobj") := h0.trans (Writes.stream md5 data h)

theorem len_decl {fmt : String} {as : List Arg} {p q : Bytes} {n : Nat} {c : UInt8} (h : sprintf fmt as = p ++ B "/Length " ++ intDec (n : Int) ++ c :: q)
    (hc : isDigit c = false) : Declares (sprintf fmt as ++ [10]) n := by
  rw [h, intDec_ofNat]
  exact Declares_right (Declares_mk p n c q hc) _

theorem writeCompressed_writes (E : Ext) (f : Fpdf) (c : Bytes) : Writes f (f.writeCompressedFileObject E c) := by
  unfold Fpdf.writeCompressedFileObject
  refine Writes.stream _ _ ?_
  refine Ps.len (Ps.refl _) _ ?_
  refine len_decl (p := B "<< /Type /EmbeddedFile ") (c := 32) (q := _) (sprintfB_of_render _ _ _ rfl) rfl

theorem putInfoEntry_pl (E : Ext) {f g : Fpdf} (h : Pl f g) (k : String) (v : Bytes) : Pl f (g.putInfoEntry E k v) := by
  unfold Fpdf.putInfoEntry
  exact (h.textstring _ _).out _

theorem putinfo_writes (E : Ext) (f : Fpdf) : Writes f (f.putinfo E) := by
  unfold Fpdf.putinfo
  dsimp only
  refine Writes.plain (Pl.ps ?_)
  repeat (with_reducible first | exact Pl.refl _ | apply Pl.outs | apply putInfoEntry_pl | apply Pl.opt)

theorem putZoom_pl {f g : Fpdf} (h : Pl f g) : Pl f g.putZoom := by
  unfold Fpdf.putZoom
  repeat' with_reducible first | exact h | apply Pl.outs | refine Pl.ite (fun _ => ?_) (fun _ => ?_)

theorem putLayout_ps {f g : Fpdf} (h : Ps f g) : Ps f g.putLayout := by
  unfold Fpdf.putLayout
  dsimp only
  repeat' with_reducible first | exact h | apply Ps.outs | apply Ps.out | refine Ps.ite (fun _ => ?_) (fun _ => ?_)
  exact h.trans (Ps.upd rfl rfl rfl rfl rfl)

theorem layerPutCatalog_pl {f g : Fpdf} (h : Pl f g) : Pl f g.layerPutCatalog := by
  unfold Fpdf.layerPutCatalog
  dsimp only
  refine Pl.ite (fun _ => ?_) (fun _ => h)
  refine Pl.opt (h.outf _ _) ?_
  ps

theorem putcatalog_writes (f : Fpdf) : Writes f f.putcatalog := by
  unfold Fpdf.putcatalog
  dsimp only
  refine Writes.plain ?_
  refine ((Ps.out ?_ _).outs _).outs _
  refine Ps.opt (Ps.outs ?_ _) (by ps)
  refine Ps.pl ?_ (layerPutCatalog_pl (Pl.refl _))
  refine Ps.opt (putLayout_ps (Pl.ps (putZoom_pl ?_))) (by ps)
  ps

/-! ### Attachments -/

theorem Writes.inState {f g : Fpdf} (h : Writes { f with state := 1 } g) : Writes f { g with state := f.state } := by
  refine ⟨h.latch, fun hs he => ?_⟩
  obtain ⟨o, ho⟩ := h.w rfl he
  have e1 : { f with state := 1 } = f := by rw [← hs]
  have e2 : { g with state := f.state } = g := by rw [hs, show 1 = g.state from (ho.state).symm]
  rw [e1] at ho
  rw [e2]
  exact ⟨o, ho⟩

theorem Writes.setState {f g : Fpdf} (h : Writes f g) (hs : f.state = 1) (he : g.err = none) : g.state = 1 := by
  obtain ⟨o, ho⟩ := h.w hs he
  exact ho.state.trans hs

theorem embed_writes (E : Ext) (f : Fpdf) (a : Attachment) : Writes f (f.embed E a).1 := by
  unfold Fpdf.embed
  split
  · exact Writes.refl f
  · refine Writes.inState ?_
    apply Writes.plain'
    · apply Pl.ps
      apply Pl.outf
      apply Pl.textstring; apply Pl.noteU16
      apply Pl.textstring; apply Pl.noteU16
      exact Pl.refl _
    · exact writeCompressed_writes E _ _

theorem putAttachmentsLoop_writes (E : Ext) (l : List Attachment) : ∀ (f : Fpdf) (done : List Attachment), Writes f (f.putAttachmentsLoop E done l).1 := by
  induction l with
  | nil => intro f done; exact Writes.refl f
  | cons a r ih =>
    intro f done
    unfold Fpdf.putAttachmentsLoop
    exact (embed_writes E f a).trans (ih _ _)

theorem putAttachments_writes (E : Ext) (f : Fpdf) : Writes f (f.putAttachments E) := by
  unfold Fpdf.putAttachments
  exact (putAttachmentsLoop_writes E _ f []).trans (Writes.upd id rfl rfl rfl rfl)

theorem embedPtr_writes (E : Ext) (f : Fpdf) (p : Nat) : Writes f (f.embedPtr E p) := by
  unfold Fpdf.embedPtr
  split
  · exact (embed_writes E f _).trans (Writes.upd id rfl rfl rfl rfl)
  · exact Writes.upd id rfl rfl rfl rfl

theorem putAnnotationsAttachments_writes (E : Ext) (f : Fpdf) : Writes f (f.putAnnotationsAttachments E) := by
  unfold Fpdf.putAnnotationsAttachments
  exact Writes.foldl _ (fun f (an : AnnotAttach) => embedPtr_writes E f an.ptr) _ _

/-! ### Pages -/

theorem linkAnnot_pl (E : Ext) (hPt : Rat) {f : Fpdf} (s : Fpdf × Bytes) (h : Pl f s.1) (pl : LinkRec) : Pl f (Fpdf.linkAnnot E hPt s pl).1 := by
  unfold Fpdf.linkAnnot
  dsimp only
  split
  · exact h.textstring _ _
  · split
    · exact h.trans (Pl.upd rfl rfl)
    · exact h

theorem attachAnnot_pl (E : Ext) {f : Fpdf} (s : Fpdf × Bytes) (h : Pl f s.1) (an : AnnotAttach) : Pl f (Fpdf.attachAnnot E s an).1 := by
  unfold Fpdf.attachAnnot
  dsimp only
  split
  · exact h.trans (Pl.upd rfl rfl)
  · exact (((h.noteU16 _).textstring _ _).noteU16 _).textstring _ _

theorem foldl_pl {α} (F : Fpdf × Bytes → α → Fpdf × Bytes) (hF : ∀ f s a, Pl f s.1 → Pl f (F s a).1) (l : List α) (f : Fpdf) :
    ∀ s, Pl f s.1 → Pl f (l.foldl F s).1 := by
  induction l with
  | nil => intro s h; exact h
  | cons a l ih => intro s h; exact ih _ (hF f s a h)

theorem putAnnots_pl (E : Ext) (hPt : Rat) {f g : Fpdf} (h : Pl f g) (n : Nat) : Pl f (g.putAnnots E hPt n) := by
  unfold Fpdf.putAnnots
  dsimp only
  refine Pl.ite (fun _ => ?_) (fun _ => h)
  refine Pl.out ?_ _
  exact foldl_pl _ (fun f s a h => attachAnnot_pl E s h a) _ _ _ (foldl_pl _ (fun f s a h => linkAnnot_pl E hPt s h a) _ _ _ h)

theorem putMediaBox_pl {f g : Fpdf} (h : Pl f g) (n : Nat) : Pl f (g.putMediaBox n) := by
  unfold Fpdf.putMediaBox
  split
  · exact h.outf _ _
  · exact h

theorem putPageBoxes_pl (E : Ext) {f g : Fpdf} (h : Pl f g) (n : Nat) : Pl f (g.putPageBoxes E n) := by
  unfold Fpdf.putPageBoxes
  refine Pl.foldl _ (fun f t => ?_) _ h
  split
  · ps
  · ps

theorem putPageDict_writes (E : Ext) (hPt : Rat) (f : Fpdf) (n : Nat) : Writes f (f.putPageDict E hPt n) := by
  unfold Fpdf.putPageDict
  dsimp only
  refine Writes.plain (Pl.ps ?_)
  refine Pl.outf ?_ _ _
  refine Pl.opt ?_ (by ps)
  refine putAnnots_pl E hPt ?_ _
  refine Pl.outs ?_ _
  refine putPageBoxes_pl E (putMediaBox_pl ?_ _) _
  ps

theorem putContent_writes (E : Ext) (f : Fpdf) (b : Bytes) : Writes f (f.putContent E b) := by
  unfold Fpdf.putContent
  dsimp only
  split
  · refine Writes.stream _ _ ?_
    exact Ps.len (Ps.refl _) _ (len_decl (p := B "<</Filter /FlateDecode ") (c := 0x3E) (q := _) (sprintfB_of_render _ _ _ rfl) rfl)
  · refine Writes.stream _ _ ?_
    exact Ps.len (Ps.refl _) _ (len_decl (p := B "<<") (c := 0x3E) (q := _) (sprintfB_of_render _ _ _ rfl) rfl)

/-! ### Resources -/

theorem layerPutLayersLoop_writes (E : Ext) (l : List Layer) : ∀ (f : Fpdf) (done : List Layer), Writes f (f.layerPutLayersLoop E done l).1 := by
  induction l with
  | nil => intro f done; exact Writes.refl f
  | cons a r ih =>
    intro f done
    unfold Fpdf.layerPutLayersLoop
    refine Writes.trans ?_ (ih _ _)
    exact Writes.plain (Pl.ps (Pl.outf ((Pl.noteU16 (Pl.refl _) _).textstring _ _) _ _))

theorem layerPutLayers_writes (E : Ext) (f : Fpdf) : Writes f (f.layerPutLayers E) := by
  unfold Fpdf.layerPutLayers
  exact (layerPutLayersLoop_writes E _ f []).trans (Writes.upd id rfl rfl rfl rfl)

theorem putBlendLoop_writes (l : List BlendMode) : ∀ (f : Fpdf) (done : List BlendMode), Writes f (f.putBlendLoop done l).1 := by
  induction l with
  | nil => intro f done; exact Writes.refl f
  | cons a r ih =>
    intro f done
    unfold Fpdf.putBlendLoop
    exact Writes.trans (Writes.plain (by ps)) (ih _ _)

theorem putBlendModes_writes (f : Fpdf) : Writes f f.putBlendModes := by
  unfold Fpdf.putBlendModes
  exact (putBlendLoop_writes _ f []).trans (Writes.upd id rfl rfl rfl rfl)

theorem putGradient_writes (f : Fpdf) (g : Gradient) : Writes f (f.putGradient g) := by
  unfold Fpdf.putGradient
  dsimp only
  apply Writes.plain'
  · apply Ps.ite
    · intro _; ps
    · intro _; ps
  · exact Writes.plain (by ps)

theorem putGradLoop_writes (l : List Gradient) : ∀ (f : Fpdf) (done : List Gradient), Writes f (f.putGradLoop done l).1 := by
  induction l with
  | nil => intro f done; exact Writes.refl f
  | cons a r ih =>
    intro f done
    unfold Fpdf.putGradLoop
    exact Writes.trans (putGradient_writes f a) (ih _ _)

theorem putGradients_writes (f : Fpdf) : Writes f f.putGradients := by
  unfold Fpdf.putGradients
  exact (putGradLoop_writes _ f []).trans (Writes.upd id rfl rfl rfl rfl)

theorem putSpotColor_writes (f : Fpdf) (k : Bytes) (v : SpotColor) : Writes f (f.putSpotColor k v) := by
  unfold Fpdf.putSpotColor
  dsimp only
  exact Writes.plain (by ps)

theorem insSpot_writes (f : Fpdf) (m : List (Bytes × SpotColor)) : Writes f { f with r.spotColorMap := m } := Writes.upd id rfl rfl rfl rfl

theorem putSpotColors_writes (E : Ext) (f : Fpdf) : Writes f (f.putSpotColors E) := by
  unfold Fpdf.putSpotColors
  refine Writes.foldl _ (fun f k => ?_) _ _
  split
  · exact (putSpotColor_writes f k _).trans (insSpot_writes _ _)
  · exact Writes.refl f

theorem putDiffs_writes (f : Fpdf) : Writes f f.putDiffs := by
  unfold Fpdf.putDiffs
  refine Writes.foldl _ (fun f k => ?_) _ _
  dsimp only
  apply Writes.plain
  ps

theorem len_open (n : Nat) : Declares (sprintf "<</Length %d" [.d (n : Int)] ++ [10]) n := by
  have e : sprintf "<</Length %d" [.d (n : Int)] = B "<</Length " ++ natDec n := by
    refine (sprintfB_of_render _ _ _ rfl : sprintf _ _ = B "<</Length " ++ (intDec (n : Int) ++ [])).trans ?_
    rw [intDec_ofNat, List.append_nil]
  rw [e]
  exact Declares_mk (B "<<") n 10 [] rfl

theorem putFontFile_writes (E : Ext) (f : Fpdf) (file : Bytes) : Writes f (f.putFontFile E file) := by
  unfold Fpdf.putFontFile
  split
  · exact Writes.refl f
  split
  · exact Writes.refl f
  split
  · dsimp only
    split
    · exact Writes.fail (by simp [Fpdf.assignErr])
    · rename_i font _
      refine Writes.stream _ _ ?_
      apply Ln.outs
      apply Ln.opt
      · apply Ln.outf
        apply Ln.opt
        · refine Ps.len ?_ _ (len_open _)
          exact Ps.upd rfl rfl rfl rfl rfl
        · ps
      · ps
  · exact Writes.refl f

theorem putCoreFont_writes (f : Fpdf) (font : FontDef) : Writes f (f.putCoreFont font) := by
  unfold Fpdf.putCoreFont
  dsimp only
  exact Writes.plain (by ps)

theorem putSimpleFont_writes (f : Fpdf) (font : FontDef) (nf : Nat) : Writes f (f.putSimpleFont font nf) := by
  unfold Fpdf.putSimpleFont
  dsimp only
  apply Writes.plain'
  · ps
  apply Writes.plain'
  · ps
  apply Writes.plain
  refine Ps.outs ?_ _
  apply Ps.ite
  · intro _; ps
  · intro _; ps

theorem endobj_split (f : Fpdf) (s : Bytes) : f.out (s ++ B "\nendobj") = (f.out s).outs "endobj" := by
  unfold Fpdf.outs Fpdf.out
  by_cases h : f.state = 2
  · rw [if_pos h, if_pos h, if_pos h]
    have : ∀ (i : Nat) (l : List Bytes), modifyAt i (fun b => b ++ (s ++ B "\nendobj") ++ [10]) l
        = modifyAt i (fun b => b ++ B "endobj" ++ [10]) (modifyAt i (fun b => b ++ s ++ [10]) l) := by
      intro i l
      induction l generalizing i with
      | nil => cases i <;> rfl
      | cons a l ih => cases i with
        | zero => simp [modifyAt, B, List.append_assoc]
        | succ i => simp only [modifyAt, ih]
    rw [this]
  · rw [if_neg h, if_neg h, if_neg h]
    have : f.buffer ++ (s ++ B "\nendobj") ++ [10] = f.buffer ++ s ++ [10] ++ B "endobj" ++ [10] := by
      rw [show B "\nendobj" = [10] ++ B "endobj" from rfl]; simp only [List.append_assoc]
    rw [this]

theorem len_decl_out (p q : Bytes) (n : Nat) : Declares (p ++ B "/Length " ++ natDec n ++ 0x3E :: q ++ [10]) n :=
  Declares_right (Declares_mk p n _ q rfl) _

theorem putUtf8Font_writes (E : Ext) (f : Fpdf) (font : FontDef) : Writes f (f.putUtf8Font E font) := by
  unfold Fpdf.putUtf8Font
  dsimp only
  generalize Fpdf.fontRunes f font = used
  generalize E.deflate (E.cutFont font used) = comp
  generalize List.length (E.cutFont font used) = clen
  generalize E.deflate (E.cidToGid font used) = gid
  generalize widthLine font used = cw
  generalize B "utf8" ++ font.name = fontName
  have h1 : Writes f (f.newobj.outf "<</Type /Font\n/Subtype /Type0\n/BaseFont /%s\n/Encoding /Identity-H\n/DescendantFonts [%d 0 R]\n/ToUnicode %d 0 R>>\nendobj"
      [.s fontName, .d (f.newobj.n + 1 : Nat), .d (f.newobj.n + 2 : Nat)]) := by
    have e : ∃ s, sprintf "<</Type /Font\n/Subtype /Type0\n/BaseFont /%s\n/Encoding /Identity-H\n/DescendantFonts [%d 0 R]\n/ToUnicode %d 0 R>>\nendobj"
        [.s fontName, .d (f.newobj.n + 1 : Nat), .d (f.newobj.n + 2 : Nat)] = s ++ B "\nendobj" :=
      ⟨B "<</Type /Font\n/Subtype /Type0\n/BaseFont /" ++ (fontName ++ (B "\n/Encoding /Identity-H\n/DescendantFonts [" ++ (intDec (f.newobj.n + 1 : Nat) ++
        (B " 0 R]\n/ToUnicode " ++ (intDec (f.newobj.n + 2 : Nat) ++ B " 0 R>>"))))), by
        set_option maxRecDepth 4000 in
        refine (sprintfB_of_render _ _ _ rfl : sprintf _ _ = B "<</Type /Font\n/Subtype /Type0\n/BaseFont /" ++ (fontName ++
          (B "\n/Encoding /Identity-H\n/DescendantFonts [" ++ (intDec (f.newobj.n + 1 : Nat) ++
          (B " 0 R]\n/ToUnicode " ++ (intDec (f.newobj.n + 2 : Nat) ++ B " 0 R>>\nendobj")))))).trans ?_
        rw [show B " 0 R>>\nendobj" = B " 0 R>>" ++ B "\nendobj" from rfl]
        simp only [List.append_assoc]⟩
    obtain ⟨s, hs⟩ := e
    unfold Fpdf.outf
    rw [hs, endobj_split]
    exact Writes.plain ((Ps.refl _).out _)
  generalize Fpdf.outf f.newobj _ _ = f1 at h1 ⊢
  apply Writes.stream'
  · apply Ln.outs; apply Ln.out; apply Ln.outs
    apply Ps.len (Ps.refl _)
    exact Declares_mk (B "<<") comp.length 10 [] rfl
  apply Writes.stream'
  · apply Ps.len (Ps.refl _)
    have := Declares_right (Declares_mk (B "<<") gid.length 0x2F (B "Filter /FlateDecode>>") rfl) [10]
    have e : B "<</Length " ++ natDec gid.length ++ B "/Filter /FlateDecode>>" = B "<<" ++ B "/Length " ++ natDec gid.length ++ 0x2F :: B "Filter /FlateDecode>>" := rfl
    rw [e]; exact this
  apply Writes.plain'
  · ps
  apply Writes.plain'
  · ps
  apply Writes.stream'
  · apply Ps.len (Ps.refl _)
    exact len_decl_out (B "<<") [0x3E] _
  apply Writes.plain'
  · ps
  exact h1

theorem putFont_writes (E : Ext) (nf : Nat) (f : Fpdf) (key : Bytes) : Writes f (f.putFont E nf key) := by
  unfold Fpdf.putFont
  split
  · exact Writes.refl f
  split
  · exact Writes.refl f
  · rename_i font _
    dsimp only
    have hu : ∀ m : List (Bytes × FontDef), Writes f { f with t.fonts := m } := fun m => Writes.upd id rfl rfl rfl rfl
    split
    · exact (hu _).trans (putCoreFont_writes _ _)
    split
    · exact (hu _).trans (putSimpleFont_writes _ _ _)
    split
    · exact (hu _).trans (putUtf8Font_writes _ _ _)
    · exact Writes.fail (by simp [Fpdf.assignErr])

theorem putfonts_writes (E : Ext) (f : Fpdf) : Writes f (f.putfonts E) := by
  unfold Fpdf.putfonts
  split
  · exact Writes.refl f
  · dsimp only
    have h := (putDiffs_writes f).trans (Writes.foldl (Fpdf.putFontFile E) (putFontFile_writes E) (visit E f.putDiffs.m.catalogSort 4 (keys f.putDiffs.t.fontFiles) bytesLe) f.putDiffs)
    split
    · exact h
    · exact h.trans (Writes.foldl _ (putFont_writes E _) _ _)

theorem putImageObj_writes (E : Ext) (f : Fpdf) (i : ImageInfo) : Writes f (f.putImageObj E i) := by
  unfold Fpdf.putImageObj
  dsimp only
  apply Writes.stream
  refine Ps.len ?_ _ (len_decl (p := []) (c := 0x3E) (q := [0x3E]) (sprintfB_of_render _ _ _ rfl) rfl)
  apply Ps.opt
  apply Ps.opt
  apply Ps.opt
  apply Ps.opt
  apply Ps.outf
  apply Ps.ite
  · intro _; ps
  · intro _; ps
  all_goals ps

theorem putimage_writes (E : Ext) (f : Fpdf) (i : ImageInfo) : Writes f (f.putimage E i) := by
  unfold Fpdf.putimage
  have key : ∀ g, Writes f g → Writes f (if i.cs = B "Indexed" then g.putContent E i.pal else g) := fun g h =>
    Writes.ite (fun _ => h.trans (putContent_writes E _ _)) (fun _ => h)
  refine key _ ((putImageObj_writes E f i).trans ?_)
  split
  · exact Writes.ite (fun _ => putImageObj_writes E _ _) (fun _ => Writes.refl _)
  · exact Writes.refl _

theorem setImgN_writes (f : Fpdf) (p n : Nat) : Writes f (f.setImgN p n) := Writes.upd id rfl rfl rfl rfl

theorem putImagesLoop_writes (E : Ext) (l : List Bytes) : ∀ (f : Fpdf) (ins : List (Bytes × Nat)), Writes f (Fpdf.putImagesLoop E l f ins) := by
  induction l with
  | nil => intro f ins; exact Writes.refl f
  | cons k r ih =>
    intro f ins
    unfold Fpdf.putImagesLoop
    split
    · exact ih _ _
    split
    · exact ih _ _
    split
    · exact (setImgN_writes _ _ _).trans (ih _ _)
    · exact (putimage_writes E f _).trans ((setImgN_writes _ _ _).trans (ih _ _))

theorem putimages_writes (E : Ext) (f : Fpdf) : Writes f (f.putimages E) := putImagesLoop_writes E _ _ _

theorem templateFontCatalog_pl (E : Ext) {f g : Fpdf} (h : Pl f g) : Pl f (g.templateFontCatalog E) := by
  unfold Fpdf.templateFontCatalog
  dsimp only
  refine Pl.outs (Pl.foldl _ (fun f k => ?_) _ (h.outs _)) _
  split
  · ps
  · ps

theorem putTemplateXObjects_pl (E : Ext) {f g : Fpdf} (h : Pl f g) (t : Tmpl) : Pl f (g.putTemplateXObjects E t) := by
  unfold Fpdf.putTemplateXObjects
  dsimp only
  refine Pl.ite (fun _ => ?_) (fun _ => h)
  refine Pl.outs (Pl.foldl _ (fun f k => ?_) _ (Pl.foldl _ (fun f k => ?_) _ (h.outs _))) _
  · split
    · ps
    · ps
  · split
    · ps
    · ps

theorem putTemplate_writes (E : Ext) (f : Fpdf) (t : Tmpl) : Writes f (f.putTemplate E t) := by
  unfold Fpdf.putTemplate
  dsimp only
  apply Writes.stream
  refine Ps.len ?_ _ (len_decl (p := []) (c := 0x20) (q := B ">>") (sprintfB_of_render _ _ _ rfl) rfl)
  refine Ps.outs ?_ _
  refine Ps.pl (Ps.pl ?_ (templateFontCatalog_pl E (Pl.refl _))) (putTemplateXObjects_pl E (Pl.refl _) t)
  refine Ps.outs (Ps.outs ?_ _) _
  refine Ps.opt ?_ (by ps)
  ps
  exact Ps.upd rfl rfl rfl rfl rfl

theorem putTemplates_writes (E : Ext) (f : Fpdf) : Writes f (f.putTemplates E) := Writes.foldl _ (putTemplate_writes E) _ _

theorem putjavascript_writes (E : Ext) (f : Fpdf) : Writes f (f.putjavascript E) := by
  unfold Fpdf.putjavascript
  split
  · exact Writes.refl f
  · dsimp only
    apply Writes.plain'
    · apply Ps.outs; apply Ps.outf
      refine Ps.pl ?_ (Pl.textstring _ (Pl.refl _) _)
      ps
    · apply Writes.plain
      ps
      exact Ps.upd rfl rfl rfl rfl rfl

theorem putEncrypt_writes (f : Fpdf) : Writes f f.putEncrypt := by
  unfold Fpdf.putEncrypt
  refine Writes.ite (fun _ => ?_) (fun _ => Writes.refl f)
  dsimp only
  apply Writes.plain
  ps
  exact Ps.upd rfl rfl rfl rfl rfl

theorem putxmp_writes (E : Ext) (f : Fpdf) : Writes f (f.putxmp E) := by
  unfold Fpdf.putxmp
  refine Writes.ite (fun _ => Writes.refl f) (fun _ => ?_)
  dsimp only
  have e : (f.newobj.outf "<< /Type /Metadata /Subtype /XML /Length %d >>" [.d f.newobj.m.xmp.length]).m.xmp = f.newobj.m.xmp := by
    unfold Fpdf.outf Fpdf.out; split <;> rfl
  rw [e]
  apply Writes.stream
  exact Ps.len (Ps.refl _) _ (len_decl (p := B "<< /Type /Metadata /Subtype /XML ") (c := 0x20) (q := B ">>") (sprintfB_of_render _ _ _ rfl) rfl)

theorem putOutline_writes (E : Ext) (n : Nat) (f : Fpdf) (x : OutlineRec × OutLinks) : Writes f (f.putOutline E n x) := by
  unfold Fpdf.putOutline
  obtain ⟨o, k⟩ := x
  dsimp only
  apply Writes.plain
  apply Pl.ps
  refine Pl.outs (Pl.outf ?_ _ _) _
  have opt : ∀ (m : Option Nat) (fmt : String) (g : Fpdf), Pl f.newobj g → Pl f.newobj (g.outRef fmt n m) := by
    intro m fmt g h
    cases m with
    | some i => exact h.outf _ _
    | none => exact h
  refine opt k.last _ _ (opt k.first _ _ (opt k.next _ _ (opt k.prev _ _ ?_)))
  exact ((Pl.textstring _ (Pl.refl _) _).outf _ _).outf _ _

theorem putbookmarks_writes (E : Ext) (f : Fpdf) : Writes f (f.putbookmarks E) := by
  unfold Fpdf.putbookmarks
  refine Writes.ite (fun _ => ?_) (fun _ => Writes.refl f)
  dsimp only
  apply Writes.plain'
  · apply Ps.outf
    apply Ps.outf
    exact Ps.upd rfl rfl rfl rfl rfl
  · exact Writes.foldl _ (putOutline_writes E _) _ _

end Verif.Proof
