import Verif.Props.Gradient
import Verif.Proof.Cells
import Verif.Props.Geometry
import Verif.Props.Text
/-
C65: links cover the area asked for and lead where asked.
-/
namespace Verif.Props
open Verif Verif.Model Verif.Spec Verif.Proof

/-- A link annotation (ISO 32000-1, 12.5.6.5) with this rectangle and this action or destination. -/
def linkAnnotation (rect act : Bytes) : Bytes := B "<</Type /Annot /Subtype /Link /Rect [" ++ rect ++ B "] /Border [0 0 0] " ++ act ++ B ">>"

/-- The action of opening a URI, given as a string object. -/
def opensUri (lit : Bytes) : Bytes := B "/A <</S /URI /URI " ++ lit ++ B ">>"

/-- The destination at height `y` of the page that is object `page`. -/
def goesTo (page : Nat) (y : Bytes) : Bytes := B "/Dest [" ++ decimal page ++ B " 0 R /XYZ 0 " ++ y ++ B " null]"

/-- The corners of an area of a page, in points from the lower left corner of the page. -/
def corners (f : Fpdf) (x y w h : Rat) : List Rat := [px f x, py f y, px f (x + w), py f (y + h)]

/-- The links recorded for page `n`. -/
def linksOn (f : Fpdf) (n : Nat) : List LinkRec := f.l.pageLinks.getD n []

/-- Links are kept, in order, and there is a list of links for each page. -/
structure LinksLe (f g : Fpdf) : Prop where
  ok : f.l.pageLinks.length = f.pages.length → g.l.pageLinks.length = g.pages.length
  ext : ∀ (q : Nat) (l : List LinkRec), f.l.pageLinks[q]? = some l → ∃ m, g.l.pageLinks[q]? = some (l ++ m)

theorem LinksLe.of_eq {f g : Fpdf} (h2 : g.l.pageLinks = f.l.pageLinks) (h3 : g.pages.length = f.pages.length) : LinksLe f g where
  ok := fun o => by rw [h2, h3]; exact o
  ext := fun q l h => ⟨[], by rw [h2, h]; simp⟩

theorem LinksLe.of_grow {f g : Fpdf} (h : LinkGrow f g) (h3 : g.pages.length = f.pages.length) : LinksLe f g where
  ok := fun o => by obtain ⟨t, ht⟩ := h; rw [ht, h3, modifyAt_length]; exact o
  ext := fun q l hl => by
    obtain ⟨t, ht⟩ := h
    rw [ht, modifyAt_getElem?, hl]
    split
    · exact ⟨t, rfl⟩
    · exact ⟨[], by simp⟩

theorem beginpage_links (f : Fpdf) (o : Bytes) (sz : Size) (he : f.err = none) :
    (f.beginpage o sz).l.pageLinks = f.l.pageLinks ++ [[]] ∧ (f.beginpage o sz).pages = f.pages ++ [[]] := by
  unfold Fpdf.beginpage
  rw [if_neg (by simp [he])]
  dsimp only
  generalize Fpdf.orientLetter _ o = ol
  split <;> split <;> exact ⟨rfl, rfl⟩

theorem links_fine : FineRel LinksLe where
  trans := fun f g h a b => ⟨fun o => b.ok (a.ok o), fun q l hl => by
    obtain ⟨m1, h1⟩ := a.ext q l hl
    obtain ⟨m2, h2⟩ := b.ext q _ h1
    exact ⟨m1 ++ m2, by rw [h2, List.append_assoc]⟩⟩
  stp := fun f g hb hl => by
    have h2 := congrArg (fun f : Fpdf => f.l.pageLinks) hb
    exact .of_eq h2 hl
  fstep := fun f g h => .of_grow h.links h.emits.frm.len
  begin := fun f o sz => by
    by_cases he : f.err = none
    swap
    · rw [show f.beginpage o sz = f by unfold Fpdf.beginpage; rw [if_pos he]]
      exact .of_eq rfl rfl
    · obtain ⟨h2, h3⟩ := beginpage_links f o sz he
      refine ⟨fun o => by rw [h2, h3]; simp [o], fun q l hl => ⟨[], ?_⟩⟩
      rw [h2, List.getElem?_append_left (List.getElem?_eq_some_iff.mp hl).1, hl]; simp

theorem links_own (E : Ext) (cb : Cb) (f : Fpdf) (op : Op) (hs : staysOnPage op = true) : LinksLe f (f.exec E cb op) := by
  refine .of_grow ?_ (exec_frm E cb f op hs).len
  by_cases h : ∃ x y w h l s, op = .link x y w h l s
  · obtain ⟨x, y, w, h, l, s, rfl⟩ := h
    exact .newLink ..
  · exact .of_eq (foot_get (fun f => f.l.pageLinks) E cb f op hs (fun f => by cases op <;> first | rfl | exact absurd ⟨_, _, _, _, _, _, rfl⟩ h))

theorem reach_links {E : Ext} {f g : Fpdf} (h : Reach E pagesFirst f g) : LinksLe f g :=
  (links_fine.reach (G := pagesFirst) pagesFirst_open (fun cb f op ho => links_own E cb f op (helper_stays ho)) (fun f cb op _ hs => links_own E cb f op hs) h).2

theorem reach_geo {E : Ext} {f g : Fpdf} (h : Reach E pagesFirst f g) : Trig f g :=
  Reach.rel (G := pagesFirst) Trig (fun f => ⟨.refl f, id⟩) (fun _ _ _ a b => ⟨a.op.trans b.op, fun x => b.geo (a.geo x)⟩)
    (fun f op cb hop hcb => exec_trig ⟨fun h hh s hs => hcb.header h hh s hs, fun h hh b s hs => hcb.footer h hh b s hs, hcb.accept⟩ f op hop.1 hop.2.1) h

/-! ### The text of the annotations -/

/-- The rectangle of a link, as it is written. -/
def linkRect (pl : LinkRec) : Bytes := spaced ([pl.x, pl.y, pl.x + pl.wd, pl.y - pl.ht].map (fmtF 2))

theorem uriText_eq (pl : LinkRec) (c : Bytes) : uriText pl c = linkAnnotation (linkRect pl) (opensUri (textstringPlain c)) := by
  have h : sprintf "<</Type /Annot /Subtype /Link /Rect [%.2f %.2f %.2f %.2f] /Border [0 0 0] " [.f pl.x, .f pl.y, .f (pl.x + pl.wd), .f (pl.y - pl.ht)] =
      B "<</Type /Annot /Subtype /Link /Rect [" ++ (fmtF 2 pl.x ++ (B " " ++ (fmtF 2 pl.y ++ (B " " ++ (fmtF 2 (pl.x + pl.wd) ++ (B " " ++ (fmtF 2 (pl.y - pl.ht) ++ B "] /Border [0 0 0] "))))))) :=
    sprintf_of_render rfl
  unfold uriText linkAnnotation linkRect opensUri
  rw [h, show B ">>>>" = B ">>" ++ B ">>" from rfl]
  simp only [List.map_cons, List.map_nil, spaced, List.append_assoc]

theorem linkText_eq (pl : LinkRec) (page : Nat) (y : Rat) : linkText pl page y = linkAnnotation (linkRect pl) (goesTo (1 + 2 * page) (fmtF 2 y)) := by
  obtain ⟨rect, h1, rfl⟩ := linkText_goto pl page y
  rw [h1]
  unfold gotoText linkAnnotation linkRect goesTo
  rw [show B "] /Border [0 0 0] /Dest [" = B "] /Border [0 0 0] " ++ B "/Dest [" from rfl, show B " null]>>" = B " null]" ++ B ">>" from rfl]
  simp only [List.map_cons, List.map_nil, spaced, List.append_assoc]

/-- The rectangle of a new link. -/
theorem newLink_rect (f : Fpdf) (hg : f.p.hPt = f.p.h * f.k) (x y w h : Rat) (l : Nat) (s : Bytes) :
    linkRect { x := x * f.k, y := f.p.hPt - y * f.k, wd := w * f.k, ht := h * f.k, link := l, linkStr := s } = spaced ((corners f x y w h).map (fmtF 2)) := by
  unfold linkRect corners px py Fpdf.getConversionRatio Fpdf.getPageSize
  dsimp only
  rw [hg]
  rw [show f.p.h * f.k - y * f.k = (f.p.h - y) * f.k by ring, show x * f.k + w * f.k = (x + w) * f.k by ring, show (f.p.h - y) * f.k - h * f.k = (f.p.h - (y + h)) * f.k by ring]

theorem newLink_at (f : Fpdf) (x y w h : Rat) (l : Nat) (s : Bytes) (hl : f.page < f.l.pageLinks.length) :
    (f.newLink x y w h l s).l.pageLinks[f.page]? = some (linksOn f f.page ++ [{ x := x * f.k, y := f.p.hPt - y * f.k, wd := w * f.k, ht := h * f.k, link := l, linkStr := s }]) := by
  unfold Fpdf.newLink linksOn
  dsimp only
  rw [modifyAt_getElem?, if_pos rfl, List.getD_eq_getElem?_getD, List.getElem?_eq_getElem hl]
  rfl

/-- What `LinksFor` says of one link. -/
theorem linksFor_at {L : LinkSt} {f : Fpdf} {hPt : Rat} {n i : Nat} {annots : Bytes} {pl : LinkRec} (h : LinksFor L f hPt n annots) (hi : (linksOn f n)[i]? = some pl) :
    ∃ (ts : List Bytes) (att t : Bytes), annots = B "/Annots [" ++ ts.flatten ++ att ++ B "]\n" ∧ ts.length = (linksOn f n).length ∧ ts[i]? = some t ∧ LinkIs f.p.pageSizes f.k f.l.links f.m.protect.encrypted hPt pl t ∧
      (L.pageAttachments.getD n [] = [] → att = []) := by
  obtain ⟨ts, att, h1, h2, h3⟩ := h
  have hlen := h1.length_eq
  have hi' : i < (f.l.pageLinks.getD n []).length := (List.getElem?_eq_some_iff.mp hi).1
  have hit : i < ts.length := by omega
  refine ⟨ts, att, ts[i], ?_, hlen.symm, List.getElem?_eq_getElem hit, ?_, h2⟩
  · rcases h3 with h3 | ⟨_, h4, _⟩
    · exact h3
    · rw [h4] at hit; simp at hit
  · have := List.forall₂_iff_get.mp h1
    have h5 := this.2 i hi' hit
    have h6 : (f.l.pageLinks.getD n [])[i]? = some pl := hi
    rw [List.getElem?_eq_getElem hi'] at h6
    simp only [List.get_eq_getElem] at h5
    rw [Option.some.inj h6] at h5
    exact h5

/-! ### The theorems -/

/-- Object `k` is a page; `own` is its own size entry, if any, and `annots` its list of annotations. -/
def PageEntry (items : List (Nat × Body)) (k : Nat) (own annots : Bytes) : Prop :=
  ∃ boxes post, (k, Body.plain (B "<</Type /Page\n/Parent 1 0 R\n" ++ own ++ boxes ++ B "/Resources 2 0 R\n" ++ annots ++ post)) ∈ items

/-- `annots` is an array of link annotations (and of others after them); `t` is number `i` of them. -/
def AnnotAt (annots : Bytes) (i : Nat) (t : Bytes) : Prop := ∃ (ts : List Bytes) (others : Bytes), annots = B "/Annots [" ++ ts.flatten ++ others ++ B "]\n" ∧ ts[i]? = some t

theorem links_len {E : Ext} {o u s : Bytes} {sz : Size} {f0 : Fpdf} (h0 : Reach E pagesFirst (Fpdf.new o u s sz) f0) : f0.page < f0.l.pageLinks.length := by
  obtain ⟨n1, n2, n3, n4, n5, n6⟩ := new_open o u s sz
  have hlen : f0.l.pageLinks.length = f0.pages.length := (reach_links h0).ok (by
    rw [new_get (fun f : Fpdf => f.l.pageLinks) (fun _ => rfl) o u s sz, n5]; rfl)
  have hpg := (pf_fresh h0).page
  omega

theorem links_final {E : Ext} {cb' : Cb} {f : Fpdf} {wf : Bool} {last : Fpdf} {v : Nat} {A P M T : List Body} {d : Bytes} {items : List (Nat × Body)} {f1 : Fpdf}
    {n : Nat} {l : List LinkRec} {pl : LinkRec} (hat : f1.l.pageLinks[n]? = some (l ++ [pl])) (hf : Reach E pagesFirst f1 f)
    (hcb : CbReach E pagesFirst cb') (hp : Printed E cb' f (docOf E cb' f wf) last (fileOf E cb' f wf) v A P M T d items) :
    (linksOn (docOf E cb' f wf) n)[l.length]? = some pl := by
  have hle : LinksLe f1 last := last_fine (G := pagesFirst) pagesFirst_open links_fine
    (fun cb f op ho => links_own E cb f op (helper_stays ho)) (fun f cb op _ hs => links_own E cb f op hs) hf hcb hp.eq hp.page1
  obtain ⟨m, hm⟩ := hle.ext _ _ hat
  have e : (docOf E cb' f wf).l.pageLinks = last.l.pageLinks := hp.fin.pageLinks
  unfold linksOn
  rw [e, List.getD_eq_getElem?_getD, hm]
  simp

/-- A link to a URI that has been recorded is in the file. -/
theorem uri_core {E : Ext} {cb' : Cb} {o u s : Bytes} {sz : Size} {f1 f : Fpdf} {wf : Bool} {n : Nat} {l : List LinkRec} {pl : LinkRec} (hpg : 1 ≤ n) (h1 : Reach E pagesFirst (Fpdf.new o u s sz) f1)
    (hat : f1.l.pageLinks[n]? = some (l ++ [pl])) (hpl : pl.link = 0) (hf : Reach E pagesFirst f1 f)
    (hcb : CbReach E pagesFirst cb') (hok : errOf E cb' f wf = none) (hsize : (fileOf E cb' f wf).length < 10 ^ 10) (hlast : n ≤ (docOf E cb' f wf).page) :
    ∃ version items root info kids rest own annots lit c, IsPdf (fileOf E cb' f wf) [] version items root info ∧ PageTree items kids rest ∧
      PageEntry items (kids.getD (n - 1) 0) own annots ∧ AnnotAt annots l.length (linkAnnotation (linkRect pl) (opensUri lit)) ∧
      (∀ rest, readLit (lit ++ rest) = some (c, rest)) ∧ ((docOf E cb' f wf).m.protect.encrypted = false → c = pl.linkStr) := by
  obtain ⟨last, v, A, P, M, T, d, items, hp, hb⟩ := printed_pf (h1.trans hf) hcb hok
  have hpdf := hp.written.pdf hsize
  rw [hb] at hpdf
  have hfin := links_final hat hf hcb hp
  have hpage := hp.fin.page
  obtain ⟨annots, group, hmem, hlf⟩ := hp.written.pageExact hp.state hp.fin (n - 1) (by omega)
  rw [show n - 1 + 1 = n by omega] at hmem hlf
  obtain ⟨ts, att, t, t1, t2, t3, t4, t5⟩ := linksFor_at hlf hfin
  unfold LinkIs at t4
  rw [if_pos hpl] at t4
  obtain ⟨c, rfl, hc⟩ := t4
  rw [uriText_eq] at t3
  refine ⟨v, items, _, _, _, _, mediaText (docOf E cb' f wf).p.pageSizes n, annots, _, c, hpdf, hp.written.pageTree, ⟨boxesText ((lookup n (docOf E cb' f wf).p.pageBoxes).getD []) (E.ord (1000 + n) (keys ((lookup n (docOf E cb' f wf).p.pageBoxes).getD []))), group ++ (B "/Contents " ++ natDec (3 + A.length + 2 * (n - 1) + 1) ++ B " 0 R>>\n"), ?_⟩, ⟨ts, att, t1, t3⟩, readLit_textstringPlain c, hc⟩
  rw [show ((List.range last.page).map fun i => 3 + A.length + 2 * i).getD (n - 1) 0 = 3 + A.length + 2 * (n - 1) by
    rw [List.getD_eq_getElem?_getD, List.getElem?_map, List.getElem?_range (by omega)]; rfl]
  simp only [List.append_assoc] at hmem ⊢
  exact hmem

/-- **C65** A call of `LinkString` puts a link annotation on its page: its rectangle is the area asked for, in points from the lower left corner of the page, and it opens the URI asked for. The link annotations
of a page are in the order of the calls. -/
theorem C65_uri (E : Ext) (cb cb' : Cb) (o u s : Bytes) (sz : Size) (hnew : (Fpdf.new o u s sz).err = none) (f0 f : Fpdf) (wf : Bool) (x y w h : Rat) (uri : Bytes)
    (h0 : Reach E pagesFirst (Fpdf.new o u s sz) f0) (hpg : 1 ≤ f0.page)
    (h1 : Reach E pagesFirst f0 (f0.exec E cb (.link x y w h 0 uri))) (hf : Reach E pagesFirst (f0.exec E cb (.link x y w h 0 uri)) f)
    (hcb : CbReach E pagesFirst cb') (hok : errOf E cb' f wf = none) (hsize : (fileOf E cb' f wf).length < 10 ^ 10) (hlast : f0.page ≤ (docOf E cb' f wf).page) :
    ∃ version items root info kids rest own annots rect lit c, IsPdf (fileOf E cb' f wf) [] version items root info ∧ PageTree items kids rest ∧
      PageEntry items (kids.getD (f0.page - 1) 0) own annots ∧ AnnotAt annots (linksOn f0 f0.page).length (linkAnnotation rect (opensUri lit)) ∧
      Numbers 2 rect (corners f0 x y w h) ∧ (∀ rest, readLit (lit ++ rest) = some (c, rest)) ∧ ((docOf E cb' f wf).m.protect.encrypted = false → c = uri) := by
  obtain ⟨v, items, root, info, kids, rest, own, annots, lit, c, k1, k2, k3, k4, k5, k6⟩ := uri_core hpg (h0.trans h1) (newLink_at f0 x y w h 0 uri (links_len h0)) rfl hf hcb hok hsize hlast
  have hgeo := ((reach_geo h0).geo (new_geo o u s sz hnew).1).hPt
  rw [newLink_rect f0 hgeo] at k4
  exact ⟨v, items, root, info, kids, rest, own, annots, _, lit, c, k1, k2, k3, k4, numbers_fmt 2 _, k5, k6⟩

/-- The link that a cell with a link records: it covers its text, as high as the font. -/
theorem cell_link (E : Ext) (cb : Cb) (f : Fpdf) (w h : Rat) (txt border : Bytes) (ln : Int) (align : Bytes) (fill : Bool) (l : Nat) (uri : Bytes) (hok : (f.exec E cb (.cell w h txt border ln align fill l uri)).err = none)
    (hb : f.cellBreak E cb h = (f, true)) (hu : f.t.isUTF8 = false) (ht : txt ≠ []) (hli : l > 0 ∨ uri ≠ []) (hl : f.page < f.l.pageLinks.length) :
    (f.exec E cb (.cell w h txt border ln align fill l uri)).l.pageLinks[f.page]? = some (linksOn f f.page ++
      [{ x := (f.p.x + f.cellDx (if w = 0 then f.p.w - f.p.rMargin - f.p.x else w) txt align) * f.k, y := f.p.hPt - (f.p.y + f.cellDy h align + h / 2 - f.t.fontSize / 2) * f.k,
         wd := f.getStringWidth txt * f.k, ht := f.t.fontSize * f.k, link := l, linkStr := uri }]) := by
  have he : f.err = none := by
    by_cases he : f.err = none
    · exact he
    · have : f.exec E cb (.cell w h txt border ln align fill l uri) = f := cellFormat_of_err E cb f w h txt border ln align fill l uri he
      rw [this] at hok; exact absurd hok he
  have hn : f.t.currentFont.name ≠ [] := by
    intro hn
    revert hok
    show (f.cellFormat E cb w h txt border ln align fill l uri).err = none → False
    unfold Fpdf.cellFormat
    rw [if_neg (by simp [he]), if_pos hn]
    simp [Fpdf.assignErr]
  show (f.cellFormat E cb w h txt border ln align fill l uri).l.pageLinks[f.page]? = _
  unfold Fpdf.cellFormat
  rw [if_neg (by simp [he]), if_neg hn, hb]
  dsimp only
  rw [if_pos rfl]
  unfold Fpdf.cellDraw
  dsimp only
  rw [links_cellAdvance]
  generalize (if w = 0 then f.p.w - f.p.rMargin - f.p.x else w) = w'
  have hc : (f.cellContent w' h txt align l uri).1.l.pageLinks = (f.newLink (f.p.x + f.cellDx w' txt align) (f.p.y + f.cellDy h align + h / 2 - f.t.fontSize / 2) (f.getStringWidth txt) f.t.fontSize l uri).l.pageLinks := by
    unfold Fpdf.cellContent
    rw [if_pos (List.length_pos_iff.mpr ht)]
    dsimp only
    have ht : f.cellText w' h (f.cellDx w' txt align) (f.cellDy h align) txt align = (f, (f.cellText w' h (f.cellDx w' txt align) (f.cellDy h align) txt align).2.1, txt) := by
      unfold Fpdf.cellText
      rw [if_neg (by simp [hu])]
      simp [hu]
    rw [ht]
    dsimp only
    rw [if_pos hli]
  have hfin := newLink_at f (f.p.x + f.cellDx w' txt align) (f.p.y + f.cellDy h align + h / 2 - f.t.fontSize / 2) (f.getStringWidth txt) f.t.fontSize l uri hl
  rw [← hc] at hfin
  split
  · rw [links_out]; exact hfin
  · exact hfin

/-- **C65** A cell with text and a URI (`CellFormat` with `linkStr`) that fits on its page, in a font that is not UTF-8, has a link annotation that covers its text: from the left end of the text, as wide as the
text is measured, and as high as the font, in the middle of the cell if no vertical alignment is asked for. -/
theorem C65_cell (E : Ext) (cb cb' : Cb) (o u s : Bytes) (sz : Size) (hnew : (Fpdf.new o u s sz).err = none) (f0 f : Fpdf) (wf : Bool) (w h : Rat) (txt border : Bytes) (ln : Int) (align : Bytes) (fill : Bool) (uri : Bytes)
    (h0 : Reach E pagesFirst (Fpdf.new o u s sz) f0) (hpg : 1 ≤ f0.page) (hacc : (cb.accept f0).2 = f0) (hbr : ¬ Breaks cb f0 h) (hu : f0.t.isUTF8 = false) (ht : txt ≠ []) (huri : uri ≠ [])
    (hva : align.contains 0x54 = false ∧ align.contains 0x42 = false ∧ align.contains 0x41 = false) (hok1 : (f0.exec E cb (.cell w h txt border ln align fill 0 uri)).err = none)
    (h1 : Reach E pagesFirst f0 (f0.exec E cb (.cell w h txt border ln align fill 0 uri))) (hf : Reach E pagesFirst (f0.exec E cb (.cell w h txt border ln align fill 0 uri)) f)
    (hcb : CbReach E pagesFirst cb') (hok : errOf E cb' f wf = none) (hsize : (fileOf E cb' f wf).length < 10 ^ 10) (hlast : f0.page ≤ (docOf E cb' f wf).page) :
    ∃ version items root info kids rest own annots rect lit c, IsPdf (fileOf E cb' f wf) [] version items root info ∧ PageTree items kids rest ∧
      PageEntry items (kids.getD (f0.page - 1) 0) own annots ∧ AnnotAt annots (linksOn f0 f0.page).length (linkAnnotation rect (opensUri lit)) ∧
      Numbers 2 rect (corners f0 (f0.getX + alignX align (cellWidth w f0.getX f0.getPageSize.1 f0.getMargins.2.2.1) f0.getCellMargin (f0.getStringWidth txt)) (f0.getY + (h - f0.t.fontSize) / 2)
        (f0.getStringWidth txt) f0.t.fontSize) ∧
      (∀ rest, readLit (lit ++ rest) = some (c, rest)) ∧ ((docOf E cb' f wf).m.protect.encrypted = false → c = uri) := by
  have hgeo := (reach_geo h0).geo (new_geo o u s sz hnew).1
  have hb : f0.cellBreak E cb h = (f0, true) := by
    rcases cellBreak_cases E cb f0 h hgeo hacc with ⟨_, h2⟩ | ⟨h2, _⟩
    · exact h2
    · exact absurd h2 hbr
  obtain ⟨v, items, root, info, kids, rest, own, annots, lit, c, k1, k2, k3, k4, k5, k6⟩ := uri_core hpg (h0.trans h1)
    (cell_link E cb f0 w h txt border ln align fill 0 uri hok1 hb hu ht (.inr huri) (links_len h0)) rfl hf hcb hok hsize hlast
  rw [newLink_rect f0 hgeo.hPt] at k4
  have e1 : f0.cellDx (if w = 0 then f0.p.w - f0.p.rMargin - f0.p.x else w) txt align = alignX align (cellWidth w f0.getX f0.getPageSize.1 f0.getMargins.2.2.1) f0.getCellMargin (f0.getStringWidth txt) := by
    rfl
  have e2 : f0.p.y + f0.cellDy h align + h / 2 - f0.t.fontSize / 2 = f0.getY + (h - f0.t.fontSize) / 2 := by
    unfold Fpdf.cellDy Fpdf.getY
    rw [hva.1, hva.2.1, hva.2.2]
    simp only [Bool.false_eq_true, if_false]
    ring
  rw [e1, e2] at k4
  exact ⟨v, items, root, info, kids, rest, own, annots, _, lit, c, k1, k2, k3, k4, numbers_fmt 2 _, k5, k6⟩

/-- Programs without attachments that do not set link `l`. -/
def noSet (l : Nat) : Guard := { op := fun f cb op => noAttachments.op f cb op ∧ ∀ y p, op ≠ .setLink l y p, cb := noAttachments.cb }

theorem noSet_na {l : Nat} {E : Ext} {f g : Fpdf} (h : Reach E (noSet l) f g) : Reach E noAttachments f g := Reach.mono (G := noSet l) (fun _ _ _ h => h.1) (fun _ h => h) h
theorem CbReach.noSet {l : Nat} {E : Ext} {cb : Cb} (h : CbReach E (Props.noSet l) cb) : CbReach E Props.noAttachments cb :=
  ⟨fun a ha s hs => noSet_na (h.header a ha s hs), fun a ha b s hs => noSet_na (h.footer a ha b s hs), fun s => noSet_na (h.accept s)⟩

/-- Link `l` is kept. -/
def SameTarget (l : Nat) (f g : Fpdf) : Prop := ∀ v, f.l.links[l]? = some v → g.l.links[l]? = some v

theorem target_data (l : Nat) : DataRel (SameTarget l) where
  trans := fun _ _ _ a b v h => b v (a v h)
  stp := fun f g hb v hv => by
    have h := congrArg (fun f : Fpdf => f.l.links) hb
    have h' : g.l.links = f.l.links := h
    rw [h']; exact hv

theorem target_own (l : Nat) (E : Ext) (cb : Cb) (f : Fpdf) (op : Op) (hs : staysOnPage op = true) (hop : ∀ y p, op ≠ .setLink l y p) : SameTarget l f (f.exec E cb op) := by
  by_cases h : (∃ l y p, op = .setLink l y p) ∨ op = .addLink
  · rcases h with ⟨l', y, p, rfl⟩ | rfl
    · intro v hv
      have hne : l' ≠ l := fun e => hop y p (by rw [e])
      show (f.setLink l' y p).l.links[l]? = _
      unfold Fpdf.setLink
      split
      · show (f.l.links.set l' _)[l]? = _
        rw [List.getElem?_set_ne hne]; exact hv
      · exact hv
    · intro v hv
      show (f.l.links ++ [(0, 0)])[l]? = _
      rw [List.getElem?_append_left (List.getElem?_eq_some_iff.mp hv).1]; exact hv
  · intro v hv
    rw [foot_get (fun f => f.l.links) E cb f op hs (fun f => by cases op <;> first | rfl | exact absurd (.inl ⟨_, _, _, rfl⟩) h | exact absurd (.inr rfl) h)]
    exact hv

theorem k_data : DataRel (fun f g : Fpdf => g.k = f.k) :=
  DataRel.of (fun f => f.k) (fun a b => b = a) (fun _ => rfl) (fun _ _ _ h1 h2 => h2.trans h1) (fun f => by simp [bits, fine])

theorem k_own (E : Ext) (cb : Cb) (f : Fpdf) (op : Op) (hs : staysOnPage op = true) : (f.exec E cb op).k = f.k :=
  foot_get (fun f => f.k) E cb f op hs (fun f => by cases op <;> rfl)

theorem pageHt_sizeOf (g : Fpdf) (n : Nat) : pageHt g.p.pageSizes (defDim g).2 n = (Proof.sizeOf g n).2 := by
  unfold pageHt Proof.sizeOf
  cases lookup n g.p.pageSizes <;> rfl

/-- **C65** A call of `Link` with the number of an internal link puts a link annotation with the area asked for on its page; it leads to the page and to the height that the last call of `SetLink` for this link
asked for: `y` below the upper edge of the page it leads to (or the current position, for -1; the current page, for page -1). -/
theorem C65_internal (E : Ext) (cb cb1 cb' : Cb) (o u s : Bytes) (sz : Size) (hnew : (Fpdf.new o u s sz).err = none) (f0 f1 f : Fpdf) (wf : Bool) (x y w h : Rat) (l : Nat) (uri : Bytes) (ty : Rat) (tp : Option Nat)
    (hl0 : l ≠ 0) (h0 : Reach E noAttachments (Fpdf.new o u s sz) f0) (hpg : 1 ≤ f0.page)
    (h1 : Reach E noAttachments f0 (f0.exec E cb (.link x y w h l uri))) (hf : Reach E noAttachments (f0.exec E cb (.link x y w h l uri)) f)
    (g1 : l < f1.l.links.length) (g2 : Reach E (noSet l) (f1.exec E cb1 (.setLink l ty tp)) f)
    (hcb : CbReach E (noSet l) cb') (hok : errOf E cb' f wf = none) (hsize : (fileOf E cb' f wf).length < 10 ^ 10) (hlast : f0.page ≤ (docOf E cb' f wf).page)
    (htp : 1 ≤ tp.getD f1.page ∧ tp.getD f1.page ≤ (docOf E cb' f wf).page) :
    ∃ version items root info kids rest own annots rect own' annots' W H yt, IsPdf (fileOf E cb' f wf) [] version items root info ∧ PageTree items kids rest ∧
      PageEntry items (kids.getD (f0.page - 1) 0) own annots ∧
      AnnotAt annots (linksOn f0 f0.page).length (linkAnnotation rect (goesTo (kids.getD (tp.getD f1.page - 1) 0) yt)) ∧ Numbers 2 rect (corners f0 x y w h) ∧
      PageEntry items (kids.getD (tp.getD f1.page - 1) 0) own' annots' ∧ HasBox (fmtF 2) own' rest (W, H) ∧
      Numbers 2 yt [H - (if ty = -1 then f1.getY else ty) * f0.getConversionRatio] := by
  have hall := (h0.trans h1).trans hf
  have hcb' := CbReach.noSet hcb
  obtain ⟨last, v, P, M, T, d, items, hp, hb⟩ := printed_noAtt hall hcb' hok
  have hpdf := hp.written.pdf hsize
  rw [hb] at hpdf
  have hfin := links_final (newLink_at f0 x y w h l uri (links_len (noAttachments_pf h0))) (noAttachments_pf hf) (CbReach.noAttachments hcb') hp
  have hpage := hp.fin.page
  have entry : ∀ n, 1 ≤ n → n ≤ (docOf E cb' f wf).page → ∃ annots, PageEntry items (((List.range last.page).map fun i => 3 + ([] : List Body).length + 2 * i).getD (n - 1) 0) (mediaText (docOf E cb' f wf).p.pageSizes n) annots ∧
      LinksFor (sAli E last).l (docOf E cb' f wf) (defDim (docOf E cb' f wf)).2 n annots := by
    intro n n1 n2
    obtain ⟨annots, group, hmem, hlf⟩ := hp.written.pageExact hp.state hp.fin (n - 1) (by omega)
    rw [show n - 1 + 1 = n by omega] at hmem hlf
    refine ⟨annots, ⟨boxesText ((lookup n (docOf E cb' f wf).p.pageBoxes).getD []) (E.ord (1000 + n) (keys ((lookup n (docOf E cb' f wf).p.pageBoxes).getD []))), group ++ (B "/Contents " ++ natDec (3 + ([] : List Body).length + 2 * (n - 1) + 1) ++ B " 0 R>>\n"), ?_⟩, hlf⟩
    rw [show ((List.range last.page).map fun i => 3 + ([] : List Body).length + 2 * i).getD (n - 1) 0 = 3 + ([] : List Body).length + 2 * (n - 1) by
      rw [List.getD_eq_getElem?_getD, List.getElem?_map, List.getElem?_range (by omega)]; rfl]
    simp only [List.append_assoc] at hmem ⊢
    exact hmem
  obtain ⟨annots, hent, hlf⟩ := entry f0.page hpg hlast
  obtain ⟨annots', hent', _⟩ := entry (tp.getD f1.page) htp.1 htp.2
  obtain ⟨ts, att, t, t1, t2, t3, t4, t5⟩ := linksFor_at hlf hfin
  have htgt : SameTarget l (f1.exec E cb1 (.setLink l ty tp)) last := last_data (G := noSet l) ⟨fun _ _ _ h => ⟨h.1.1.1, h.1.1.2.1⟩, fun _ h => h⟩ (target_data l)
    (fun cb f op ho => target_own l E cb f op (helper_stays ho) (fun y p e => by subst e; simp [helper] at ho)) (fun f cb op hg hs => target_own l E cb f op hs hg.2) g2 hcb hp.eq hp.page1
  have hlk : (docOf E cb' f wf).l.links[l]? = some (tp.getD f1.page, if ty = -1 then f1.p.y else ty) := by
    rw [hp.fin.links]
    refine htgt _ ?_
    show (f1.setLink l ty tp).l.links[l]? = _
    unfold Fpdf.setLink
    rw [if_pos g1]
    show (f1.l.links.set l _)[l]? = _
    rw [List.getElem?_set_self g1]
  unfold LinkIs at t4
  rw [if_neg hl0] at t4
  have t6 := t4 _ _ hlk
  subst t6
  have hgeo := ((reach_geo (noAttachments_pf h0)).geo (new_geo o u s sz hnew).1).hPt
  rw [linkText_eq, newLink_rect f0 hgeo, ← kids_getD last.page (tp.getD f1.page) htp.1 (by omega)] at t3
  have hbox := hasBox last (tp.getD f1.page) (B ">>\n")
  rw [List.append_assoc] at hbox
  have hk : (docOf E cb' f wf).k = f0.k := by
    have := last_data (G := noAttachments) ⟨fun _ _ _ h => ⟨h.1.1, h.1.2.1⟩, fun _ h => h⟩ (k_data)
      (fun cb f op ho => k_own E cb f op (helper_stays ho)) (fun f cb op _ hs => k_own E cb f op hs) (h1.trans hf) hcb' hp.eq hp.page1
    rw [hp.fin.k]; exact this
  have hsz : Proof.sizeOf (docOf E cb' f wf) (tp.getD f1.page) = Proof.sizeOf last (tp.getD f1.page) := by
    unfold Proof.sizeOf
    rw [hp.fin.p, hp.fin.k]
  rw [← hsz] at hbox
  refine ⟨v, items, _, _, _, _, _, annots, _, mediaText (docOf E cb' f wf).p.pageSizes (tp.getD f1.page), annots', (Proof.sizeOf (docOf E cb' f wf) (tp.getD f1.page)).1, (Proof.sizeOf (docOf E cb' f wf) (tp.getD f1.page)).2, _, hpdf, hp.written.pageTree, hent, ⟨ts, att, t1, t3⟩, numbers_fmt 2 _, hent', ?_, ?_⟩
  · rw [show (docOf E cb' f wf).p.pageSizes = last.p.pageSizes from congrArg (fun p : PageSt => p.pageSizes) hp.fin.p]
    exact hbox
  · rw [pageHt_sizeOf, hk]
    exact numbers_fmt 2 [_]

/-! ### Examples -/

/-- A page in a font, with a link to the second page to come. -/
def linked : Fpdf := after (Fpdf.new [] [] [] {}) [.setFont (B "Helvetica") [] 12, .addPage, .addLink, .link 10 10 40 8 1 [], .setXY 20 30] oneFont

/-- The same with a cell with a link, and the second page. -/
def linkedMore : List Op := [.cell 60 10 (B "text") [] 0 (B "R") false 0 (B "https://example.org"), .addPage, .setLink 1 50 none, .link 5 5 20 20 0 (B "https://example.com/(a)")]

/-- Non-vacuity of `C65_cell`, `C65_internal` and `C65_uri`. -/
example : (Fpdf.new [] [] [] {}).err = none ∧ Reach oneFont noAttachments (Fpdf.new [] [] [] {}) linked ∧ linked.page = 1 ∧ ¬ Breaks {} linked 10 ∧ linked.t.isUTF8 = false ∧
    (linksOn linked 1).length = 1 ∧ (after linked linkedMore oneFont).err = none ∧ Reach oneFont noAttachments linked (after linked linkedMore oneFont) ∧
    errOf oneFont {} (after linked linkedMore oneFont) false = none ∧ (fileOf oneFont {} (after linked linkedMore oneFont) false).length < 10 ^ 10 ∧
    (docOf oneFont {} (after linked linkedMore oneFont) false).page = 2 ∧ (linksOn (docOf oneFont {} (after linked linkedMore oneFont) false) 2).length = 1 := by
  refine ⟨by decide +kernel, reach_after naB_ok _ _ _ (Reach.refl _) (by decide +kernel), ?_, ?_, ?_, ?_, ?_, reach_after naB_ok _ _ _ (Reach.refl _) (by decide +kernel), ?_, ?_, ?_, ?_⟩ <;> decide +kernel

end Verif.Props
