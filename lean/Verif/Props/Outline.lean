import Verif.Proof.Written
import Verif.Proof.Doc
import Verif.Proof.Bookmarks
import Verif.Props.File
/-
C23, C50: bookmarks and links.
-/
namespace Verif.Props
open Verif Verif.Model Verif.Spec Verif.Proof

/-! ### What the calls record -/

/-- **C23** `Bookmark` records its title, level, height (the current one for -1) and page after the earlier bookmarks. -/
theorem C23_bookmark_recorded (E : Ext) (cb : Cb) (f : Fpdf) (txt : Bytes) (level : Int) (y : Rat) (hu : f.t.isUTF8 = false) :
    (f.exec E cb (.bookmark txt level y)).l.outlines =
      f.l.outlines ++ [{ text := txt, level := level, y := if y = -1 then f.p.y else y, p := f.page }] := by
  show (f.bookmark txt level y).l.outlines = _
  unfold Fpdf.bookmark
  simp only [hu, Bool.false_eq_true, if_false]

theorem outlines_own (E : Ext) (cb : Cb) (f : Fpdf) (op : Op) (hs : staysOnPage op = true) : f.l.outlines <+: (f.exec E cb op).l.outlines := by
  by_cases hb : ∃ t l y, op = .bookmark t l y
  · obtain ⟨t, l, y, rfl⟩ := hb
    show _ <+: (f.bookmark t l y).l.outlines
    unfold Fpdf.bookmark
    dsimp only
    split <;> exact List.prefix_append _ _
  · have : (f.exec E cb op).l.outlines = f.l.outlines := foot_get (fun f => f.l.outlines) E cb f op hs (by
      intro f
      cases op <;> first | rfl | exact absurd ⟨_, _, _, rfl⟩ hb)
    rw [this]

theorem outlines_data : DataRel (fun f g => f.l.outlines <+: g.l.outlines) :=
  DataRel.of (fun f => f.l.outlines) (fun a b => a <+: b) (fun a => List.prefix_refl a) (fun _ _ _ h1 h2 => h1.trans h2) (fun _ => rfl)

/-- The last state of the document before it is written, from any earlier one. -/
theorem last_last {E : Ext} {G : Guard} (hG : OpenGuard G) {D : Fpdf → Fpdf → Prop} (K : LastRel D) (hh : ∀ cb f op, helper op = true → D f (f.exec E cb op))
    (hown : ∀ f cb op, G.op f cb op → staysOnPage op = true → D f (f.exec E cb op)) (hset : ∀ f cb n, G.op f cb (.setPage n) → D f (f.setPage n)) {f0 f last : Fpdf} (hf : Reach E G f0 f) {cb : Cb} (hcb : CbReach E G cb)
    (heq : last = ((if f.page = 0 then f.addPage E cb else f).runFooter cb true).endpage) (hp : (if f.page = 0 then f.addPage E cb else f).page ≠ 0) : D f0 last := by
  have hc : Cb.Rel G.cb (fun f g => Open f g ∧ D f g) cb := hcb.rel (fun _ _ h => K.reach hG hh hown hset h)
  have hc' : Cb.Rel (fun s => s.page ≠ 0) (fun f g => Open f g ∧ D f g) cb :=
    ⟨fun h hh s hs => hc.header h hh s (hG.cb' s hs), fun h hh b s hs => hc.footer h hh b s (hG.cb' s hs), hc.accept⟩
  rw [heq]
  exact K.trans _ _ _ (K.reach hG hh hown hset hf).2 ((K.docRel hc' (hh cb)).last f hp).2

theorem last_fine {E : Ext} {G : Guard} (hG : OpenGuard G) {D : Fpdf → Fpdf → Prop} (K : FineRel D) (hh : ∀ cb f op, helper op = true → D f (f.exec E cb op))
    (hown : ∀ f cb op, G.op f cb op → staysOnPage op = true → D f (f.exec E cb op)) {f0 f last : Fpdf} (hf : Reach E G f0 f) {cb : Cb} (hcb : CbReach E G cb)
    (heq : last = ((if f.page = 0 then f.addPage E cb else f).runFooter cb true).endpage) (hp : (if f.page = 0 then f.addPage E cb else f).page ≠ 0) : D f0 last :=
  last_last hG K.last hh hown (fun f _ n _ => K.setPage f n) hf hcb heq hp

theorem last_data {E : Ext} {G : Guard} (hG : OpenGuard G) {D : Fpdf → Fpdf → Prop} (K : DataRel D) (hh : ∀ cb f op, helper op = true → D f (f.exec E cb op))
    (hown : ∀ f cb op, G.op f cb op → staysOnPage op = true → D f (f.exec E cb op)) {f0 f last : Fpdf} (hf : Reach E G f0 f) {cb : Cb} (hcb : CbReach E G cb)
    (heq : last = ((if f.page = 0 then f.addPage E cb else f).runFooter cb true).endpage) (hp : (if f.page = 0 then f.addPage E cb else f).page ≠ 0) : D f0 last :=
  last_fine hG K.fine hh hown hf hcb heq hp

/-- **C23** Bookmarks are never lost or changed: those recorded at any point of the program are the first of those of the document written. -/
theorem C23_bookmarks_kept (E : Ext) (o u s : Bytes) (sz : Size) (f0 f : Fpdf) (cb : Cb) (wf : Bool) (h0 : Reach E pagesFirst (Fpdf.new o u s sz) f0)
    (hf : Reach E pagesFirst f0 f) (hcb : CbReach E pagesFirst cb) (hok : errOf E cb f wf = none) : f0.l.outlines <+: (docOf E cb f wf).l.outlines := by
  obtain ⟨last, v, A, P, M, T, d, items, hp, _⟩ := printed_pf (h0.trans hf) hcb hok
  rw [hp.fin.outlines]
  exact last_data pagesFirst_open outlines_data (fun cb f op ho => outlines_own E cb f op (helper_stays ho)) (fun f cb op _ hs => outlines_own E cb f op hs) hf hcb hp.eq hp.page1

/-- Programs without `Bookmark`. -/
def noBookmark : Guard := { op := fun f cb op => pagesFirst.op f cb op ∧ ∀ t l y, op ≠ .bookmark t l y, cb := pagesFirst.cb }

/-- **C23** No call but `Bookmark` records bookmarks. -/
theorem C23_only_bookmark (E : Ext) (f g : Fpdf) (h : Reach E noBookmark f g) :
    g.l.outlines = f.l.outlines := by
  have K : DataRel (fun f g => g.l.outlines = f.l.outlines) :=
    DataRel.of (fun f => f.l.outlines) (fun a b => b = a) (fun _ => rfl) (fun _ _ _ h1 h2 => h2.trans h1) (fun _ => rfl)
  have own : ∀ (f : Fpdf) (cb : Cb) (op : Op), (∀ t l y, op ≠ .bookmark t l y) → staysOnPage op = true → (f.exec E cb op).l.outlines = f.l.outlines := by
    intro f cb op hop hs
    refine foot_get (fun f => f.l.outlines) E cb f op hs (fun f => ?_)
    cases op <;> first | rfl | exact absurd rfl (hop _ _ _)
  refine (K.reach (G := noBookmark) ⟨fun f cb op h => ⟨h.1.1, h.1.2.1⟩, fun _ h => h⟩ (fun cb f op ho => own f cb op ?_ (helper_stays ho)) (fun f cb op h hs => own f cb op h.2 hs) h).2
  intro t l y he
  subst he
  simp [helper] at ho

/-! ### The outline in the file -/

/-- **C23** The outline that the file has is the one the levels of the bookmarks ask for: every bookmark is an item with its title, and parent, previous, next, first and last are as
they should be. -/
theorem C23_outline (E : Ext) (o u s : Bytes) (sz : Size) (f : Fpdf) (cb : Cb) (wf : Bool) (hf : Reach E pagesFirst (Fpdf.new o u s sz) f)
    (hcb : CbReach E pagesFirst cb) (hok : errOf E cb f wf = none) (hsize : (fileOf E cb f wf).length < 10 ^ 10)
    (marks : List OutlineRec) (hm : (docOf E cb f wf).l.outlines = marks) (hne : marks ≠ [])
    (hlv : LevelsOk marks.length (fun i => (marks.map (·.level)).getD i 0)) :
    ∃ version items root info base links first last, IsPdf (fileOf E cb f wf) [] version items root info ∧
      OutlineRoot items base marks.length first last ∧
      IsOutline marks.length (fun i => (marks.map (·.level)).getD i 0) links first last ∧
      ∀ i mark, marks[i]? = some mark → ∃ page y, OutlineItem items (decryptOf E (docOf E cb f wf)) base i (links i) mark.text page y := by
  obtain ⟨last, v, A, P, M, T, d, items, hp, hb⟩ := printed_pf hf hcb hok
  have hpdf := hp.written.pdf hsize
  rw [hb] at hpdf
  obtain ⟨_, _, n1, _⟩ := new_open o u s sz
  have hn : last.n = 2 := hp.op.n.trans (pf_fresh hf).n
  obtain ⟨base, _, h1, h2⟩ := hp.written.outline hp.state hn hp.fin (by rw [hm]; exact hne)
  rw [hm] at h1 h2
  obtain ⟨l1, l2⟩ := outlineLinks_spec (marks.map (·.level)) (by simpa using hne) (by rw [List.length_map]; exact hlv)
  rw [List.length_map] at l2
  exact ⟨v, items, _, _, base, _, 0, _, hpdf, h1, l2, fun i mark hi => ⟨_, _, h2 i mark hi⟩⟩

/-! ### Destinations -/

/-- Programs as in `C07_wellformed` without attachments. -/
def noAttachments : Guard :=
  { op := fun f cb op => pagesFirst.op f cb op ∧ (∀ as, op ≠ .setAttachments as) ∧ ∀ p a x y w h, op ≠ .attachAnnotation p a x y w h, cb := pagesFirst.cb }

theorem noAttachments_pf {E : Ext} {f g : Fpdf} (h : Reach E noAttachments f g) : Reach E pagesFirst f g := Reach.mono (G := noAttachments) (fun _ _ _ h => h.1) (fun _ h => h) h
theorem CbReach.noAttachments {E : Ext} {cb : Cb} (h : CbReach E noAttachments cb) : CbReach E pagesFirst cb :=
  ⟨fun a ha s hs => noAttachments_pf (h.header a ha s hs), fun a ha b s hs => noAttachments_pf (h.footer a ha b s hs), fun s => noAttachments_pf (h.accept s)⟩

/-- The attachments of a document. -/
abbrev attOf (f : Fpdf) : List Attachment × List AnnotAttach := (f.l.attachments, f.l.pageAttachments.flatten)

theorem att_data : DataRel (fun f g => attOf g = attOf f) :=
  DataRel.of attOf (fun a b => b = a) (fun _ => rfl) (fun _ _ _ h1 h2 => h2.trans h1) (fun f => by simp [attOf, bits, fine])

theorem att_own (E : Ext) (cb : Cb) (f : Fpdf) (op : Op) (h1 : ∀ as, op ≠ .setAttachments as) (h2 : ∀ p a x y w h, op ≠ .attachAnnotation p a x y w h)
    (hs : staysOnPage op = true) : attOf (f.exec E cb op) = attOf f := by
  refine foot_get attOf E cb f op hs (fun f => ?_)
  cases op <;> first | rfl | exact absurd rfl (h1 _) | exact absurd rfl (h2 _ _ _ _ _ _)

theorem new_att (o u s : Bytes) (sz : Size) : attOf (Fpdf.new o u s sz) = ([], []) := new_get attOf (fun _ => rfl) o u s sz

theorem no_att_objects {E : Ext} {f : Fpdf} {A : List Body} (hs : f.state = 1) (ha : attOf f = ([], [])) (h : W f.putheader (sAtt E f) A) : A = [] := by
  have h4 := (header_same f hs).2.2.2.1
  have e1 : f.putheader.l.attachments = [] := by rw [h4]; exact congrArg Prod.fst ha
  have e2 : f.putheader.l.pageAttachments.flatten = [] := by rw [h4]; exact congrArg Prod.snd ha
  have hn : (sAtt E f).n = f.putheader.n := by
    unfold sAtt
    generalize f.putheader = g at e1 e2
    unfold Fpdf.putAnnotationsAttachments Fpdf.putAttachments
    rw [e1]
    unfold Fpdf.putAttachmentsLoop
    dsimp only
    rw [e2]
    rfl
  have := h.n
  exact List.eq_nil_of_length_eq_zero (by omega)

theorem printed_noAtt {E : Ext} {o u s : Bytes} {sz : Size} {f : Fpdf} {cb : Cb} {wf : Bool} (hf : Reach E noAttachments (Fpdf.new o u s sz) f) (hcb : CbReach E noAttachments cb)
    (hok : errOf E cb f wf = none) : ∃ last v P M T d items, Printed E cb f (docOf E cb f wf) last (fileOf E cb f wf) v [] P M T d items ∧ last.buffer = [] := by
  obtain ⟨last, v, A, P, M, T, d, items, hp, hb⟩ := printed_pf (noAttachments_pf hf) (CbReach.noAttachments hcb) hok
  have h1 : attOf last = attOf (Fpdf.new o u s sz) := last_data (G := noAttachments) ⟨fun _ _ _ h => ⟨h.1.1, h.1.2.1⟩, fun _ h => h⟩ att_data
    (fun cb f op ho => att_own E cb f op (fun as he => by subst he; simp [helper] at ho) (fun _ _ _ _ _ _ he => by subst he; simp [helper] at ho) (helper_stays ho))
    (fun f cb op ho hs => att_own E cb f op ho.2.1 ho.2.2 hs) hf hcb hp.eq hp.page1
  have hA := no_att_objects hp.state (h1.trans (new_att o u s sz)) hp.written.att
  subst hA
  exact ⟨last, v, P, M, T, d, items, hp, hb⟩

theorem kids_getD (p n : Nat) (h1 : 1 ≤ n) (h2 : n ≤ p) : ((List.range p).map fun i => 3 + ([] : List Body).length + 2 * i).getD (n - 1) 0 = 1 + 2 * n := by
  rw [List.getD_eq_getElem?_getD, List.getElem?_map, List.getElem?_range (by omega)]
  show 3 + 0 + 2 * (n - 1) = _
  omega

theorem linkText_goto (pl : LinkRec) (page : Nat) (y : Rat) :
    ∃ rect, linkText pl page y = gotoText rect (1 + 2 * page) (fmtF 2 y) ∧
      rect = fmtF 2 pl.x ++ B " " ++ fmtF 2 pl.y ++ B " " ++ fmtF 2 (pl.x + pl.wd) ++ B " " ++ fmtF 2 (pl.y - pl.ht) := by
  refine ⟨_, ?_, rfl⟩
  have h : sprintf "<</Type /Annot /Subtype /Link /Rect [%.2f %.2f %.2f %.2f] /Border [0 0 0] " [.f pl.x, .f pl.y, .f (pl.x + pl.wd), .f (pl.y - pl.ht)] =
      B "<</Type /Annot /Subtype /Link /Rect [" ++ (fmtF 2 pl.x ++ (B " " ++ (fmtF 2 pl.y ++ (B " " ++ (fmtF 2 (pl.x + pl.wd) ++ (B " " ++ (fmtF 2 (pl.y - pl.ht) ++ B "] /Border [0 0 0] "))))))) :=
    sprintf_of_render rfl
  unfold linkText gotoText
  rw [h, show B "] /Border [0 0 0] /Dest [" = B "] /Border [0 0 0] " ++ B "/Dest [" from rfl]
  simp only [List.append_assoc, natDec_decimal]

/-- **C50** In a document without attachments every internal link leads to the page it was set to: the annotation written on its page for it names the page object that is
at this place among the pages of the file. -/
theorem C50_links_lead (E : Ext) (inflate : Bytes → Bytes) (hinf : ∀ b, inflate (E.deflate b) = b) (o u s : Bytes) (sz : Size) (f : Fpdf) (cb : Cb) (wf : Bool)
    (hf : Reach E noAttachments (Fpdf.new o u s sz) f) (hcb : CbReach E noAttachments cb) (hok : errOf E cb f wf = none) (hsize : (fileOf E cb f wf).length < 10 ^ 10) :
    ∃ version items root info kids rest, IsPdf (fileOf E cb f wf) [] version items root info ∧ PageTree items kids rest ∧
      ∀ n, 1 ≤ n → n ≤ (docOf E cb f wf).page → ∀ pl ∈ (docOf E cb f wf).l.pageLinks.getD n [], pl.link ≠ 0 →
        ∀ page y, (docOf E cb f wf).l.links[pl.link]? = some (page, y) → 1 ≤ page → page ≤ (docOf E cb f wf).page →
        ∃ size annots height, PageObject items (readIn E inflate (docOf E cb f wf)) (kids.getD (n - 1) 0) size annots ((docOf E cb f wf).pages.getD n []) ∧
          Leads annots (fmtF 2 pl.x ++ B " " ++ fmtF 2 pl.y ++ B " " ++ fmtF 2 (pl.x + pl.wd) ++ B " " ++ fmtF 2 (pl.y - pl.ht)) (kids.getD (page - 1) 0) height := by
  obtain ⟨last, v, P, M, T, d, items, hp, hb⟩ := printed_noAtt hf hcb hok
  have hpdf := hp.written.pdf hsize
  rw [hb] at hpdf
  refine ⟨v, items, _, _, _, _, hpdf, hp.written.pageTree, ?_⟩
  intro n n1 n2 pl hpl hl page y hlk p1 p2
  have hfp := hp.fin.page
  obtain ⟨annots, a1, a2⟩ := hp.written.pageObject hp.state hp.fin hinf (n - 1) (by omega)
  rw [show n - 1 + 1 = n by omega] at a1 a2
  obtain ⟨x1, x2, hx⟩ := a2 pl hpl hl page y hlk
  obtain ⟨rect, r1, r2⟩ := linkText_goto pl page (pageHt (docOf E cb f wf).p.pageSizes (defDim (docOf E cb f wf)).2 page - y * (docOf E cb f wf).k)
  refine ⟨mediaText (docOf E cb f wf).p.pageSizes n, annots, fmtF 2 (pageHt (docOf E cb f wf).p.pageSizes (defDim (docOf E cb f wf)).2 page - y * (docOf E cb f wf).k), ?_, x1, x2, ?_⟩
  · rw [kids_getD last.page n n1 (by omega), ← show 3 + ([] : List Body).length + 2 * (n - 1) = 1 + 2 * n by show 3 + 0 + 2 * (n - 1) = _; omega]
    exact a1
  · rw [kids_getD last.page page p1 (by omega), ← r2, ← r1]
    exact hx

/-- **C50** And so does every bookmark. -/
theorem C50_bookmarks_lead (E : Ext) (o u s : Bytes) (sz : Size) (f : Fpdf) (cb : Cb) (wf : Bool)
    (hf : Reach E noAttachments (Fpdf.new o u s sz) f) (hcb : CbReach E noAttachments cb) (hok : errOf E cb f wf = none) (hsize : (fileOf E cb f wf).length < 10 ^ 10) :
    ∃ version items root info kids rest, IsPdf (fileOf E cb f wf) [] version items root info ∧ PageTree items kids rest ∧
      ((docOf E cb f wf).l.outlines ≠ [] → ∃ base, ∀ i mark, (docOf E cb f wf).l.outlines[i]? = some mark → 1 ≤ mark.p → mark.p ≤ (docOf E cb f wf).page →
        ∃ links, OutlineItem items (decryptOf E (docOf E cb f wf)) base i links mark.text (kids.getD (mark.p - 1) 0)
          (fmtF 2 (((docOf E cb f wf).p.h - mark.y) * (docOf E cb f wf).k))) := by
  obtain ⟨last, v, P, M, T, d, items, hp, hb⟩ := printed_noAtt hf hcb hok
  have hpdf := hp.written.pdf hsize
  rw [hb] at hpdf
  have hfp := hp.fin.page
  refine ⟨v, items, _, _, _, _, hpdf, hp.written.pageTree, fun hne => ?_⟩
  have hn : last.n = 2 := hp.op.n.trans (pf_fresh (noAttachments_pf hf)).n
  obtain ⟨base, _, h1, h2⟩ := hp.written.outline hp.state hn hp.fin hne
  refine ⟨base, fun i mark hi p1 p2 => ?_⟩
  have := h2 i mark hi
  rw [← kids_getD last.page mark.p p1 (by omega)] at this
  exact ⟨_, this⟩

/-! ### Examples -/

/-- A check that the calls of a list are allowed one after the other, without call-backs. -/
def allowed (E : Ext) (ok : Fpdf → Op → Bool) : Fpdf → List Op → Bool
  | _, [] => true
  | f, op :: l => ok f op && allowed E ok (f.exec E {} op) l

/-- An external world with one core font, all of whose characters are half an em wide. -/
def oneFont : Ext := { coreFont := fun _ => some { tp := B "Core", name := B "Helvetica", cw := List.replicate 256 500 } }

/-- The document after a list of calls. -/
def after (f : Fpdf) (l : List Op) (E : Ext := {}) : Fpdf := l.foldl (fun f op => f.exec E {} op) f

theorem reach_after {E : Ext} {G : Guard} {ok : Fpdf → Op → Bool} (hok : ∀ f op, ok f op = true → G.op f {} op) (f0 : Fpdf) (l : List Op) :
    ∀ f, Reach E G f0 f → allowed E ok f l = true → Reach E G f0 (after f l E) := by
  induction l with
  | nil => intro f h _; exact h
  | cons op l ih =>
    intro f h hg
    unfold allowed at hg
    rw [Bool.and_eq_true] at hg
    exact ih _ (Reach.step op {} h (hok _ _ hg.1) (by simp) (by simp) (fun s => Reach.refl s)) hg.2

/-- A check for `pagesFirst`. -/
def pfB (f : Fpdf) : Op → Bool
  | .close | .output _ | .clearError => false
  | op => f.page != 0 || setup op

theorem pfB_ok (f : Fpdf) (op : Op) (h : pfB f op = true) : pagesFirst.op f {} op := by
  refine ⟨?_, ?_, ?_, ?_⟩
  · rintro rfl; simp [pfB] at h
  · rintro b rfl; simp [pfB] at h
  · rintro rfl; simp [pfB] at h
  · intro hp
    cases op <;> first | simpa [pfB, hp] using h

/-- A check for `noAttachments`. -/
def naB (f : Fpdf) : Op → Bool
  | .setAttachments _ | .attachAnnotation .. => false
  | op => pfB f op

theorem naB_ok (f : Fpdf) (op : Op) (h : naB f op = true) : noAttachments.op f {} op := by
  refine ⟨pfB_ok f op ?_, ?_, ?_⟩
  · cases op <;> first | exact h | simp [naB] at h
  · rintro b rfl; simp [naB] at h
  · rintro _ _ _ _ _ _ rfl; simp [naB] at h

/-- A check for `<:+:`. -/
def contains (p : Bytes) : Bytes → Bool
  | [] => p.isPrefixOf []
  | b :: l => p.isPrefixOf (b :: l) || contains p l

theorem contains_iff (p l : Bytes) : contains p l = true ↔ p <:+: l := by
  induction l with
  | nil => simp [contains]
  | cons b l ih => rw [contains, Bool.or_eq_true, ih, List.isPrefixOf_iff_prefix, List.infix_cons_iff]

/-- Two pages with three bookmarks and a link from the second page to the first. -/
def markedOps : List Op :=
  [.addPage, .bookmark (B "One") 0 0, .bookmark (B "Two") 1 10, .addPage, .bookmark (B "Three") 0 (-1), .addLink, .setLink 1 5 (some 1), .link 1 1 10 10 1 []]

def marked : Fpdf := after (Fpdf.new [] [] [] {}) markedOps

theorem marked_reach : Reach {} noAttachments (Fpdf.new [] [] [] {}) marked :=
  reach_after naB_ok _ _ _ (Reach.refl _) (by decide +kernel)

/-- The hypotheses of the theorems above are met by a document with bookmarks and links. -/
example : Reach {} noAttachments (Fpdf.new [] [] [] {}) marked ∧ CbReach {} noAttachments {} ∧ errOf {} {} marked false = none ∧
    (fileOf {} {} marked false).length < 10 ^ 10 ∧ (docOf {} {} marked false).l.outlines.map (fun o => (o.level, o.p)) = [(0, 1), (1, 1), (0, 2)] ∧
    (docOf {} {} marked false).l.pageLinks.getD 2 [] ≠ [] ∧ (docOf {} {} marked false).l.links[1]? = some (1, 5) :=
  ⟨marked_reach, ⟨by simp, by simp, fun s => Reach.refl s⟩, by decide +kernel, by decide +kernel, by decide +kernel, by decide +kernel, by decide +kernel⟩

theorem marked_levels : LevelsOk 3 (fun i => ([0, 1, 0] : List Int).getD i 0) := by
  refine ⟨rfl, fun i hi => ?_, fun i hi => ?_⟩
  · match i, hi with
    | 0, _ | 1, _ | 2, _ => decide
  · match i, hi with
    | 0, _ | 1, _ => decide

/-- A single bookmark at level 1. -/
def badMark : Fpdf := after (Fpdf.new [] [] [] {}) [.addPage, .bookmark (B "x") 1 0]

/-- Without the condition on levels the outline is not a tree: a first bookmark at level 1 is written as its own parent, without an error. -/
theorem C23_level_skipped_false : Reach {} pagesFirst (Fpdf.new [] [] [] {}) badMark ∧ errOf {} {} badMark false = none ∧
    B "5 0 obj\n<</Title (x)\n/Parent 5 0 R" <:+: fileOf {} {} badMark false := by
  refine ⟨reach_after pfB_ok _ _ _ (Reach.refl _) (by decide +kernel), by decide +kernel, (contains_iff _ _).1 (by decide +kernel)⟩

/-- Two pages, the second with a link to the first, and an attachment. -/
def withAttachment : Fpdf :=
  after (Fpdf.new [] [] [] {}) (.setAttachments [{ content := B "data", filename := B "a", description := B "" }] :: markedOps)

/-- What is searched for in the file of `withAttachment`. -/
theorem withAttachment_has : errOf {} {} withAttachment false = none ∧ [B "/Kids [5 0 R 7 0 R ]", B "/Subtype /Link", B "/Dest [3 0 R /XYZ", B "/Dest [7 0 R /XYZ"].map
    (fun p => contains p (fileOf {} {} withAttachment false)) = [true, true, true, false] := by decide +kernel

/-- With an attachment links and bookmarks lead astray: the pages are objects 5 and 7, and the link to the first page names object 3. -/
theorem C50_attachment_false : Reach {} pagesFirst (Fpdf.new [] [] [] {}) withAttachment ∧ errOf {} {} withAttachment false = none ∧
    B "/Kids [5 0 R 7 0 R ]" <:+: fileOf {} {} withAttachment false ∧ B "/Subtype /Link" <:+: fileOf {} {} withAttachment false ∧
    B "/Dest [3 0 R /XYZ" <:+: fileOf {} {} withAttachment false ∧ ¬ (B "/Dest [7 0 R /XYZ" <:+: fileOf {} {} withAttachment false) := by
  have hr : Reach {} pagesFirst (Fpdf.new [] [] [] {}) withAttachment := reach_after pfB_ok _ _ _ (Reach.refl _) (by decide +kernel)
  have h := withAttachment_has
  generalize fileOf {} {} withAttachment false = file at h ⊢
  obtain ⟨he, h⟩ := h
  simp only [List.map_cons, List.map_nil, List.cons.injEq] at h
  refine ⟨hr, he, (contains_iff _ _).1 h.1, (contains_iff _ _).1 h.2.1, (contains_iff _ _).1 h.2.2.1, fun hc => ?_⟩
  rw [(contains_iff _ _).2 hc] at h
  exact absurd h.2.2.2.1 (by simp)

end Verif.Props
