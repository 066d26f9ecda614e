import Verif.Proof.Foot
import Verif.Proof.Grow
/-
What turning pages and flowing text never change. `fine` blanks everything they may change: the content, the current page, position and font, colours and line
settings, and (`bits`) the links recorded for the pages and how attachments are spread over the pages.
-/
namespace Verif.Proof
open Verif Verif.Model Verif.Spec

/-- The document without what turning pages and flowing text may change. -/
def fine (f : Fpdf) : Fpdf :=
  { f with err := none, panicked := false, state := 0, page := 0, pages := [], buffer := [], p := { lMargin := f.p.lMargin, tMargin := f.p.tMargin, rMargin := f.p.rMargin, bMargin := f.p.bMargin, cMargin := f.p.cMargin, autoPageBreak := f.p.autoPageBreak, defOrientation := f.p.defOrientation, defPageSize := f.p.defPageSize, pageBoxes := f.p.pageBoxes, defPageBoxes := f.p.defPageBoxes }, t := {}, c := {}, line := {}, layer.currentLayer := none, inHeader := false, inFooter := false, log := [] }

theorem fine_ink {g h : Fpdf} (e : ink g = ink h) : fine g = fine h := by have h' := congrArg fine e; exact h'
theorem fine_lay {g h : Fpdf} (e : inkLay g = inkLay h) : fine g = fine h := by have h' := congrArg fine e; exact h'
theorem fine_font {g h : Fpdf} (e : inkFont g = inkFont h) : fine g = fine h := by have h' := congrArg fine e; exact h'
theorem fine_out (f : Fpdf) (s : Bytes) : fine (f.out s) = fine f := fine_ink (out_ink f s)
theorem fine_outf (f : Fpdf) (s : String) (a : List Arg) : fine (f.outf s a) = fine f := fine_out f _

section
variable (f : Fpdf)

theorem fine_ite {c : Prop} [Decidable c] {g h k : Fpdf} (h1 : fine g = fine k) (h2 : fine h = fine k) : fine (if c then g else h) = fine k := by
  split <;> assumption
theorem fine_upd_line (x : LineSt) : fine { f with line := x } = fine f := rfl
theorem fine_upd_c (x : ColorSt) : fine { f with c := x } = fine f := rfl

theorem pageLines_fine (lw : Rat) : fine (f.pageLines lw) = fine f := by
  unfold Fpdf.pageLines Fpdf.outputDashPattern
  dsimp only
  refine Eq.trans (b := fine ((f.outf "%d J" [.d f.line.cap]).outf "%d j" [.d (f.outf "%d J" [.d f.line.cap]).line.join])) ?_ ((fine_outf _ _ _).trans (fine_outf _ _ _))
  generalize ((f.outf "%d J" [.d f.line.cap]).outf "%d j" [.d (f.outf "%d J" [.d f.line.cap]).line.join]) = g
  have h : fine (({ g with line.width := lw } : Fpdf).outf "%.2f w" [.f (lw * g.k)]) = fine g := (fine_outf _ _ _).trans rfl
  exact fine_ite ((fine_out _ _).trans h) h
theorem restoreFont_fine (E : Ext) (s : Fpdf.Saved) : fine (f.restoreFont E s) = fine f := by
  unfold Fpdf.restoreFont
  exact fine_ite (fine_font (setFont_ink E f _ _ _)) rfl
theorem pageColors_fine (s : Fpdf.Saved) : fine (f.pageColors s) = fine f := by
  unfold Fpdf.pageColors
  dsimp only
  refine (fine_upd_c _ _).trans ?_
  refine fine_ite ((fine_out _ _).trans ((fine_upd_c _ _).trans ?_)) ((fine_upd_c _ _).trans ?_)
  · exact fine_ite ((fine_out _ _).trans (fine_upd_c _ _)) (fine_upd_c _ _)
  · exact fine_ite ((fine_out _ _).trans (fine_upd_c _ _)) (fine_upd_c _ _)
theorem restoreLine_fine (s : Fpdf.Saved) : fine (f.restoreLine s) = fine f := by
  unfold Fpdf.restoreLine
  exact fine_ite ((fine_outf _ _ _).trans (fine_upd_line _ _)) rfl
theorem restoreColors_fine (s : Fpdf.Saved) : fine (f.restoreColors s) = fine f := by
  unfold Fpdf.restoreColors
  dsimp only
  refine (fine_upd_c _ _).trans ?_
  have h1 : fine (if f.c.draw.str ≠ s.dc.str then ({ f with c.draw := s.dc } : Fpdf).out s.dc.str else f) = fine f := fine_ite ((fine_out _ _).trans (fine_upd_c _ _)) rfl
  generalize (if f.c.draw.str ≠ s.dc.str then ({ f with c.draw := s.dc } : Fpdf).out s.dc.str else f) = g at h1 ⊢
  rw [← h1]
  exact fine_ite ((fine_out _ _).trans (fine_upd_c _ _)) rfl
theorem endLayer_fine : fine f.endLayer = fine f := fine_lay (endLayer_ink f)

end

/-- And without the links and boxes of the pages and the division of the attachment annotations into pages. -/
def bits (f : Fpdf) : Fpdf := { fine f with p.pageBoxes := [], l.pageLinks := [], l.pageAttachments := [f.l.pageAttachments.flatten] }

theorem bits_fine {g h : Fpdf} (e : fine g = fine h) : bits g = bits h := by
  have h' := congrArg (fun f : Fpdf => ({ f with p.pageBoxes := [], l.pageLinks := [], l.pageAttachments := [f.l.pageAttachments.flatten] } : Fpdf)) e
  exact h'

theorem bits_core {g h : Fpdf} (e : core g = core h) : bits g = bits h := by have h' := congrArg bits e; exact h'

theorem beginpage_bits (f : Fpdf) (o : Bytes) (sz : Size) : bits (f.beginpage o sz) = bits f := by
  unfold Fpdf.beginpage
  split
  · rfl
  · dsimp only
    generalize Fpdf.orientLetter _ o = ol
    have h : (f.l.pageAttachments ++ [[]]).flatten = f.l.pageAttachments.flatten := by simp
    unfold bits fine
    split <;> split <;> (dsimp only; rw [h])
/-- What a relation needs to contain whole calls. -/
structure DocRel0 (E : Ext) (cb : Cb) (R : Fpdf → Fpdf → Prop) : Prop where
  trans : ∀ f g h, R f g → R g h → R f h
  stp : ∀ f g, Open f g → fine g = fine f → g.pages.length = f.pages.length → (f.page + 1 = f.pages.length → g.page + 1 = g.pages.length) → R f g
  fstep : ∀ f g, FStep f g → R f g
  begin : ∀ f o sz, R f (f.beginpage o sz)
  op : ∀ f g, R f g → Open f g
  cbs : Cb.Rel (fun s => s.page ≠ 0) R cb

/-- What a relation needs to contain whole calls, with the setters used by flowing calls. -/
structure DocRel (E : Ext) (cb : Cb) (R : Fpdf → Fpdf → Prop) : Prop extends DocRel0 E cb R where
  helper : ∀ f op, helper op = true → R f (f.exec E cb op)

section
variable {E : Ext} {cb : Cb} {R : Fpdf → Fpdf → Prop} (K : DocRel0 E cb R)
include K

theorem DocRel0.refl (f : Fpdf) : R f f := K.stp f f (Open.refl f) rfl rfl id
theorem DocRel0.frm {f g : Fpdf} (h : Frm f g) (hb : fine g = fine f) : R f g := K.stp f g (Open.of_frm h) hb h.len (fun e => by rw [frame_page h.frame, h.len]; exact e)

theorem DocRel0.flags (f : Fpdf) (a b : Bool) (c : List CbEvent) : R f { f with inHeader := a, inFooter := b, log := c } :=
  K.stp _ _ ⟨rfl, rfl, id, fun x => ⟨x, id, Nat.le_refl _⟩, rfl⟩ rfl rfl id

theorem DocRel0.runFooter (last : Bool) (f : Fpdf) (hp : f.page ≠ 0) : R f (f.runFooter cb last) := by
  unfold Fpdf.runFooter
  dsimp only
  cases hf : cb.footer with
  | none =>
    dsimp only
    exact K.trans _ _ _ (K.flags f f.inHeader true f.log) (K.flags _ f.inHeader false f.log)
  | some fn =>
    dsimp only
    refine K.trans _ _ _ (K.trans _ _ _ (K.flags f f.inHeader true (f.log ++ [CbEvent.footer f.page last])) (K.cbs.footer fn hf last _ hp)) ?_
    exact K.flags _ _ false _

theorem DocRel0.runHeader (f : Fpdf) (hp : f.page ≠ 0) : R f (f.runHeader cb) := by
  unfold Fpdf.runHeader
  cases hf : cb.header with
  | none => exact K.refl f
  | some fn =>
    dsimp only
    have h1 : R f { fn { f with inHeader := true, log := f.log ++ [CbEvent.header f.page] } with inHeader := false } := by
      refine K.trans _ _ _ (K.trans _ _ _ (K.flags f true f.inFooter (f.log ++ [CbEvent.header f.page])) (K.cbs.header fn hf _ hp)) ?_
      exact K.flags _ false _ _
    split
    · exact K.trans _ _ _ h1 (K.frm (setHomeXY_frm _) rfl)
    · exact h1

theorem DocRel0.endpage (f : Fpdf) : R f f.endpage :=
  K.trans _ _ _ (K.frm (endLayer_frm f) (endLayer_fine f)) (K.stp _ _ ⟨rfl, rfl, fun _ => by show 1 < 3; omega, fun x => ⟨x, id, Nat.le_refl _⟩, rfl⟩ rfl rfl id)

theorem DocRel0.leavePage (f : Fpdf) : R f (f.leavePage cb) := by
  unfold Fpdf.leavePage
  dsimp only
  have h1 : R f (if f.page ≠ f.pages.length - 1 then { f with page := f.pages.length - 1 } else f) := by
    split
    · next hne => exact K.stp _ _ ⟨rfl, rfl, id, fun x => ⟨by show f.pages.length - 1 < f.pages.length; omega, fun y => by show f.pages.length - 1 ≠ 0; omega, Nat.le_refl _⟩, rfl⟩ rfl rfl (fun e => absurd (by omega) hne)
    · exact K.refl f
  generalize (if f.page ≠ f.pages.length - 1 then { f with page := f.pages.length - 1 } else f) = g at h1 ⊢
  have h2 : R g (if g.state = 0 then { g with state := 1 } else g) := by
    split
    · exact K.stp _ _ ⟨rfl, rfl, fun _ => by show 1 < 3; omega, fun x => ⟨x, id, Nat.le_refl _⟩, rfl⟩ rfl rfl id
    · exact K.refl g
  generalize (if g.state = 0 then { g with state := 1 } else g) = g2 at h2 ⊢
  have h3 := K.trans _ _ _ h1 h2
  split
  · next hp => exact K.trans _ _ _ (K.trans _ _ _ h3 (K.runFooter false g2 (by omega))) (K.endpage _)
  · exact h3

theorem DocRel0.addPageFormat (f : Fpdf) (o : Bytes) (sz : Size) : R f (f.addPageFormat E cb o sz) := by
  by_cases he : f.err = none
  · have h1 : R f ((f.leavePage cb).beginpage o sz) := K.trans _ _ _ (K.leavePage f) (K.begin _ o sz)
    have hp : ((f.leavePage cb).beginpage o sz).page ≠ 0 :=
      turn_page (E := E) ⟨fun h hh s hs => K.op _ _ (K.cbs.header h hh s hs), fun h hh b s hs => K.op _ _ (K.cbs.footer h hh b s hs), fun s => K.op _ _ (K.cbs.accept s)⟩ f he o sz
    unfold Fpdf.addPageFormat
    rw [if_neg (by simp [he])]
    dsimp only
    have f2 := (pageLines_frm ((f.leavePage cb).beginpage o sz) f.save.lw).trans (restoreFont_frm _ E f.save)
    have b2 := (restoreFont_fine (((f.leavePage cb).beginpage o sz).pageLines f.save.lw) E f.save).trans (pageLines_fine _ _)
    generalize Fpdf.restoreFont E (Fpdf.pageLines _ f.save.lw) f.save = g at f2 b2 ⊢
    split
    · exact K.trans _ _ _ h1 (K.frm f2 b2)
    · have f3 := f2.trans (pageColors_frm g f.save)
      have h3 := K.trans _ _ _ (K.trans _ _ _ h1 (K.frm f3 ((pageColors_fine g f.save).trans b2))) (K.runHeader _ (by rw [frame_page f3.frame]; exact hp))
      have h4 := K.trans _ _ _ h3 (K.frm ((restoreLine_frm _ f.save).trans (restoreFont_frm _ E f.save)) ((restoreFont_fine _ E f.save).trans (restoreLine_fine _ f.save)))
      generalize Fpdf.restoreFont E (Fpdf.restoreLine _ f.save) f.save = g2 at h4 ⊢
      split
      · exact h4
      · exact K.trans _ _ _ h4 (K.frm (restoreColors_frm g2 f.save) (restoreColors_fine g2 f.save))
  · rw [addPageFormat_of_err E cb f o sz he]; exact K.refl f

theorem DocRel0.addPage (f : Fpdf) : R f (f.addPage E cb) := by
  unfold Fpdf.addPage
  split
  · exact K.refl f
  · exact K.addPageFormat f _ _

/-- All calls that do not close the document, given the flowing ones. -/
theorem DocRel0.exec' (f : Fpdf) (op : Op) (hown : staysOnPage op = true → R f (f.exec E cb op)) (hflow : flows op = true → R f (f.exec E cb op)) (h1 : op ≠ .close)
    (h2 : ∀ b, op ≠ .output b) (hset : ∀ n, op = .setPage n → R f (f.setPage n)) : R f (f.exec E cb op) := by
  rcases op_cases op with h | h | rfl | ⟨o, sz, rfl⟩ | ⟨n, rfl⟩ | rfl | ⟨b, rfl⟩ | rfl
  · exact hown h
  · exact hflow h
  · exact K.addPage f
  · exact K.addPageFormat f o sz
  · exact hset n rfl
  · exact absurd rfl h1
  · exact absurd rfl (h2 b)
  · exact K.stp _ _ (clearError_open f) rfl rfl id

theorem DocRel0.flow {f g : Fpdf} (h : Flow E cb f g) : R f g :=
  Flow.rel R K.refl K.trans K.fstep K.cbs.accept (fun f o sz => K.addPageFormat f o sz)
    (fun f g info a b c d h _ => K.trans _ _ _ h (K.frm (Frm.out _ _) (fine_out _ _))) h

/-- The page part of `Close`. -/
theorem DocRel0.last (f : Fpdf) (hp : (if f.page = 0 then f.addPage E cb else f).page ≠ 0) : R f (((if f.page = 0 then f.addPage E cb else f).runFooter cb true).endpage) := by
  refine K.trans _ (if f.page = 0 then f.addPage E cb else f) _ ?_ (K.trans _ _ _ (K.runFooter true _ hp) (K.endpage _))
  split
  · exact K.addPage f
  · exact K.refl f

end

/-- All calls that do not close the document. -/
theorem DocRel.exec {E : Ext} {cb : Cb} {R : Fpdf → Fpdf → Prop} (K : DocRel E cb R) (f : Fpdf) (op : Op) (hown : staysOnPage op = true → R f (f.exec E cb op)) (h1 : op ≠ .close)
    (h2 : ∀ b, op ≠ .output b) (hset : ∀ n, op = .setPage n → R f (f.setPage n)) : R f (f.exec E cb op) := by
  refine K.exec' f op hown (fun h => ?_) h1 h2 hset
  refine exec_flow (R := R) ⟨K.refl, K.trans, K.fstep, K.cbs.accept, fun f o sz => K.addPageFormat f o sz, ?_, K.helper⟩ f op h
  intro f g info a b c d h _
  exact K.trans _ _ _ h (K.frm (Frm.out _ _) (fine_out _ _))

/-- A reflexive and transitive relation between documents that only looks at what turning pages and flowing text leave alone. -/
structure DataRel (D : Fpdf → Fpdf → Prop) : Prop where
  trans : ∀ f g h, D f g → D g h → D f h
  stp : ∀ f g, bits g = bits f → D f g

/-- A discipline under which documents are not closed. -/
structure OpenGuard (G : Guard) : Prop where
  close : ∀ f cb op, G.op f cb op → op ≠ .close ∧ ∀ b, op ≠ .output b
  cb' : ∀ s : Fpdf, s.page ≠ 0 → G.cb s

/-- Like `DataRel`, for relations that look at the attachment annotations of each page. -/
structure FineRel (D : Fpdf → Fpdf → Prop) : Prop where
  trans : ∀ f g h, D f g → D g h → D f h
  stp : ∀ f g, fine g = fine f → g.pages.length = f.pages.length → D f g
  fstep : ∀ f g, FStep f g → D f g
  begin : ∀ (f : Fpdf) o sz, D f (f.beginpage o sz)

/-- Like `FineRel`, for relations that may depend on the last page being the selected one. -/
structure LastRel (D : Fpdf → Fpdf → Prop) : Prop where
  trans : ∀ f g h, D f g → D g h → D f h
  stp : ∀ f g, fine g = fine f → g.pages.length = f.pages.length → (f.page + 1 = f.pages.length → g.page + 1 = g.pages.length) → D f g
  fstep : ∀ f g, FStep f g → D f g
  begin : ∀ (f : Fpdf) o sz, D f (f.beginpage o sz)

theorem FineRel.last {D : Fpdf → Fpdf → Prop} (K : FineRel D) : LastRel D := ⟨K.trans, fun f g h hl _ => K.stp f g h hl, K.fstep, K.begin⟩

theorem FineRel.setPage {D : Fpdf → Fpdf → Prop} (K : FineRel D) (f : Fpdf) (n : Int) : D f (f.setPage n) :=
  K.stp _ _ (by unfold Fpdf.setPage; split <;> rfl) (by unfold Fpdf.setPage; split <;> rfl)

theorem DataRel.fine {D : Fpdf → Fpdf → Prop} (K : DataRel D) : FineRel D :=
  ⟨K.trans, fun f g h _ => K.stp f g (bits_fine h), fun f g h => K.stp f g (bits_core h.core), fun f o sz => K.stp _ _ (beginpage_bits f o sz)⟩

theorem LastRel.docRel {E : Ext} {cb : Cb} {D : Fpdf → Fpdf → Prop} (K : LastRel D) (hcb : Cb.Rel (fun s => s.page ≠ 0) (fun f g => Open f g ∧ D f g) cb)
    (hh : ∀ f op, helper op = true → D f (f.exec E cb op)) : DocRel E cb (fun f g => Open f g ∧ D f g) where
  trans := fun f g h a b => ⟨a.1.trans b.1, K.trans _ _ _ a.2 b.2⟩
  stp := fun f g h hb hl hp => ⟨h, K.stp _ _ hb hl hp⟩
  fstep := fun f g h => ⟨Open.of_frm h.emits.frm, K.fstep _ _ h⟩
  begin := fun f o sz => ⟨beginpage_open f o sz, K.begin f o sz⟩
  op := fun f g h => h.1
  cbs := hcb
  helper := fun f op ho => ⟨Open.of_frm (exec_frm E cb f op (helper_stays ho)), hh f op ho⟩

theorem FineRel.docRel {E : Ext} {cb : Cb} {D : Fpdf → Fpdf → Prop} (K : FineRel D) (hcb : Cb.Rel (fun s => s.page ≠ 0) (fun f g => Open f g ∧ D f g) cb)
    (hh : ∀ f op, helper op = true → D f (f.exec E cb op)) : DocRel E cb (fun f g => Open f g ∧ D f g) := K.last.docRel hcb hh

theorem LastRel.reach {E : Ext} {G : Guard} (hG : OpenGuard G) {D : Fpdf → Fpdf → Prop} (K : LastRel D) (hh : ∀ cb f op, helper op = true → D f (f.exec E cb op))
    (hown : ∀ f cb op, G.op f cb op → staysOnPage op = true → D f (f.exec E cb op)) (hset : ∀ f cb n, G.op f cb (.setPage n) → D f (f.setPage n)) {f g : Fpdf} (h : Reach E G f g) : Open f g ∧ D f g :=
  Reach.rel (G := G) (fun f g => Open f g ∧ D f g) (fun f => ⟨Open.refl f, K.stp _ _ rfl rfl id⟩) (fun _ _ _ a b => ⟨a.1.trans b.1, K.trans _ _ _ a.2 b.2⟩)
    (fun f op cb hop hcb => by
      have hc : Cb.Rel (fun s => s.page ≠ 0) (fun f g => Open f g ∧ D f g) cb :=
        ⟨fun h hh s hs => hcb.header h hh s (hG.cb' s hs), fun h hh b s hs => hcb.footer h hh b s (hG.cb' s hs), hcb.accept⟩
      exact (K.docRel hc (hh cb)).exec f op (fun hs => ⟨Open.of_frm (exec_frm E cb f op hs), hown f cb op hop hs⟩) (hG.close _ _ _ hop).1 (hG.close _ _ _ hop).2
        (fun n e => ⟨setPage_open f n, hset f cb n (e ▸ hop)⟩)) h

theorem FineRel.reach {E : Ext} {G : Guard} (hG : OpenGuard G) {D : Fpdf → Fpdf → Prop} (K : FineRel D) (hh : ∀ cb f op, helper op = true → D f (f.exec E cb op))
    (hown : ∀ f cb op, G.op f cb op → staysOnPage op = true → D f (f.exec E cb op)) {f g : Fpdf} (h : Reach E G f g) : Open f g ∧ D f g :=
  K.last.reach hG hh hown (fun f _ n _ => K.setPage f n) h

theorem DataRel.docRel {E : Ext} {cb : Cb} {D : Fpdf → Fpdf → Prop} (K : DataRel D) (hcb : Cb.Rel (fun s => s.page ≠ 0) (fun f g => Open f g ∧ D f g) cb)
    (hh : ∀ f op, helper op = true → D f (f.exec E cb op)) : DocRel E cb (fun f g => Open f g ∧ D f g) := K.fine.docRel hcb hh

theorem DataRel.reach {E : Ext} {G : Guard} (hG : OpenGuard G) {D : Fpdf → Fpdf → Prop} (K : DataRel D) (hh : ∀ cb f op, helper op = true → D f (f.exec E cb op))
    (hown : ∀ f cb op, G.op f cb op → staysOnPage op = true → D f (f.exec E cb op)) {f g : Fpdf} (h : Reach E G f g) : Open f g ∧ D f g := K.fine.reach hG hh hown h

theorem noClose_open : OpenGuard noClose := ⟨fun _ _ _ h => h, fun _ _ => trivial⟩
theorem pagesFirst_open : OpenGuard pagesFirst := ⟨fun _ _ _ h => ⟨h.1, h.2.1⟩, fun _ h => h⟩

/-- A relation on a part of the document that only some calls touch. -/
theorem DataRel.of {α : Type} (q : Fpdf → α) (le : α → α → Prop) (hrefl : ∀ a, le a a) (htrans : ∀ a b c, le a b → le b c → le a c) (hq : ∀ f, q (bits f) = q f) :
    DataRel (fun f g => le (q f) (q g)) :=
  ⟨fun _ _ _ => htrans _ _ _, fun f g h => by
    have h' : q g = q f := (hq g).symm.trans ((congrArg q h).trans (hq f))
    show le (q f) (q g)
    rw [h']; exact hrefl _⟩

theorem foot_get {α : Type} (q : Fpdf → α) (E : Ext) (cb : Cb) (f : Fpdf) (op : Op) (hs : staysOnPage op = true) (hq : ∀ f, q (foot op f) = q f) : q (f.exec E cb op) = q f :=
  (hq _).symm.trans ((congrArg q (exec_foot E cb f op hs)).trans (hq f))

/-- A document without the settings that `New` makes. -/
def unset (f : Fpdf) : Fpdf :=
  { f with err := none, k := 1, unitStr := [], p := {}, t.fontSizePt := 0, t.fontSize := 0, c := {}, line.width := 0, r.blendMode := [], m.producer := [], m.zoomMode := [], m.layoutMode := [], buffer := [] }

/-- Apart from these settings, a new document is empty. -/
theorem new_unset (o u s : Bytes) (sz : Size) : unset (Fpdf.new o u s sz) = {} := by
  unfold Fpdf.new
  dsimp only
  split
  · rfl
  · split
    · rfl
    · split
      · rfl
      · rw [display_default]
        rfl

/-- Any part of a new document that does not depend on these settings. -/
theorem new_get {α : Type} (q : Fpdf → α) (hq : ∀ f, q (unset f) = q f) (o u s : Bytes) (sz : Size) : q (Fpdf.new o u s sz) = q {} :=
  (hq _).symm.trans (congrArg q (new_unset o u s sz))

end Verif.Proof
