import Verif.Proof.Pages
/-
Induction over programs for relations that need not hold while a page is being left, and documents that write nothing before their first page.
-/
namespace Verif.Proof
open Verif Verif.Model Verif.Spec

theorem leavePage_page' {E : Ext} {cb : Cb} (hcb : Cb.Rel (fun s => s.page ≠ 0) Open cb) (f : Fpdf) (he : f.err = none) :
    (f.leavePage cb).page ≠ 0 ∨ (f.leavePage cb).err = none := by
  by_cases h0 : f.pages.length - 1 = 0
  · refine .inr ?_
    unfold Fpdf.leavePage
    dsimp only
    have h1 : (if f.page ≠ f.pages.length - 1 then { f with page := f.pages.length - 1 } else f).page = 0 ∧
        (if f.page ≠ f.pages.length - 1 then { f with page := f.pages.length - 1 } else f).err = none := by
      split
      · exact ⟨h0, he⟩
      · exact ⟨by omega, he⟩
    generalize (if f.page ≠ f.pages.length - 1 then { f with page := f.pages.length - 1 } else f) = g at h1 ⊢
    have h2 : (if g.state = 0 then { g with state := 1 } else g).page = 0 ∧ (if g.state = 0 then { g with state := 1 } else g).err = none := by
      split <;> exact h1
    generalize (if g.state = 0 then { g with state := 1 } else g) = g2 at h2 ⊢
    rw [if_neg (by omega)]; exact h2.2
  · refine .inl ?_
    unfold Fpdf.leavePage
    dsimp only
    have h1 : (if f.page ≠ f.pages.length - 1 then { f with page := f.pages.length - 1 } else f).page = f.pages.length - 1 ∧
        (if f.page ≠ f.pages.length - 1 then { f with page := f.pages.length - 1 } else f).pages = f.pages := by
      split
      · exact ⟨rfl, rfl⟩
      · exact ⟨by omega, rfl⟩
    generalize (if f.page ≠ f.pages.length - 1 then { f with page := f.pages.length - 1 } else f) = g at h1 ⊢
    have h2 : (if g.state = 0 then { g with state := 1 } else g).page ≠ 0 ∧ (if g.state = 0 then { g with state := 1 } else g).page <
        (if g.state = 0 then { g with state := 1 } else g).pages.length := by
      have h3 : g.page ≠ 0 ∧ g.page < g.pages.length := by rw [h1.1, h1.2]; omega
      split <;> exact h3
    generalize (if g.state = 0 then { g with state := 1 } else g) = g2 at h2 ⊢
    rw [if_pos (by omega)]
    have hf : Open g2 (g2.runFooter cb false) := by
      unfold Fpdf.runFooter
      dsimp only
      cases hft : cb.footer with
      | none => exact ⟨rfl, rfl, id, fun h => ⟨h, id, Nat.le_refl _⟩, rfl⟩
      | some fn =>
        dsimp only
        have h3 := hcb.footer fn hft false { g2 with inFooter := true, log := g2.log ++ [CbEvent.footer g2.page false] } h2.1
        exact ⟨h3.n, h3.offs, h3.state, h3.page, h3.rc⟩
    have hg : Open (g2.runFooter cb false) (g2.runFooter cb false).endpage := Open.trans (Open.of_frm (endLayer_frm _))
      ⟨rfl, rfl, fun _ => by show 1 < 3; omega, fun x => ⟨x, id, Nat.le_refl _⟩, rfl⟩
    exact ((hf.trans hg).page h2.2).2.1 h2.1

/-- After a page was begun, there is a current page. -/
theorem turn_page {E : Ext} {cb : Cb} (hcb : Cb.Rel (fun s => s.page ≠ 0) Open cb) (f : Fpdf) (he : f.err = none) (o : Bytes) (sz : Size) :
    ((f.leavePage cb).beginpage o sz).page ≠ 0 := by
  by_cases h : (f.leavePage cb).err = none
  · rw [(beginpage_page _ o sz h).1]; omega
  · rw [beginpage_of_err _ o sz h]
    exact (leavePage_page' (E := E) hcb f he).resolve_right h

/-- What a relation between states needs to hold between the state before and after adding a page. -/
structure TurnRel (E : Ext) (cb : Cb) (R : Fpdf → Fpdf → Prop) : Prop where
  refl : ∀ f, R f f
  trans : ∀ f g h, R f g → R g h → R f h
  frm : ∀ f g, Frm f g → R f g
  header : ∀ f, f.page ≠ 0 → R f (f.runHeader cb)
  accept : ∀ f, R f (cb.accept f).2
  turn : ∀ (f : Fpdf) o sz, f.err = none → R f ((f.leavePage cb).beginpage o sz) ∧ ((f.leavePage cb).beginpage o sz).page ≠ 0

/-- What happens between the start of a page and the end of `AddPageFormat`. -/
theorem tail_of {E : Ext} {cb : Cb} {R : Fpdf → Fpdf → Prop} (htrans : ∀ f g h, R f g → R g h → R f h) (hfrm : ∀ f g, Frm f g → R f g)
    (hheader : ∀ f, f.page ≠ 0 → R f (f.runHeader cb)) (f : Fpdf) (o : Bytes) (sz : Size) (he : f.err = none) (hp : ((f.leavePage cb).beginpage o sz).page ≠ 0) :
    R ((f.leavePage cb).beginpage o sz) (f.addPageFormat E cb o sz) := by
  unfold Fpdf.addPageFormat
  rw [if_neg (by simp [he])]
  dsimp only
  have f2 := (pageLines_frm ((f.leavePage cb).beginpage o sz) f.save.lw).trans (restoreFont_frm _ E f.save)
  generalize Fpdf.restoreFont E (Fpdf.pageLines _ f.save.lw) f.save = g at f2 ⊢
  split
  · exact hfrm _ _ f2
  · have f3 := f2.trans (pageColors_frm g f.save)
    have h3 := htrans _ _ _ (hfrm _ _ f3) (hheader _ (by rw [frame_page f3.frame]; exact hp))
    have h4 := htrans _ _ _ h3 (hfrm _ _ ((restoreLine_frm _ f.save).trans (restoreFont_frm _ E f.save)))
    generalize Fpdf.restoreFont E (Fpdf.restoreLine _ f.save) f.save = g2 at h4 ⊢
    split
    · exact h4
    · exact htrans _ _ _ h4 (hfrm _ _ (restoreColors_frm g2 f.save))

section
variable {E : Ext} {cb : Cb} {R : Fpdf → Fpdf → Prop} (K : TurnRel E cb R)
include K

theorem TurnRel.tail (f : Fpdf) (o : Bytes) (sz : Size) (he : f.err = none) : R ((f.leavePage cb).beginpage o sz) (f.addPageFormat E cb o sz) :=
  tail_of K.trans K.frm K.header f o sz he (K.turn f o sz he).2

theorem TurnRel.addPageFormat (f : Fpdf) (o : Bytes) (sz : Size) : R f (f.addPageFormat E cb o sz) := by
  by_cases he : f.err = none
  · exact K.trans _ _ _ (K.turn f o sz he).1 (K.tail f o sz he)
  · rw [addPageFormat_of_err E cb f o sz he]; exact K.refl f

theorem TurnRel.addPage (f : Fpdf) : R f (f.addPage E cb) := by
  unfold Fpdf.addPage
  split
  · exact K.refl f
  · exact K.addPageFormat f _ _

/-- All calls that do not close the document, clear the error or go to another page. -/
theorem TurnRel.exec (f : Fpdf) (op : Op) (hp : ∀ n, op = .setPage n → R f (f.setPage n)) (hc : op = .clearError → R f f.clearError) (h1 : op ≠ .close) (h2 : ∀ b, op ≠ .output b) :
    R f (f.exec E cb op) := by
  rcases op_cases op with h | h | rfl | ⟨o, sz, rfl⟩ | ⟨n, rfl⟩ | rfl | ⟨b, rfl⟩ | rfl
  · exact K.frm _ _ (exec_frm E cb f op h)
  · refine exec_flow (R := R) ⟨K.refl, K.trans, fun f g h => K.frm _ _ h.emits.frm, K.accept, fun f o sz => K.addPageFormat f o sz, ?_, ?_⟩ f op h
    · intro f g info a b c d h _
      exact K.trans _ _ _ h (K.frm _ _ (Frm.out _ _))
    · intro f op h; exact K.frm _ _ (exec_frm E cb f op (helper_stays h))
  · exact K.addPage f
  · exact K.addPageFormat f o sz
  · exact hp n rfl
  · exact absurd rfl h1
  · exact absurd rfl (h2 b)
  · exact hc rfl

end

/-! ### The buffer stays empty -/

/-- While pages are being written, nothing goes to the file. -/
structure Buf (f g : Fpdf) : Prop where
  latch : f.err ≠ none → g.err ≠ none
  keep : g.err = none → f.state = 2 → g.state = 2 ∧ g.buffer = f.buffer

theorem Buf.refl (f : Fpdf) : Buf f f := ⟨id, fun _ h => ⟨h, rfl⟩⟩
theorem none_of {f g : Fpdf} (h : f.err ≠ none → g.err ≠ none) (hg : g.err = none) : f.err = none := by
  by_cases he : f.err = none
  · exact he
  · exact absurd hg (h he)
theorem Buf.trans {f g h : Fpdf} (a : Buf f g) (b : Buf g h) : Buf f h :=
  ⟨fun x => b.latch (a.latch x), fun hh hs => by
    have h1 := a.keep (none_of b.latch hh) hs
    have h2 := b.keep hh h1.1
    exact ⟨h2.1, h2.2.trans h1.2⟩⟩
theorem Buf.of_frm {f g : Fpdf} (h : Frm f g) : Buf f g :=
  ⟨h.latch, fun _ hs => by
    obtain ⟨b, hb⟩ := h.app
    exact ⟨(frame_state h.frame).trans hs, by rw [hb.2, if_pos hs]⟩⟩

/-- Both. -/
def OB (f g : Fpdf) : Prop := Open f g ∧ Buf f g

theorem OB.refl (f : Fpdf) : OB f f := ⟨Open.refl f, Buf.refl f⟩
theorem OB.trans {f g h : Fpdf} (a : OB f g) (b : OB g h) : OB f h := ⟨a.1.trans b.1, a.2.trans b.2⟩
theorem OB.of_frm {f g : Fpdf} (h : Frm f g) : OB f g := ⟨Open.of_frm h, Buf.of_frm h⟩
theorem OB.flags (f : Fpdf) (a b : Bool) (c : List CbEvent) : OB f { f with inHeader := a, inFooter := b, log := c } :=
  ⟨⟨rfl, rfl, id, fun x => ⟨x, id, Nat.le_refl _⟩, rfl⟩, ⟨id, fun _ h => ⟨h, rfl⟩⟩⟩

theorem OB.runFooter {cb : Cb} (hcb : Cb.Rel (fun s => s.page ≠ 0) OB cb) (last : Bool) (f : Fpdf) (hp : f.page ≠ 0) : OB f (f.runFooter cb last) := by
  unfold Fpdf.runFooter
  dsimp only
  cases hf : cb.footer with
  | none =>
    dsimp only
    exact (OB.flags f f.inHeader true f.log).trans (OB.flags _ f.inHeader false f.log)
  | some fn =>
    dsimp only
    refine ((OB.flags f f.inHeader true (f.log ++ [CbEvent.footer f.page last])).trans (hcb.footer fn hf last _ hp)).trans ?_
    exact OB.flags _ _ false _

theorem OB.runHeader {cb : Cb} (hcb : Cb.Rel (fun s => s.page ≠ 0) OB cb) (f : Fpdf) (hp : f.page ≠ 0) : OB f (f.runHeader cb) := by
  unfold Fpdf.runHeader
  cases hf : cb.header with
  | none => exact OB.refl f
  | some fn =>
    dsimp only
    have h1 : OB f { fn { f with inHeader := true, log := f.log ++ [CbEvent.header f.page] } with inHeader := false } := by
      refine ((OB.flags f true f.inFooter (f.log ++ [CbEvent.header f.page])).trans (hcb.header fn hf _ hp)).trans ?_
      exact OB.flags _ false _ _
    split
    · exact h1.trans (OB.of_frm (setHomeXY_frm _))
    · exact h1

theorem endpage_buf (f : Fpdf) (hs : f.state = 2) : f.endpage.buffer = f.buffer ∧ f.endpage.state = 1 ∧ f.endpage.err = f.endLayer.err := by
  obtain ⟨b, hb⟩ := (endLayer_frm f).app
  exact ⟨by show f.endLayer.buffer = _; rw [hb.2, if_pos hs], rfl, rfl⟩

/-- Adding a page, from a state with or without pages. -/
theorem turn_buf {E : Ext} {cb : Cb} (hcb : Cb.Rel (fun s => s.page ≠ 0) OB cb) (f : Fpdf) (o : Bytes) (sz : Size) (he : f.err = none)
    (hs : f.state = 2 ∨ f.state = 0 ∧ f.pages.length = 1) (hg : ((f.leavePage cb).beginpage o sz).err = none) :
    ((f.leavePage cb).beginpage o sz).state = 2 ∧ ((f.leavePage cb).beginpage o sz).buffer = f.buffer := by
  have hl : (f.leavePage cb).err = none := by
    by_cases h : (f.leavePage cb).err = none
    · exact h
    · rw [beginpage_of_err _ o sz h] at hg; exact hg
  have hb := beginpage_page (f.leavePage cb) o sz hl
  refine ⟨hb.2.2.2.2.1, ?_⟩
  have hbb : ((f.leavePage cb).beginpage o sz).buffer = (f.leavePage cb).buffer := by
    unfold Fpdf.beginpage
    rw [if_neg (by simp [hl])]
    dsimp only
    generalize Fpdf.orientLetter _ o = ol
    split <;> split <;> rfl
  rw [hbb]
  unfold Fpdf.leavePage at hl ⊢
  dsimp only at hl ⊢
  have h1 : ∃ g : Fpdf, g = (if f.page ≠ f.pages.length - 1 then { f with page := f.pages.length - 1 } else f) ∧ g.page = f.pages.length - 1 ∧ g.state = f.state ∧
      g.buffer = f.buffer ∧ g.err = none := by
    refine ⟨_, rfl, ?_⟩
    split
    · exact ⟨rfl, rfl, rfl, he⟩
    · exact ⟨by omega, rfl, rfl, he⟩
  obtain ⟨g, hgdef, g1, g2, g3, g4⟩ := h1
  rw [← hgdef] at hl ⊢
  rcases hs with hs | ⟨hs, hlen⟩
  · rw [if_neg (show ¬ (g.state = 0) by omega)] at hl ⊢
    by_cases hp : g.page > 0
    · rw [if_pos hp] at hl ⊢
      have hlat : (g.runFooter cb false).err ≠ none → (g.runFooter cb false).endpage.err ≠ none := (endLayer_frm _).latch
      have hk := (OB.runFooter hcb false g (by omega)).2.keep (none_of hlat hl) (g2.trans hs)
      rw [(endpage_buf _ hk.1).1, hk.2, g3]
    · rw [if_neg hp]; exact g3
  · rw [if_pos (show g.state = 0 by omega)] at hl ⊢
    rw [if_neg (show ¬ (({ g with state := 1 } : Fpdf).page > 0) by show ¬ (g.page > 0); omega)]
    exact g3

theorem leavePage_latch {cb : Cb} (hcb : Cb.Rel (fun s => s.page ≠ 0) OB cb) (f : Fpdf) : f.err ≠ none → (f.leavePage cb).err ≠ none := by
  unfold Fpdf.leavePage
  dsimp only
  intro he
  have h1 : (if f.page ≠ f.pages.length - 1 then { f with page := f.pages.length - 1 } else f).err ≠ none := by split <;> exact he
  generalize (if f.page ≠ f.pages.length - 1 then { f with page := f.pages.length - 1 } else f) = g at h1 ⊢
  have h2 : (if g.state = 0 then { g with state := 1 } else g).err ≠ none := by split <;> exact h1
  generalize (if g.state = 0 then { g with state := 1 } else g) = g2 at h2 ⊢
  split
  · exact (endLayer_frm _).latch ((OB.runFooter hcb false g2 (by omega)).2.latch h2)
  · exact h2

theorem leavePage_open {cb : Cb} (hcb : Cb.Rel (fun s => s.page ≠ 0) OB cb) (f : Fpdf) : Open f (f.leavePage cb) := by
  unfold Fpdf.leavePage
  dsimp only
  have h1 : Open f (if f.page ≠ f.pages.length - 1 then { f with page := f.pages.length - 1 } else f) := by
    split
    · exact ⟨rfl, rfl, id, fun x => ⟨by show f.pages.length - 1 < f.pages.length; omega, fun y => by show f.pages.length - 1 ≠ 0; omega, Nat.le_refl _⟩, rfl⟩
    · exact Open.refl f
  generalize (if f.page ≠ f.pages.length - 1 then { f with page := f.pages.length - 1 } else f) = g at h1 ⊢
  have h2 : Open g (if g.state = 0 then { g with state := 1 } else g) := by
    split
    · exact ⟨rfl, rfl, fun _ => by show 1 < 3; omega, fun x => ⟨x, id, Nat.le_refl _⟩, rfl⟩
    · exact Open.refl g
  generalize (if g.state = 0 then { g with state := 1 } else g) = g2 at h2 ⊢
  have h3 := h1.trans h2
  split
  · refine (h3.trans (OB.runFooter hcb false g2 (by omega)).1).trans ?_
    exact (Open.of_frm (endLayer_frm _)).trans ⟨rfl, rfl, fun _ => by show 1 < 3; omega, fun x => ⟨x, id, Nat.le_refl _⟩, rfl⟩
  · exact h3

theorem beginpage_open (f : Fpdf) (o : Bytes) (sz : Size) : Open f (f.beginpage o sz) :=
  (Open.pageRel (E := {}) (cb := {}) ⟨fun _ h => (by simp at h), fun _ h => (by simp at h), fun s => Open.refl s⟩).begin f o sz

theorem OB.turnRel {E : Ext} {cb : Cb} (hcb : Cb.Rel (fun s => s.page ≠ 0) OB cb) : TurnRel E cb OB where
  refl := OB.refl
  trans := fun _ _ _ => OB.trans
  frm := fun _ _ => OB.of_frm
  header := fun f hp => OB.runHeader hcb f hp
  accept := hcb.accept
  turn := fun f o sz he => by
    refine ⟨⟨(leavePage_open hcb f).trans (beginpage_open _ o sz), ⟨fun h => absurd he h, fun hg hs => turn_buf (E := E) hcb f o sz he (.inl hs) hg⟩⟩, ?_⟩
    exact turn_page (E := E) ⟨fun h hh s hs => (hcb.header h hh s hs).1, fun h hh b s hs => (hcb.footer h hh b s hs).1, fun s => (hcb.accept s).1⟩ f he o sz

/-! ### Before the first page -/

/-- Calls that write nothing to the document as long as there is no page. -/
def setup : Op → Bool
  | .setError _ | .setMargins .. | .setLeftMargin _ | .setTopMargin _ | .setRightMargin _ | .setCellMargin _ | .setAutoPageBreak .. | .setX _ | .setY _ | .setXY .. => true
  | .setHomeXY | .ln _ | .setPageBox .. | .setPage _ | .addPage | .addPageFormat .. | .setDisplayMode .. | .setCompression _ | .setMeta .. | .setXmp _ => true
  | .aliasNbPages _ | .registerAlias .. | .setRTL _ | .setProtection .. | .setCatalogSort _ | .setJavascript _ | .setHeaderMode _ | .setUnderlineThickness _ => true
  | .setDrawColor .. | .setFillColor .. | .setTextColor .. | .addSpotColor .. | .setDrawSpotColor .. | .setFillSpotColor .. | .setTextSpotColor .. => true
  | .setLineWidth _ | .setLineCapStyle _ | .setLineJoinStyle _ | .setDashPattern .. | .addLayer .. | .openLayerPane => true
  | .addFontFile .. | .addFont .. | .addUTF8Font .. | .setFont .. | .setFontStyle _ | .setFontSize _ | .setFontUnitSize _ | .addLink => true
  | .registerImage .. | .registerImageFile .. | .createTemplate _ | .setAttachments _ => true
  | _ => false

theorem addFontDef_buffer (E : Ext) (f : Fpdf) (a b : Bytes) (i : Option FontDef) (ff : FontFile) :
    (f.addFontDef E a b i ff).buffer = f.buffer ∧ (f.addFontDef E a b i ff).page = f.page := by
  unfold Fpdf.addFontDef
  dsimp only
  split
  · exact ⟨rfl, rfl⟩
  · split
    · exact ⟨rfl, rfl⟩
    · split
      · exact ⟨rfl, rfl⟩
      · split
        · split <;> split <;> exact ⟨rfl, rfl⟩
        · split <;> exact ⟨rfl, rfl⟩

theorem selectFont_buffer (f : Fpdf) (hp : f.page = 0) (a b : Bytes) (s : Rat) (d : FontDef) : (f.selectFont a b s d).buffer = f.buffer := by
  unfold Fpdf.selectFont Fpdf.outFont
  dsimp only
  rw [if_neg (by omega)]

theorem setFont_buffer (E : Ext) (f : Fpdf) (hp : f.page = 0) (a b : Bytes) (s : Rat) : (f.setFont E a b s).buffer = f.buffer := by
  unfold Fpdf.setFont
  dsimp only
  split
  · rfl
  · generalize Fpdf.parseStyle b = st
    generalize (if fontFamilyEscape a = [] then f.t.fontFamily else toLower (fontFamilyEscape a)) = fam
    split
    · exact selectFont_buffer { f with t.underline := st.1, t.strikeout := st.2.1 } hp _ _ _ _
    · generalize (if fam = B "arial" then B "helvetica" else fam) = fam2
      split
      · generalize (if fam2 = B "symbol" then B "zapfdingbats" else fam2) = fm
        generalize (if fm = B "zapfdingbats" then [] else st.2.2) = sy
        split
        · exact selectFont_buffer { f with t.underline := st.1, t.strikeout := st.2.1 } hp _ _ _ _
        · split
          · unfold Fpdf.setErrorf; split <;> rfl
          · next d _ =>
            have h := addFontDef_buffer E { f with t.underline := st.1, t.strikeout := st.2.1 } fm sy (some d) {}
            generalize Fpdf.addFontDef E { f with t.underline := st.1, t.strikeout := st.2.1 } fm sy (some d) {} = g at h ⊢
            split
            · exact h.1
            · split
              · exact (selectFont_buffer g (h.2.trans hp) _ _ _ _).trans h.1
              · exact (selectFont_buffer g (h.2.trans hp) _ _ _ _).trans h.1
      · rfl

theorem registerImage_buffer (E : Ext) (f : Fpdf) (n : Bytes) (p : Option ImageInfo) : (f.registerImage E n p).buffer = f.buffer := by
  unfold Fpdf.registerImage
  dsimp only
  repeat' split
  all_goals rfl

/-- Nothing is written before the first page. -/
theorem setup_buffer (E : Ext) (cb : Cb) (f : Fpdf) (op : Op) (hs : setup op = true) (h1 : op ≠ .addPage) (h2 : ∀ o sz, op ≠ .addPageFormat o sz) (hp : f.page = 0) :
    (f.exec E cb op).buffer = f.buffer := by
  have hn : ¬ (f.page > 0) := by omega
  cases op <;> first
    | (simp [setup] at hs; done)
    | exact absurd rfl h1
    | exact absurd rfl (h2 _ _)
    | rfl
    | exact setFont_buffer E f hp _ _ _
    | exact (addFontDef_buffer E f _ _ _ _).1
    | exact registerImage_buffer E f _ _
    | skip
  all_goals unfold Fpdf.exec
  case setError => dsimp only; unfold Fpdf.setErrorf; split <;> rfl
  case setLeftMargin => dsimp only; unfold Fpdf.setLeftMargin; dsimp only; split <;> rfl
  case setPageBox => dsimp only; unfold Fpdf.setPageBoxRec; dsimp only; repeat' split
                     all_goals rfl
  case setPage => dsimp only; unfold Fpdf.setPage; split <;> rfl
  case setDisplayMode => dsimp only; unfold Fpdf.setDisplayMode; dsimp only; repeat' split
                         all_goals rfl
  case setMeta k s u => dsimp only; unfold Fpdf.setMeta; cases k <;> cases u <;> rfl
  case setProtection => dsimp only; split <;> rfl
  case setDrawColor => dsimp only; unfold Fpdf.setDrawColor; dsimp only; rw [if_neg hn]
  case setFillColor => dsimp only; unfold Fpdf.setFillColor; dsimp only; rw [if_neg hn]
  case addSpotColor => dsimp only; unfold Fpdf.addSpotColor; dsimp only; repeat' split
                       all_goals rfl
  case setDrawSpotColor => dsimp only; unfold Fpdf.setDrawSpotColor Fpdf.getSpotColor; split
                           · next h => split at h
                                       · split at h
                                         · cases h; dsimp only; rw [if_neg hn]
                                         · cases h
                                       · cases h
                           · next h => split at h
                                       · split at h
                                         · cases h
                                         · cases h; rfl
                                       · cases h; rfl
  case setFillSpotColor => dsimp only; unfold Fpdf.setFillSpotColor Fpdf.getSpotColor; split
                           · next h => split at h
                                       · split at h
                                         · cases h; dsimp only; rw [if_neg hn]
                                         · cases h
                                       · cases h
                           · next h => split at h
                                       · split at h
                                         · cases h
                                         · cases h; rfl
                                       · cases h; rfl
  case setTextSpotColor => dsimp only; unfold Fpdf.setTextSpotColor Fpdf.getSpotColor; split
                           · next h => split at h
                                       · split at h
                                         · cases h; rfl
                                         · cases h
                                       · cases h
                           · next h => split at h
                                       · split at h
                                         · cases h
                                         · cases h; rfl
                                       · cases h; rfl
  case setLineWidth => dsimp only; unfold Fpdf.setLineWidth; dsimp only; rw [if_neg hn]
  case setLineCapStyle => dsimp only; unfold Fpdf.setLineCapStyle; dsimp only; rw [if_neg hn]
  case setLineJoinStyle => dsimp only; unfold Fpdf.setLineJoinStyle; dsimp only; rw [if_neg hn]
  case setDashPattern => dsimp only; unfold Fpdf.setDashPattern; dsimp only; rw [if_neg hn]
  case addFontFile => dsimp only; unfold Fpdf.addFontFile; split
                      · exact (addFontDef_buffer E f _ _ _ _).1
                      · rfl
  case addUTF8Font => dsimp only; unfold Fpdf.addUTF8Font Fpdf.setErrorf; dsimp only; repeat' split
                      all_goals rfl
  case setFontSize => dsimp only; unfold Fpdf.setFontSize Fpdf.outFont; dsimp only; rw [if_neg hn]
  case setFontUnitSize => dsimp only; unfold Fpdf.setFontUnitSize Fpdf.outFont; dsimp only; rw [if_neg hn]
  case registerImageFile => dsimp only; unfold Fpdf.registerImageFile; repeat' split
                            all_goals first | rfl | exact registerImage_buffer E f _ _

/-- Before the first page, or on a page. -/
def Ready (f : Fpdf) : Prop := f.state = 2 ∨ f.state = 0 ∧ f.pages.length = 1 ∧ f.page = 0

/-- Programs that do not close the document or clear errors, and make only calls that set it up before the first page. -/
def pagesFirst : Guard :=
  { op := fun f _ op => op ≠ .close ∧ (∀ b, op ≠ .output b) ∧ op ≠ .clearError ∧ (f.page = 0 → setup op = true)
    cb := fun s => s.page ≠ 0 }

def PF (f g : Fpdf) : Prop := OB f g ∧ (g.err = none → Ready f → Ready g ∧ g.buffer = f.buffer)

theorem PF.of_ob {f g : Fpdf} (h : OB f g) (hs : f.state = 2) : PF f g :=
  ⟨h, fun hg _ => have := h.2.keep hg hs; ⟨.inl this.1, this.2⟩⟩

theorem addPageFormat_ready {E : Ext} {cb : Cb} (hcb : Cb.Rel (fun s => s.page ≠ 0) OB cb) (f : Fpdf) (o : Bytes) (sz : Size) (hr : Ready f)
    (hg : (f.addPageFormat E cb o sz).err = none) : (f.addPageFormat E cb o sz).state = 2 ∧ (f.addPageFormat E cb o sz).buffer = f.buffer := by
  have he : f.err = none := by
    by_cases h : f.err = none
    · exact h
    · rw [addPageFormat_of_err E cb f o sz h] at hg; exact hg
  have ht := (OB.turnRel (E := E) hcb).tail f o sz he
  have hb := turn_buf (E := E) hcb f o sz he (hr.imp_right fun h => ⟨h.1, h.2.1⟩) (none_of ht.2.latch hg)
  have hk := ht.2.keep hg hb.1
  exact ⟨hk.1, hk.2.trans hb.2⟩

theorem setPage_ob (f : Fpdf) (n : Int) : OB f (f.setPage n) := by
  refine ⟨setPage_open f n, ?_⟩
  unfold Fpdf.setPage
  split
  · exact ⟨id, fun _ h => ⟨h, rfl⟩⟩
  · exact Buf.refl f

theorem exec_pf {E : Ext} (f : Fpdf) (op : Op) (cb : Cb) (hop : pagesFirst.op f cb op) (hcb' : Cb.Rel pagesFirst.cb PF cb) : PF f (f.exec E cb op) := by
  have hcb : Cb.Rel (fun s => s.page ≠ 0) OB cb := ⟨fun h hh s hs => (hcb'.header h hh s hs).1, fun h hh b s hs => (hcb'.footer h hh b s hs).1, fun s => (hcb'.accept s).1⟩
  obtain ⟨h1, h2, h3, h4⟩ := hop
  have hob := (OB.turnRel (E := E) hcb).exec f op (fun n _ => setPage_ob f n) (fun h => absurd h h3) h1 h2
  refine ⟨hob, fun hg hr => ?_⟩
  rcases hr with hs | ⟨hs, hl, hp⟩
  · have := hob.2.keep hg hs
    exact ⟨.inl this.1, this.2⟩
  · have hset := h4 hp
    have hap : ∀ o sz, (f.addPageFormat E cb o sz).err = none → Ready (f.addPageFormat E cb o sz) ∧ (f.addPageFormat E cb o sz).buffer = f.buffer := by
      intro o sz hg
      have := addPageFormat_ready hcb f o sz (.inr ⟨hs, hl, hp⟩) hg
      exact ⟨.inl this.1, this.2⟩
    by_cases ha : op = .addPage
    · subst ha
      have hd : ∀ g, g = f.addPage E cb → g.err = none → Ready g ∧ g.buffer = f.buffer := by
        intro g hgd hg
        unfold Fpdf.addPage at hgd
        split at hgd
        · next he => rw [hgd] at hg; exact absurd hg he
        · rw [hgd] at hg ⊢; exact hap _ _ hg
      exact hd _ rfl hg
    · by_cases hb : ∃ o sz, op = .addPageFormat o sz
      · obtain ⟨o, sz, rfl⟩ := hb
        exact hap o sz hg
      · have hbuf := setup_buffer E cb f op hset ha (fun o sz h => hb ⟨o, sz, h⟩) hp
        refine ⟨.inr ?_, hbuf⟩
        by_cases hsp : ∃ n, op = .setPage n
        · obtain ⟨n, rfl⟩ := hsp
          show (f.setPage n).state = 0 ∧ (f.setPage n).pages.length = 1 ∧ (f.setPage n).page = 0
          unfold Fpdf.setPage
          rw [if_neg (by omega)]
          exact ⟨hs, hl, hp⟩
        · have hst : staysOnPage op = true := by
            cases op <;> first
              | rfl
              | (simp [setup] at hset; done)
              | exact absurd rfl ha
              | exact absurd ⟨_, _, rfl⟩ hb
              | exact absurd ⟨_, rfl⟩ hsp
          have hf := exec_frm E cb f op hst
          exact ⟨(frame_state hf.frame).trans hs, hf.len.trans hl, (frame_page hf.frame).trans hp⟩

theorem PF.refl (f : Fpdf) : PF f f := ⟨OB.refl f, fun _ h => ⟨h, rfl⟩⟩
theorem PF.trans {f g h : Fpdf} (a : PF f g) (b : PF g h) : PF f h := ⟨a.1.trans b.1, fun hh hr => by
  have h1 := a.2 (none_of b.1.2.latch hh) hr
  have h2 := b.2 hh h1.1
  exact ⟨h2.1, h2.2.trans h1.2⟩⟩

theorem reach_pf {E : Ext} {f g : Fpdf} (h : Reach E pagesFirst f g) : PF f g :=
  Reach.rel (G := pagesFirst) PF PF.refl (fun _ _ _ => PF.trans) exec_pf h

/-- Nothing is written to the file before it is closed. -/
theorem close_buffer {E : Ext} {cb : Cb} (hcb' : Cb.Rel pagesFirst.cb PF cb) (f : Fpdf) (hr : Ready f) (f1 : Fpdf) (hf1 : f1 = (if f.page = 0 then f.addPage E cb else f))
    (h1 : f1.err = none) (hp1 : f1.page ≠ 0) (he : ((f1.runFooter cb true).endpage).err = none) : ((f1.runFooter cb true).endpage).buffer = f.buffer := by
  have hcb : Cb.Rel (fun s => s.page ≠ 0) OB cb := ⟨fun h hh s hs => (hcb'.header h hh s hs).1, fun h hh b s hs => (hcb'.footer h hh b s hs).1, fun s => (hcb'.accept s).1⟩
  have h2 : f1.state = 2 ∧ f1.buffer = f.buffer := by
    by_cases h0 : f.page = 0
    · rw [if_pos h0] at hf1
      unfold Fpdf.addPage at hf1
      split at hf1
      · next he => rw [hf1] at h1; exact absurd h1 he
      · rw [hf1] at h1 ⊢; exact addPageFormat_ready hcb f _ _ hr h1
    · rw [if_neg h0] at hf1
      rw [hf1]
      rcases hr with hs | ⟨_, _, hp⟩
      · exact ⟨hs, rfl⟩
      · exact absurd hp h0
  have hlat : (f1.runFooter cb true).err ≠ none → (f1.runFooter cb true).endpage.err ≠ none := (endLayer_frm _).latch
  have hk := (OB.runFooter hcb true f1 hp1).2.keep (none_of hlat he) h2.1
  rw [(endpage_buf _ hk.1).1, hk.2, h2.2]

end Verif.Proof
