import Verif.Props.Colors
import Verif.Props.Fonts
/-
C48: temporary settings are restored.
-/
namespace Verif.Props
open Verif Verif.Model Verif.Spec Verif.Proof

/-- The calls that set margins. -/
def marginSetter : Op → Bool
  | .setMargins .. | .setLeftMargin .. | .setTopMargin .. | .setRightMargin .. | .setAutoPageBreak .. => true
  | _ => false

/-- Nothing but the document being open. -/
theorem true_data : DataRel (fun _ _ => True) := ⟨fun _ _ _ _ _ => trivial, fun _ _ _ => trivial⟩

theorem setLeft_margins (f : Fpdf) (m : Rat) : (f.setLeftMargin m).getMargins = (m, f.p.tMargin, f.p.rMargin, f.p.bMargin) := by
  unfold Fpdf.setLeftMargin Fpdf.getMargins
  dsimp only
  split <;> rfl

theorem setRight_margins (f : Fpdf) (m : Rat) : (f.setRightMargin m).getMargins = (f.p.lMargin, f.p.tMargin, m, f.p.bMargin) := rfl

/-- The relation for histories that do not set margins. -/
def SameMargins (f g : Fpdf) : Prop := Open f g ∧ g.getMargins = f.getMargins

theorem sameMargins_exec {E : Ext} {cb : Cb} (hcb : Cb.Rel (fun s => s.page ≠ 0) SameMargins cb) (f : Fpdf) (op : Op) (hop : (without marginSetter).op f cb op) :
    SameMargins f (f.exec E cb op) := by
  have K : DocRel0 E cb SameMargins :=
    { trans := fun f g h a b => ⟨a.1.trans b.1, b.2.trans a.2⟩
      stp := fun f g ho hb _ _ => ⟨ho, by have := congrArg Fpdf.getMargins hb; exact this⟩
      fstep := fun f g h => ⟨Open.of_frm h.emits.frm, by have := congrArg Fpdf.getMargins h.core; exact this⟩
      begin := fun f o sz => ⟨beginpage_open f o sz, by have := congrArg Fpdf.getMargins (beginpage_bits f o sz); exact this⟩
      op := fun f g h => h.1
      cbs := hcb }
  have hown : ∀ (f : Fpdf) (op : Op), marginSetter op = false → staysOnPage op = true → SameMargins f (f.exec E cb op) := fun f op hm hs =>
    ⟨Open.of_frm (exec_frm E cb f op hs), foot_get Fpdf.getMargins E cb f op hs (fun f => by cases op <;> first | rfl | (simp [marginSetter] at hm))⟩
  have hopen : ∀ op : Op, op ≠ .close → (∀ b, op ≠ .output b) → Open f (f.exec E cb op) := fun op h1 h2 =>
    ((true_data.docRel (E := E) (cb := cb) ⟨fun h hh s hs => ⟨(hcb.header h hh s hs).1, trivial⟩, fun h hh b s hs => ⟨(hcb.footer h hh b s hs).1, trivial⟩,
      fun s => ⟨(hcb.accept s).1, trivial⟩⟩ (fun _ _ _ => trivial)).exec f op (fun hs => ⟨Open.of_frm (exec_frm E cb f op hs), trivial⟩) h1 h2 (fun n _ => ⟨setPage_open f n, trivial⟩)).1
  have wr : ∀ f h t l ls, SameMargins f (f.write E cb h t l ls) := fun f h t l ls => K.flow (write_flow f E cb h t l ls).flow
  refine K.exec' f op (hown f op hop.2.2) (fun hfl => ?_) hop.1 hop.2.1 (fun n _ => ⟨setPage_open f n, by unfold Fpdf.setPage; split <;> rfl⟩)
  cases op with
  | cell w h t b ln a fi l ls => exact K.flow (cellFormat_flow f E cb w h t b ln a fi l ls).flow
  | multiCell w h t b a fi => exact K.flow (multiCell_flow f E cb w h t b a fi).flow
  | write h t l ls => exact wr f h t l ls
  | writeAligned w lh t a =>
    refine ⟨hopen _ hop.1 hop.2.1, ?_⟩
    show (f.writeAligned E cb w lh t a).getMargins = f.getMargins
    unfold Fpdf.writeAligned
    dsimp only
    generalize (if w = 0 then f.p.w - (f.p.lMargin + f.p.rMargin) else w) = width
    generalize (if f.t.isUTF8 = true then f.splitText t width else f.splitLines t width) = lines
    generalize f.p.w = pw
    have line : ∀ (g : Fpdf) (l : Bytes), g.getMargins = f.getMargins → (Fpdf.writeAlignedLine E cb f.p.lMargin f.p.rMargin pw width lh a g l).getMargins = f.getMargins := by
      intro g l hg
      have hg' : (g.p.lMargin, g.p.tMargin, g.p.rMargin, g.p.bMargin) = (f.p.lMargin, f.p.tMargin, f.p.rMargin, f.p.bMargin) := hg
      simp only [Prod.mk.injEq] at hg'
      obtain ⟨e1, e2, e3, e4⟩ := hg'
      have left : ∀ m, (((g.setLeftMargin m).write E cb lh l 0 []).setLeftMargin f.p.lMargin).getMargins = f.getMargins := by
        intro m
        have h1 := (wr (g.setLeftMargin m) lh l 0 []).2
        rw [setLeft_margins] at h1
        generalize (g.setLeftMargin m).write E cb lh l 0 [] = r at h1 ⊢
        rw [setLeft_margins]
        have h2 : (r.p.lMargin, r.p.tMargin, r.p.rMargin, r.p.bMargin) = (m, g.p.tMargin, g.p.rMargin, g.p.bMargin) := h1
        simp only [Prod.mk.injEq] at h2
        obtain ⟨-, a2, a3, a4⟩ := h2
        rw [a2, a3, a4, e2, e3, e4]
        rfl
      unfold Fpdf.writeAlignedLine
      dsimp only
      split
      · exact left _
      split
      · exact left _
      · have h1 := (wr (g.setRightMargin (pw - f.p.lMargin - width)) lh l 0 []).2
        rw [setRight_margins] at h1
        generalize (g.setRightMargin (pw - f.p.lMargin - width)).write E cb lh l 0 [] = r at h1 ⊢
        rw [setRight_margins]
        have h2 : (r.p.lMargin, r.p.tMargin, r.p.rMargin, r.p.bMargin) = (g.p.lMargin, g.p.tMargin, pw - f.p.lMargin - width, g.p.bMargin) := h1
        simp only [Prod.mk.injEq] at h2
        obtain ⟨a1, a2, -, a4⟩ := h2
        rw [a1, a2, a4, e1, e2, e4]
        rfl
    have fold : ∀ (ls : List Bytes) (g : Fpdf), g.getMargins = f.getMargins → (ls.foldl (Fpdf.writeAlignedLine E cb f.p.lMargin f.p.rMargin pw width lh a) g).getMargins = f.getMargins := by
      intro ls
      induction ls with
      | nil => intro g hg; exact hg
      | cons x r ih => intro g hg; exact ih _ (line g x hg)
    exact fold lines f rfl
  | subWrite ht s sz off l ls =>
    show SameMargins f (f.subWrite E cb ht s sz off l ls)
    have fs : ∀ f m, SameMargins f (f.setFontSize m) := fun f m => hown f (.setFontSize m) rfl rfl
    have xy : ∀ f x y, SameMargins f (f.setXY x y) := fun f x y => hown f (.setXY x y) rfl rfl
    unfold Fpdf.subWrite
    split
    · exact K.refl f
    · dsimp only
      exact K.trans _ _ _ (K.trans _ _ _ (K.trans _ _ _ (K.trans _ _ _ (fs f _) (xy _ _ _)) (wr _ _ _ _ _)) (xy _ _ _)) (fs _ _)
  | image n p x y w h an fl l ls =>
    show SameMargins f (f.image E cb n p x y w h an fl l ls)
    unfold Fpdf.image
    dsimp only
    split
    · exact K.refl f
    · have h1 : SameMargins f (f.registerImageFile E n p.isSome p) := hown f (.registerImageFile n p.isSome p) rfl rfl
      generalize f.registerImageFile E n p.isSome p = g at h1 ⊢
      split
      · exact h1
      · split
        · next info hinfo =>
          refine K.trans _ _ _ h1 (K.flow (imageOut_flow g E cb info x y w h an fl l ls ?_))
          obtain ⟨q, hq, hq2⟩ := Option.bind_eq_some_iff.mp hinfo
          exact ⟨n, q, hq, hq2⟩
        · exact h1
  | _ => simp [flows] at hfl

/-- **C48** Only the calls that set margins (`SetMargins`, `SetLeftMargin`, `SetTopMargin`, `SetRightMargin`, `SetAutoPageBreak`) change what `GetMargins` reports: every other
call, `WriteAligned` with any text and alignment included, leaves the margins as they were, whatever pages it starts, if the call-back functions do the same. -/
theorem C48_margins {E : Ext} {f g : Fpdf} (h : Reach E (without marginSetter) f g) : g.getMargins = f.getMargins :=
  (Reach.rel (G := without marginSetter) SameMargins (fun f => ⟨Open.refl f, rfl⟩) (fun _ _ _ a b => ⟨a.1.trans b.1, b.2.trans a.2⟩)
    (fun f op cb hop hcb => sameMargins_exec ⟨fun h hh s _ => hcb.header h hh s trivial, fun h hh b s _ => hcb.footer h hh b s trivial, hcb.accept⟩ f op hop) h).2

/-- **C48** `SubWrite` leaves the font size (in points and in units) as it was, for every text and whatever the call-back functions do (short of closing the document),
even if it ends in an error. -/
theorem C48_subWrite {E : Ext} {o u s : Bytes} {sz : Size} {f : Fpdf} (hn : (Fpdf.new o u s sz).err = none) (hr : Reach E noClose (Fpdf.new o u s sz) f) {cb : Cb}
    (hcb : CbReach E noClose cb) (ht : Rat) (str : Bytes) (subSize subOffset : Rat) (link : Nat) (linkStr : Bytes) :
    (f.exec E cb (.subWrite ht str subSize subOffset link linkStr)).getFontSize = f.getFontSize := by
  have ok := (reach_fnt hr).ok (new_fontOk hn)
  show (f.subWrite E cb ht str subSize subOffset link linkStr).getFontSize = f.getFontSize
  unfold Fpdf.subWrite
  split
  · rfl
  · dsimp only
    have KF : ∀ {f g}, Flow E cb f g → g.k = f.k := fun h =>
      Flow.rel (fun f g => g.k = f.k) (fun _ => rfl) (fun _ _ _ a b => b.trans a) (fun f g h => by have := congrArg (fun f : Fpdf => f.k) h.core; exact this)
        (fun s => (reach_fnt (hcb.accept s)).k) (fun f o sz => (addPageFormat_fnt (hcb.rel fun _ _ => reach_fnt) f o sz).k)
        (fun f g info a b c d h _ => by rw [← h]; exact (lens_t (lens_out g _)).2.2.2.2.2.2.2.2.2) h
    have kf : ∀ (f : Fpdf) m, (f.setFontSize m).getFontSize = (m, m / f.k) ∧ (f.setFontSize m).k = f.k := fun f m => by
      have h := lens_t (lens_ink (outFont_ink ({ f with t.fontSizePt := m, t.fontSize := m / f.k } : Fpdf)))
      unfold Fpdf.setFontSize Fpdf.getFontSize
      obtain ⟨-, -, -, -, h5, h6, -, -, -, h10⟩ := h
      exact ⟨by rw [h5, h6], h10⟩
    have kx : ∀ (f : Fpdf) x y, (f.setXY x y).k = f.k := fun f x y => foot_get (fun f => f.k) E cb f (.setXY x y) rfl (fun _ => rfl)
    have e1 := (kf f subSize).2
    generalize f.setFontSize subSize = g1 at e1 ⊢
    generalize (subSize - f.t.fontSizePt) / g1.k * (3 / 10) + subOffset / g1.k = off
    have e2 := (kx g1 g1.p.x (g1.p.y - off)).trans e1
    generalize g1.setXY g1.p.x (g1.p.y - off) = g2 at e2 ⊢
    have e3 := (KF (write_flow g2 E cb ht str link linkStr).flow).trans e2
    generalize g2.write E cb ht str link linkStr = g3 at e3 ⊢
    have e4 := (kx g3 g3.p.x (g3.p.y + off)).trans e3
    rw [(kf _ _).1, e4]
    unfold Fpdf.getFontSize
    rw [ok.size]

/-- Non-vacuity of C48: a text of several lines written right aligned and a subscript, on pages with a busy header. -/
def aligned : Fpdf := after inBold [.writeAligned 40 5 (B "one two three four five six") (B "R"), .subWrite 5 (B "sub") 6 0 0 []] oneFont

example : Reach oneFont (without marginSetter) inBold aligned ∧ inBold.err = none ∧ aligned.err = none ∧ aligned.p.x > inBold.p.x ∧ aligned.getFontSize.1 = 12 ∧
    CbReach oneFont noClose busyHeader := by
  refine ⟨?_, by decide +kernel, by decide +kernel, by decide +kernel, by decide +kernel, ⟨?_, ?_, fun s => Reach.refl s⟩⟩
  · refine reach_after (ok := fun _ op => match op with | .writeAligned .. => true | .subWrite .. => true | _ => false) ?_ _ _ _ (Reach.refl _) (by decide +kernel)
    intro f op hop
    cases op <;> first | (exact Bool.noConfusion hop) | (exact ⟨by simp, by simp, rfl⟩)
  · intro h hh s _
    simp only [busyHeader, Option.some.injEq] at hh
    subst hh
    exact noClose_after _ _ _ (by decide)
  · intro h hh
    simp [busyHeader] at hh

end Verif.Props
