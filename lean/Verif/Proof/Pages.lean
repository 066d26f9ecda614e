import Verif.Proof.Errors
/-
`AddPage` as a sequence of elementary steps, and induction over programs that do not close the document.
-/
namespace Verif.Proof
open Verif Verif.Model Verif.Spec

section
variable (f : Fpdf)

theorem outputDashPattern_frm : Frm f f.outputDashPattern := Frm.out f _

theorem pageLines_frm (lw : Rat) : Frm f (f.pageLines lw) := by
  unfold Fpdf.pageLines
  dsimp only
  refine Frm.trans ?_ (Frm.ite (fun _ => Frm.out _ _) (fun _ => Frm.refl _))
  exact (((Frm.out f _).trans (Frm.out _ _)).trans (Frm.upd (f := Fpdf.outf _ _ _) (g := { Fpdf.outf _ _ _ with line.width := lw }) rfl id)).trans (Frm.out _ _)

theorem restoreFont_frm (E : Ext) (s : Fpdf.Saved) : Frm f (f.restoreFont E s) := by
  unfold Fpdf.restoreFont
  exact Frm.ite (fun _ => exec_frm E {} f (.setFont s.family s.style s.size) rfl) (fun _ => Frm.refl f)

theorem pageColors_frm (s : Fpdf.Saved) : Frm f (f.pageColors s) := by
  unfold Fpdf.pageColors
  dsimp only
  have h1 : Frm f (if s.dc.str ≠ B "0 G" then ({ f with c.draw := s.dc } : Fpdf).out s.dc.str else { f with c.draw := s.dc }) :=
    Frm.trans (g := { f with c.draw := s.dc }) (Frm.upd rfl id) (Frm.ite (fun _ => Frm.out _ _) (fun _ => Frm.refl _))
  generalize (if s.dc.str ≠ B "0 G" then ({ f with c.draw := s.dc } : Fpdf).out s.dc.str else { f with c.draw := s.dc }) = g at h1 ⊢
  have h2 : Frm g (if s.fc.str ≠ B "0 g" then ({ g with c.fill := s.fc } : Fpdf).out s.fc.str else { g with c.fill := s.fc }) :=
    Frm.trans (g := { g with c.fill := s.fc }) (Frm.upd rfl id) (Frm.ite (fun _ => Frm.out _ _) (fun _ => Frm.refl _))
  generalize (if s.fc.str ≠ B "0 g" then ({ g with c.fill := s.fc } : Fpdf).out s.fc.str else { g with c.fill := s.fc }) = g2 at h2 ⊢
  exact (h1.trans h2).trans (Frm.upd rfl id)

theorem restoreLine_frm (s : Fpdf.Saved) : Frm f (f.restoreLine s) := by
  unfold Fpdf.restoreLine
  exact Frm.ite (fun _ => Frm.trans (g := { f with line.width := s.lw }) (Frm.upd rfl id) (Frm.out _ _)) (fun _ => Frm.refl _)

theorem restoreColors_frm (s : Fpdf.Saved) : Frm f (f.restoreColors s) := by
  unfold Fpdf.restoreColors
  dsimp only
  have h1 : Frm f (if f.c.draw.str ≠ s.dc.str then ({ f with c.draw := s.dc } : Fpdf).out s.dc.str else f) :=
    Frm.ite (fun _ => Frm.trans (g := { f with c.draw := s.dc }) (Frm.upd rfl id) (Frm.out _ _)) (fun _ => Frm.refl _)
  generalize (if f.c.draw.str ≠ s.dc.str then ({ f with c.draw := s.dc } : Fpdf).out s.dc.str else f) = g at h1 ⊢
  have h2 : Frm g (if g.c.fill.str ≠ s.fc.str then ({ g with c.fill := s.fc } : Fpdf).out s.fc.str else g) :=
    Frm.ite (fun _ => Frm.trans (g := { g with c.fill := s.fc }) (Frm.upd rfl id) (Frm.out _ _)) (fun _ => Frm.refl _)
  generalize (if g.c.fill.str ≠ s.fc.str then ({ g with c.fill := s.fc } : Fpdf).out s.fc.str else g) = g2 at h2 ⊢
  exact (h1.trans h2).trans (Frm.upd rfl id)

theorem endLayer_frm : Frm f f.endLayer := exec_frm {} {} f .endLayer rfl

theorem setHomeXY_frm : Frm f f.setHomeXY := exec_frm {} {} f .setHomeXY rfl
end

/-- What a relation between states needs to hold between the state before and after adding a page. -/
structure PageRel (E : Ext) (cb : Cb) (R : Fpdf → Fpdf → Prop) : Prop where
  refl : ∀ f, R f f
  trans : ∀ f g h, R f g → R g h → R f h
  frm : ∀ f g, Frm f g → R f g
  header : ∀ h, cb.header = some h → ∀ s, R s (h s)
  footer : ∀ h, cb.footer = some h → ∀ b s, R s (h b s)
  accept : ∀ f, R f (cb.accept f).2
  last : ∀ f : Fpdf, R f { f with page := f.pages.length - 1 }
  opened : ∀ f : Fpdf, f.state = 0 → R f { f with state := 1 }
  ended : ∀ f : Fpdf, R f { f with state := 1 }
  flags : ∀ (f : Fpdf) a b c, R f { f with inHeader := a, inFooter := b, log := c }
  begin : ∀ f o sz, R f (f.beginpage o sz)

section
variable {E : Ext} {cb : Cb} {R : Fpdf → Fpdf → Prop} (K : PageRel E cb R)
include K

theorem PageRel.runFooter (last : Bool) (f : Fpdf) : R f (f.runFooter cb last) := by
  unfold Fpdf.runFooter
  dsimp only
  cases hf : cb.footer with
  | none =>
    dsimp only
    exact K.trans _ _ _ (K.flags f f.inHeader true f.log) (K.flags _ f.inHeader false f.log)
  | some fn =>
    dsimp only
    refine K.trans _ _ _ (K.trans _ _ _ (K.flags f f.inHeader true (f.log ++ [CbEvent.footer f.page last])) (K.footer fn hf last _)) ?_
    exact K.flags _ _ false _

theorem PageRel.endpage (f : Fpdf) : R f f.endpage :=
  K.trans _ _ _ (K.frm _ _ (endLayer_frm f)) (K.ended _)

theorem PageRel.leavePage (f : Fpdf) : R f (f.leavePage cb) := by
  unfold Fpdf.leavePage
  dsimp only
  have h1 : R f (if f.page ≠ f.pages.length - 1 then { f with page := f.pages.length - 1 } else f) := by
    split
    · exact K.last f
    · exact K.refl f
  generalize (if f.page ≠ f.pages.length - 1 then { f with page := f.pages.length - 1 } else f) = g at h1 ⊢
  have h2 : R g (if g.state = 0 then { g with state := 1 } else g) := by
    split
    · exact K.opened g ‹_›
    · exact K.refl g
  generalize (if g.state = 0 then { g with state := 1 } else g) = g2 at h2 ⊢
  have h3 := K.trans _ _ _ h1 h2
  split
  · exact K.trans _ _ _ (K.trans _ _ _ h3 (K.runFooter false g2)) (K.endpage _)
  · exact h3

theorem PageRel.runHeader (f : Fpdf) : R f (f.runHeader cb) := by
  unfold Fpdf.runHeader
  cases hf : cb.header with
  | none => exact K.refl f
  | some fn =>
    dsimp only
    have h1 : R f { fn { f with inHeader := true, log := f.log ++ [CbEvent.header f.page] } with inHeader := false } := by
      refine K.trans _ _ _ (K.trans _ _ _ (K.flags f true f.inFooter (f.log ++ [CbEvent.header f.page])) (K.header fn hf _)) ?_
      exact K.flags _ false _ _
    split
    · exact K.trans _ _ _ h1 (K.frm _ _ (setHomeXY_frm _))
    · exact h1

/-- Everything after `beginpage`. -/
theorem PageRel.tail (f : Fpdf) (o : Bytes) (sz : Size) (he : f.err = none) : R ((f.leavePage cb).beginpage o sz) (f.addPageFormat E cb o sz) := by
  unfold Fpdf.addPageFormat
  rw [if_neg (by simp [he])]
  dsimp only
  have h2 := K.trans _ _ _ (K.frm _ _ (pageLines_frm ((f.leavePage cb).beginpage o sz) f.save.lw)) (K.frm _ _ (restoreFont_frm _ E f.save))
  generalize Fpdf.restoreFont E (Fpdf.pageLines _ f.save.lw) f.save = g at h2 ⊢
  split
  · exact h2
  · have h3 := K.trans _ _ _ (K.trans _ _ _ h2 (K.frm _ _ (pageColors_frm g f.save))) (K.runHeader _)
    have h4 := K.trans _ _ _ (K.trans _ _ _ h3 (K.frm _ _ (restoreLine_frm _ f.save))) (K.frm _ _ (restoreFont_frm _ E f.save))
    generalize Fpdf.restoreFont E (Fpdf.restoreLine _ f.save) f.save = g2 at h4 ⊢
    split
    · exact h4
    · exact K.trans _ _ _ h4 (K.frm _ _ (restoreColors_frm g2 f.save))

theorem PageRel.addPageFormat (f : Fpdf) (o : Bytes) (sz : Size) : R f (f.addPageFormat E cb o sz) := by
  by_cases he : f.err = none
  · exact K.trans _ _ _ (K.trans _ _ _ (K.leavePage f) (K.begin (f.leavePage cb) o sz)) (K.tail f o sz he)
  · rw [addPageFormat_of_err E cb f o sz he]; exact K.refl f

theorem PageRel.addPage (f : Fpdf) : R f (f.addPage E cb) := by
  unfold Fpdf.addPage
  split
  · exact K.refl f
  · exact K.addPageFormat f _ _

/-- All calls that do not close the document, clear the error or go to another page. -/
theorem PageRel.exec (f : Fpdf) (op : Op) (hp : ∀ n, R f (f.setPage n)) (hc : R f f.clearError) (h1 : op ≠ .close) (h2 : ∀ b, op ≠ .output b) :
    R f (f.exec E cb op) := by
  rcases op_cases op with h | h | rfl | ⟨o, sz, rfl⟩ | ⟨n, rfl⟩ | rfl | ⟨b, rfl⟩ | rfl
  · exact K.frm _ _ (exec_frm E cb f op h)
  · refine exec_flow (R := R) ⟨K.refl, K.trans, fun f g h => K.frm _ _ h.emits.frm, K.accept, fun f o sz => K.addPageFormat f o sz, ?_, ?_⟩ f op h
    · intro f g info a b c d h _
      exact K.trans _ _ _ h (K.frm _ _ (Frm.out _ _))
    · intro f op h; exact K.frm _ _ (exec_frm E cb f op (helper_stays h))
  · exact K.addPage f
  · exact K.addPageFormat f o sz
  · exact hp n
  · exact absurd rfl h1
  · exact absurd rfl (h2 b)
  · exact hc

end

/-! ### Documents that have not been closed -/

/-- What programs that do not close the document keep. -/
structure Open (f g : Fpdf) : Prop where
  n : g.n = f.n
  offs : g.offsets = f.offsets
  state : f.state < 3 → g.state < 3
  page : f.page < f.pages.length → g.page < g.pages.length ∧ (f.page ≠ 0 → g.page ≠ 0) ∧ f.pages.length ≤ g.pages.length
  rc : g.m.protect.rc4n = f.m.protect.rc4n

theorem Open.refl (f : Fpdf) : Open f f := ⟨rfl, rfl, id, fun h => ⟨h, id, Nat.le_refl _⟩, rfl⟩
theorem Open.trans {f g h : Fpdf} (a : Open f g) (b : Open g h) : Open f h :=
  ⟨b.n.trans a.n, b.offs.trans a.offs, fun x => b.state (a.state x), fun x =>
    have ha := a.page x
    have hb := b.page ha.1
    ⟨hb.1, fun y => hb.2.1 (ha.2.1 y), Nat.le_trans ha.2.2 hb.2.2⟩, b.rc.trans a.rc⟩

theorem Frm.len {f g : Fpdf} (h : Frm f g) : g.pages.length = f.pages.length := by
  obtain ⟨b, hb⟩ := h.app
  rw [hb.1]
  split
  · simp
  · rfl

theorem Open.of_frm {f g : Fpdf} (h : Frm f g) : Open f g :=
  ⟨frame_n h.frame, frame_offsets h.frame, fun x => by rw [frame_state h.frame]; exact x, fun x => by
    rw [h.len, frame_page h.frame]; exact ⟨x, id, Nat.le_refl _⟩, frame_rc h.frame⟩

theorem beginpage_page (f : Fpdf) (o : Bytes) (sz : Size) (he : f.err = none) :
    (f.beginpage o sz).page = f.page + 1 ∧ (f.beginpage o sz).pages = f.pages ++ [[]] ∧ (f.beginpage o sz).n = f.n ∧ (f.beginpage o sz).offsets = f.offsets
      ∧ (f.beginpage o sz).state = 2 ∧ (f.beginpage o sz).err = none := by
  unfold Fpdf.beginpage
  rw [if_neg (by simp [he])]
  dsimp only
  generalize Fpdf.orientLetter _ o = ol
  split <;> split <;> exact ⟨rfl, rfl, rfl, rfl, rfl, he⟩

theorem beginpage_of_err (f : Fpdf) (o : Bytes) (sz : Size) (he : f.err ≠ none) : f.beginpage o sz = f := by
  unfold Fpdf.beginpage
  rw [if_pos he]

theorem beginpage_rc (f : Fpdf) (o : Bytes) (sz : Size) : (f.beginpage o sz).m.protect.rc4n = f.m.protect.rc4n := by
  unfold Fpdf.beginpage
  split
  · rfl
  · dsimp only
    generalize Fpdf.orientLetter _ o = ol
    split <;> split <;> rfl

theorem Open.pageRel {E : Ext} {cb : Cb} (hcb : Cb.Rel (fun _ => True) Open cb) : PageRel E cb Open where
  refl := Open.refl
  trans := fun _ _ _ => Open.trans
  frm := fun _ _ => Open.of_frm
  header := fun h hh s => hcb.header h hh s trivial
  footer := fun h hh b s => hcb.footer h hh b s trivial
  accept := hcb.accept
  last := fun f => ⟨rfl, rfl, id, fun x => ⟨by show f.pages.length - 1 < f.pages.length; omega, fun y => by show f.pages.length - 1 ≠ 0; omega, Nat.le_refl _⟩, rfl⟩
  opened := fun f _ => ⟨rfl, rfl, fun _ => by show 1 < 3; omega, fun x => ⟨x, id, Nat.le_refl _⟩, rfl⟩
  ended := fun f => ⟨rfl, rfl, fun _ => by show 1 < 3; omega, fun x => ⟨x, id, Nat.le_refl _⟩, rfl⟩
  flags := fun f a b c => ⟨rfl, rfl, id, fun x => ⟨x, id, Nat.le_refl _⟩, rfl⟩
  begin := fun f o sz => by
    by_cases he : f.err = none
    · obtain ⟨h1, h2, h3, h4, h5, _⟩ := beginpage_page f o sz he
      refine ⟨h3, h4, fun _ => by rw [h5]; omega, fun x => ?_, beginpage_rc f o sz⟩
      rw [h1, h2, List.length_append, List.length_singleton]
      exact ⟨by omega, by omega, by omega⟩
    · rw [beginpage_of_err f o sz he]; exact Open.refl f

theorem setPage_open (f : Fpdf) (n : Int) : Open f (f.setPage n) := by
  unfold Fpdf.setPage
  split
  · next h => exact ⟨rfl, rfl, id, fun _ => ⟨by show n.toNat < f.pages.length; omega, fun _ => by show n.toNat ≠ 0; omega, Nat.le_refl _⟩, rfl⟩
  · exact Open.refl f

/-- Programs that do not close the document. -/
def noClose : Guard := { op := fun _ _ op => op ≠ .close ∧ ∀ b, op ≠ .output b }

theorem reach_open {E : Ext} {f g : Fpdf} (h : Reach E noClose f g) : Open f g :=
  Reach.rel (G := noClose) Open Open.refl (fun _ _ _ => Open.trans)
    (fun f op cb hop hcb => (Open.pageRel hcb).exec f op (setPage_open f) ⟨rfl, rfl, id, fun x => ⟨x, id, Nat.le_refl _⟩, rfl⟩ hop.1 hop.2) h

theorem display_default (f : Fpdf) : f.setDisplayMode (B "default") (B "default") =
    { f with m.zoomMode := if f.err = none then B "default" else f.m.zoomMode, m.layoutMode := if f.err = none then B "default" else f.m.layoutMode } := by
  unfold Fpdf.setDisplayMode
  by_cases he : f.err = none
  · have h1 : (B "default" ∈ [B "fullpage", B "fullwidth", B "real", B "default"]) = True := by decide +kernel
    have h2 : (B "default" = []) = False := by decide +kernel
    have h3 : (B "default" ∈ [B "single", B "continuous", B "two", B "default", B "SinglePage", B "OneColumn",
          B "TwoColumnLeft", B "TwoColumnRight", B "TwoPageLeft", B "TwoPageRight"]) = True := by decide +kernel
    simp only [he, ne_eq, not_true_eq_false, if_false, if_true, h1, h2, h3]
  · simp only [he, ne_eq, not_false_eq_true, if_true, if_false]

theorem new_open (o u s : Bytes) (sz : Size) : (Fpdf.new o u s sz).n = 2 ∧ (Fpdf.new o u s sz).offsets = [] ∧ (Fpdf.new o u s sz).state = 0 ∧
    (Fpdf.new o u s sz).page = 0 ∧ (Fpdf.new o u s sz).pages = [[]] ∧ (Fpdf.new o u s sz).log = [] ∧ (Fpdf.new o u s sz).buffer = [] ∧
    (Fpdf.new o u s sz).m.protect.rc4n = 0 := by
  unfold Fpdf.new
  dsimp only
  split
  · exact ⟨rfl, rfl, rfl, rfl, rfl, rfl, rfl, rfl⟩
  · split
    · exact ⟨rfl, rfl, rfl, rfl, rfl, rfl, rfl, rfl⟩
    · split
      · exact ⟨rfl, rfl, rfl, rfl, rfl, rfl, rfl, rfl⟩
      · rw [display_default]
        exact ⟨rfl, rfl, rfl, rfl, rfl, rfl, rfl, rfl⟩

/-! ### Closing -/

theorem leavePage_page {E : Ext} {cb : Cb} (hcb : Cb.Rel (fun _ => True) Open cb) (f : Fpdf) (hp : f.page < f.pages.length) (he : f.err = none) :
    (f.leavePage cb).page ≠ 0 ∨ (f.leavePage cb).err = none := by
  by_cases h0 : f.pages.length - 1 = 0
  · refine .inr ?_
    unfold Fpdf.leavePage
    dsimp only
    rw [if_neg (show ¬ (f.page ≠ f.pages.length - 1) by omega)]
    by_cases hs : f.state = 0
    · rw [if_pos hs, if_neg (by show ¬ (f.page > 0); omega)]; exact he
    · rw [if_neg hs, if_neg (by omega)]; exact he
  · refine .inl ?_
    have K := Open.pageRel (E := E) hcb
    unfold Fpdf.leavePage
    dsimp only
    have h1 : (if f.page ≠ f.pages.length - 1 then { f with page := f.pages.length - 1 } else f).page ≠ 0 ∧
        (if f.page ≠ f.pages.length - 1 then { f with page := f.pages.length - 1 } else f).page <
        (if f.page ≠ f.pages.length - 1 then { f with page := f.pages.length - 1 } else f).pages.length := by
      split
      · exact ⟨h0, by show f.pages.length - 1 < f.pages.length; omega⟩
      · exact ⟨by omega, hp⟩
    generalize (if f.page ≠ f.pages.length - 1 then { f with page := f.pages.length - 1 } else f) = g at h1 ⊢
    have h2 : (if g.state = 0 then { g with state := 1 } else g).page ≠ 0 ∧ (if g.state = 0 then { g with state := 1 } else g).page <
        (if g.state = 0 then { g with state := 1 } else g).pages.length := by
      split <;> exact h1
    generalize (if g.state = 0 then { g with state := 1 } else g) = g2 at h2 ⊢
    rw [if_pos (by omega)]
    exact ((K.trans _ _ _ (K.runFooter false g2) (K.endpage _)).page h2.2).2.1 h2.1

theorem addPageFormat_page {E : Ext} {cb : Cb} (hcb : Cb.Rel (fun _ => True) Open cb) (f : Fpdf) (hp : f.page < f.pages.length) (he : f.err = none)
    (o : Bytes) (sz : Size) : (f.addPageFormat E cb o sz).page ≠ 0 := by
  have K := Open.pageRel (E := E) hcb
  have h1 := ((K.leavePage f).page hp).1
  have hb := ((K.begin (f.leavePage cb) o sz).page h1)
  refine ((K.tail f o sz he).page hb.1).2.1 ?_
  rcases leavePage_page (E := E) hcb f hp he with h | h
  · exact hb.2.1 h
  · rw [(beginpage_page _ o sz h).1]; omega

theorem endpage_state (f : Fpdf) : f.endpage.state = 1 := rfl

theorem endpage_open (f : Fpdf) : Open f f.endpage :=
  (Open.pageRel (E := {}) (cb := {}) ⟨fun _ h => (by simp at h), fun _ h => (by simp at h), fun s => Open.refl s⟩).endpage f

/-- Closing a document without error amounts to `enddoc` in a state between pages. -/
theorem close_enddoc' {E : Ext} {cb : Cb} (f : Fpdf) (ha : f.err = none → Open f (f.addPage E cb) ∧ (f.addPage E cb).page ≠ 0)
    (hfo : ∀ f1 : Fpdf, f1.page ≠ 0 → Open f1 (f1.runFooter cb true)) (hs : f.state < 3) (hp : f.page < f.pages.length)
    (hc : (f.close E cb).err = none) :
    f.err = none ∧ f.clipNest = 0 ∧ f.transformNest = 0 ∧ ∃ f1 : Fpdf, f1 = (if f.page = 0 then f.addPage E cb else f) ∧ f1.err = none ∧ f1.page ≠ 0 ∧ Open f f1 ∧
      f.close E cb = ((f1.runFooter cb true).endpage).enddoc E ∧ ((f1.runFooter cb true).endpage).err = none ∧
      Open f ((f1.runFooter cb true).endpage) ∧ ((f1.runFooter cb true).endpage).page ≠ 0 := by
  unfold Fpdf.close at hc ⊢
  by_cases he : f.err = none
  · rw [if_pos he] at hc ⊢
    by_cases hcl : f.clipNest > 0
    · rw [if_pos hcl] at hc
      simp [Fpdf.assignErr] at hc
    · rw [if_neg hcl] at hc ⊢
      by_cases htr : f.transformNest > 0
      · rw [if_pos htr] at hc
        simp [Fpdf.assignErr] at hc
      · rw [if_neg htr] at hc ⊢
        refine ⟨he, by omega, by omega, _, rfl, ?_⟩
        dsimp only at hc ⊢
        rw [if_neg (show ¬ (f.err ≠ none) by simp [he]), if_neg (show ¬ (f.state = 3) by omega)] at hc ⊢
        have hop : Open f (if f.page = 0 then f.addPage E cb else f) := by
          split
          · exact (ha he).1
          · exact Open.refl f
        have hpg : (if f.page = 0 then f.addPage E cb else f).page ≠ 0 := by
          split
          · exact (ha he).2
          · assumption
        have hex : f.page ≠ 0 → (if f.page = 0 then f.addPage E cb else f).err = none := by
          intro h; rw [if_neg h]; exact he
        generalize (if f.page = 0 then f.addPage E cb else f) = f1 at hc hop hpg hex ⊢
        by_cases h1 : f.page = 0 ∧ f1.err ≠ none
        · rw [if_pos h1] at hc
          exact absurd hc h1.2
        · rw [if_neg h1] at hc ⊢
          have h1e : f1.err = none := by
            by_cases h0 : f.page = 0
            · by_cases h2 : f1.err = none
              · exact h2
              · exact absurd ⟨h0, h2⟩ h1
            · exact hex h0
          have hend := (hfo f1 hpg).trans (endpage_open (f1.runFooter cb true))
          have hee : ((f1.runFooter cb true).endpage).err = none := by
            by_cases h2 : ((f1.runFooter cb true).endpage).err = none
            · exact h2
            · unfold Fpdf.enddoc at hc
              rw [if_pos h2] at hc
              exact absurd hc h2
          exact ⟨h1e, hpg, hop, rfl, hee, hop.trans hend, (hend.page (hop.page hp).1).2.1 hpg⟩
  · rw [if_neg he] at hc
    dsimp only at hc
    rw [if_pos he] at hc
    exact absurd hc he

theorem close_enddoc {E : Ext} {cb : Cb} (hcb : Cb.Rel (fun _ => True) Open cb) (f : Fpdf) (hs : f.state < 3) (hp : f.page < f.pages.length)
    (hc : (f.close E cb).err = none) :
    f.err = none ∧ f.clipNest = 0 ∧ f.transformNest = 0 ∧ ∃ f1 : Fpdf, f1 = (if f.page = 0 then f.addPage E cb else f) ∧ f1.err = none ∧ f1.page ≠ 0 ∧ Open f f1 ∧
      f.close E cb = ((f1.runFooter cb true).endpage).enddoc E ∧ ((f1.runFooter cb true).endpage).err = none ∧
      Open f ((f1.runFooter cb true).endpage) ∧ ((f1.runFooter cb true).endpage).page ≠ 0 := by
  have K := Open.pageRel (E := E) hcb
  refine close_enddoc' f (fun he => ⟨K.addPage f, ?_⟩) (fun f1 _ => K.runFooter true f1) hs hp hc
  unfold Fpdf.addPage
  rw [if_neg (by simp [he])]
  exact addPageFormat_page hcb f hp he _ _

end Verif.Proof
