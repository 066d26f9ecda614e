import Verif.Proof.Size
import Verif.Proof.Restore
/-
Cells and page breaks: when pages are started, and where the cursor goes.
-/
namespace Verif.Proof
open Verif Verif.Model Verif.Spec

/-! ### Nothing in a header or footer starts a page on its own -/

/-- Errors stay; while a header or footer function is running, no page is started and none is left. -/
structure Stay (f g : Fpdf) : Prop where
  latch : f.err ≠ none → g.err ≠ none
  same : f.inHeader = true ∨ f.inFooter = true → g.page = f.page ∧ g.pages.length = f.pages.length ∧ g.inHeader = f.inHeader ∧ g.inFooter = f.inFooter

theorem Stay.refl (f : Fpdf) : Stay f f := ⟨id, fun _ => ⟨rfl, rfl, rfl, rfl⟩⟩
theorem Stay.trans {f g h : Fpdf} (a : Stay f g) (b : Stay g h) : Stay f h :=
  ⟨fun x => b.latch (a.latch x), fun x => by
    obtain ⟨a1, a2, a3, a4⟩ := a.same x
    obtain ⟨b1, b2, b3, b4⟩ := b.same (by rw [a3, a4]; exact x)
    exact ⟨b1.trans a1, b2.trans a2, b3.trans a3, b4.trans a4⟩⟩

theorem Stay.of_frm {f g : Fpdf} (h : Frm f g) : Stay f g :=
  ⟨h.latch, fun _ => by
    have e := h.frame
    unfold frameOf at e
    simp only [Prod.mk.injEq] at e
    exact ⟨e.2.1, h.len, e.2.2.2.2.2.2.1, e.2.2.2.2.2.2.2.1⟩⟩

theorem Stay.of_flow {E : Ext} {cb : Cb} (hacc : ∀ s, Stay s (cb.accept s).2) {f g : Fpdf} (h : Flow E cb f g) : Stay f g := by
  induction h with
  | refl => exact .refl _
  | step _ s ih => exact ih.trans (.of_frm s.emits.frm)
  | accept _ q ih =>
    refine ⟨fun x => (hacc _).latch (ih.latch x), fun x => ?_⟩
    obtain ⟨-, -, a3, a4⟩ := ih.same x
    rw [q.1] at a3; rw [q.2] at a4; rw [← a3, ← a4] at x
    simp at x
  | @page g h o sz _ q _ s ih =>
    refine ⟨fun x => ?_, fun x => ?_⟩
    · have h1 := s.emits.frm.latch ((hacc _).latch (ih.latch x))
      rw [addPageFormat_of_err E cb h o sz h1]; exact h1
    · obtain ⟨-, -, a3, a4⟩ := ih.same x
      rw [q.1] at a3; rw [q.2] at a4; rw [← a3, ← a4] at x
      simp at x
  | img info a b c d _ _ ih => exact ih.trans (.of_frm (Frm.out _ _))

/-- Calls other than `AddPage…`, `SetPage`, `Close`, `Output…`, `ClearError`. -/
def inPlace : Guard :=
  { op := fun _ _ op => op ≠ .addPage ∧ (∀ o sz, op ≠ .addPageFormat o sz) ∧ (∀ n, op ≠ .setPage n) ∧ op ≠ .close ∧ (∀ b, op ≠ .output b) ∧ op ≠ .clearError }

theorem reach_stay {E : Ext} {f g : Fpdf} (h : Reach E inPlace f g) : Stay f g := by
  refine Reach.rel (G := inPlace) Stay Stay.refl (fun _ _ _ => Stay.trans) (fun f op cb hop hcb => ?_) h
  obtain ⟨h1, h2, h3, h4, h5, h6⟩ := hop
  rcases op_cases op with hs | hs | rfl | ⟨o, sz, rfl⟩ | ⟨n, rfl⟩ | rfl | ⟨b, rfl⟩ | rfl
  · exact .of_frm (exec_frm E cb f op hs)
  · exact exec_flow_of Stay.refl (fun _ _ _ => Stay.trans) (fun f g h => .of_flow hcb.accept h) (fun f op h => .of_frm (exec_frm E cb f op (helper_stays h))) f op hs
  · exact absurd rfl h1
  · exact absurd rfl (h2 o sz)
  · exact absurd rfl (h3 n)
  · exact absurd rfl h4
  · exact absurd rfl (h5 b)
  · exact absurd rfl h6

theorem inPlace_noClose {E : Ext} {f g : Fpdf} (h : Reach E inPlace f g) : Reach E noClose f g :=
  Reach.mono (G := inPlace) (H := noClose) (fun _ _ _ hop => ⟨hop.2.2.2.1, hop.2.2.2.2.1⟩) (fun _ _ => trivial) h

/-! ### Adding a page adds one page -/

theorem runFooter_stay {cb : Cb} (hcb : Cb.Rel (fun _ => True) Stay cb) (last : Bool) (f : Fpdf) :
    (f.runFooter cb last).page = f.page ∧ (f.runFooter cb last).pages.length = f.pages.length ∧ (f.err ≠ none → (f.runFooter cb last).err ≠ none) := by
  unfold Fpdf.runFooter
  dsimp only
  cases hf : cb.footer with
  | none => exact ⟨rfl, rfl, id⟩
  | some fn =>
    dsimp only
    have h := hcb.footer fn hf last { ({ f with inFooter := true } : Fpdf) with log := f.log ++ [CbEvent.footer f.page last] } trivial
    obtain ⟨a, b, -, -⟩ := h.same (.inr rfl)
    exact ⟨a, b, h.latch⟩

theorem runHeader_stay {cb : Cb} (hcb : Cb.Rel (fun _ => True) Stay cb) (f : Fpdf) :
    (f.runHeader cb).page = f.page ∧ (f.runHeader cb).pages.length = f.pages.length ∧ (f.err ≠ none → (f.runHeader cb).err ≠ none) := by
  unfold Fpdf.runHeader
  cases hf : cb.header with
  | none => exact ⟨rfl, rfl, id⟩
  | some fn =>
    dsimp only
    have h := hcb.header fn hf { f with inHeader := true, log := f.log ++ [CbEvent.header f.page] } trivial
    obtain ⟨a, b, -, -⟩ := h.same (.inl rfl)
    generalize fn { f with inHeader := true, log := f.log ++ [CbEvent.header f.page] } = g at h a b ⊢
    have h2 : ({ g with inHeader := false } : Fpdf).page = f.page ∧ ({ g with inHeader := false } : Fpdf).pages.length = f.pages.length ∧ (f.err ≠ none → ({ g with inHeader := false } : Fpdf).err ≠ none) := ⟨a, b, h.latch⟩
    have e : ∀ g2 : Fpdf, g2.page = f.page ∧ g2.pages.length = f.pages.length ∧ (f.err ≠ none → g2.err ≠ none) → ∀ c : Bool,
        (if c = true then g2.setHomeXY else g2).page = f.page ∧ (if c = true then g2.setHomeXY else g2).pages.length = f.pages.length ∧ (f.err ≠ none → (if c = true then g2.setHomeXY else g2).err ≠ none) := ?_
    · exact e _ h2 g.headerHomeMode
    clear h2
    intro g2 h2 c
    split
    · have h3 := setHomeXY_frm g2
      exact ⟨(frame_page h3.frame).trans h2.1, h3.len.trans h2.2.1, fun x => h3.latch (h2.2.2 x)⟩
    · exact h2

/-- Where the document is. -/
def at_ (f g : Fpdf) : Prop := g.page = f.page ∧ g.pages.length = f.pages.length ∧ (f.err ≠ none → g.err ≠ none)

theorem at_.trans {f g h : Fpdf} (a : at_ f g) (b : at_ g h) : at_ f h := ⟨b.1.trans a.1, b.2.1.trans a.2.1, fun x => b.2.2 (a.2.2 x)⟩
theorem at_.of_frm {f g : Fpdf} (h : Frm f g) : at_ f g := ⟨frame_page h.frame, h.len, h.latch⟩

theorem leavePage_count {cb : Cb} (hcb : Cb.Rel (fun _ => True) Stay cb) (f : Fpdf) :
    (f.leavePage cb).page = f.pages.length - 1 ∧ (f.leavePage cb).pages.length = f.pages.length ∧ (f.err ≠ none → (f.leavePage cb).err ≠ none) := by
  unfold Fpdf.leavePage
  dsimp only
  have h1 : (if f.page ≠ f.pages.length - 1 then { f with page := f.pages.length - 1 } else f).page = f.pages.length - 1 ∧
      (if f.page ≠ f.pages.length - 1 then { f with page := f.pages.length - 1 } else f).pages.length = f.pages.length ∧
      (f.err ≠ none → (if f.page ≠ f.pages.length - 1 then { f with page := f.pages.length - 1 } else f).err ≠ none) := by
    split
    · exact ⟨rfl, rfl, id⟩
    · next h => exact ⟨not_not.mp h, rfl, id⟩
  generalize (if f.page ≠ f.pages.length - 1 then { f with page := f.pages.length - 1 } else f) = g at h1 ⊢
  have h2 : at_ g (if g.state = 0 then { g with state := 1 } else g) := by split <;> exact ⟨rfl, rfl, id⟩
  generalize (if g.state = 0 then { g with state := 1 } else g) = g2 at h2 ⊢
  have h3 : at_ g (if g2.page > 0 then (g2.runFooter cb false).endpage else g2) := by
    split
    · refine (at_.trans h2 (runFooter_stay hcb false g2)).trans ((at_.of_frm (endLayer_frm _)).trans ?_)
      exact ⟨rfl, rfl, id⟩
    · exact h2
  exact ⟨h3.1.trans h1.1, h3.2.1.trans h1.2.1, fun x => h3.2.2 (h1.2.2 x)⟩

/-- Without an error, `AddPageFormat` adds exactly one page and makes it the current one. -/
theorem addPageFormat_count {E : Ext} {cb : Cb} (hcb : Cb.Rel (fun _ => True) Stay cb) (f : Fpdf) (o : Bytes) (sz : Size) (hl : f.pages.length ≠ 0)
    (hg : (f.addPageFormat E cb o sz).err = none) :
    (f.addPageFormat E cb o sz).page = f.pages.length ∧ (f.addPageFormat E cb o sz).pages.length = f.pages.length + 1 := by
  by_cases he : f.err = none
  · by_cases hn : (f.leavePage cb).err = none
    · have hb := beginpage_page (f.leavePage cb) o sz hn
      have ht : at_ ((f.leavePage cb).beginpage o sz) (f.addPageFormat E cb o sz) :=
        tail_of (R := at_) (fun _ _ _ => at_.trans) (fun _ _ => at_.of_frm) (fun f _ => runHeader_stay hcb f) f o sz he (by rw [hb.1]; omega)
      obtain ⟨l1, l2, -⟩ := leavePage_count hcb f
      constructor
      · rw [ht.1, hb.1, l1]; omega
      · rw [ht.2.1, hb.2.1, List.length_append, l2]; rfl
    · exfalso
      by_cases hz : ((f.leavePage cb).beginpage o sz).page = 0
      · rw [beginpage_of_err _ o sz hn] at hz
        obtain ⟨l1, l2, -⟩ := leavePage_count hcb f
        have h0 : f.pages.length - 1 = 0 := by rw [← l1]; exact hz
        have : (f.leavePage cb).err = f.err := by
          unfold Fpdf.leavePage
          dsimp only
          have h1 : (if f.page ≠ f.pages.length - 1 then { f with page := f.pages.length - 1 } else f).page = 0 ∧ (if f.page ≠ f.pages.length - 1 then { f with page := f.pages.length - 1 } else f).err = f.err := by
            split
            · exact ⟨h0, rfl⟩
            · next h => exact ⟨by rw [← h0]; exact not_not.mp h, rfl⟩
          generalize (if f.page ≠ f.pages.length - 1 then { f with page := f.pages.length - 1 } else f) = g at h1 ⊢
          have h2 : (if g.state = 0 then { g with state := 1 } else g).page = 0 ∧ (if g.state = 0 then { g with state := 1 } else g).err = f.err := by
            split <;> exact h1
          generalize (if g.state = 0 then { g with state := 1 } else g) = g2 at h2 ⊢
          rw [if_neg (by omega)]; exact h2.2
        exact hn (this.trans he)
      · have ht : at_ ((f.leavePage cb).beginpage o sz) (f.addPageFormat E cb o sz) :=
          tail_of (R := at_) (fun _ _ _ => at_.trans) (fun _ _ => at_.of_frm) (fun f _ => runHeader_stay hcb f) f o sz he hz
        refine ht.2.2 ?_ hg
        rw [beginpage_of_err _ o sz hn]; exact hn
  · rw [addPageFormat_of_err E cb f o sz he] at hg; exact absurd hg he

/-! ### Where a new page leaves the cursor -/

theorem setFont_p (E : Ext) (f : Fpdf) (a b : Bytes) (c : Rat) : (f.setFont E a b c).p = f.p :=
  foot_get (fun f => f.p) E {} f (.setFont a b c) rfl (fun _ => rfl)

theorem out_p (f : Fpdf) (s : Bytes) : (f.out s).p = f.p := by unfold Fpdf.out; split <;> rfl

theorem restoreFont_p (E : Ext) (f : Fpdf) (s : Fpdf.Saved) : (f.restoreFont E s).p = f.p := by
  unfold Fpdf.restoreFont; split
  · exact setFont_p E f _ _ _
  · rfl

theorem pageLines_p (f : Fpdf) (lw : Rat) : (f.pageLines lw).p = f.p := by
  unfold Fpdf.pageLines
  dsimp only
  have h : ∀ g : Fpdf, (if g.line.dashArray.length > 0 then g.outputDashPattern else g).p = g.p := by
    intro g; split
    · unfold Fpdf.outputDashPattern; exact out_p _ _
    · rfl
  rw [h]
  unfold Fpdf.outf
  rw [out_p]
  show ((Fpdf.out _ _).out _).p = f.p
  rw [out_p, out_p]

theorem ite_out_p (f : Fpdf) (c : Prop) [Decidable c] (s : Bytes) : (if c then f.out s else f).p = f.p := by
  split
  · exact out_p f s
  · rfl

theorem pageColors_p (f : Fpdf) (s : Fpdf.Saved) : (f.pageColors s).p = f.p := by
  unfold Fpdf.pageColors
  dsimp only
  rw [ite_out_p]
  show (if _ then _ else _ : Fpdf).p = f.p
  rw [ite_out_p]

theorem restoreLine_p (f : Fpdf) (s : Fpdf.Saved) : (f.restoreLine s).p = f.p := by
  unfold Fpdf.restoreLine
  dsimp only
  split
  · unfold Fpdf.outf; rw [out_p]
  · rfl

theorem restoreColors_p (f : Fpdf) (s : Fpdf.Saved) : (f.restoreColors s).p = f.p := by
  unfold Fpdf.restoreColors
  dsimp only
  have h : ∀ (c : Prop) [Decidable c] (g g' : Fpdf) (b : Bytes), g'.p = g.p → (if c then g'.out b else g).p = g.p := by
    intro c _ g g' b h; split
    · rw [out_p, h]
    · rfl
  generalize hq : (if f.c.draw.str ≠ s.dc.str then _ else f) = q
  have h1 : q.p = f.p := by rw [← hq]; exact h (f.c.draw.str ≠ s.dc.str) f _ _ rfl
  rw [← h1]
  exact h (q.c.fill.str ≠ s.fc.str) q _ _ rfl

/-- Without a header function, a new page leaves the cursor at the top left margin corner. -/
theorem addPageFormat_home {E : Ext} {cb : Cb} (hh : cb.header = none) (f : Fpdf) (o : Bytes) (sz : Size) (he : f.err = none) :
    (f.addPageFormat E cb o sz).p = ((f.leavePage cb).beginpage o sz).p := by
  unfold Fpdf.addPageFormat
  rw [if_neg (by simp [he])]
  dsimp only
  have h0 : ∀ g : Fpdf, (g.runHeader cb) = g := by intro g; unfold Fpdf.runHeader; rw [hh]
  rw [h0]
  split
  · rw [restoreFont_p, pageLines_p]
  · split
    · rw [restoreFont_p, restoreLine_p, pageColors_p, restoreFont_p, pageLines_p]
    · rw [restoreColors_p, restoreFont_p, restoreLine_p, pageColors_p, restoreFont_p, pageLines_p]

theorem beginpage_xy (f : Fpdf) (o : Bytes) (sz : Size) (he : f.err = none) :
    (f.beginpage o sz).p.x = (f.beginpage o sz).p.lMargin ∧ (f.beginpage o sz).p.y = (f.beginpage o sz).p.tMargin := by
  unfold Fpdf.beginpage
  rw [if_neg (by simp [he])]
  dsimp only
  generalize Fpdf.orientLetter _ o = ol
  split <;> split <;> exact ⟨rfl, rfl⟩

/-! ### The page-break trigger -/

/-- The trigger stays the bottom margin above the lower edge of the page. -/
structure Trig (f g : Fpdf) : Prop where
  op : Open f g
  geo : Geo f → Geo g

theorem Trig.of_frm {f g : Fpdf} (h : Frm f g) : Trig f g :=
  ⟨Open.of_frm h, fun x => by
    have e := h.frame
    unfold frameOf at e
    simp only [Prod.mk.injEq] at e
    obtain ⟨e1, e2, e3, e4, e5, e6, e7, e8, e9, e10, e11, e12, e13, e14, e15, e16, e17, e18, e19⟩ := e
    refine ⟨?_, ?_, ?_, h.geo x.trig⟩
    · rw [e15, e16, e11, e13]; exact x.dim
    · rw [e17, e15, e5]; exact x.wPt
    · rw [e18, e16, e5]; exact x.hPt⟩

theorem Trig.of_p {f g : Fpdf} (h : Open f g) (hp : g.p = f.p) (hk : g.k = f.k) : Trig f g :=
  ⟨h, fun x => ⟨by rw [hp]; exact x.dim, by rw [hp, hk]; exact x.wPt, by rw [hp, hk]; exact x.hPt, by rw [hp]; exact x.trig⟩⟩

theorem Trig.onPage {E : Ext} {cb : Cb} (hcb : Cb.Rel (fun s => s.page ≠ 0) Trig cb) : OnPage E cb Trig where
  refl := fun f => ⟨.refl f, id⟩
  trans := fun f g h a b => ⟨a.op.trans b.op, fun x => b.geo (a.geo x)⟩
  frm := fun f g h => .of_frm h
  cbs := hcb
  op := fun _ _ h => h.op
  last := fun f => .of_p ((GoLast.onPage (E := E) (cb := {}) ⟨nofun, nofun, fun s => ⟨⟨.refl _, .refl _⟩, id⟩⟩).last f).1.1 rfl rfl
  opened := fun f h => .of_p ((GoLast.onPage (E := E) (cb := {}) ⟨nofun, nofun, fun s => ⟨⟨.refl _, .refl _⟩, id⟩⟩).opened f h).1.1 rfl rfl
  ended := fun f => .of_p ((GoLast.onPage (E := E) (cb := {}) ⟨nofun, nofun, fun s => ⟨⟨.refl _, .refl _⟩, id⟩⟩).ended f).1.1 rfl rfl
  flags := fun f a b c => .of_p ((GoLast.onPage (E := E) (cb := {}) ⟨nofun, nofun, fun s => ⟨⟨.refl _, .refl _⟩, id⟩⟩).flags f a b c).1.1 rfl rfl
  begin := fun f o sz => ⟨((GoLast.onPage (E := E) (cb := {}) ⟨nofun, nofun, fun s => ⟨⟨.refl _, .refl _⟩, id⟩⟩).begin f o sz).1.1, fun x => by
    by_cases he : f.err = none
    · exact (beginpage_geo f o sz he x).1
    · rw [beginpage_of_err f o sz he]; exact x⟩

theorem exec_trig {E : Ext} {cb : Cb} (hcb : Cb.Rel (fun s => s.page ≠ 0) Trig cb) (f : Fpdf) (op : Op) (h1 : op ≠ .close) (h2 : ∀ b, op ≠ .output b) : Trig f (f.exec E cb op) :=
  (Trig.onPage (E := E) hcb).turnRel.exec f op (fun n _ => .of_p (setPage_open f n) (by unfold Fpdf.setPage; split <;> rfl) (by unfold Fpdf.setPage; split <;> rfl))
    (fun _ => .of_p (clearError_open f) rfl rfl) h1 h2

theorem reach_trig {E : Ext} {f g : Fpdf} (h : Reach E noClose f g) : Trig f g :=
  Reach.rel (G := noClose) Trig (fun f => ⟨.refl f, id⟩) (fun _ _ _ a b => ⟨a.op.trans b.op, fun x => b.geo (a.geo x)⟩)
    (fun f op cb hop hcb => exec_trig ⟨fun h hh s _ => hcb.header h hh s trivial, fun h hh b s _ => hcb.footer h hh b s trivial, hcb.accept⟩ f op hop.1 hop.2) h

end Verif.Proof
