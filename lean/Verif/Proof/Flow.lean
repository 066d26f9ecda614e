import Verif.Proof.OpEmits
/-
Flowing text and images: calls that may start pages. They are sequences of drawing steps (`FStep`), calls of the accept-page-break function, new
pages, and images drawn by name (`Flow`).
-/
namespace Verif.Proof
open Verif Verif.Model Verif.Spec

/-- The document without what a text step can change: content, cursor, word spacing, used runes, links of pages, error. -/
def core (f : Fpdf) : Fpdf :=
  { f with err := none, panicked := false, pages := [], buffer := [], p.x := 0, p.y := 0, p.lasth := 0, t.ws := 0, t.usedRunes := [], l.pageLinks := [] }

/-- Links are only added to the current page. -/
def LinkGrow (f g : Fpdf) : Prop := ∃ t, g.l.pageLinks = modifyAt f.page (· ++ t) f.l.pageLinks

theorem LinkGrow.of_eq {f g : Fpdf} (h : g.l.pageLinks = f.l.pageLinks) : LinkGrow f g := ⟨[], by rw [h, modifyAt_id _ _ _ (fun a => List.append_nil a)]⟩

theorem LinkGrow.trans {f g h : Fpdf} (hp : g.page = f.page) (h1 : LinkGrow f g) (h2 : LinkGrow g h) : LinkGrow f h := by
  obtain ⟨t, ht⟩ := h1
  obtain ⟨u, hu⟩ := h2
  refine ⟨t ++ u, ?_⟩
  rw [hu, ht, hp, modifyAt_modifyAt]
  simp only [List.append_assoc]

theorem LinkGrow.newLink (f : Fpdf) (x y w h : Rat) (l : Nat) (s : Bytes) : LinkGrow f (f.newLink x y w h l s) := ⟨_, rfl⟩

/-- A step that draws a cell, sets the word spacing, moves the cursor, or records an error. -/
structure FStep (f g : Fpdf) : Prop where
  emits : Emits f g
  core : core g = core f
  links : LinkGrow f g

theorem core_out (f : Fpdf) (s : Bytes) : core (f.out s) = core f := by unfold Fpdf.out; split <;> rfl

theorem links_out (f : Fpdf) (s : Bytes) : (f.out s).l.pageLinks = f.l.pageLinks := by unfold Fpdf.out; split <;> rfl

theorem FStep.refl (f : Fpdf) : FStep f f := ⟨Emits.refl f, rfl, .of_eq rfl⟩
theorem FStep.trans {f g h : Fpdf} (h1 : FStep f g) (h2 : FStep g h) : FStep f h :=
  ⟨h1.emits.trans h2.emits, h2.core.trans h1.core, .trans (frame_page h1.emits.frm.frame) h1.links h2.links⟩

/-- The image `info` is registered in the document. -/
def ImgReg (f : Fpdf) (info : ImageInfo) : Prop := ∃ k p, lookup k f.r.images = some p ∧ f.r.imgHeap[p]? = some info

/-- Flowing text and images. -/
inductive Flow (E : Ext) (cb : Cb) : Fpdf → Fpdf → Prop
  | refl (f : Fpdf) : Flow E cb f f
  | step {f g h : Fpdf} : Flow E cb f g → FStep g h → Flow E cb f h
  | accept {f g : Fpdf} : Flow E cb f g → g.inHeader = false ∧ g.inFooter = false → Flow E cb f (cb.accept g).2
  | page {f g h : Fpdf} (o : Bytes) (sz : Size) : Flow E cb f g → g.inHeader = false ∧ g.inFooter = false → (cb.accept g).1 = true → FStep (cb.accept g).2 h →
      Flow E cb f (h.addPageFormat E cb o sz)
  | img {f g : Fpdf} (info : ImageInfo) (a b c d : Rat) : Flow E cb f g → ImgReg f info →
      Flow E cb f (g.outf "q %.5f 0 0 %.5f %.5f %.5f cm /I%s Do Q" [.f a, .f b, .f c, .f d, .s info.i])

/-- Flows are within any reflexive, transitive relation that contains the elementary steps. -/
theorem Flow.rel {E : Ext} {cb : Cb} (R : Fpdf → Fpdf → Prop) (hrefl : ∀ f, R f f) (htrans : ∀ f g h, R f g → R g h → R f h)
    (hstep : ∀ f g, FStep f g → R f g) (hacc : ∀ f, R f (cb.accept f).2) (hpage : ∀ f o sz, R f (f.addPageFormat E cb o sz))
    (himg : ∀ f g info a b c d, R f g → ImgReg f info →
      R f (g.outf "q %.5f 0 0 %.5f %.5f %.5f cm /I%s Do Q" [.f a, .f b, .f c, .f d, .s info.i]))
    {f g : Fpdf} (h : Flow E cb f g) : R f g := by
  induction h with
  | refl => exact hrefl _
  | step _ h2 ih => exact htrans _ _ _ ih (hstep _ _ h2)
  | accept _ _ ih => exact htrans _ _ _ ih (hacc _)
  | page o sz _ _ _ s ih => exact htrans _ _ _ (htrans _ _ _ (htrans _ _ _ ih (hacc _)) (hstep _ _ s)) (hpage _ o sz)
  | img info a b c d _ h2 ih => exact himg _ _ _ _ _ _ _ ih h2

/-- A flow without images. -/
inductive TFlow (E : Ext) (cb : Cb) : Fpdf → Fpdf → Prop
  | refl (f : Fpdf) : TFlow E cb f f
  | step {f g h : Fpdf} : TFlow E cb f g → FStep g h → TFlow E cb f h
  | accept {f g : Fpdf} : TFlow E cb f g → g.inHeader = false ∧ g.inFooter = false → TFlow E cb f (cb.accept g).2
  | page {f g h : Fpdf} (o : Bytes) (sz : Size) : TFlow E cb f g → g.inHeader = false ∧ g.inFooter = false → (cb.accept g).1 = true → FStep (cb.accept g).2 h →
      TFlow E cb f (h.addPageFormat E cb o sz)

theorem TFlow.trans {E : Ext} {cb : Cb} {f g h : Fpdf} (h1 : TFlow E cb f g) (h2 : TFlow E cb g h) : TFlow E cb f h := by
  induction h2 with
  | refl => exact h1
  | step _ s ih => exact ih.step s
  | accept _ q ih => exact ih.accept q
  | page o sz _ q a s ih => exact ih.page o sz q a s

theorem TFlow.flow {E : Ext} {cb : Cb} {f g : Fpdf} (h : TFlow E cb f g) : Flow E cb f g := by
  induction h with
  | refl => exact .refl _
  | step _ s ih => exact ih.step s
  | accept _ q ih => exact ih.accept q
  | page o sz _ q a s ih => exact ih.page o sz q a s

theorem TFlow.of {E : Ext} {cb : Cb} {f g : Fpdf} (h : FStep f g) : TFlow E cb f g := (TFlow.refl f).step h

/-! ### Elementary steps -/

theorem FStep.upd {f g : Fpdf} (hq : quiet g = quiet f) (hr : rest g = rest f) (he : f.err ≠ none → g.err ≠ none) (hc : Proof.core g = Proof.core f)
    (hl : LinkGrow f g := by exact .of_eq rfl) : FStep f g :=
  ⟨Emits.upd hq hr he, hc, hl⟩

theorem FStep.ite {f g h : Fpdf} {c : Prop} [Decidable c] (h1 : c → FStep f g) (h2 : ¬ c → FStep f h) : FStep f (if c then g else h) := by
  split
  · exact h1 ‹_›
  · exact h2 ‹_›

section
variable (f : Fpdf)

theorem core_cellText (w h dx dy : Rat) (txt align : Bytes) : core (f.cellText w h dx dy txt align).1 = core f := by
  unfold Fpdf.cellText
  split
  · rfl
  · dsimp only; split <;> rfl

theorem core_cellContent (w h : Rat) (txt align : Bytes) (link : Nat) (ls : Bytes) : core (f.cellContent w h txt align link ls).1 = core f := by
  unfold Fpdf.cellContent
  split
  · dsimp only
    have h1 := core_cellText f w h (f.cellDx w txt align) (f.cellDy h align) txt align
    generalize f.cellText w h (f.cellDx w txt align) (f.cellDy h align) txt align = p at h1 ⊢
    obtain ⟨g, s, t⟩ := p
    dsimp only at h1 ⊢
    split
    · exact Eq.trans rfl h1
    · exact h1
  · rfl

theorem core_cellAdvance (w h : Rat) (ln : Int) : core (f.cellAdvance w h ln) = core f := by
  unfold Fpdf.cellAdvance
  dsimp only
  split
  · split <;> rfl
  · rfl

theorem links_cellText (w h dx dy : Rat) (txt align : Bytes) : (f.cellText w h dx dy txt align).1.l.pageLinks = f.l.pageLinks ∧ (f.cellText w h dx dy txt align).1.page = f.page := by
  unfold Fpdf.cellText
  split
  · exact ⟨rfl, rfl⟩
  · dsimp only; split <;> exact ⟨rfl, rfl⟩

theorem links_cellContent (w h : Rat) (txt align : Bytes) (link : Nat) (ls : Bytes) : LinkGrow f (f.cellContent w h txt align link ls).1 := by
  unfold Fpdf.cellContent
  split
  · dsimp only
    have h1 := links_cellText f w h (f.cellDx w txt align) (f.cellDy h align) txt align
    generalize f.cellText w h (f.cellDx w txt align) (f.cellDy h align) txt align = p at h1 ⊢
    obtain ⟨g, s, t⟩ := p
    dsimp only at h1 ⊢
    split
    · exact .trans h1.2 (.of_eq h1.1) (.newLink ..)
    · exact .of_eq h1.1
  · exact .of_eq rfl

theorem links_cellAdvance (w h : Rat) (ln : Int) : (f.cellAdvance w h ln).l.pageLinks = f.l.pageLinks := by
  unfold Fpdf.cellAdvance
  dsimp only
  split
  · split <;> rfl
  · rfl

theorem cellDraw_step (w h : Rat) (txt border : Bytes) (ln : Int) (align : Bytes) (fill : Bool) (link : Nat) (ls : Bytes) :
    FStep f (f.cellDraw w h txt border ln align fill link ls) := by
  refine ⟨cellDraw_emits f w h txt border ln align fill link ls, ?_, ?_⟩
  · unfold Fpdf.cellDraw
    dsimp only
    rw [core_cellAdvance]
    generalize (if w = 0 then f.p.w - f.p.rMargin - f.p.x else w) = w'
    split
    · rw [core_out, core_cellContent]
    · rw [core_cellContent]
  · unfold Fpdf.cellDraw LinkGrow
    dsimp only
    rw [links_cellAdvance]
    generalize (if w = 0 then f.p.w - f.p.rMargin - f.p.x else w) = w'
    split
    · rw [links_out]; exact links_cellContent f w' h txt align link ls
    · exact links_cellContent f w' h txt align link ls

theorem endWs_step : FStep f f.endWs := by
  refine ⟨endWs_emits f, ?_, ?_⟩
  · unfold Fpdf.endWs
    split
    · exact (core_out _ _).trans rfl
    · rfl
  · unfold Fpdf.endWs
    split
    · exact .of_eq ((links_out _ _).trans rfl)
    · exact .of_eq rfl

theorem tw_step (ws : Rat) : FStep f (({ f with t.ws := ws } : Fpdf).outf "%.3f Tw" [.f (ws * f.k)]) := by
  refine ⟨Emits.trans (g := { f with t.ws := ws }) (Emits.upd rfl rfl id) ?_, (core_out _ _).trans rfl, .of_eq ((links_out _ _).trans rfl)⟩
  outf

variable (E : Ext) (cb : Cb)

theorem cellBreak_flow (h : Rat) : TFlow E cb f (f.cellBreak E cb h).1 := by
  unfold Fpdf.cellBreak
  split
  · next hc =>
    have hq : f.inHeader = false ∧ f.inFooter = false := by simpa using hc.2
    dsimp only
    split
    · next ha =>
      have h1 : ∀ {g2 : Fpdf}, FStep (cb.accept f).2 g2 → ∀ o sz, TFlow E cb f (g2.addPageFormat E cb o sz) := fun s o sz => (TFlow.refl f).page o sz hq ha s
      generalize (cb.accept f).2 = g at h1 ⊢
      have h2 : FStep g (if g.t.ws > 0 then ({ g with t.ws := 0 } : Fpdf).outs "0 Tw" else g) := endWs_step g
      generalize (if g.t.ws > 0 then ({ g with t.ws := 0 } : Fpdf).outs "0 Tw" else g) = g2 at h2 ⊢
      have h3 := h1 h2 g2.p.curOrientation g2.p.curPageSize
      generalize g2.addPageFormat E cb g2.p.curOrientation g2.p.curPageSize = g3 at h3 ⊢
      split
      · exact h3
      · have h4 := h3.step (FStep.upd (g := { g3 with p.x := g.p.x }) rfl rfl id rfl)
        split
        · exact h4.step (tw_step _ _)
        · exact h4
    · exact (TFlow.refl f).accept hq
  · exact .refl f

theorem cellFormat_flow (w h : Rat) (txt border : Bytes) (ln : Int) (align : Bytes) (fill : Bool) (link : Nat) (ls : Bytes) :
    TFlow E cb f (f.cellFormat E cb w h txt border ln align fill link ls) := by
  unfold Fpdf.cellFormat
  split
  · exact .refl f
  split
  · exact .of (FStep.upd rfl rfl (by simp [Fpdf.assignErr]) rfl)
  · have h1 := cellBreak_flow f E cb h
    generalize f.cellBreak E cb h = p at h1 ⊢
    obtain ⟨g, b⟩ := p
    dsimp only at h1 ⊢
    split
    · exact h1.step (cellDraw_step _ _ _ _ _ _ _ _ _ _)
    · exact h1

theorem mcLoop_flow (P : Fpdf.McParams) (fuel : Nat) (j nl : Nat) (b : Bytes) : TFlow E cb f (Fpdf.mcLoop E cb P fuel f j nl b) := by
  induction fuel generalizing f j nl b with
  | zero => exact .refl f
  | succ fuel ih =>
    unfold Fpdf.mcLoop
    dsimp only
    split
    · exact ((TFlow.of (endWs_step f)).trans (cellFormat_flow _ E cb _ _ _ _ _ _ _ _ _)).trans (ih _ _ _ _)
    · exact ((TFlow.of (endWs_step f)).trans (cellFormat_flow _ E cb _ _ _ _ _ _ _ _ _)).trans (ih _ _ _ _)
    · refine TFlow.trans (TFlow.trans (TFlow.of (FStep.ite (fun _ => ?_) (fun _ => FStep.refl f))) (cellFormat_flow _ E cb _ _ _ _ _ _ _ _ _)) (ih _ _ _ _)
      exact tw_step f _
    · exact .of (FStep.upd rfl rfl (by simp [Fpdf.assignErr]) rfl)
    · exact ((TFlow.of (endWs_step f)).trans (cellFormat_flow _ E cb _ _ _ _ _ _ _ _ _)).step (FStep.upd rfl rfl id rfl)

theorem multiCell_flow (w h : Rat) (txt border align : Bytes) (fill : Bool) : TFlow E cb f (f.multiCell E cb w h txt border align fill) := by
  unfold Fpdf.multiCell
  split
  · exact .refl f
  · exact mcLoop_flow _ _ _ _ _ _ _ _

theorem wrReset_step (v : Fpdf.WrVars) : FStep f (f.wrReset v).1 := by
  unfold Fpdf.wrReset
  dsimp only
  split <;> exact FStep.upd rfl rfl id rfl

theorem wrLoop_flow (P : Fpdf.WrParams) (fuel : Nat) (v : Fpdf.WrVars) : TFlow E cb f (Fpdf.wrLoop E cb P fuel f v) := by
  induction fuel generalizing f v with
  | zero => exact .refl f
  | succ fuel ih =>
    unfold Fpdf.wrLoop
    split
    · split
      · exact cellFormat_flow _ E cb _ _ _ _ _ _ _ _ _
      · exact .refl f
    · split
      · exact ((cellFormat_flow _ E cb _ _ _ _ _ _ _ _ _).step (wrReset_step _ _)).trans (ih _ _)
      · dsimp only
        generalize (if _ = 32 then ({ v with sep := some v.i } : Fpdf.WrVars) else v) = v'
        split
        · exact .of (FStep.upd rfl rfl id rfl)
        · split
          · split
            · split
              · refine TFlow.trans ?_ (ih _ _)
                exact TFlow.of (FStep.upd rfl rfl id rfl)
              · exact ((cellFormat_flow _ E cb _ _ _ _ _ _ _ _ _).step (wrReset_step _ _)).trans (ih _ _)
            · exact ((cellFormat_flow _ E cb _ _ _ _ _ _ _ _ _).step (wrReset_step _ _)).trans (ih _ _)
          · exact ih _ _

theorem write_flow (h : Rat) (txt : Bytes) (link : Nat) (ls : Bytes) : TFlow E cb f (f.write E cb h txt link ls) := by
  unfold Fpdf.write
  dsimp only
  split
  · exact .of (FStep.upd rfl rfl id rfl)
  · exact wrLoop_flow _ _ _ _ _ _

theorem imageBreak_flow (h : Rat) : TFlow E cb f (f.imageBreak E cb h).1 := by
  unfold Fpdf.imageBreak
  split
  · next hc =>
    have hq : f.inHeader = false ∧ f.inFooter = false := by simpa using hc.2
    dsimp only
    split
    · next ha =>
      split
      · exact (TFlow.refl f).page _ _ hq ha (FStep.refl _)
      · exact ((TFlow.refl f).page _ _ hq ha (FStep.refl _)).step (FStep.upd rfl rfl id rfl)
    · exact (TFlow.refl f).accept hq
  · exact .refl f

theorem imageOut_flow (info : ImageInfo) (x y w h : Rat) (an fl : Bool) (link : Nat) (ls : Bytes) (hi : ImgReg f info) :
    Flow E cb f (f.imageOut E cb info x y w h an fl link ls) := by
  unfold Fpdf.imageOut
  dsimp only
  generalize hw : (Fpdf.imageSize f.k info w h) = sz
  generalize hp : (if fl = true then f.imageBreak E cb sz.2 else (f, true)) = p
  have h1 : Flow E cb f p.1 := by
    rw [← hp]
    split
    · exact (imageBreak_flow f E cb _).flow
    · exact .refl f
  split
  · generalize hq : (if fl = true then (({ p.1 with p.y := p.1.p.y + sz.2 } : Fpdf), p.1.p.y) else (p.1, y)) = q
    have h2 : Flow E cb f q.1 := by
      rw [← hq]
      split
      · exact h1.step (FStep.upd rfl rfl id rfl)
      · exact h1
    have h3 := fun a b c d => Flow.img info a b c d h2 hi
    split
    · exact (h3 _ _ _ _).step (FStep.upd rfl rfl id rfl (.newLink ..))
    · exact h3 _ _ _ _
  · exact h1

end

/-! ### The API calls that may start pages on their own -/

/-- `Cell…`, `MultiCell`, `Write…`, `WriteAligned`, `SubWrite`, `Image…`. -/
def flows : Op → Bool
  | .cell .. | .multiCell .. | .write .. | .writeAligned .. | .subWrite .. | .image .. => true
  | _ => false

/-- Setters used by these calls. -/
def helper : Op → Bool
  | .setLeftMargin _ | .setRightMargin _ | .setFontSize _ | .setXY .. | .registerImageFile .. => true
  | _ => false

theorem helper_stays {op : Op} (h : helper op = true) : staysOnPage op = true := by cases op <;> simp_all [helper, staysOnPage]
theorem helper_drawOk {op : Op} (h : helper op = true) (E : Ext) (f : Fpdf) : DrawOk E f op := by cases op <;> simp_all [helper, DrawOk]

/-- What a relation needs to contain the flowing calls. -/
structure FlowRel (E : Ext) (cb : Cb) (R : Fpdf → Fpdf → Prop) : Prop where
  refl : ∀ f, R f f
  trans : ∀ f g h, R f g → R g h → R f h
  step : ∀ f g, FStep f g → R f g
  accept : ∀ f, R f (cb.accept f).2
  page : ∀ f o sz, R f (f.addPageFormat E cb o sz)
  img : ∀ f g info a b c d, R f g → ImgReg f info → R f (g.outf "q %.5f 0 0 %.5f %.5f %.5f cm /I%s Do Q" [.f a, .f b, .f c, .f d, .s info.i])
  own : ∀ f op, helper op = true → R f (f.exec E cb op)

theorem FlowRel.flow {E : Ext} {cb : Cb} {R : Fpdf → Fpdf → Prop} (K : FlowRel E cb R) {f g : Fpdf} (h : Flow E cb f g) : R f g :=
  Flow.rel R K.refl K.trans K.step K.accept K.page K.img h

theorem FlowRel.foldl {E : Ext} {cb : Cb} {R : Fpdf → Fpdf → Prop} (K : FlowRel E cb R) {α} (F : Fpdf → α → Fpdf) (h : ∀ f a, R f (F f a)) (l : List α)
    (f : Fpdf) : R f (l.foldl F f) := by
  induction l generalizing f with
  | nil => exact K.refl f
  | cons a l ih => exact K.trans _ _ _ (h f a) (ih _)

/-- The flowing calls consist of flows and of calls of the setters used. -/
theorem exec_flow_of {E : Ext} {cb : Cb} {R : Fpdf → Fpdf → Prop} (hrefl : ∀ f, R f f) (htrans : ∀ f g h, R f g → R g h → R f h) (hflow : ∀ f g, Flow E cb f g → R f g)
    (hown : ∀ f op, helper op = true → R f (f.exec E cb op)) (f : Fpdf) (op : Op) (hop : flows op = true) : R f (f.exec E cb op) := by
  have fold : ∀ (l : List Bytes) (F : Fpdf → Bytes → Fpdf), (∀ g a, R g (F g a)) → ∀ g, R g (l.foldl F g) := by
    intro l F hF
    induction l with
    | nil => exact fun g => hrefl g
    | cons a l ih => exact fun g => htrans _ _ _ (hF g a) (ih _)
  have lm : ∀ f m, R f (f.setLeftMargin m) := fun f m => hown f (.setLeftMargin m) rfl
  have rm : ∀ f m, R f (f.setRightMargin m) := fun f m => hown f (.setRightMargin m) rfl
  have fs : ∀ f m, R f (f.setFontSize m) := fun f m => hown f (.setFontSize m) rfl
  have xy : ∀ f x y, R f (f.setXY x y) := fun f x y => hown f (.setXY x y) rfl
  have wr : ∀ f h t l ls, R f (f.write E cb h t l ls) := fun f h t l ls => hflow _ _ (write_flow f E cb h t l ls).flow
  cases op with
  | cell w h t b ln a fi l ls => exact hflow _ _ (cellFormat_flow f E cb w h t b ln a fi l ls).flow
  | multiCell w h t b a fi => exact hflow _ _ (multiCell_flow f E cb w h t b a fi).flow
  | write h t l ls => exact wr f h t l ls
  | writeAligned w lh t a =>
    show R f (f.writeAligned E cb w lh t a)
    unfold Fpdf.writeAligned
    dsimp only
    apply fold
    intro g line
    unfold Fpdf.writeAlignedLine
    dsimp only
    split
    · exact htrans _ _ _ (htrans _ _ _ (lm g _) (wr _ _ _ _ _)) (lm _ _)
    split
    · exact htrans _ _ _ (htrans _ _ _ (lm g _) (wr _ _ _ _ _)) (lm _ _)
    · exact htrans _ _ _ (htrans _ _ _ (rm g _) (wr _ _ _ _ _)) (rm _ _)
  | subWrite ht s sz off l ls =>
    show R f (f.subWrite E cb ht s sz off l ls)
    unfold Fpdf.subWrite
    split
    · exact hrefl f
    · dsimp only
      exact htrans _ _ _ (htrans _ _ _ (htrans _ _ _ (htrans _ _ _ (fs f _) (xy _ _ _)) (wr _ _ _ _ _)) (xy _ _ _)) (fs _ _)
  | image n p x y w h an fl l ls =>
    show R f (f.image E cb n p x y w h an fl l ls)
    unfold Fpdf.image
    dsimp only
    split
    · exact hrefl f
    · have h1 : R f (f.registerImageFile E n p.isSome p) := hown f (.registerImageFile n p.isSome p) rfl
      generalize f.registerImageFile E n p.isSome p = g at h1 ⊢
      split
      · exact h1
      · split
        · next info hinfo =>
          refine htrans _ _ _ h1 (hflow _ _ (imageOut_flow g E cb info x y w h an fl l ls ?_))
          obtain ⟨q, hq, hq2⟩ := Option.bind_eq_some_iff.mp hinfo
          exact ⟨n, q, hq, hq2⟩
        · exact h1
  | _ => simp [flows] at hop

theorem exec_flow {E : Ext} {cb : Cb} {R : Fpdf → Fpdf → Prop} (K : FlowRel E cb R) (f : Fpdf) (op : Op) (hop : flows op = true) : R f (f.exec E cb op) :=
  exec_flow_of K.refl K.trans (fun _ _ h => K.flow h) K.own f op hop

/-- The elementary kinds of calls. -/
theorem op_cases (op : Op) : staysOnPage op = true ∨ flows op = true ∨ op = .addPage ∨ (∃ o sz, op = .addPageFormat o sz) ∨ (∃ n, op = .setPage n) ∨
    op = .close ∨ (∃ b, op = .output b) ∨ op = .clearError := by
  cases op <;> simp [staysOnPage, flows]

end Verif.Proof
