import Verif.Proof.Cells
import Verif.Props.Settings
import Verif.Proof.Drawing
import Mathlib.Tactic.Positivity
import Mathlib.Tactic.FieldSimp
import Mathlib.Tactic.NormNum
/-
C28: cells and images break pages exactly when they would overflow. C29: the cursor moves as documented.
-/
namespace Verif.Props
open Verif Verif.Model Verif.Spec Verif.Proof

/-- The lowest position content may reach: the page height less the bottom margin. -/
def bottomLimit (f : Fpdf) : Rat := f.getPageSize.2 - f.getMargins.2.2.2

/-- Content of height `h` at the cursor does not fit on the page, it is outside header and footer, and the accept-page-break function agrees. -/
def Breaks (cb : Cb) (f : Fpdf) (h : Rat) : Prop :=
  f.getY + h > bottomLimit f ∧ f.inHeader = false ∧ f.inFooter = false ∧ (cb.accept f).1 = true

instance (cb : Cb) (f : Fpdf) (h : Rat) : Decidable (Breaks cb f h) := by unfold Breaks; infer_instance

/-- The position of a cell's cursor afterwards, for a cell of width `w` and height `h` drawn at `x`, `y`, with left margin `lm`. -/
def moved (x y w h lm : Rat) (ln : Int) : Rat × Rat :=
  if ln ≤ 0 then (x + w, y) else if ln = 1 then (lm, y + h) else (x, y + h)

/-- The width of a cell: up to the right margin if 0 is asked for. -/
def cellWidth (w x pageW rm : Rat) : Rat := if w = 0 then pageW - rm - x else w

theorem breaks_iff {cb : Cb} {f : Fpdf} (hg : Geo f) (h : Rat) : Breaks cb f h ↔ (f.p.y + h > f.p.pageBreakTrigger ∧ ¬ f.inHeader = true ∧ ¬ f.inFooter = true) ∧ (cb.accept f).1 = true := by
  unfold Breaks bottomLimit Fpdf.getY Fpdf.getPageSize Fpdf.getMargins
  rw [hg.trig]
  simp [and_assoc]

theorem cellContent_p (f : Fpdf) (w h : Rat) (txt align : Bytes) (link : Nat) (ls : Bytes) : (f.cellContent w h txt align link ls).1.p = f.p := by
  have h1 : ∀ dx dy, (f.cellText w h dx dy txt align).1.p = f.p := by
    intro dx dy
    unfold Fpdf.cellText
    split
    · rfl
    · dsimp only; split <;> rfl
  unfold Fpdf.cellContent
  split
  · dsimp only
    have h2 := h1 (f.cellDx w txt align) (f.cellDy h align)
    generalize f.cellText w h (f.cellDx w txt align) (f.cellDy h align) txt align = p at h2 ⊢
    split
    · exact h2
    · exact h2
  · rfl

/-- What drawing a cell does to the cursor. -/
theorem cellDraw_p (f : Fpdf) (w h : Rat) (txt border : Bytes) (ln : Int) (align : Bytes) (fill : Bool) (link : Nat) (ls : Bytes) :
    (f.cellDraw w h txt border ln align fill link ls).p =
      { f.p with lasth := h, x := (moved f.p.x f.p.y (cellWidth w f.p.x f.p.w f.p.rMargin) h f.p.lMargin ln).1,
                 y := (moved f.p.x f.p.y (cellWidth w f.p.x f.p.w f.p.rMargin) h f.p.lMargin ln).2 } := by
  unfold Fpdf.cellDraw
  dsimp only
  have hw : (if w = 0 then f.p.w - f.p.rMargin - f.p.x else w) = cellWidth w f.p.x f.p.w f.p.rMargin := rfl
  rw [hw]
  generalize cellWidth w f.p.x f.p.w f.p.rMargin = w'
  have hq : (if (f.cellRect w' h border fill ++ f.cellBorder w' h border ++ (f.cellContent w' h txt align link ls).2).length > 0
      then (f.cellContent w' h txt align link ls).1.out (f.cellRect w' h border fill ++ f.cellBorder w' h border ++ (f.cellContent w' h txt align link ls).2)
      else (f.cellContent w' h txt align link ls).1).p = f.p := by
    rw [ite_out_p, cellContent_p]
  generalize (if (f.cellRect w' h border fill ++ f.cellBorder w' h border ++ (f.cellContent w' h txt align link ls).2).length > 0
      then (f.cellContent w' h txt align link ls).1.out (f.cellRect w' h border fill ++ f.cellBorder w' h border ++ (f.cellContent w' h txt align link ls).2)
      else (f.cellContent w' h txt align link ls).1) = g at hq ⊢
  unfold Fpdf.cellAdvance moved
  dsimp only
  rw [← hq]
  by_cases hln : ln > 0
  · have hln' : ¬ ln ≤ 0 := by omega
    by_cases h1 : ln = 1
    · simp only [if_pos hln, if_neg hln', if_pos h1]
    · simp only [if_pos hln, if_neg hln', if_neg h1]
  · have hln' : ln ≤ 0 := by omega
    simp only [if_neg hln, if_pos hln']

/-- The page-break step of a cell, when the accept-page-break function leaves the document alone. -/
theorem cellBreak_cases (E : Ext) (cb : Cb) (f : Fpdf) (h : Rat) (hg : Geo f) (hacc : (cb.accept f).2 = f) :
    (¬ Breaks cb f h ∧ f.cellBreak E cb h = (f, true)) ∨
    (Breaks cb f h ∧ ∃ f1, FStep f f1 ∧ f1.p = f.p ∧ f1.err = f.err ∧
      (((f1.addPageFormat E cb f.p.curOrientation f.p.curPageSize).err ≠ none ∧ f.cellBreak E cb h = (f1.addPageFormat E cb f.p.curOrientation f.p.curPageSize, false)) ∨
       ((f1.addPageFormat E cb f.p.curOrientation f.p.curPageSize).err = none ∧ ∃ d, f.cellBreak E cb h = (d, true) ∧
         d.p = { (f1.addPageFormat E cb f.p.curOrientation f.p.curPageSize).p with x := f.p.x } ∧
         FStep (f1.addPageFormat E cb f.p.curOrientation f.p.curPageSize) d))) := by
  by_cases hb : Breaks cb f h
  · refine .inr ⟨hb, ?_⟩
    have hb' := (breaks_iff hg h).mp hb
    unfold Fpdf.cellBreak
    rw [if_pos hb'.1]
    dsimp only
    rw [if_pos hb'.2, hacc]
    have h2 : FStep f (if f.t.ws > 0 then ({ f with t.ws := 0 } : Fpdf).outs "0 Tw" else f) := endWs_step f
    have h3 : (if f.t.ws > 0 then ({ f with t.ws := 0 } : Fpdf).outs "0 Tw" else f).p = f.p := by
      split
      · exact out_p _ _
      · rfl
    have h4 : (if f.t.ws > 0 then ({ f with t.ws := 0 } : Fpdf).outs "0 Tw" else f).err = f.err := by
      split
      · unfold Fpdf.outs Fpdf.out; split <;> rfl
      · rfl
    generalize (if f.t.ws > 0 then ({ f with t.ws := 0 } : Fpdf).outs "0 Tw" else f) = f1 at h2 h3 h4 ⊢
    refine ⟨f1, h2, h3, h4, ?_⟩
    rw [h3]
    generalize f1.addPageFormat E cb f.p.curOrientation f.p.curPageSize = a
    by_cases ha : a.err = none
    · refine .inr ⟨ha, ?_⟩
      rw [if_neg (by simp [ha])]
      split
      · refine ⟨_, rfl, ?_, ?_⟩
        · exact out_p _ _
        · exact (FStep.upd (f := a) (g := { a with p.x := f.p.x }) rfl rfl id rfl).trans (tw_step _ _)
      · exact ⟨_, rfl, rfl, FStep.upd rfl rfl id rfl⟩
    · exact .inl ⟨ha, by rw [if_pos ha]⟩
  · refine .inl ⟨hb, ?_⟩
    unfold Fpdf.cellBreak
    split
    · next hc =>
      dsimp only
      rw [if_neg (fun ha => hb ((breaks_iff hg h).mpr ⟨hc, ha⟩)), hacc]
    · rfl


/-- The assumptions under which a call is considered: an error-free document made by some history of calls from a new one, with call-backs that start no pages on
their own, and an accept-page-break function that only answers. -/
structure Ready (E : Ext) (cb : Cb) (f : Fpdf) : Prop where
  hist : ∃ o u s sz, (Fpdf.new o u s sz).err = none ∧ Reach E noClose (Fpdf.new o u s sz) f
  ok : f.err = none
  cbs : CbReach E inPlace cb
  answers : (cb.accept f).2 = f

theorem Ready.geo {E : Ext} {cb : Cb} {f : Fpdf} (R : Ready E cb f) : Geo f := by
  obtain ⟨o, u, s, sz, h1, h2⟩ := R.hist
  exact (reach_trig h2).geo (new_geo o u s sz h1).1

theorem Ready.pages {E : Ext} {cb : Cb} {f : Fpdf} (R : Ready E cb f) : f.page < f.pages.length := by
  obtain ⟨o, u, s, sz, h1, h2⟩ := R.hist
  have h3 := new_open o u s sz
  exact ((reach_open h2).page (by rw [h3.2.2.2.1, h3.2.2.2.2.1]; decide)).1

/-- Without a header function, a new page is begun at the top margin. -/
theorem newPage_top' {E : Ext} {cb : Cb} (cbs : CbReach E inPlace cb) (hh : cb.header = none) {f1 : Fpdf} (hf1 : f1.err = none) {o : Bytes} {sz : Size} (ha : (f1.addPageFormat E cb o sz).err = none) :
    (f1.addPageFormat E cb o sz).p.y = (f1.addPageFormat E cb o sz).p.tMargin := by
  rw [addPageFormat_home hh f1 _ _ hf1]
  refine (beginpage_xy _ _ _ ?_).2
  by_contra hc
  have h4 : (f1.leavePage cb).page ≠ 0 ∨ (f1.leavePage cb).err = none := leavePage_page' (E := E)
    ⟨fun h hh s _ => reach_open (inPlace_noClose (cbs.header h hh s trivial)), fun h hh b s _ => reach_open (inPlace_noClose (cbs.footer h hh b s trivial)),
      fun s => reach_open (inPlace_noClose (cbs.accept s))⟩ f1 hf1
  have h5 := h4.resolve_right hc
  have ht : at_ ((f1.leavePage cb).beginpage o sz) (f1.addPageFormat E cb o sz) :=
    tail_of (R := at_) (fun _ _ _ => at_.trans) (fun _ _ => at_.of_frm) (fun f _ => runHeader_stay (cbs.rel fun _ _ => reach_stay) f) f1 _ _ hf1
      (by rw [beginpage_of_err _ _ _ hc]; exact h5)
  exact ht.2.2 (by rw [beginpage_of_err _ _ _ hc]; exact hc) ha

theorem newPage_top {E : Ext} {cb : Cb} {f : Fpdf} (R : Ready E cb f) (hh : cb.header = none) {o : Bytes} {sz : Size} (ha : (f.addPageFormat E cb o sz).err = none) :
    (f.addPageFormat E cb o sz).p.y = (f.addPageFormat E cb o sz).p.tMargin := newPage_top' R.cbs hh R.ok ha

/-- **C28** A cell starts a new page exactly when it would reach below the bottom margin, outside header and footer, and the accept-page-break function agrees; then it starts
exactly one page, which becomes the current one. -/
theorem C28_cell (E : Ext) (cb : Cb) (f : Fpdf) (R : Ready E cb f) (w h : Rat) (txt border : Bytes) (ln : Int) (align : Bytes) (fill : Bool) (link : Nat) (ls : Bytes)
    (hok : (f.exec E cb (.cell w h txt border ln align fill link ls)).err = none) :
    (f.exec E cb (.cell w h txt border ln align fill link ls)).pageCount = f.pageCount + (if Breaks cb f h then 1 else 0) ∧
    (f.exec E cb (.cell w h txt border ln align fill link ls)).pageNo = (if Breaks cb f h then f.pageCount + 1 else f.pageNo) := by
  revert hok
  show (f.cellFormat E cb w h txt border ln align fill link ls).err = none → (f.cellFormat E cb w h txt border ln align fill link ls).pages.length - 1 = _ ∧
    (f.cellFormat E cb w h txt border ln align fill link ls).page = _
  unfold Fpdf.cellFormat
  rw [if_neg (by simp [R.ok])]
  split
  · intro hok; simp [Fpdf.assignErr] at hok
  · rcases cellBreak_cases E cb f h R.geo R.answers with ⟨hb, he⟩ | ⟨hb, f1, s1, p1, e1, ⟨ha, he⟩ | ⟨ha, d, he, -, hd⟩⟩
    · rw [he]
      dsimp only
      rw [if_pos rfl, if_neg hb, if_neg hb]
      intro _
      have hs := (cellDraw_step f w h txt (toUpper border) ln align fill link ls).emits.frm
      exact ⟨by rw [hs.len]; rfl, frame_page hs.frame⟩
    · rw [he]
      dsimp only
      rw [if_neg (by decide)]
      exact fun h => absurd h ha
    · rw [he]
      dsimp only
      rw [if_pos rfl, if_pos hb, if_pos hb]
      intro _
      have hs := (cellDraw_step d w h txt (toUpper border) ln align fill link ls).emits.frm
      have hl := s1.emits.frm.len
      have hp := R.pages
      obtain ⟨c1, c2⟩ := addPageFormat_count (R.cbs.rel fun _ _ => reach_stay) f1 _ _ (by omega) ha
      have h3 := hd.emits.frm
      have e : f.pageCount = f.pages.length - 1 := rfl
      refine ⟨?_, ?_⟩
      · rw [hs.len, h3.len, c2, hl, e]; omega
      · rw [frame_page hs.frame, frame_page h3.frame, c1, hl, e]; omega

/-- **C28** While the header or footer function is running, nothing but an explicit `AddPage…` or `SetPage` changes the page or starts one: there, cells, text and images never break pages. -/
theorem C28_header_footer (E : Ext) (f g : Fpdf) (hq : f.inHeader = true ∨ f.inFooter = true) (h : Reach E inPlace f g) : g.pageNo = f.pageNo ∧ g.pageCount = f.pageCount := by
  obtain ⟨a, b, -, -⟩ := (reach_stay h).same hq
  exact ⟨a, by unfold Fpdf.pageCount; rw [b]⟩

/-- **C28/C29** Where a cell is drawn, and where the cursor is afterwards: a cell that does not break the page is drawn at the cursor; a cell that does is drawn at the same
abscissa, without header function at the top margin of the new page. The cursor then moves according to `ln`. -/
theorem C29_cell (E : Ext) (cb : Cb) (f : Fpdf) (R : Ready E cb f) (hh : cb.header = none) (w h : Rat) (txt border : Bytes) (ln : Int) (align : Bytes) (fill : Bool) (link : Nat) (ls : Bytes)
    (g : Fpdf) (hg : g = f.exec E cb (.cell w h txt border ln align fill link ls)) (hok : g.err = none) :
    g.getXY = moved f.getX (if Breaks cb f h then g.getMargins.2.1 else f.getY) (cellWidth w f.getX g.getPageSize.1 g.getMargins.2.2.1) h g.getMargins.1 ln ∧
    bottomLimit g = g.p.pageBreakTrigger ∧ g.p.lasth = h := by
  have hgeo : Geo g := by
    obtain ⟨o, u, s, sz, h1, h2⟩ := R.hist
    have h3 : Reach E noClose f g := by
      rw [hg]
      exact .step _ cb (.refl f) ⟨by simp, by simp⟩ (fun h hh s _ => inPlace_noClose (R.cbs.header h hh s trivial)) (fun h hh b s _ => inPlace_noClose (R.cbs.footer h hh b s trivial))
        (fun s => inPlace_noClose (R.cbs.accept s))
    exact (reach_trig (h2.trans h3)).geo (new_geo o u s sz h1).1
  have key : g.getXY = moved f.getX (if Breaks cb f h then g.getMargins.2.1 else f.getY) (cellWidth w f.getX g.getPageSize.1 g.getMargins.2.2.1) h g.getMargins.1 ln ∧ g.p.lasth = h := by
    revert hok
    have hg' : g = f.cellFormat E cb w h txt border ln align fill link ls := hg
    unfold Fpdf.cellFormat at hg'
    rw [if_neg (by simp [R.ok])] at hg'
    split at hg'
    · intro hok; rw [hg'] at hok; simp [Fpdf.assignErr] at hok
    · rcases cellBreak_cases E cb f h R.geo R.answers with ⟨hb, he⟩ | ⟨hb, f1, s1, p1, e1, ⟨ha, he⟩ | ⟨ha, d, he, dp, hd⟩⟩
      · rw [he] at hg'
        dsimp only at hg'
        rw [if_pos rfl] at hg'
        intro _
        have hp := cellDraw_p f w h txt (toUpper border) ln align fill link ls
        rw [← hg'] at hp
        rw [if_neg hb]
        unfold Fpdf.getXY Fpdf.getX Fpdf.getY Fpdf.getPageSize Fpdf.getMargins
        rw [hp]
        exact ⟨rfl, rfl⟩
      · rw [he] at hg'
        dsimp only at hg'
        rw [if_neg (by decide)] at hg'
        intro h; rw [hg'] at h; exact absurd h ha
      · rw [he] at hg'
        dsimp only at hg'
        rw [if_pos rfl] at hg'
        intro _
        have hp := cellDraw_p d w h txt (toUpper border) ln align fill link ls
        rw [← hg'] at hp
        rw [if_pos hb]
        have hy : d.p.y = d.p.tMargin := by
          rw [dp]
          show (f1.addPageFormat E cb f.p.curOrientation f.p.curPageSize).p.y = (f1.addPageFormat E cb f.p.curOrientation f.p.curPageSize).p.tMargin
          have hf1 : f1.err = none := e1.trans R.ok
          exact newPage_top' R.cbs hh hf1 ha
        have hx : d.p.x = f.p.x := by rw [dp]
        unfold Fpdf.getXY Fpdf.getX Fpdf.getPageSize Fpdf.getMargins
        rw [hp]
        dsimp only
        rw [hx, hy]
        exact ⟨rfl, rfl⟩
  refine ⟨key.1, ?_, key.2⟩
  unfold bottomLimit Fpdf.getPageSize Fpdf.getMargins
  rw [hgeo.trig]

/-- **C28** With automatic page breaks on (the default accept-page-break function), outside header and footer and without header function, no cell that fits between the top
margin and the bottom margin of its page is drawn below the bottom margin. -/
theorem C28_fits (E : Ext) (cb : Cb) (f : Fpdf) (R : Ready E cb f) (hh : cb.header = none) (w h : Rat) (txt border : Bytes) (ln : Int) (align : Bytes) (fill : Bool) (link : Nat) (ls : Bytes)
    (hq : f.inHeader = false ∧ f.inFooter = false) (hauto : f.getAutoPageBreak.1 = true) (hdef : cb.accept = ({} : Cb).accept)
    (g : Fpdf) (hg : g = f.exec E cb (.cell w h txt border ln align fill link ls)) (hok : g.err = none)
    (hfit : g.getMargins.2.1 + h ≤ bottomLimit g) :
    (if ln ≤ 0 then g.getY + h else g.getY) ≤ bottomLimit g := by
  have hp := (C29_cell E cb f R hh w h txt border ln align fill link ls g hg hok).1
  have hy : g.getY = (moved f.getX (if Breaks cb f h then g.getMargins.2.1 else f.getY) (cellWidth w f.getX g.getPageSize.1 g.getMargins.2.2.1) h g.getMargins.1 ln).2 := by
    rw [← hp]; rfl
  rw [hy]
  by_cases hb : Breaks cb f h
  · rw [if_pos hb]
    unfold moved
    split
    · exact hfit
    · split <;> exact hfit
  · have hsame : bottomLimit g = bottomLimit f := by
      have hg' : g = f.cellFormat E cb w h txt border ln align fill link ls := hg
      unfold Fpdf.cellFormat at hg'
      rw [if_neg (by simp [R.ok])] at hg'
      split at hg'
      · rw [hg'] at hok; simp [Fpdf.assignErr] at hok
      · rcases cellBreak_cases E cb f h R.geo R.answers with ⟨-, he⟩ | ⟨hb', -⟩
        · rw [he] at hg'
          dsimp only at hg'
          rw [if_pos rfl] at hg'
          have hp := cellDraw_p f w h txt (toUpper border) ln align fill link ls
          rw [← hg'] at hp
          unfold bottomLimit Fpdf.getPageSize Fpdf.getMargins
          rw [hp]
        · exact absurd hb' hb
    rw [if_neg hb, hsame]
    have h1 : f.getY + h ≤ bottomLimit f := by
      by_contra hc
      refine hb ⟨not_le.mp hc, hq.1, hq.2, ?_⟩
      rw [hdef]; exact hauto
    unfold moved
    split
    · exact h1
    · split <;> exact h1

/-! ### Moving the cursor -/

/-- **C29** `Ln`: to the left margin, down by the height given, or by the height of the last cell. -/
theorem C29_ln (E : Ext) (cb : Cb) (f : Fpdf) (h : Rat) :
    (f.exec E cb (.ln h)).getXY = (f.getMargins.1, f.getY + if h < 0 then f.p.lasth else h) := by
  show (f.ln h).getXY = _
  unfold Fpdf.ln Fpdf.getXY
  dsimp only
  split <;> rfl

/-- **C29** `Ln(-1)` after a cell goes down by the height of that cell. -/
theorem C29_cell_ln (E : Ext) (cb : Cb) (f : Fpdf) (R : Ready E cb f) (hh : cb.header = none) (w h : Rat) (txt border : Bytes) (ln : Int) (align : Bytes) (fill : Bool) (link : Nat) (ls : Bytes)
    (g : Fpdf) (hg : g = f.exec E cb (.cell w h txt border ln align fill link ls)) (hok : g.err = none) (v : Rat) (hv : v < 0) :
    (g.exec E cb (.ln v)).getXY = (g.getMargins.1, g.getY + h) := by
  rw [C29_ln, if_pos hv, (C29_cell E cb f R hh w h txt border ln align fill link ls g hg hok).2.2]

/-- **C29** `SetX`, `SetY` (to the left margin), `SetXY`, `SetHomeXY`: negative values count from the right and lower edges of the page. -/
theorem C29_set (E : Ext) (cb : Cb) (f : Fpdf) (x y : Rat) :
    (f.exec E cb (.setX x)).getXY = (if x < 0 then f.getPageSize.1 + x else x, f.getY) ∧
    (f.exec E cb (.setY y)).getXY = (f.getMargins.1, if y < 0 then f.getPageSize.2 + y else y) ∧
    (f.exec E cb (.setXY x y)).getXY = (if x < 0 then f.getPageSize.1 + x else x, if y < 0 then f.getPageSize.2 + y else y) ∧
    (0 ≤ f.getMargins.1 → 0 ≤ f.getMargins.2.1 → (f.exec E cb .setHomeXY).getXY = (f.getMargins.1, f.getMargins.2.1)) := by
  have e : ∀ v w : Rat, (if v ≥ 0 then v else w + v) = if v < 0 then w + v else v := by
    intro v w
    by_cases h : v < 0
    · rw [if_pos h, if_neg (by linarith)]
    · rw [if_neg h, if_pos (by linarith)]
  refine ⟨?_, ?_, ?_, ?_⟩
  · show (f.setX x).getXY = _
    unfold Fpdf.setX Fpdf.getXY; dsimp only; rw [e]; rfl
  · show (f.setY y).getXY = _
    unfold Fpdf.setY Fpdf.getXY; dsimp only; rw [e]; rfl
  · show (f.setXY x y).getXY = _
    unfold Fpdf.setXY Fpdf.setX Fpdf.setY Fpdf.getXY; dsimp only; rw [e, e]; rfl
  · intro h1 h2
    show (f.setHomeXY).getXY = _
    have h1' : f.p.lMargin ≥ 0 := h1
    have h2' : f.p.tMargin ≥ 0 := h2
    unfold Fpdf.setHomeXY Fpdf.setX Fpdf.setY Fpdf.getXY; dsimp only; rw [if_pos h1', if_pos h2']; rfl

/-! ### Images -/

/-- **C40** The size of an image is as documented, for every image with pixels and a resolution. -/
theorem C40_size (k : Rat) (info : ImageInfo) (w h : Rat) (hk : 0 < k) (hw : 0 < info.w) (hh : 0 < info.h) (hd : 0 < info.dpi) :
    Fpdf.imageSize k info w h = extent k info.dpi info.w info.h w h := by
  have hax : ∀ px v : Rat, (if (if v = -1 then -info.dpi else v) < 0 then -px * 72 / (if v = -1 then -info.dpi else v) / k else (if v = -1 then -info.dpi else v)) = axis k info.dpi px v := by
    intro px v
    unfold axis
    by_cases h1 : v = -1
    · rw [if_pos h1, if_pos (by linarith), if_pos h1, neg_mul, neg_div_neg_eq]
    · rw [if_neg h1, if_neg h1]
      by_cases h2 : v < 0
      · rw [if_pos h2, if_pos h2, neg_mul, div_neg, neg_div]
      · rw [if_neg h2, if_neg h2]
  have hpos : ∀ px v : Rat, 0 < px → v ≠ 0 → axis k info.dpi px v ≠ 0 := by
    intro px v h0 h1
    unfold axis
    split
    · positivity
    · split
      · next h3 => have : 0 < -v := by linarith
                   positivity
      · exact h1
  have h0 : ∀ px : Rat, axis k info.dpi px 0 = 0 := by intro px; unfold axis; norm_num
  have h96 : ∀ px : Rat, axis k info.dpi px (-96) = px * 72 / 96 / k := by intro px; unfold axis; norm_num
  unfold Fpdf.imageSize extent
  dsimp only
  by_cases hz : w = 0 ∧ h = 0
  · rw [if_pos hz, if_pos hz]
    dsimp only
    rw [hax, hax, if_neg (hpos _ _ hw (by norm_num)), if_neg (hpos _ _ hh (by norm_num)), h96, h96]
  · rw [if_neg hz, if_neg hz]
    dsimp only
    rw [hax, hax]
    by_cases h1 : w = 0
    · have h2 : h ≠ 0 := fun h2 => hz ⟨h1, h2⟩
      rw [if_pos h1, h1, h0, if_pos rfl, if_neg (hpos _ _ hh h2)]
    · rw [if_neg h1, if_neg (hpos _ _ hw h1)]
      by_cases h2 : h = 0
      · rw [if_pos h2, h2, h0, if_pos rfl]
      · rw [if_neg h2, if_neg (hpos _ _ hh h2)]

/-- **C40** With a width or height of 0, the image keeps its proportions. -/
theorem C40_aspect (k dpi pw ph w h : Rat) (hk : 0 < k) (hw : 0 < pw) (hh : 0 < ph) (hd : 0 < dpi) (hz : w = 0 ∨ h = 0) :
    (extent k dpi pw ph w h).1 * ph = (extent k dpi pw ph w h).2 * pw := by
  unfold extent
  split
  · field_simp
  · split
    · dsimp only; field_simp
    · split
      · dsimp only; field_simp
      · next h1 h2 h3 => exact absurd hz (by tauto)

theorem reach_ob {E : Ext} {f g : Fpdf} (h : Reach E inPlace f g) : OB f g :=
  Reach.rel (G := inPlace) OB (fun f => ⟨Open.refl f, Buf.refl f⟩) (fun _ _ _ a b => a.trans b) (fun f op cb hop hcb => by
    have hcb' : Cb.Rel (fun s => s.page ≠ 0) OB cb := ⟨fun h hh s _ => hcb.header h hh s trivial, fun h hh b s _ => hcb.footer h hh b s trivial, hcb.accept⟩
    obtain ⟨-, -, -, h1, h2, h3⟩ := hop
    exact (OB.turnRel (E := E) hcb').exec f op (fun n _ => setPage_ob f n) (fun h => absurd h h3) h1 h2) h

/-- Names of images consist of hexadecimal digits. -/
def ImgNames (l : List ImageInfo) : Prop := ∀ im ∈ l, ∀ c ∈ im.i, isRegular c = true

/-- The page-break step of an image. -/
theorem imageBreak_cases (E : Ext) (cb : Cb) (f : Fpdf) (h : Rat) (hg : Geo f) (hacc : (cb.accept f).2 = f) :
    (¬ Breaks cb f h ∧ f.imageBreak E cb h = (f, true)) ∨
    (Breaks cb f h ∧ (((f.addPageFormat E cb f.p.curOrientation f.p.curPageSize).err ≠ none ∧ f.imageBreak E cb h = (f.addPageFormat E cb f.p.curOrientation f.p.curPageSize, false)) ∨
       ((f.addPageFormat E cb f.p.curOrientation f.p.curPageSize).err = none ∧
         f.imageBreak E cb h = ({ (f.addPageFormat E cb f.p.curOrientation f.p.curPageSize) with p.x := f.p.x }, true)))) := by
  by_cases hb : Breaks cb f h
  · refine .inr ⟨hb, ?_⟩
    have hb' := (breaks_iff hg h).mp hb
    unfold Fpdf.imageBreak
    rw [if_pos hb'.1]
    dsimp only
    rw [if_pos hb'.2, hacc]
    generalize f.addPageFormat E cb f.p.curOrientation f.p.curPageSize = a
    by_cases ha : a.err = none
    · exact .inr ⟨ha, by rw [if_neg (by simp [ha])]⟩
    · exact .inl ⟨ha, by rw [if_pos ha]⟩
  · refine .inl ⟨hb, ?_⟩
    unfold Fpdf.imageBreak
    split
    · next hc =>
      dsimp only
      rw [if_neg (fun ha => hb ((breaks_iff hg h).mpr ⟨hc, ha⟩)), hacc]
    · rfl

/-- The instructions that draw an image of the size `w`, `h` at `x`, `y`. -/
def drawsImage (g : Fpdf) (x y w h : Rat) (id : Bytes) : List (List Want × String) :=
  [([], "q"), ([.num 5 (px g w), .num 0 0, .num 0 0, .num 5 (px g h), .num 5 (px g x), .num 5 (py g (y + h))], "cm"), ([.name (B "I" ++ id)], "Do"), ([], "Q")]

theorem drawsImage_frag (g : Fpdf) (x y w h : Rat) (id : Bytes) (hi : ∀ c ∈ id, isRegular c = true) :
    Frag (sprintf "q %.5f 0 0 %.5f %.5f %.5f cm /I%s Do Q" [.f (w * g.k), .f (h * g.k), .f (x * g.k), .f ((g.p.h - (y + h)) * g.k), .s id]) (written (drawsImage g x y w h id)) := by
  have h0 : fmtF 0 0 = B "0" := by decide +kernel
  simp only [written, drawsImage, List.map_cons, List.map_nil, Want.tok, Proof.px, Proof.py, Fpdf.getConversionRatio, Fpdf.getPageSize, h0]
  refine sprintf_frag "q %.5f 0 0 %.5f %.5f %.5f cm /I%s Do Q" [.f _, .f _, .f _, .f _, .reg id] rfl ?_
  intro x hx
  simp only [List.mem_cons, List.not_mem_nil, or_false] at hx
  rcases hx with rfl | rfl | rfl | rfl | rfl
  · trivial
  · trivial
  · trivial
  · trivial
  · exact hi

theorem hexEnc_regular' (b : Bytes) : ∀ c ∈ hexEnc b, isRegular c = true := hexEnc_regular b

/-- Images are only added, with names of hexadecimal digits. -/
def ImgGrow (a b : List ImageInfo) : Prop := ∃ add, b = a ++ add ∧ ImgNames add

theorem imgs_own (E : Ext) (cb : Cb) (f : Fpdf) (op : Op) (hs : staysOnPage op = true) : ImgGrow f.r.imgHeap (f.exec E cb op).r.imgHeap := by
  have hreg : ∀ name parsed, ImgGrow f.r.imgHeap (f.registerImage E name parsed).r.imgHeap := by
    intro name parsed
    unfold Fpdf.registerImage
    split
    · exact ⟨[], by simp, by simp [ImgNames]⟩
    · split
      · exact ⟨[], by simp, by simp [ImgNames]⟩
      · split
        · refine ⟨[], ?_, by simp [ImgNames]⟩
          unfold Fpdf.assignErr; simp
        · next info =>
          dsimp only
          refine ⟨[{ { info with n := 0 } with i := hexEnc (E.imgHash { info with n := 0 }) }], ?_, ?_⟩
          · split <;> rfl
          · intro im him
            rw [List.mem_singleton.mp him]
            exact hexEnc_regular' _
  by_cases h1 : ∃ n p, op = .registerImage n p
  · obtain ⟨n, p, rfl⟩ := h1
    exact hreg n p
  by_cases h2 : ∃ n o p, op = .registerImageFile n o p
  · obtain ⟨n, o, p, rfl⟩ := h2
    show ImgGrow _ (f.registerImageFile E n o p).r.imgHeap
    unfold Fpdf.registerImageFile
    split
    · exact ⟨[], by simp, by simp [ImgNames]⟩
    · split
      · exact hreg n p
      · refine ⟨[], ?_, by simp [ImgNames]⟩
        unfold Fpdf.assignErr; simp
  by_cases h3 : ∃ l, op = .createTemplate l
  · obtain ⟨l, rfl⟩ := h3
    refine ⟨_, rfl, ?_⟩
    intro im him
    obtain ⟨j, -, rfl⟩ := List.mem_map.mp him
    exact hexEnc_regular' _
  have : (f.exec E cb op).r.imgHeap = f.r.imgHeap := foot_get (fun f => f.r.imgHeap) E cb f op hs (by
    intro f
    cases op <;> first | rfl | exact absurd ⟨_, _, rfl⟩ h1 | exact absurd ⟨_, _, _, rfl⟩ h2 | exact absurd ⟨_, rfl⟩ h3)
  rw [this]
  exact ⟨[], by simp, by simp [ImgNames]⟩

theorem imgs_data : DataRel (fun f g => ImgGrow f.r.imgHeap g.r.imgHeap) :=
  DataRel.of (fun f => f.r.imgHeap) ImgGrow (fun a => ⟨[], by simp, by simp [ImgNames]⟩) (fun a b c ⟨x, hx, nx⟩ ⟨y, hy, ny⟩ => ⟨x ++ y, by rw [hy, hx, List.append_assoc], fun im him => by
    rcases List.mem_append.mp him with h | h
    · exact nx im h
    · exact ny im h⟩) (fun _ => rfl)

theorem Ready.imgs {E : Ext} {cb : Cb} {f : Fpdf} (R : Ready E cb f) : ImgNames f.r.imgHeap := by
  obtain ⟨o, u, s, sz, h1, h2⟩ := R.hist
  obtain ⟨-, add, h3, h4⟩ := imgs_data.reach noClose_open (fun cb f op ho => imgs_own E cb f op (helper_stays ho)) (fun f cb op _ hs => imgs_own E cb f op hs) h2
  have h0 : (Fpdf.new o u s sz).r.imgHeap = [] := new_get (fun f => f.r.imgHeap) (fun _ => rfl) o u s sz
  rw [h0, List.nil_append] at h3
  rw [h3]; exact h4

/-- Where an image is drawn: at the cursor for negative abscissas (unless these are allowed); in flowing mode at the ordinate of the cursor, or at the top margin of the new page `g`. -/
def imageAt (cb : Cb) (f g : Fpdf) (x y h : Rat) (allowNeg flow : Bool) : Rat × Rat :=
  (if ¬ allowNeg ∧ x < 0 then f.getX else x, if flow then (if Breaks cb f h then g.getMargins.2.1 else f.getY) else y)

/-- **C40** (with C28 and C29 for images) An image that is registered is drawn at its documented size, at the position asked for; in flowing mode it starts a new page exactly when it would
reach below the bottom margin, and the cursor is then below it. `px` and `py` are the PDF coordinates on the page it is drawn on. -/
theorem C40_image (E : Ext) (cb : Cb) (f : Fpdf) (R : Ready E cb f) (hs : f.state = 2) (hh : cb.header = none) (name : Bytes) (info : ImageInfo) (hi : f.getImageInfo name = some info)
    (hk : 0 < f.getConversionRatio) (hpx : 0 < info.w ∧ 0 < info.h ∧ 0 < info.dpi) (parsed : Option ImageInfo) (x y w h : Rat) (allowNeg flow : Bool) (link : Nat) (ls : Bytes)
    (g : Fpdf) (hg : g = f.exec E cb (.image name parsed x y w h allowNeg flow link ls)) (hok : g.err = none)
    (W H : Rat) (hsz : extent f.getConversionRatio info.dpi info.w info.h w h = (W, H)) :
    g.pageCount = f.pageCount + (if flow ∧ Breaks cb f H then 1 else 0) ∧ g.pageNo = (if flow ∧ Breaks cb f H then f.pageCount + 1 else f.pageNo) ∧
    g.getXY = (f.getX, if flow then (imageAt cb f g x y H allowNeg flow).2 + H else f.getY) ∧
    ∃ pre line : Bytes, g.pages[g.pageNo]? = some (pre ++ line) ∧ (¬ (flow ∧ Breaks cb f H) → f.pages[f.pageNo]? = some pre) ∧
      Understood line (drawsImage g (imageAt cb f g x y H allowNeg flow).1 (imageAt cb f g x y H allowNeg flow).2 W H info.i) := by
  have hreg : ∀ c ∈ info.i, isRegular c = true := by
    unfold Fpdf.getImageInfo at hi
    obtain ⟨p, -, h2⟩ := Option.bind_eq_some_iff.mp hi
    exact R.imgs info (List.mem_of_getElem? h2)
  have hsize : Fpdf.imageSize f.k info w h = (W, H) := (C40_size f.k info w h hk hpx.1 hpx.2.1 hpx.2.2).trans hsz
  have hrun : f.exec E cb (.image name parsed x y w h allowNeg flow link ls) = f.imageOut E cb info x y w h allowNeg flow link ls := by
    show f.image E cb name parsed x y w h allowNeg flow link ls = _
    have hl : f.registerImageFile E name parsed.isSome parsed = f := by
      unfold Fpdf.registerImageFile
      obtain ⟨p, h1, -⟩ := Option.bind_eq_some_iff.mp hi
      rw [h1]
    unfold Fpdf.image
    rw [if_neg (by simp [R.ok])]
    dsimp only
    rw [hl, if_neg (by simp [R.ok])]
    have : (lookup name f.r.images).bind (f.r.imgHeap[·]?) = some info := hi
    rw [this]
  rw [hrun] at hg
  -- the drawing itself, on the page `a` after a possible break
  have draw : ∀ (a : Fpdf) (Y : Rat), a.state = 2 → a.page < a.pages.length → a.p.x = f.getX → (flow = true → a.p.y = Y + H) → (flow = false → a.p.y = f.getY) →
      g = (let x' := if ¬ allowNeg ∧ x < 0 then a.p.x else x
           let b := a.outf "q %.5f 0 0 %.5f %.5f %.5f cm /I%s Do Q" [.f (W * a.k), .f (H * a.k), .f (x' * a.k), .f ((a.p.h - (Y + H)) * a.k), .s info.i]
           if link > 0 ∨ ls ≠ [] then b.newLink x' Y W H link ls else b) →
      g.pages.length = a.pages.length ∧ g.page = a.page ∧ g.getXY = (f.getX, if flow then Y + H else f.getY) ∧ g.p = a.p ∧
      ∃ pre line : Bytes, g.pages[g.pageNo]? = some (pre ++ line) ∧ a.pages[a.page]? = some pre ∧
        Understood line (drawsImage g (if ¬ allowNeg ∧ x < 0 then f.getX else x) Y W H info.i) := by
    intro a Y a1 a2 a3 a4 a5 e
    dsimp only at e
    rw [a3] at e
    have hf := drawsImage_frag a (if ¬ allowNeg ∧ x < 0 then f.getX else x) Y W H info.i hreg
    have hw := Wrote.put (f := a) a1 hf
    have hp : (a.out (sprintf "q %.5f 0 0 %.5f %.5f %.5f cm /I%s Do Q" [.f (W * a.k), .f (H * a.k), .f ((if ¬ allowNeg ∧ x < 0 then f.getX else x) * a.k), .f ((a.p.h - (Y + H)) * a.k), .s info.i])).p = a.p := out_p _ _
    have e' : g = if link > 0 ∨ ls ≠ [] then (a.out (sprintf "q %.5f 0 0 %.5f %.5f %.5f cm /I%s Do Q" [.f (W * a.k), .f (H * a.k), .f ((if ¬ allowNeg ∧ x < 0 then f.getX else x) * a.k), .f ((a.p.h - (Y + H)) * a.k), .s info.i])).newLink (if ¬ allowNeg ∧ x < 0 then f.getX else x) Y W H link ls
      else (a.out (sprintf "q %.5f 0 0 %.5f %.5f %.5f cm /I%s Do Q" [.f (W * a.k), .f (H * a.k), .f ((if ¬ allowNeg ∧ x < 0 then f.getX else x) * a.k), .f ((a.p.h - (Y + H)) * a.k), .s info.i])) := e
    clear e hf
    generalize a.out (sprintf "q %.5f 0 0 %.5f %.5f %.5f cm /I%s Do Q" [.f (W * a.k), .f (H * a.k), .f ((if ¬ allowNeg ∧ x < 0 then f.getX else x) * a.k), .f ((a.p.h - (Y + H)) * a.k), .s info.i]) = b at e' hw hp
    have q1 : g.pages = b.pages ∧ g.page = b.page ∧ g.p = b.p ∧ g.k = b.k := by
      rw [e']; split <;> exact ⟨rfl, rfl, rfl, rfl⟩
    obtain ⟨q1, q2, q3, q4⟩ := q1
    have ed : drawsImage g (if ¬ allowNeg ∧ x < 0 then f.getX else x) Y W H info.i = drawsImage a (if ¬ allowNeg ∧ x < 0 then f.getX else x) Y W H info.i := by
      unfold drawsImage Proof.px Proof.py Fpdf.getConversionRatio Fpdf.getPageSize
      rw [q3, q4, hp, hw.k]
    obtain ⟨line, is, l1, l2, l3⟩ := hw.line
    refine ⟨by rw [q1, l1, modifyAt_length], by rw [q2, hw.page], ?_, q3.trans hp, a.pages[a.page]'a2, line, ?_, List.getElem?_eq_getElem a2, ?_⟩
    · unfold Fpdf.getXY
      rw [q3, hp, a3]
      cases flow with
      | true => rw [a4 rfl]; rfl
      | false => rw [a5 rfl]; rfl
    · show g.pages[g.page]? = _
      rw [q1, q2, hw.page, l1, modifyAt_getElem?, if_pos rfl, List.getElem?_eq_getElem a2]; rfl
    · rw [ed]; unfold Understood; rw [l2.instrs]; exact l3
  have hcount : f.pageCount = f.pages.length - 1 := rfl
  have hpg := R.pages
  unfold Fpdf.imageOut at hg
  rw [hsize] at hg
  dsimp only at hg
  cases flow with
  | false =>
    simp only [Bool.false_eq_true, if_false, if_true] at hg
    obtain ⟨d1, d2, d3, -, pre, line, d4, d5, d6⟩ := draw f y hs hpg rfl (by simp) (fun _ => rfl) hg
    refine ⟨by simp only [Bool.false_eq_true, false_and, if_false]; unfold Fpdf.pageCount; rw [d1]; rfl, by simp only [Bool.false_eq_true, false_and, if_false]; exact d2, ?_, pre, line, d4, fun _ => d5, ?_⟩
    · simpa using d3
    · simpa [imageAt] using d6
  | true =>
    simp only [if_true] at hg
    rcases imageBreak_cases E cb f H R.geo R.answers with ⟨hb, he⟩ | ⟨hb, ⟨ha, he⟩ | ⟨ha, he⟩⟩
    · rw [he] at hg
      simp only [if_true] at hg
      obtain ⟨d1, d2, d3, -, pre, line, d4, d5, d6⟩ := draw { f with p.y := f.p.y + H } f.p.y hs hpg rfl (fun _ => rfl) (by simp) hg
      refine ⟨by simp only [hb, and_false, if_false]; unfold Fpdf.pageCount; rw [d1]; rfl, by simp only [hb, and_false, if_false]; exact d2, ?_, pre, line, d4, fun _ => d5, ?_⟩
      · simpa [imageAt, hb, Fpdf.getY] using d3
      · simpa [imageAt, hb, Fpdf.getY] using d6
    · rw [he] at hg
      simp only [Bool.false_eq_true, if_false] at hg
      rw [hg] at hok
      exact absurd hok ha
    · rw [he] at hg
      simp only [if_true] at hg
      obtain ⟨c1, c2⟩ := addPageFormat_count (E := E) (R.cbs.rel fun _ _ => reach_stay) f f.p.curOrientation f.p.curPageSize (by omega) ha
      have hob : Cb.Rel (fun s => s.page ≠ 0) OB cb := ⟨fun h hh s _ => reach_ob (R.cbs.header h hh s trivial), fun h hh b s _ => reach_ob (R.cbs.footer h hh b s trivial), fun s => reach_ob (R.cbs.accept s)⟩
      have hst := (addPageFormat_ready (E := E) hob f f.p.curOrientation f.p.curPageSize (.inl hs) ha).1
      have hy : (f.addPageFormat E cb f.p.curOrientation f.p.curPageSize).p.y = (f.addPageFormat E cb f.p.curOrientation f.p.curPageSize).p.tMargin := newPage_top R hh ha
      generalize f.addPageFormat E cb f.p.curOrientation f.p.curPageSize = a at ha he c1 c2 hst hy hg
      obtain ⟨d1, d2, d3, d7, pre, line, d4, d5, d6⟩ := draw { a with p.x := f.p.x, p.y := a.p.y + H } a.p.y hst (by show a.page < a.pages.length; omega) rfl (fun _ => rfl) (by simp) hg
      have hm : g.getMargins.2.1 = a.p.y := by unfold Fpdf.getMargins; rw [d7]; exact hy.symm
      refine ⟨?_, ?_, ?_, pre, line, d4, fun hn => absurd ⟨rfl, hb⟩ hn, ?_⟩
      · simp only [hb, and_self, if_true]
        unfold Fpdf.pageCount
        rw [d1]
        show a.pages.length - 1 = _
        omega
      · simp only [hb, and_self, if_true]
        show g.page = _
        rw [d2, hcount]
        show a.page = _
        omega
      · simpa [imageAt, hb, hm] using d3
      · simpa [imageAt, hb, hm] using d6

/-! ### Non-vacuity -/

/-- Calls of `inPlace`, decidably. -/
def inPlaceB : Fpdf → Op → Bool := fun _ op => match op with
  | .addPage | .addPageFormat .. | .setPage _ | .close | .output _ | .clearError => false
  | _ => true

theorem inPlaceB_ok (f : Fpdf) (op : Op) (h : inPlaceB f op = true) : inPlace.op f {} op := by
  refine ⟨?_, ?_, ?_, ?_, ?_, ?_⟩
  · rintro rfl; cases h
  · rintro o sz rfl; cases h
  · rintro n rfl; cases h
  · rintro rfl; cases h
  · rintro b rfl; cases h
  · rintro rfl; cases h

/-- A footer function that writes a line 15 mm above the lower edge. -/
def footed : Cb := { footer := some fun _ f => after f [.setY (-15), .cell 0 10 (B "p") [] 0 (B "C") false 0 []] oneFont }

theorem footed_ok : CbReach oneFont inPlace footed := by
  refine ⟨fun h hh => by simp [footed] at hh, ?_, fun s => Reach.refl s⟩
  intro h hh b s _
  simp only [footed, Option.some.injEq] at hh
  subst hh
  exact reach_after (ok := inPlaceB) inPlaceB_ok s _ s (Reach.refl s) rfl

/-- A document near the end of its first page, with a registered image of 30 by 20 pixels. -/
def nearEnd : Fpdf := after (Fpdf.new [] (B "mm") (B "A4") {}) [.addPage, .setFont (B "helvetica") [] 12, .registerImage (B "pic") (some { w := 30, h := 20 }), .setXY 20 272] oneFont

theorem nearEnd_ready : Ready oneFont footed nearEnd :=
  ⟨⟨[], B "mm", B "A4", {}, by decide +kernel, noClose_after _ _ _ (by decide)⟩, by decide +kernel, footed_ok, rfl⟩

/-- Non-vacuity of C28, C29: a cell of 10 mm breaks the page, one of 4 mm does not, neither fails. -/
example : footed.header = none ∧ Breaks footed nearEnd 10 ∧ ¬ Breaks footed nearEnd 4 ∧
    (nearEnd.exec oneFont footed (.cell 30 10 (B "x") [] 1 [] false 0 [])).err = none ∧ (nearEnd.exec oneFont footed (.cell 30 10 (B "x") [] 1 [] false 0 [])).page = 2 ∧
    (nearEnd.exec oneFont footed (.cell 30 4 (B "x") [] 1 [] false 0 [])).err = none ∧ (nearEnd.exec oneFont footed (.cell 30 4 (B "x") [] 1 [] false 0 [])).page = 1 ∧
    nearEnd.getAutoPageBreak.1 = true := by
  refine ⟨rfl, ?_, ?_, ?_, ?_, ?_, ?_, ?_⟩ <;> decide +kernel

/-- Non-vacuity of C40: the image is registered, drawn with a width of 60 mm it is 40 mm high and breaks the page. -/
example : nearEnd.state = 2 ∧ (nearEnd.getImageInfo (B "pic")).isSome = true ∧ 0 < nearEnd.getConversionRatio ∧
    extent nearEnd.getConversionRatio 72 30 20 60 0 = (60, 40) ∧ Breaks footed nearEnd 40 ∧
    (nearEnd.exec oneFont footed (.image (B "pic") none (-1) 0 60 0 false true 0 [])).err = none := by
  decide +kernel

end Verif.Props
