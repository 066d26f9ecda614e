import Verif.Props.Grid
import Verif.Props.Alpha
import Verif.Props.Text
/-
C62: drawing a grid gives back the drawing attributes.
-/
namespace Verif.Props
open Verif Verif.Model Verif.Spec Verif.Proof

/-! ### A grid is drawn through the interface of the document -/

theorem run_reach {E : Ext} {G : Guard} {cb : Cb} (hcb : CbReach E G cb) (l : List Op) : ∀ {f g : Fpdf}, Reach E G f g → (∀ op ∈ l, ∀ s, G.op s cb op) → Reach E G f (run E cb g l) := by
  induction l with
  | nil => intro f g h _; exact h
  | cons op l ih =>
    intro f g h hop
    exact ih (Reach.step op cb h (hop op (by simp) _) hcb.header hcb.footer hcb.accept) fun o ho => hop o (by simp [ho])

theorem labels_reach {E : Ext} {G : Guard} {cb : Cb} (hcb : CbReach E G cb) {mk : Fpdf → Rat → List Op} (hmk : ∀ s t, ∀ op ∈ mk s t, ∀ s, G.op s cb op) (l : List Rat) :
    ∀ {f g : Fpdf}, Reach E G f g → Reach E G f (Grid.labels E cb mk g l) := by
  induction l with
  | nil => intro f g h; exact h
  | cons t l ih => intro f g h; exact ih (run_reach hcb (mk g t) h (hmk g t))

/-- The calls that drawing a grid makes. -/
def gridOp : Op → Bool
  | .setAutoPageBreak .. | .setFontUnitSize .. | .setFillColor .. | .setDrawColor .. | .setTextColor .. | .setCellMargin .. | .setLineWidth .. | .setAlpha .. | .line .. | .transformBegin
  | .transformRotate .. | .setXY .. | .cell .. | .transformEnd => true
  | _ => false

theorem lineOps_ops (g : Grid) (l : Grid.GLine) : ∀ op ∈ g.lineOps l, gridOp op = true := by
  intro op h
  simp only [Grid.lineOps, List.mem_cons, List.not_mem_nil, or_false] at h
  rcases h with rfl | rfl | rfl | rfl <;> rfl

theorem xLabel_ops (g : Grid) (a b c : Rat) (fmt : Rat → Nat → Bytes) (s : Fpdf) (t : Rat) : ∀ op ∈ g.xLabel a b c fmt s t, gridOp op = true := by
  intro op h
  unfold Grid.xLabel at h
  dsimp only at h
  split at h
  · simp only [List.mem_cons, List.not_mem_nil, or_false] at h
    rcases h with rfl | rfl | rfl | rfl | rfl
    · rfl
    · rfl
    · split <;> rfl
    · rfl
    · rfl
  · simp only [List.mem_cons, List.not_mem_nil, or_false] at h
    rcases h with rfl | rfl
    · split <;> rfl
    · rfl

theorem yLabel_ops (g : Grid) (a b c : Rat) (fmt : Rat → Nat → Bytes) (s : Fpdf) (t : Rat) : ∀ op ∈ g.yLabel a b c fmt s t, gridOp op = true := by
  intro op h
  unfold Grid.yLabel at h
  simp only [List.mem_cons, List.not_mem_nil, or_false] at h
  rcases h with rfl | rfl
  · split <;> rfl
  · rfl

/-- The document before the attributes are put back. -/
def gridBody (E : Ext) (cb : Cb) (g : Grid) (f : Fpdf) : Fpdf :=
  let textSz := f.pointConvert g.textSize
  let f := run E cb f [.setAutoPageBreak false 0, .setFontUnitSize textSz]
  let strOfs := f.getStringWidth (B "0")
  let f := run E cb f [.setFillColor 255 255 255, .setCellMargin 0]
  let f := run E cb f (g.lines.flatMap g.lineOps)
  let f := match g.xTickStr with
    | some fmt => Grid.labels E cb (g.xLabel textSz strOfs (g.Y (g.yTicks.headD 0)) fmt) f g.xTicks
    | none => f
  match g.yTickStr with
    | some fmt => Grid.labels E cb (g.yLabel textSz strOfs (g.X (g.xTicks.headD 0)) fmt) f g.yTicks
    | none => f

theorem grid_eq (E : Ext) (cb : Cb) (g : Grid) (f : Fpdf) (h : g.xTicks.length > 1 ∧ g.yTicks.length > 1) : g.grid E cb f = statePut E cb (stateGet f) (gridBody E cb g f) := by
  unfold Grid.grid
  rw [if_pos h]
  rfl

theorem body_reach {E : Ext} {G : Guard} {cb : Cb} (hcb : CbReach E G cb) (hop : ∀ s op, gridOp op = true → G.op s cb op) (g : Grid) (f : Fpdf) : Reach E G f (gridBody E cb g f) := by
  unfold gridBody
  dsimp only
  generalize f.pointConvert g.textSize = ts
  have h1 : Reach E G f (run E cb f [.setAutoPageBreak false 0, .setFontUnitSize ts]) := by
    refine run_reach hcb _ (Reach.refl f) fun op h s => hop s op ?_
    simp only [List.mem_cons, List.not_mem_nil, or_false] at h
    rcases h with rfl | rfl <;> rfl
  generalize run E cb f [.setAutoPageBreak false 0, .setFontUnitSize ts] = f1 at h1 ⊢
  generalize f1.getStringWidth (B "0") = so
  have h2 : Reach E G f (run E cb f1 [.setFillColor 255 255 255, .setCellMargin 0]) := by
    refine run_reach hcb _ h1 fun op h s => hop s op ?_
    simp only [List.mem_cons, List.not_mem_nil, or_false] at h
    rcases h with rfl | rfl <;> rfl
  generalize run E cb f1 [.setFillColor 255 255 255, .setCellMargin 0] = f2 at h2 ⊢
  have h3 : Reach E G f (run E cb f2 (g.lines.flatMap g.lineOps)) := by
    refine run_reach hcb _ h2 fun op h s => hop s op ?_
    obtain ⟨l, -, hl⟩ := List.mem_flatMap.mp h
    exact lineOps_ops g l op hl
  generalize run E cb f2 (g.lines.flatMap g.lineOps) = f3 at h3 ⊢
  have h4 : Reach E G f (match g.xTickStr with
    | some fmt => Grid.labels E cb (g.xLabel ts so (g.Y (g.yTicks.headD 0)) fmt) f3 g.xTicks
    | none => f3) := by
    cases g.xTickStr with
    | none => exact h3
    | some fmt => exact labels_reach hcb (fun s t op h s' => hop s' op (xLabel_ops _ _ _ _ _ _ _ op h)) _ h3
  cases g.yTickStr with
  | none => exact h4
  | some fmt => exact labels_reach hcb (fun s t op h s' => hop s' op (yLabel_ops _ _ _ _ _ _ _ op h)) _ h4

/-- **C62** Drawing a grid is a sequence of ordinary calls: whatever is proved of all documents that such sequences build holds of documents with grids. -/
theorem C62_program {E : Ext} {G : Guard} {cb : Cb} (hcb : CbReach E G cb) (hop : ∀ s op, gridOp op = true → G.op s cb op) (g : Grid) (f : Fpdf) : Reach E G f (g.grid E cb f) := by
  by_cases h : g.xTicks.length > 1 ∧ g.yTicks.length > 1
  · rw [grid_eq E cb g f h]
    refine run_reach hcb _ (body_reach hcb hop g f) fun op h s => hop s op ?_
    simp only [List.mem_cons, List.not_mem_nil, or_false] at h
    rcases h with rfl | rfl | rfl | rfl | rfl | rfl | rfl <;> rfl
  · unfold Grid.grid
    rw [if_neg h]
    exact Reach.refl f

/-! ### What reachable documents satisfy -/

/-- A colour component is a byte. -/
def Comp (v : Int) : Prop := 0 ≤ v ∧ v ≤ 255

theorem clamp_comp (v : Int) : Comp (clamp v) := by unfold clamp Comp; omega
theorem clamp_id {v : Int} (h : Comp v) : clamp v = v := by unfold clamp; unfold Comp at h; omega

def CompC (c : Color) : Prop := Comp c.ir ∧ Comp c.ig ∧ Comp c.ib
def CompsOk (c : ColorSt) : Prop := CompC c.draw ∧ CompC c.fill ∧ CompC c.text

theorem rgb_comps (r g b : Int) (x y : String) : CompC (rgbColorValue r g b x y) := by
  obtain ⟨h1, h2, h3⟩ := rgb_triple r g b x y
  exact ⟨by rw [h1]; exact clamp_comp _, by rw [h2]; exact clamp_comp _, by rw [h3]; exact clamp_comp _⟩

theorem comps_glue (a b : ColorSt) (ha : CompsOk a) (hb : CompsOk b) : CompsOk (glued a b) := by
  refine ⟨?_, ?_, ha.2.2⟩
  · show CompC (if b.draw.str ≠ a.draw.str then a.draw else b.draw)
    split
    · exact ha.1
    · exact hb.1
  · show CompC (if b.fill.str ≠ a.fill.str then a.fill else b.fill)
    split
    · exact ha.2.1
    · exact hb.2.1

theorem comps_set (E : Ext) (cb : Cb) (f : Fpdf) (op : Op) (hs : setter op = true) (h : CompsOk f.c) : CompsOk (f.exec E cb op).c := by
  have hfoot : ∀ op, staysOnPage op = true → (∀ g : Fpdf, (foot op g).c = g.c) → CompsOk (f.exec E cb op).c := fun op hs hq => by
    rw [foot_get (fun f => f.c) E cb f op hs hq]; exact h
  cases op with
  | setDrawColor r g b =>
    show CompsOk (f.setDrawColor r g b).c
    unfold Fpdf.setDrawColor; dsimp only
    have : CompsOk { f.c with draw := rgbColorValue r g b "G" "RG" } := ⟨rgb_comps r g b _ _, h.2⟩
    split
    · rw [c_out]; exact this
    · exact this
  | setFillColor r g b =>
    show CompsOk (f.setFillColor r g b).c
    unfold Fpdf.setFillColor; dsimp only
    have : CompsOk { f.c with fill := rgbColorValue r g b "g" "rg", colorFlag := (rgbColorValue r g b "g" "rg").str != f.c.text.str } := ⟨h.1, rgb_comps r g b _ _, h.2.2⟩
    split
    · rw [c_out]; exact this
    · exact this
  | setTextColor r g b => exact ⟨h.1, h.2.1, rgb_comps r g b _ _⟩
  | setDrawSpotColor n t =>
    show CompsOk (f.setDrawSpotColor n t).c
    unfold Fpdf.setDrawSpotColor
    rcases getSpotColor_cases f n with ⟨c, -, -, e⟩ | ⟨g, -, e⟩
    · rw [e]; dsimp only
      split
      · rw [c_out]; exact ⟨h.1, h.2⟩
      · exact ⟨h.1, h.2⟩
    · rw [e]; exact h
  | setFillSpotColor n t =>
    show CompsOk (f.setFillSpotColor n t).c
    unfold Fpdf.setFillSpotColor
    rcases getSpotColor_cases f n with ⟨c, -, -, e⟩ | ⟨g, -, e⟩
    · rw [e]; dsimp only
      split
      · rw [c_out]; exact ⟨h.1, h.2.1, h.2.2⟩
      · exact ⟨h.1, h.2.1, h.2.2⟩
    · rw [e]; exact h
  | setTextSpotColor n t =>
    show CompsOk (f.setTextSpotColor n t).c
    unfold Fpdf.setTextSpotColor
    rcases getSpotColor_cases f n with ⟨c, -, -, e⟩ | ⟨g, -, e⟩
    · rw [e]; dsimp only; exact ⟨h.1, h.2.1, h.2.2⟩
    · rw [e]; exact h
  | setFont | setFontStyle | setFontSize | setFontUnitSize | addFontFile | addFont | addUTF8Font | setLineWidth | setLineCapStyle | setLineJoinStyle | setDashPattern =>
    exact hfoot _ rfl (fun _ => rfl)
  | _ => exact Bool.noConfusion hs

theorem new_comps (o u s : Bytes) (sz : Size) : CompsOk (Fpdf.new o u s sz).c := by
  have h : (Fpdf.new o u s sz).c = { draw := rgbColorValue 0 0 0 "G" "RG", fill := rgbColorValue 0 0 0 "g" "rg", text := rgbColorValue 0 0 0 "g" "rg", colorFlag := false } := by
    unfold Fpdf.new
    dsimp only
    split
    · rfl
    · split
      · rfl
      · split
        · rfl
        · rfl
  rw [h]
  exact ⟨rgb_comps 0 0 0 _ _, rgb_comps 0 0 0 _ _, rgb_comps 0 0 0 _ _⟩

theorem reach_comps {E : Ext} {o u s : Bytes} {sz : Size} {f : Fpdf} (h : Reach E noClose (Fpdf.new o u s sz) f) : CompsOk f.c :=
  reach_good comps_glue (fun _ => false) (fun cb g op hs _ hj => comps_set E cb g op hs hj) (noClose_without h) (new_comps o u s sz)

theorem alphaOk_data : DataRel (fun f g : Fpdf => AlphaOk f.r.alpha f.r.blendMode → AlphaOk g.r.alpha g.r.blendMode) where
  trans := fun f g h a b => b ∘ a
  stp := fun f g hb => by
    have h := congrArg (fun f : Fpdf => (f.r.alpha, f.r.blendMode)) hb
    have h' : (g.r.alpha, g.r.blendMode) = (f.r.alpha, f.r.blendMode) := h
    rw [Prod.mk.injEq] at h'
    rw [h'.1, h'.2]
    exact id

theorem alphaOk_own (E : Ext) (cb : Cb) (f : Fpdf) (op : Op) (hs : staysOnPage op = true) (h : AlphaOk f.r.alpha f.r.blendMode) :
    AlphaOk (f.exec E cb op).r.alpha (f.exec E cb op).r.blendMode := by
  cases hb : isAlpha op with
  | false =>
    have h' := alpha_kept E cb f op hs hb
    rw [Prod.mk.injEq] at h'
    rw [h'.1, h'.2]; exact h
  | true =>
    cases op with
    | setAlpha a m =>
      by_cases hok : f.err = none ∧ AlphaOk a m
      · have h' := C21_get E cb f a m hok.1 hok.2
        unfold Fpdf.getAlpha at h'
        rw [Prod.mk.injEq] at h'
        rw [h'.1, h'.2]; exact hok.2
      · obtain ⟨e, he⟩ := C21_refused E cb f a m (fun h1 h2 => hok ⟨h1, h2⟩)
        rw [he]; exact h
    | _ => exact Bool.noConfusion hb

theorem new_alpha (o u s : Bytes) (sz : Size) : AlphaOk (Fpdf.new o u s sz).r.alpha (Fpdf.new o u s sz).r.blendMode := by
  have h : (Fpdf.new o u s sz).r.alpha = 1 ∧ ((Fpdf.new o u s sz).r.blendMode = B "Normal" ∨ (Fpdf.new o u s sz).r.blendMode = []) := by
    unfold Fpdf.new
    dsimp only
    split
    · exact ⟨rfl, by first | exact .inl rfl | exact .inr rfl⟩
    · split
      · exact ⟨rfl, by first | exact .inl rfl | exact .inr rfl⟩
      · split
        · exact ⟨rfl, by first | exact .inl rfl | exact .inr rfl⟩
        · exact ⟨rfl, by first | exact .inl rfl | exact .inr rfl⟩
  rw [h.1]
  refine ⟨by norm_num, by norm_num, ?_⟩
  rcases h.2 with h | h
  · rw [h]; exact .inl (by decide)
  · rw [h]; exact .inr rfl

theorem reach_alphaOk {E : Ext} {o u s : Bytes} {sz : Size} {f : Fpdf} (h : Reach E noClose (Fpdf.new o u s sz) f) : AlphaOk f.r.alpha f.r.blendMode :=
  (alphaOk_data.reach noClose_open (fun cb f op ho => alphaOk_own E cb f op (helper_stays ho)) (fun f cb op _ hs => alphaOk_own E cb f op hs) h).2 (new_alpha o u s sz)

/-! ### Putting the attributes back -/

/-- Attributes that can be set. -/
structure StOk (st : GState) : Prop where
  draw : Comp st.draw.1 ∧ Comp st.draw.2.1 ∧ Comp st.draw.2.2
  fill : Comp st.fill.1 ∧ Comp st.fill.2.1 ∧ Comp st.fill.2.2
  text : Comp st.text.1 ∧ Comp st.text.2.1 ∧ Comp st.text.2.2
  alpha : AlphaOk st.alpha.1 st.alpha.2

theorem latch_step (E : Ext) (cb : Cb) (f : Fpdf) (op : Op) (hs : staysOnPage op = true) (he : (f.exec E cb op).err = none) : f.err = none := by
  by_contra h
  exact (exec_frm E cb f op hs).latch h he

theorem outFont_sizes (f : Fpdf) : (f.outFont).t.fontSize = f.t.fontSize ∧ (f.outFont).t.fontSizePt = f.t.fontSizePt := by
  unfold Fpdf.outFont
  split
  · have h : (f.outf "BT /F%s %.2f Tf ET" [.s f.t.currentFont.i, .f f.t.fontSizePt]).t = f.t := by
      unfold Fpdf.outf Fpdf.out
      repeat' split
      all_goals rfl
    exact ⟨congrArg (fun t : TextSt => t.fontSize) h, congrArg (fun t : TextSt => t.fontSizePt) h⟩
  · exact ⟨rfl, rfl⟩

theorem put_get (E : Ext) (cb : Cb) (st : GState) (hst : StOk st) (f : Fpdf) (he : (statePut E cb st f).err = none) :
    stateGet (statePut E cb st f) = st ∧ (statePut E cb st f).getFontSize.1 = st.fontSize * f.k := by
  unfold statePut run at he ⊢
  simp only [List.foldl_cons, List.foldl_nil] at he ⊢
  have d1 := (C18_readback E cb f st.draw.1 st.draw.2.1 st.draw.2.2).1
  have k1 := foot_get (fun f => f.k) E cb f (.setDrawColor st.draw.1 st.draw.2.1 st.draw.2.2) rfl (fun _ => rfl)
  generalize f.exec E cb (.setDrawColor st.draw.1 st.draw.2.1 st.draw.2.2) = f1 at *
  have d2 := (C18_readback E cb f1 st.fill.1 st.fill.2.1 st.fill.2.2).2.1
  have q2 := foot_get (fun f => (f.getDrawColor, f.k)) E cb f1 (.setFillColor st.fill.1 st.fill.2.1 st.fill.2.2) rfl (fun _ => rfl)
  generalize f1.exec E cb (.setFillColor st.fill.1 st.fill.2.1 st.fill.2.2) = f2 at *
  have d3 := (C18_readback E cb f2 st.text.1 st.text.2.1 st.text.2.2).2.2
  have q3 := foot_get (fun f => (f.getDrawColor, f.getFillColor, f.k)) E cb f2 (.setTextColor st.text.1 st.text.2.1 st.text.2.2) rfl (fun _ => rfl)
  generalize f2.exec E cb (.setTextColor st.text.1 st.text.2.1 st.text.2.2) = f3 at *
  have d4 : (f3.exec E cb (.setLineWidth st.lineWd)).getLineWidth = st.lineWd := by
    show (f3.setLineWidth st.lineWd).line.width = _
    unfold Fpdf.setLineWidth
    dsimp only
    split
    · have h := (lens_parts (lens_out { f3 with line.width := st.lineWd } (sprintf "%.2f w" [.f (st.lineWd * f3.k)]))).2.2.1
      exact congrArg (fun l : LineSt => l.width) h
    · rfl
  have q4 := foot_get (fun f => (f.getDrawColor, f.getFillColor, f.getTextColor, f.k)) E cb f3 (.setLineWidth st.lineWd) rfl (fun _ => rfl)
  generalize f3.exec E cb (.setLineWidth st.lineWd) = f4 at *
  have d5 : (f4.exec E cb (.setFontUnitSize st.fontSize)).getFontSize = (st.fontSize * f4.k, st.fontSize) := by
    show (f4.setFontUnitSize st.fontSize).getFontSize = _
    unfold Fpdf.setFontUnitSize Fpdf.getFontSize
    dsimp only
    rw [(outFont_sizes _).1, (outFont_sizes _).2]
  have q5 := foot_get (fun f => (f.getDrawColor, f.getFillColor, f.getTextColor, f.getLineWidth)) E cb f4 (.setFontUnitSize st.fontSize) rfl (fun _ => rfl)
  generalize f4.exec E cb (.setFontUnitSize st.fontSize) = f5 at *
  have e6 : (f5.exec E cb (.setAlpha st.alpha.1 st.alpha.2)).err = none := latch_step E cb _ (.setCellMargin st.cellMargin) rfl he
  have e5 : f5.err = none := latch_step E cb _ (.setAlpha st.alpha.1 st.alpha.2) rfl e6
  have d6 := C21_get E cb f5 st.alpha.1 st.alpha.2 e5 hst.alpha
  have q6 := foot_get (fun f => (f.getDrawColor, f.getFillColor, f.getTextColor, f.getLineWidth, f.getFontSize)) E cb f5 (.setAlpha st.alpha.1 st.alpha.2) rfl (fun _ => rfl)
  generalize f5.exec E cb (.setAlpha st.alpha.1 st.alpha.2) = f6 at *
  have d7 : (f6.exec E cb (.setCellMargin st.cellMargin)).getCellMargin = st.cellMargin := rfl
  have q7 := foot_get (fun f => (f.getDrawColor, f.getFillColor, f.getTextColor, f.getLineWidth, f.getFontSize, f.getAlpha)) E cb f6 (.setCellMargin st.cellMargin) rfl (fun _ => rfl)
  generalize f6.exec E cb (.setCellMargin st.cellMargin) = f7 at *
  simp only [Prod.mk.injEq] at q2 q3 q4 q5 q6 q7
  rw [clamp_id hst.draw.1, clamp_id hst.draw.2.1, clamp_id hst.draw.2.2] at d1
  rw [clamp_id hst.fill.1, clamp_id hst.fill.2.1, clamp_id hst.fill.2.2] at d2
  rw [clamp_id hst.text.1, clamp_id hst.text.2.1, clamp_id hst.text.2.2] at d3
  have fs : f7.getFontSize = (st.fontSize * f4.k, st.fontSize) := by rw [q7.2.2.2.2.1, q6.2.2.2.2, d5]
  refine ⟨?_, by rw [fs, q4.2.2.2, q3.2.2, q2.2, k1]⟩
  unfold stateGet
  rw [q7.1, q6.1, q5.1, q4.1, q3.1, q2.1, d1, q7.2.1, q6.2.1, q5.2.1, q4.2.1, q3.2.1, d2, q7.2.2.1, q6.2.2.1, q5.2.2.1, q4.2.2.1, d3, q7.2.2.2.1, q6.2.2.2.1, q5.2.2.2, d4, fs, q7.2.2.2.2.2, d6, d7]

/-- **C62** For every document that any sequence of calls can build, and every grid: if drawing it does not end in an error, then the colours for drawing, filling and text, the line width,
the font size (in points and units), transparency and blend mode and the cell margin are what they were before. -/
theorem C62_restored {E : Ext} {o u s : Bytes} {sz : Size} {f : Fpdf} (hn : (Fpdf.new o u s sz).err = none) (hr : Reach E noClose (Fpdf.new o u s sz) f)
    {cb : Cb} (hcb : CbReach E noClose cb) (g : Grid) (he : (g.grid E cb f).err = none) :
    (g.grid E cb f).getDrawColor = f.getDrawColor ∧ (g.grid E cb f).getFillColor = f.getFillColor ∧ (g.grid E cb f).getTextColor = f.getTextColor ∧
    (g.grid E cb f).getLineWidth = f.getLineWidth ∧ (g.grid E cb f).getFontSize = f.getFontSize ∧ (g.grid E cb f).getAlpha = f.getAlpha ∧
    (g.grid E cb f).getCellMargin = f.getCellMargin := by
  by_cases h : g.xTicks.length > 1 ∧ g.yTicks.length > 1
  · rw [grid_eq E cb g f h] at he ⊢
    have hc := reach_comps hr
    have hok : StOk (stateGet f) := ⟨hc.1, hc.2.1, hc.2.2, reach_alphaOk hr⟩
    have hb : Reach E noClose f (gridBody E cb g f) := body_reach hcb (fun s op ho => ⟨(by rintro rfl; simp [gridOp] at ho), (by rintro b rfl; simp [gridOp] at ho)⟩) g f
    have hk : (gridBody E cb g f).k = f.k := (reach_fnt hb).k
    have hf := (reach_fnt hr).ok (new_fontOk hn)
    obtain ⟨h1, h2⟩ := put_get E cb (stateGet f) hok (gridBody E cb g f) he
    generalize statePut E cb (stateGet f) (gridBody E cb g f) = t at *
    have e5 : t.getFontSize.2 = f.getFontSize.2 := congrArg GState.fontSize h1
    have e5' : t.getFontSize.1 = f.getFontSize.1 := by
      rw [h2, hk]
      show f.t.fontSize * f.k = f.t.fontSizePt
      rw [hf.size, div_mul_cancel₀ _ hf.k]
    exact ⟨congrArg GState.draw h1, congrArg GState.fill h1, congrArg GState.text h1, congrArg GState.lineWd h1, Prod.ext e5' e5, congrArg GState.alpha h1, congrArg GState.cellMargin h1⟩
  · unfold Grid.grid
    rw [if_neg h]
    exact ⟨rfl, rfl, rfl, rfl, rfl, rfl, rfl⟩

/-- A document with settings of its own. -/
def ready : Fpdf := after (Fpdf.new [] [] [] {}) [.addPage, .setFont (B "Helvetica") [] 12, .setDrawColor 1 2 3, .setAlpha (1 / 2) (B "Multiply"), .setCellMargin 3] oneFont

/-- Non-vacuity of C62: the grid is drawn, and it changes the settings while drawing. -/
example : Reach oneFont noClose (Fpdf.new [] [] [] {}) ready ∧ ((Grid.new 10 20 100 50).grid oneFont {} ready).err = none ∧ ready.getDrawColor = (1, 2, 3) ∧
    (gridBody oneFont {} (Grid.new 10 20 100 50) ready).getDrawColor = (128, 160, 128) ∧ (gridBody oneFont {} (Grid.new 10 20 100 50) ready).getCellMargin = 0 := by
  refine ⟨noClose_after _ _ _ (by decide), ?_, ?_, ?_, ?_⟩ <;> decide +kernel

/-- Automatic page breaking is not restored: drawing a grid turns it off for good. -/
theorem C62_break_false : ready.getAutoPageBreak.1 = true ∧ ((Grid.new 10 20 100 50).grid oneFont {} ready).err = none ∧
    ((Grid.new 10 20 100 50).grid oneFont {} ready).getAutoPageBreak = (false, 0) := by
  refine ⟨?_, ?_, ?_⟩ <;> decide +kernel

/-- A grid without labels. -/
def plain : Grid := { Grid.new 10 20 100 50 with xTickStr := none, yTickStr := none }

/-- A spot colour is not restored: afterwards the colour is the last RGB colour. -/
theorem C62_spot_false : Reach oneFont noClose (Fpdf.new [] [] [] {}) inSpot ∧ inSpot.getDrawSpotColor.1 = B "Spot" ∧
    (plain.grid oneFont {} inSpot).err = none ∧ (plain.grid oneFont {} inSpot).getDrawSpotColor.1 = [] := by
  refine ⟨noClose_after _ _ _ (by decide), ?_, ?_, ?_⟩ <;> decide +kernel

end Verif.Props
