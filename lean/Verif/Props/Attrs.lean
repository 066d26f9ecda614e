import Verif.Proof.Marks
import Verif.Props.Text
import Verif.Props.Content
import Verif.Props.Drawing
/-
C17: text is painted in the text colour. C68: shapes are painted with the colours and the line width set last.
-/
namespace Verif.Props
open Verif Verif.Model Verif.Spec Verif.Proof

/-! ### What a reader of the page has in effect -/

theorem new_ap (o u s : Bytes) (sz : Size) : AP (Fpdf.new o u s sz) := by
  obtain ⟨_, _, n3, n4, n5, _⟩ := new_open o u s sz
  obtain ⟨c1, c2, -⟩ := new_colors o u s sz
  refine ⟨new_pinv o u s sz, ⟨by rw [c2]; exact rgb_setsFill 0 0 0, by rw [c1]; exact rgb_setsStroke 0 0 0⟩, by rw [n4, n5]; rfl, fun h => by omega⟩

theorem steady_ap {E : Ext} {o u s : Bytes} {sz : Size} {f : Fpdf} (h : Reach E (steady E) (Fpdf.new o u s sz) f) (he : f.err = none) : AP f :=
  ((reach_ar h).2 he (new_ap o u s sz)).1

theorem at_before {f : Fpdf} {A : Attr} (h : At f A) : ∃ before st, f.pages[f.page]? = some before ∧ attrRun (Attr.initial, []) (instrs before) = (A, st) ∧ attrsAfter before = A := by
  obtain ⟨b, is, st, h1, h2, h3, -⟩ := h
  refine ⟨b, st, h1, by rw [h2.instrs]; exact h3, ?_⟩
  unfold attrsAfter
  rw [h2.instrs, h3]

/-- The instructions of a colour: one grey level, or three components, each within 1/2000 of the component limited to 0..255 and divided by 255. -/
def Chosen (is : List Instr) (gray full : Bytes) (r g b : Int) : Prop :=
  (∃ w, is = [([.word w], gray)] ∧ Near w r ∧ Near w g ∧ Near w b) ∨ (∃ w1 w2 w3, is = [([.word w1, .word w2, .word w3], full)] ∧ Near w1 r ∧ Near w2 g ∧ Near w3 b)

/-- The instructions of a spot colour: the colour space of its number, and the tint. -/
def ChosenSpot (is : List Instr) (cs scn : Bytes) (id tint : Nat) : Prop :=
  ∃ w q, is = [([.name (B "CS" ++ natDec id)], cs), ([.word w], scn)] ∧ readReal w = some q ∧ 0 ≤ q ∧ q ≤ 1 ∧ |q - (min tint 100 : Nat) / 100| ≤ 1 / 2000

theorem fill_chosen (r g b : Int) : Chosen (instrs ((rgbColorValue r g b "g" "rg").str ++ [10])) (B "g") (B "rg") r g b :=
  rgb_selects r g b "g" "rg" (by decide) (fun a => sprintf_frag "%.3f %s" [.f a, .reg (B "g")] rfl (by simp [SArg.Ok]; decide +kernel))
    (fun a b c => sprintf_frag "%.3f %.3f %.3f %s" [.f a, .f b, .f c, .reg (B "rg")] rfl (by simp [SArg.Ok]; decide +kernel))

theorem draw_chosen (r g b : Int) : Chosen (instrs ((rgbColorValue r g b "G" "RG").str ++ [10])) (B "G") (B "RG") r g b :=
  rgb_selects r g b "G" "RG" (by decide) (fun a => sprintf_frag "%.3f %s" [.f a, .reg (B "G")] rfl (by simp [SArg.Ok]; decide +kernel))
    (fun a b c => sprintf_frag "%.3f %.3f %.3f %s" [.f a, .f b, .f c, .reg (B "RG")] rfl (by simp [SArg.Ok]; decide +kernel))

/-! ### The colours stay as set -/

/-- The calls that set the colour for filling. -/
def setsFill : Op → Bool | .setFillColor .. | .setFillSpotColor .. => true | _ => false
/-- The calls that set the colour for drawing. -/
def setsDraw : Op → Bool | .setDrawColor .. | .setDrawSpotColor .. => true | _ => false
/-- The calls that set the colour of text. -/
def setsText : Op → Bool | .setTextColor .. | .setTextSpotColor .. => true | _ => false
/-- The call that sets the line width. -/
def setsWidth : Op → Bool | .setLineWidth .. => true | _ => false

theorem fill_kept {E : Ext} {f g : Fpdf} (h : Reach E (without setsFill) f g) : g.c.fill.str = f.c.fill.str :=
  reach_part (q := fun c => c.fill.str) ⟨fun a b c x y fl h1 h2 => by cases y <;> assumption⟩ setsFill (fun cb f op hs hb => by
    cases op <;> first | exact foot_get (fun f => f.c.fill.str) E cb f _ (setter_stays hs) (fun _ => rfl) | (simp [setsFill] at hb) ) h

theorem draw_kept {E : Ext} {f g : Fpdf} (h : Reach E (without setsDraw) f g) : g.c.draw.str = f.c.draw.str :=
  reach_part (q := fun c => c.draw.str) ⟨fun a b c x y fl h1 h2 => by cases x <;> assumption⟩ setsDraw (fun cb f op hs hb => by
    cases op <;> first | exact foot_get (fun f => f.c.draw.str) E cb f _ (setter_stays hs) (fun _ => rfl) | (simp [setsDraw] at hb) ) h

theorem text_kept {E : Ext} {f g : Fpdf} (h : Reach E (without setsText) f g) : g.c.text = f.c.text :=
  reach_part (q := fun c => c.text) ⟨fun a b c x y fl h1 h2 => h1⟩ setsText (fun cb f op hs hb => by
    cases op <;> first | exact foot_get (fun f => f.c.text) E cb f _ (setter_stays hs) (fun _ => rfl) | (simp [setsText] at hb) ) h

theorem line_eq {f g : Fpdf} (h : lens g = lens f) : g.line = f.line := by have e := congrArg (fun x => x.2.2.1) h; exact e

theorem restoreFont_line (E : Ext) (g : Fpdf) (s : Fpdf.Saved) : (g.restoreFont E s).line = g.line := by
  unfold Fpdf.restoreFont
  split
  · have e := congrArg (fun f : Fpdf => f.line) (setFont_ink E g s.family s.style s.size); exact e
  · rfl

theorem addPage_width (E : Ext) (cb : Cb) (f : Fpdf) (o : Bytes) (sz : Size) :
    (f.addPageFormat E cb o sz).line.width = f.line.width := by
  rw [addPageFormat_eq]
  have h1 : (front E cb f o sz).line.width = f.line.width := by
    unfold front
    rw [restoreFont_line, line_eq (pageLines_lens _ _)]
    rfl
  have h2 : ∀ g : Fpdf, (back E cb g f.save).line.width = f.line.width := by
    intro g
    unfold back
    rw [restoreFont_line, line_eq (restoreLine_lens _ _)]
    rfl
  split
  · rfl
  split
  · exact h1
  split
  · exact h2 _
  · rw [line_eq (restoreColors_lens _ _)]
    exact h2 _

theorem width_kept {E : Ext} {f g : Fpdf} (h : Reach E (without setsWidth) f g) : g.getLineWidth = f.getLineWidth := by
  show g.line.width = f.line.width
  refine Reach.rel (G := without setsWidth) (fun f g => g.line.width = f.line.width) (fun _ => rfl) (fun _ _ _ a b => b.trans a) (fun f op cb hop hcb => ?_) h
  have K : LensRel E cb (fun f g => g.line.width = f.line.width) := ⟨fun _ _ _ a b => b.trans a, fun f g h => by rw [line_eq h], hcb⟩
  rcases op_cases op with hs | hf | rfl | ⟨o, sz, rfl⟩ | ⟨n, rfl⟩ | rfl | ⟨b, rfl⟩ | rfl
  · exact foot_get (fun f => f.line.width) E cb f op hs (fun g => by cases op <;> first | rfl | exact Bool.noConfusion hop.2.2)
  · have own : ∀ (f : Fpdf) op, helper op = true → (f.exec E cb op).line.width = f.line.width := fun f op hh =>
      foot_get (fun f => f.line.width) E cb f op (helper_stays hh) (fun g => by cases op <;> first | rfl | (simp [helper] at hh))
    have KF : FlowRel E cb (fun f g => g.line.width = f.line.width) :=
      { refl := K.refl, trans := K.trans, step := fun f g h => K.same _ _ (lens_core h.core), accept := K.cbs.accept, page := addPage_width E cb
        img := fun f g info a b c d h _ => K.trans _ _ _ h (K.same _ _ (lens_out _ _)), own := own }
    exact exec_flow KF f op hf
  · show (f.addPage E cb).line.width = _
    unfold Fpdf.addPage
    split
    · rfl
    · exact addPage_width E cb _ _ _
  · exact addPage_width E cb f o sz
  · exact K.same _ _ (setPage_lens f n)
  · exact absurd rfl hop.1
  · exact absurd rfl (hop.2.1 b)
  · rfl

/-! ### C68 -/

/-- **C68** (fill colour) Take any program that sets colours and the line width outside clipping and transformation regions and does not return to earlier pages, however many pages, headers, footers and page breaks it has.
On the page at its end, a reader has in effect for filling the colour of the last `SetFillColor`. -/
theorem C68_fill (E : Ext) (o u s : Bytes) (sz : Size) (f0 f : Fpdf) (cb : Cb) (r g b : Int) (hall : Reach E (steady E) (Fpdf.new o u s sz) f)
    (hlast : Reach E (without setsFill) (f0.exec E cb (.setFillColor r g b)) f) (he : f.err = none) (hs : f.state = 2) :
    ∃ before, f.pages[f.page]? = some before ∧ Chosen (attrsAfter before).fill (B "g") (B "rg") r g b := by
  obtain ⟨before, st, h1, -, h3⟩ := at_before ((steady_ap hall he).a.read hs)
  refine ⟨before, h1, ?_⟩
  rw [h3]
  show Chosen (instrs (f.c.fill.str ++ [10])) _ _ r g b
  have e : (f0.exec E cb (.setFillColor r g b)).c.fill = rgbColorValue r g b "g" "rg" := by
    show (f0.setFillColor r g b).c.fill = _
    unfold Fpdf.setFillColor
    dsimp only
    split
    · rw [c_out]
    · rfl
  rw [fill_kept hlast, e]
  exact fill_chosen r g b

/-- **C68** (drawing colour) … and for drawing lines the colour of the last `SetDrawColor`. -/
theorem C68_draw (E : Ext) (o u s : Bytes) (sz : Size) (f0 f : Fpdf) (cb : Cb) (r g b : Int) (hall : Reach E (steady E) (Fpdf.new o u s sz) f)
    (hlast : Reach E (without setsDraw) (f0.exec E cb (.setDrawColor r g b)) f) (he : f.err = none) (hs : f.state = 2) :
    ∃ before, f.pages[f.page]? = some before ∧ Chosen (attrsAfter before).stroke (B "G") (B "RG") r g b := by
  obtain ⟨before, st, h1, -, h3⟩ := at_before ((steady_ap hall he).a.read hs)
  refine ⟨before, h1, ?_⟩
  rw [h3]
  show Chosen (instrs (f.c.draw.str ++ [10])) _ _ r g b
  have e : (f0.exec E cb (.setDrawColor r g b)).c.draw = rgbColorValue r g b "G" "RG" := by
    show (f0.setDrawColor r g b).c.draw = _
    unfold Fpdf.setDrawColor
    dsimp only
    split
    · rw [c_out]
    · rfl
  rw [draw_kept hlast, e]
  exact draw_chosen r g b

/-- **C68** (spot colours) … or the spot colour selected last, by its number and tint. -/
theorem C68_spot (E : Ext) (o u s : Bytes) (sz : Size) (f0 f : Fpdf) (cb : Cb) (name : Bytes) (t id c m y k : Nat) (hall : Reach E (steady E) (Fpdf.new o u s sz) f)
    (h0 : f0.err = none) (hname : spotOf f0 name = some (id, c, m, y, k)) (he : f.err = none) (hs : f.state = 2) :
    ∃ before, f.pages[f.page]? = some before ∧
      (Reach E (without setsFill) (f0.exec E cb (.setFillSpotColor name t)) f → ChosenSpot (attrsAfter before).fill (B "cs") (B "scn") id t) ∧
      (Reach E (without setsDraw) (f0.exec E cb (.setDrawSpotColor name t)) f → ChosenSpot (attrsAfter before).stroke (B "CS") (B "SCN") id t) := by
  obtain ⟨before, st, h1, -, h3⟩ := at_before ((steady_ap hall he).a.read hs)
  obtain ⟨x, hx, hx2⟩ : ∃ x : SpotColor, lookup name f0.r.spotColorMap = some x ∧ x.id = id := by
    unfold spotOf at hname
    cases hl : lookup name f0.r.spotColorMap with
    | none => rw [hl] at hname; cases hname
    | some x => rw [hl] at hname; exact ⟨x, rfl, congrArg Prod.fst (Option.some.inj hname)⟩
  have hget : f0.getSpotColor name = (f0, some x) := by
    unfold Fpdf.getSpotColor
    rw [if_pos h0, hx]
  refine ⟨before, h1, fun hl => ?_, fun hl => ?_⟩
  · rw [h3]
    show ChosenSpot (instrs (f.c.fill.str ++ [10])) _ _ id t
    have e : (f0.exec E cb (.setFillSpotColor name t)).c.fill.str = sprintf "/CS%d cs %.3f scn" [.d x.id, .f ((byteBound t : Rat) / 100)] := by
      show (f0.setFillSpotColor name t).c.fill.str = _
      unfold Fpdf.setFillSpotColor
      rw [hget]
      dsimp only
      split
      · rw [c_out]
      · rfl
    rw [fill_kept hl, e, hx2]
    exact (selectsSpot id t).2
  · rw [h3]
    show ChosenSpot (instrs (f.c.draw.str ++ [10])) _ _ id t
    have e : (f0.exec E cb (.setDrawSpotColor name t)).c.draw.str = sprintf "/CS%d CS %.3f SCN" [.d x.id, .f ((byteBound t : Rat) / 100)] := by
      show (f0.setDrawSpotColor name t).c.draw.str = _
      unfold Fpdf.setDrawSpotColor
      rw [hget]
      dsimp only
      split
      · rw [c_out]
      · rfl
    rw [draw_kept hl, e, hx2]
    exact (selectsSpot id t).1

/-- **C68** (line width) … and the width of the last `SetLineWidth`, which is also what `GetLineWidth` returns, to a hundredth of a point. -/
theorem C68_width (E : Ext) (o u s : Bytes) (sz : Size) (f : Fpdf) (hall : Reach E (steady E) (Fpdf.new o u s sz) f) (he : f.err = none) (hs : f.state = 2) :
    (∃ before a, f.pages[f.page]? = some before ∧ (attrsAfter before).width = [a] ∧ Meets a (.num 2 (f.getLineWidth * f.getConversionRatio))) ∧
      ∀ (f0 : Fpdf) (cb : Cb) (w : Rat), Reach E (without setsWidth) (f0.exec E cb (.setLineWidth w)) f → f.getLineWidth = w := by
  obtain ⟨before, st, h1, -, h3⟩ := at_before ((steady_ap hall he).a.read hs)
  refine ⟨⟨before, _, h1, by rw [h3]; rfl, meets_fmt 2 _⟩, fun f0 cb w hl => ?_⟩
  rw [width_kept hl]
  show (f0.setLineWidth w).line.width = w
  unfold Fpdf.setLineWidth
  dsimp only
  split
  · have e := congrArg (fun l : LineSt => l.width) (out_pt ({ f0 with line.width := w } : Fpdf) (sprintf "%.2f w" [.f (w * f0.k)])).2.1; exact e
  · rfl

/-- The operators of `ws` change no attributes. -/
def PathOps (ws : List (List Want × String)) : Prop := ∀ w ∈ ws, plainOp (B w.2) = true

/-- **C68** (shapes) A call that writes only path operators on the page (see `C52_line`, `C52_rect`, `C52_polygon`, …) paints with exactly the colours and line width in effect. -/
theorem C68_shape (f g : Fpdf) (ws : List (List Want × String)) (before : Bytes) (_ : f.pages[f.page]? = some before) (hw : Writes f g ws) (hp : PathOps ws) :
    ∃ line, g.pages = modifyAt f.page (· ++ line) f.pages ∧ marksOn before line = ((ws.map fun w => B w.2).filter (· ∈ marking)).map fun op => (op, attrsAfter before) := by
  obtain ⟨line, h1, h2⟩ := hw
  refine ⟨line, h1, ?_⟩
  unfold Understood at h2
  have hops : (instrs line).map (·.2) = ws.map fun w => B w.2 := by
    clear h1 hp
    generalize instrs line = is at h2
    induction h2 with
    | nil => rfl
    | cons h _ ih => rw [List.map_cons, List.map_cons, ih, h.2]
  have hpl : ∀ i ∈ instrs line, plainOp i.2 = true := by
    intro i hi
    have : i.2 ∈ (instrs line).map (·.2) := List.mem_map_of_mem hi
    rw [hops] at this
    obtain ⟨w, hw, e⟩ := List.mem_map.mp this
    rw [← e]; exact hp w hw
  unfold marksOn
  rw [(marks_plain hpl _).1, ← hops, List.filter_map, List.map_map]
  rfl

/-! ### C17 -/

/-- A colour for text sets the colour for filling. -/
theorem selects_run {c : List Instr} (h : SelectsColour c) (A : Attr) (st : List Attr) : attrRun (A, st) c = ({ A with fill := c }, st) ∧ marks (A, st) c = [] := by
  cases h with
  | gray a => exact ⟨rfl, rfl⟩
  | rgb a b c => exact ⟨rfl, rfl⟩
  | spot n a => exact ⟨rfl, rfl⟩

/-- Marks made in a colour of their own, or in the one in effect. -/
theorem marks_inColour {own : Option (List Instr)} {is : List Instr} (hp : ∀ i ∈ is, plainOp i.2 = true) (hc : ∀ c, own = some c → SelectsColour c) (s : Attr × List Attr) :
    ∀ m ∈ marks s (inColour own is), m.2.fill = paintedIn s.1.fill own := by
  obtain ⟨A, st⟩ := s
  intro m hm
  cases own with
  | none =>
    rw [inColour, (marks_plain hp _).1] at hm
    obtain ⟨i, -, rfl⟩ := List.mem_map.mp hm
    rfl
  | some c =>
    unfold inColour at hm
    have h1 := selects_run (hc c rfl) A (A :: st)
    have hq : marks (A, st) [([], B "q")] = [] := rfl
    have hr : attrRun (A, st) [([], B "q")] = (A, A :: st) := rfl
    have hQ : ∀ s, marks s [([], B "Q")] = [] := fun _ => rfl
    dsimp only at hm
    rw [marks_append, marks_append, marks_append, hq, hr, hQ, h1.2, attrRun_append, hr, h1.1, (marks_plain hp _).1, List.nil_append, List.nil_append, List.append_nil] at hm
    obtain ⟨i, -, rfl⟩ := List.mem_map.mp hm
    rfl

theorem bars_plain : ∀ (n : Nat) (l : List Instr), Bars n l → ∀ i ∈ l, plainOp i.2 = true
  | 0, l, h, i, hi => by rw [show l = [] from h] at hi; cases hi
  | n + 1, [], h, i, hi => by cases hi
  | n + 1, [a], h, i, hi => by exact h.elim
  | n + 1, (ops, re) :: (ops', fl) :: l, h, i, hi => by
    obtain ⟨-, h2, -, h4, h5⟩ := h
    rcases List.mem_cons.mp hi with rfl | hi
    · show plainOp re = true
      rw [h2]; decide +kernel
    · rcases List.mem_cons.mp hi with rfl | hi
      · show plainOp fl = true
        rw [h4]; decide +kernel
      · exact bars_plain n l h5 i hi

theorem body_plain {body : List Instr} {ws : List (List Want × String)}
    (h : List.Forall₂ (fun (i : Instr) (w : List Want × String) => List.Forall₂ Meets i.1 w.1 ∧ i.2 = B w.2) body ws) (hw : PathOps ws) : ∀ i ∈ body, plainOp i.2 = true := by
  induction h with
  | nil => intro i hi; cases hi
  | cons h _ ih =>
    intro i hi
    rcases List.mem_cons.mp hi with rfl | hi
    · rw [h.2]; exact hw _ (by simp)
    · exact ih (fun w hw' => hw w (by simp [hw'])) i hi

theorem showing_ops (x y : Rat) (t : Bytes) : PathOps (showing x y t) := by
  intro w hw
  simp only [showing, List.mem_cons, List.not_mem_nil, or_false] at hw
  rcases hw with rfl | rfl | rfl | rfl <;> dsimp only <;> decide +kernel

theorem shows_marks {is : List Instr} {own : Option (List Instr)} {x y : Rat} {t : Bytes} {n : Nat} (h : Shows is own x y t n) (hc : ∀ c, own = some c → SelectsColour c) (s : Attr × List Attr) :
    ∀ m ∈ marks s is, m.2.fill = paintedIn s.1.fill own := by
  obtain ⟨body, bars, rfl, h2, h3⟩ := h
  refine marks_inColour (fun i hi => ?_) hc s
  rcases List.mem_append.mp hi with hi | hi
  · exact body_plain h3 (showing_ops x y t) i hi
  · exact bars_plain n bars h2 i hi

theorem words_marks {is : List Instr} {own : Option (List Instr)} {x y shift : Rat} {blank : Bytes} {ws : List Bytes} {n : Nat} (h : ShowsWords is own x y blank ws shift n)
    (hc : ∀ c, own = some c → SelectsColour c) (s : Attr × List Attr) : ∀ m ∈ marks s is, m.2.fill = paintedIn s.1.fill own := by
  obtain ⟨a, b, adj, bars, rfl, h2, -⟩ := h
  refine marks_inColour (fun i hi => ?_) hc s
  rcases List.mem_append.mp hi with hi | hi
  · simp only [List.mem_cons, List.not_mem_nil, or_false] at hi
    rcases hi with rfl | rfl | rfl | rfl | rfl <;> (dsimp only; decide +kernel)
  · exact bars_plain n bars h2 i hi

/-- Since `SetTextColor` was called last, text has its own colour exactly if that differs from the fill colour. -/
theorem flag_since {E : Ext} {f0 f : Fpdf} {cb : Cb} {r g b : Int} (h : Reach E (without setsText) (f0.exec E cb (.setTextColor r g b)) f) :
    FlagOk f.c ∧ f.c.text = rgbColorValue r g b "g" "rg" := by
  refine ⟨?_, text_kept h⟩
  have h' : Reach E (without spotText) (f0.exec E cb (.setTextColor r g b)) f := Reach.mono (G := without setsText) (H := without spotText)
    (fun _ _ op h => ⟨h.1, h.2.1, by have := h.2.2; cases op <;> first | rfl | (simp [setsText] at this)⟩) (fun _ h => h) h
  exact reach_good flagOk_glue spotText (fun cb g op hs hb hj => flagOk_set E cb g op hs hb hj) h' rfl

theorem paintedIn_text {f : Fpdf} {col : List Instr} (hf : FlagOk f.c) (hc : instrs (f.c.text.str ++ [10]) = col) : paintedIn (instrs (f.c.fill.str ++ [10])) (textColour f col) = instrs (f.c.text.str ++ [10]) := by
  unfold textColour paintedIn
  unfold FlagOk at hf
  cases hx : f.c.colorFlag with
  | true => simp [hc]
  | false =>
    rw [hx] at hf
    have he : f.c.fill.str = f.c.text.str := by simpa using hf.symm
    simp [he]

/-- **C17** Take any program that sets colours outside clipping and transformation regions and does not return to earlier pages, and in which the colour of text was last set with `SetTextColor`. Then what `Text` shows
(with underlining and striking out) is painted in that colour, for a reader who has read the whole page. (With `SetTextSpotColor` this is false: `C17_spot_false`.) -/
theorem C17_text (E : Ext) (o u s : Bytes) (sz : Size) (f0 f : Fpdf) (cb0 cb : Cb) (r g b : Int) (hall : Reach E (steady E) (Fpdf.new o u s sz) f)
    (hlast : Reach E (without setsText) (f0.exec E cb0 (.setTextColor r g b)) f) (he : f.err = none) (hs : f.state = 2) (x y : Rat) (txt : Bytes) :
    ∃ before line own n, f.pages[f.page]? = some before ∧ (f.exec E cb (.text x y txt)).pages = modifyAt f.page (· ++ line) f.pages ∧
      Shows (instrs line) own (px f (leftEnd f x txt)) (py f y) (encoded f txt) n ∧ ∀ m ∈ marksOn before line, Chosen m.2.fill (B "g") (B "rg") r g b := by
  obtain ⟨before, st, h1, h2, -⟩ := at_before ((steady_ap hall he).a.read hs)
  obtain ⟨hf, ht⟩ := flag_since hlast
  obtain ⟨line, col, k1, k2, k3, k4⟩ := text_shows E cb f (by rw [ht]; exact rgb_colStr r g b) hs x y txt
  refine ⟨before, line, _, _, h1, k1, k4, fun m hm => ?_⟩
  unfold marksOn at hm
  rw [h2] at hm
  have hc : ∀ c, textColour f col = some c → SelectsColour c := by
    intro c hc
    unfold textColour at hc
    split at hc
    · cases hc; exact k2
    · cases hc
  have := shows_marks k4 hc _ m hm
  rw [this, show (remembered f, st).1.fill = instrs (f.c.fill.str ++ [10]) from rfl, paintedIn_text hf k3, ht]
  exact fill_chosen r g b

/-- Painting operators that show text. -/
def isText (op : Bytes) : Prop := op = B "Tj" ∨ op = B "TJ"

theorem background_ops (x y w h : Rat) (border : Bytes) (fill : Bool) : ∀ v ∈ background x y w h border fill ++ sides x y w h border, plainOp (B v.2) = true ∧ ¬ isText (B v.2) := by
  have key : ∀ v ∈ background x y w h border fill ++ sides x y w h border, v.2 ∈ ["re", "f", "B", "S", "m", "l"] := by
    intro v hv
    unfold background sides at hv
    rcases List.mem_append.mp hv with hv | hv
    · split at hv
      · simp only [List.mem_cons, List.not_mem_nil, or_false] at hv
        rcases hv with rfl | rfl
        · simp
        · dsimp only; split <;> (try split) <;> simp
      · cases hv
    · have hstroke : ∀ a b c d, ∀ v ∈ stroke a b c d, v.2 ∈ ["re", "f", "B", "S", "m", "l"] := by
        intro a b c d v hv
        simp only [stroke, List.mem_cons, List.not_mem_nil, or_false] at hv
        rcases hv with rfl | rfl | rfl <;> simp
      have hif : ∀ (p : Prop) [Decidable p] (a b c d : Rat), v ∈ (if p then stroke a b c d else []) → v.2 ∈ ["re", "f", "B", "S", "m", "l"] := by
        intro p _ a b c d h
        split at h
        · exact hstroke a b c d v h
        · cases h
      split at hv
      · rcases List.mem_append.mp hv with hv | hv
        · rcases List.mem_append.mp hv with hv | hv
          · rcases List.mem_append.mp hv with hv | hv
            · exact hif _ _ _ _ _ hv
            · exact hif _ _ _ _ _ hv
          · exact hif _ _ _ _ _ hv
        · exact hif _ _ _ _ _ hv
      · cases hv
  intro v hv
  have := key v hv
  simp only [List.mem_cons, List.not_mem_nil, or_false] at this
  rcases this with h | h | h | h | h | h <;> rw [h] <;> exact ⟨by decide +kernel, by unfold isText; decide +kernel⟩

/-- A new page puts the colours of text back, whatever the header and footer functions do. -/
theorem addPage_text {E : Ext} {cb : Cb} {f : Fpdf} {o : Bytes} {sz : Size} (he : (f.addPageFormat E cb o sz).err = none) (hf : f.err = none) :
    (f.addPageFormat E cb o sz).c.text = f.c.text ∧ (f.addPageFormat E cb o sz).c.colorFlag = f.c.colorFlag ∧ (f.addPageFormat E cb o sz).c.fill.str = f.c.fill.str := by
  rw [addPageFormat_eq] at he ⊢
  rw [if_neg (by simp [hf])] at he ⊢
  by_cases h1 : f.save.family ≠ [] ∧ (front E cb f o sz).err ≠ none
  · rw [if_pos h1] at he; exact absurd he h1.2
  rw [if_neg h1] at he ⊢
  by_cases h2 : f.save.family ≠ [] ∧ (back E cb (front E cb f o sz) f.save).err ≠ none
  · rw [if_pos h2] at he; exact absurd he h2.2
  rw [if_neg h2] at he ⊢
  rw [(lens_parts (restoreColors_lens _ f.save)).2.1]
  generalize back E cb (front E cb f o sz) f.save = g
  refine ⟨rfl, rfl, ?_⟩
  show (if g.c.fill.str ≠ f.c.fill.str then f.c.fill else g.c.fill).str = f.c.fill.str
  split
  · rfl
  · next h => exact not_not.mp h

/-- The document on which a cell is drawn has its text colours. -/
theorem cellOn_text {E : Ext} {cb : Cb} {f d : Fpdf} (h : CellOn E cb f d) (he : f.err = none) : d.c.text = f.c.text ∧ d.c.colorFlag = f.c.colorFlag ∧ d.c.fill.str = f.c.fill.str := by
  rcases h with rfl | ⟨f1, o, sz, s1, h1, s2⟩
  · exact ⟨rfl, rfl, rfl⟩
  · have c1 : f1.c = f.c := by have e := congrArg (fun f : Fpdf => f.c) s1.core; exact e
    have c2 : d.c = (f1.addPageFormat E cb o sz).c := by have e := congrArg (fun f : Fpdf => f.c) s2.core; exact e
    have he1 : f1.err = none := by
      by_contra hx
      rw [addPageFormat_eq, if_pos hx] at h1
      exact hx h1
    rw [c2, ← c1]
    exact addPage_text h1 he1

/-- … and what a reader has in effect on its page is what it remembers. -/
theorem cellOn_ap {E : Ext} {cb : Cb} {f d : Fpdf} (hcb : CbA cb) (h : CellOn E cb f d) (hd : d.err = none) (hf : AP f) (hn : nestOf f ≠ 0 → d.pages.length = f.pages.length) : AP d := by
  rcases h with rfl | ⟨f1, o, sz, s1, h1, s2⟩
  · exact hf
  · have K := hcb.flowRel E
    rcases (K.trans _ _ _ (K.step _ _ s1) (K.trans _ _ _ (K.page f1 o sz) (K.step _ _ s2))).2 hd hf with ⟨a, b⟩ | ⟨a, -⟩
    · have := hn a; omega
    · exact a

/-- **C17** The same holds for a cell, on the page on which it is drawn, be it the current one or the one after an automatic page break (whatever colours header and footer functions set). `MultiCell`, `Write` and their kind
print their text in such cells. -/
theorem C17_cell (E : Ext) (o u s : Bytes) (sz : Size) (f0 f : Fpdf) (cb0 cb : Cb) (r g b : Int) (R : Ready E cb f) (hall : Reach E (steady E) (Fpdf.new o u s sz) f)
    (hlast : Reach E (without setsText) (f0.exec E cb0 (.setTextColor r g b)) f) (hs : f.state = 2) (w h : Rat) (txt border : Bytes) (ln : Int) (align : Bytes) (fill : Bool) (link : Nat) (ls : Bytes)
    (hcb : CbReach E (steady E) cb) (hop : (steady E).op f cb (.cell w h txt border ln align fill link ls)) (f' : Fpdf) (hg : f' = f.exec E cb (.cell w h txt border ln align fill link ls)) (hok : f'.err = none) :
    ∃ d before line col frame text, (¬ Breaks cb f h → d = f) ∧ d.pageNo = f'.pageNo ∧ d.pages[d.page]? = some before ∧ f'.pages = modifyAt d.page (· ++ line) d.pages ∧ instrs line = frame ++ text ∧
      CellText d (cellWidth w d.getX d.getPageSize.1 d.getMargins.2.2.1) h txt align col text ∧ ∀ m ∈ marksOn before line, isText m.1 → Chosen m.2.fill (B "g") (B "rg") r g b := by
  obtain ⟨d, line, col, frame, text, hon, hds, hde, k1, k2, k3, k4, k5, k6, k7, k8, k9⟩ := cell_line E cb f R hs w h txt border ln align fill link ls f' hg hok
  obtain ⟨hf, ht⟩ := flag_since hlast
  obtain ⟨t1, t2, t3⟩ := cellOn_text hon R.ok
  have hcba : CbA cb := CbA.of (hcb.rel (fun _ _ h => reach_ar h)) hop.1.2.2.2.2.2
  have hlen : f'.pages.length = d.pages.length := by rw [k4, modifyAt_length]
  have hap : AP d := cellOn_ap hcba hon hde (steady_ap hall R.ok) (fun hn => by rw [← hlen, hg]; exact hop.1.2.2.2.2.1 hn)
  obtain ⟨before, st, h1, h2, -⟩ := at_before (hap.a.read hds)
  have hfd : FlagOk d.c := by
    unfold FlagOk at *
    rw [t1, t2, t3]; exact hf
  refine ⟨d, before, line, col, frame, text, k1, k3, h1, k4, k7, k9, fun m hm hT => ?_⟩
  unfold marksOn at hm
  rw [h2, k7, marks_append] at hm
  have hpl := body_plain k8 (fun v hv => (background_ops _ _ _ _ _ _ v hv).1)
  rcases List.mem_append.mp hm with hm | hm
  · exfalso
    rw [(marks_plain hpl _).1] at hm
    obtain ⟨i, hi, rfl⟩ := List.mem_map.mp hm
    have hi := (List.mem_filter.mp hi).1
    have key : ∀ (fr : List Instr) (ws : List (List Want × String)), Match fr ws → (∀ v ∈ ws, ¬ isText (B v.2)) → ∀ i ∈ fr, ¬ isText i.2 := by
      intro fr ws hm hw
      induction hm with
      | nil => intro i hi; cases hi
      | cons h _ ih =>
        intro i hi
        rcases List.mem_cons.mp hi with rfl | hi
        · rw [h.2]; exact hw _ (by simp)
        · exact ih (fun v hv => hw v (by simp [hv])) i hi
    exact key _ _ k8 (fun v hv => (background_ops _ _ _ _ _ _ v hv).2) i hi hT
  · rw [(marks_plain hpl _).2] at hm
    have hc : ∀ c, textColour d col = some c → SelectsColour c := by
      intro c hc
      unfold textColour at hc
      split at hc
      · cases hc; exact k5
      · cases hc
    have hfill : m.2.fill = paintedIn (instrs (d.c.fill.str ++ [10])) (textColour d col) := by
      unfold CellText at k9
      split at k9
      · rw [k9] at hm; cases hm
      · split at k9
        · obtain ⟨shift, words, -, -, -, hw, -⟩ := k9
          exact words_marks hw hc _ m hm
        · obtain ⟨dy, -, hw⟩ := k9
          exact shows_marks hw hc _ m hm
    rw [hfill, paintedIn_text hfd k6, t1, ht]
    exact fill_chosen r g b

/-! ### Rectangles -/

theorem rect_ops (a b c d : Want) {style : Bytes} {op : String} (h : Paints style op) : PathOps [([a, b, c, d], "re"), ([], op)] ∧ B op ∈ marking := by
  obtain ⟨s, h1, -⟩ := h
  have key : ∀ p ∈ painting, plainOp (B p.2) = true ∧ B p.2 ∈ marking := by decide +kernel
  obtain ⟨k1, k2⟩ := key _ h1
  refine ⟨fun w hw => ?_, k2⟩
  simp only [List.mem_cons, List.not_mem_nil, or_false] at hw
  rcases hw with rfl | rfl
  · dsimp only; decide +kernel
  · exact k1

/-- **C68** A rectangle, for instance, makes one mark: with the operator of its style, filled in the colour of the last `SetFillColor`, drawn in the colour of the last `SetDrawColor` and with the last line width. -/
theorem C68_rect (E : Ext) (o u s : Bytes) (sz : Size) (f : Fpdf) (cb : Cb) (hall : Reach E (steady E) (Fpdf.new o u s sz) f) (he : f.err = none) (hs : f.state = 2)
    (f1 f2 f3 : Fpdf) (cb1 cb2 cb3 : Cb) (r g b r' g' b' : Int) (lw : Rat) (h1 : Reach E (without setsFill) (f1.exec E cb1 (.setFillColor r g b)) f)
    (h2 : Reach E (without setsDraw) (f2.exec E cb2 (.setDrawColor r' g' b')) f) (h3 : Reach E (without setsWidth) (f3.exec E cb3 (.setLineWidth lw)) f)
    (x y w h : Rat) (style : Bytes) (op : String) (hst : Paints style op) :
    ∃ before line A a, f.pages[f.page]? = some before ∧ (f.exec E cb (.rect x y w h style)).pages = modifyAt f.page (· ++ line) f.pages ∧ marksOn before line = [(B op, A)] ∧
      Chosen A.fill (B "g") (B "rg") r g b ∧ Chosen A.stroke (B "G") (B "RG") r' g' b' ∧ A.width = [a] ∧ Meets a (.num 2 (lw * f.getConversionRatio)) := by
  obtain ⟨before, k1, k2⟩ := C68_fill E o u s sz f1 f cb1 r g b hall h1 he hs
  obtain ⟨before2, m1, m2⟩ := C68_draw E o u s sz f2 f cb2 r' g' b' hall h2 he hs
  obtain ⟨⟨before3, a, n1, n2, n3⟩, n4⟩ := C68_width E o u s sz f hall he hs
  rw [k1] at m1 n1
  cases m1
  cases n1
  obtain ⟨p1, p2⟩ := rect_ops (.num 2 (px f x)) (.num 2 (py f y)) (.num 2 (px f w)) (.num 2 (px f (-h))) hst
  obtain ⟨line, q1, q2⟩ := C68_shape f _ _ before k1 (C52_rect E cb f hs x y w h style op hst) p1
  refine ⟨before, line, _, a, k1, q1, ?_, k2, m2, n2, by rw [← n4 f3 cb3 lw h3]; exact n3⟩
  rw [q2]
  have hre : B "re" ∉ marking := by decide +kernel
  simp [hre, p2]

/-! ### Examples -/

/-- A check for `steady` (with the default call-backs). -/
def steadyB (E : Ext) (f : Fpdf) (op : Op) : Bool :=
  tidyB E f op && (match op with | .setPage _ => false | _ => true) && (!setsAttr op || nestOf f == 0)

theorem steadyB_ok (E : Ext) (f : Fpdf) (op : Op) (h : steadyB E f op = true) : (steady E).op f {} op := by
  unfold steadyB at h
  simp only [Bool.and_eq_true, Bool.or_eq_true, beq_iff_eq, Bool.not_eq_true'] at h
  obtain ⟨⟨h1, h2⟩, h3⟩ := h
  refine ⟨tidyB_ok E f op h1, ?_, fun ha => ?_⟩
  · rintro n rfl; cases h2
  · rcases h3 with h3 | h3
    · rw [ha] at h3; cases h3
    · exact h3

/-- A check for `without`. -/
def withoutB (bad : Op → Bool) (_ : Fpdf) (op : Op) : Bool := (match op with | .close | .output _ => false | _ => true) && !bad op

theorem withoutB_ok (bad : Op → Bool) (f : Fpdf) (op : Op) (h : withoutB bad f op = true) : (without bad).op f {} op := by
  unfold withoutB at h
  simp only [Bool.and_eq_true, Bool.not_eq_true'] at h
  refine ⟨?_, ?_, h.2⟩
  · rintro rfl; exact Bool.noConfusion h.1
  · rintro b rfl; exact Bool.noConfusion h.1

/-- What precedes the colours, and what follows them: another page, a clipping with a rectangle inside. -/
def paintedBegin : Fpdf := after (Fpdf.new [] [] [] {}) [.addPage, .setTextColor 0 0 255]
def paintedFill : Fpdf := after paintedBegin [.setFillColor 255 0 0]
def paintedDraw : Fpdf := after paintedFill [.setDrawColor 0 300 0]
def paintedDoc : Fpdf := after paintedDraw [.setLineWidth 2, .line 1 1 5 5, .addPage, .clipRect 5 5 50 50 true, .rect 6 6 10 10 (B "F"), .text 7 7 (B "in")]

theorem painted_steady : Reach {} (steady {}) (Fpdf.new [] [] [] {}) paintedDoc := by
  have h1 : Reach {} (steady {}) (Fpdf.new [] [] [] {}) paintedBegin := reach_after (G := steady {}) (steadyB_ok {}) _ _ _ (Reach.refl _) (by decide +kernel)
  have h2 : Reach {} (steady {}) (Fpdf.new [] [] [] {}) paintedFill := reach_after (G := steady {}) (steadyB_ok {}) _ _ _ h1 (by decide +kernel)
  have h3 : Reach {} (steady {}) (Fpdf.new [] [] [] {}) paintedDraw := reach_after (G := steady {}) (steadyB_ok {}) _ _ _ h2 (by decide +kernel)
  exact reach_after (G := steady {}) (steadyB_ok {}) _ _ _ h3 (by decide +kernel)

/-- The hypotheses of `C68_rect` and `C17_text` are met, on a second page and inside a clipping: the rectangle is red with a green frame two millimetres wide, the text blue. -/
example : (∃ before line A a, paintedDoc.pages[2]? = some before ∧ (paintedDoc.exec {} {} (.rect 1 1 5 5 (B "FD"))).pages = modifyAt 2 (· ++ line) paintedDoc.pages ∧ marksOn before line = [(B "B", A)] ∧
      Chosen A.fill (B "g") (B "rg") 255 0 0 ∧ Chosen A.stroke (B "G") (B "RG") 0 300 0 ∧ A.width = [a] ∧ Meets a (.num 2 (2 * paintedDoc.getConversionRatio))) ∧
    ∃ before line own n, paintedDoc.pages[2]? = some before ∧ (paintedDoc.exec {} {} (.text 1 1 (B "hi"))).pages = modifyAt 2 (· ++ line) paintedDoc.pages ∧
      Shows (instrs line) own (px paintedDoc (leftEnd paintedDoc 1 (B "hi"))) (py paintedDoc 1) (encoded paintedDoc (B "hi")) n ∧ ∀ m ∈ marksOn before line, Chosen m.2.fill (B "g") (B "rg") 0 0 255 := by
  have hp : paintedDoc.page = 2 := by decide +kernel
  have he : paintedDoc.err = none := by decide +kernel
  have hs : paintedDoc.state = 2 := by decide +kernel
  have f1 : Reach {} (without setsFill) (paintedBegin.exec {} {} (.setFillColor 255 0 0)) paintedDoc :=
    reach_after (G := without setsFill) (withoutB_ok _) _ _ _ (reach_after (G := without setsFill) (withoutB_ok _) _ _ _ (Reach.refl _) (by decide +kernel)) (by decide +kernel)
  have f2 : Reach {} (without setsDraw) (paintedFill.exec {} {} (.setDrawColor 0 300 0)) paintedDoc := reach_after (G := without setsDraw) (withoutB_ok _) _ _ _ (Reach.refl _) (by decide +kernel)
  have f3 : Reach {} (without setsWidth) (paintedDraw.exec {} {} (.setLineWidth 2)) paintedDoc :=
    reach_after (G := without setsWidth) (withoutB_ok _) _ [.line 1 1 5 5, .addPage, .clipRect 5 5 50 50 true, .rect 6 6 10 10 (B "F"), .text 7 7 (B "in")] _ (Reach.refl _) (by decide +kernel)
  have f4 : Reach {} (without setsText) ((after (Fpdf.new [] [] [] {}) [.addPage]).exec {} {} (.setTextColor 0 0 255)) paintedDoc :=
    reach_after (G := without setsText) (withoutB_ok _) _ _ _ (reach_after (G := without setsText) (withoutB_ok _) _ _ _ (reach_after (G := without setsText) (withoutB_ok _) _ _ _ (Reach.refl _)
      (by decide +kernel)) (by decide +kernel)) (by decide +kernel)
  have a := C68_rect {} [] [] [] {} paintedDoc {} painted_steady he hs _ _ _ _ _ _ _ _ _ _ _ _ _ f1 f2 f3 1 1 5 5 (B "FD") "B" ⟨"FD", by decide, by decide⟩
  have b := C17_text {} [] [] [] {} _ paintedDoc _ {} 0 0 255 painted_steady f4 he hs 1 1 (B "hi")
  rw [hp] at a b
  exact ⟨a, b⟩

/-- A colour set inside a clipping region. -/
def clippedDoc : Fpdf := after (Fpdf.new [] [] [] {}) [.addPage, .clipRect 5 5 50 50 false, .setFillColor 255 0 0, .clipEnd]

/-- **C68** is false of a colour set inside a clipping region: after `ClipEnd` the document still reports the colour and takes it to be in effect, but the reader of the page has gone back to black. -/
theorem C68_clip_false : clippedDoc.err = none ∧ clippedDoc.getFillColor = (255, 0, 0) ∧ ∃ before line, clippedDoc.pages[clippedDoc.page]? = some before ∧
    (attrsAfter before).fill = instrs (B "0.000 g ") ∧ (clippedDoc.exec {} {} (.rect 1 1 5 5 (B "F"))).pages = modifyAt clippedDoc.page (· ++ line) clippedDoc.pages ∧
    (marksOn before line).map (fun m => (m.1, m.2.fill)) = [(B "f", instrs (B "0.000 g "))] := by
  refine ⟨by decide +kernel, by decide +kernel, clippedDoc.pages.getD 1 [], B "2.83 839.06 14.17 -14.17 re f\n", by decide +kernel, by decide +kernel, by decide +kernel, by decide +kernel⟩

/-- A colour set on the second page, and back to the first. -/
def returnedDoc : Fpdf := after (Fpdf.new [] [] [] {}) [.addPage, .setFillColor 255 0 0, .addPage, .setFillColor 0 255 0, .setPage 1]

/-- **C68** is false after `SetPage`: the colour remembered is the one set on another page, but the one in effect is the one set on this page. -/
theorem C68_setPage_false : returnedDoc.err = none ∧ returnedDoc.page = 1 ∧ returnedDoc.getFillColor = (0, 255, 0) ∧ ∃ before line, returnedDoc.pages[returnedDoc.page]? = some before ∧
    (returnedDoc.exec {} {} (.rect 1 1 5 5 (B "F"))).pages = modifyAt returnedDoc.page (· ++ line) returnedDoc.pages ∧
    (marksOn before line).map (fun m => (m.1, m.2.fill)) = [(B "f", instrs (B "1.000 0.000 0.000 rg"))] := by
  refine ⟨by decide +kernel, by decide +kernel, by decide +kernel, returnedDoc.pages.getD 1 [], B "2.83 839.06 14.17 -14.17 re f\n", by decide +kernel, by decide +kernel, by decide +kernel⟩

end Verif.Props
