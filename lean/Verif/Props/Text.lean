import Verif.Proof.ColorInv
import Verif.Spec.Text
import Verif.Props.Cells
import Verif.Props.Colors
import Verif.Props.Utf16
/-
C03: text cannot inject page operators. C17: text is painted in the text colour.
-/
namespace Verif.Props
open Verif Verif.Model Verif.Spec Verif.Proof

/-! ### Colours are well-formed -/

/-- A string that selects a colour. -/
def ColStr (s : Bytes) : Prop := ∃ c, Frag s c ∧ SelectsColour c

theorem rgb_colStr (r g b : Int) : ColStr (rgbColorValue r g b "g" "rg").str := by
  have key : ∀ (c : Prop) [Decidable c] (x y z : Rat), ColStr (if c then sprintf "%.3f %s" [.f x, .s (B "g")] else sprintf "%.3f %.3f %.3f %s" [.f x, .f y, .f z, .s (B "rg")]) := by
    intro c _ x y z
    split
    · exact ⟨[([.word (fmtF 3 x)], B "g")], frag_sprintf rfl rfl, .gray _⟩
    · exact ⟨[([.word (fmtF 3 x), .word (fmtF 3 y), .word (fmtF 3 z)], B "rg")], frag_sprintf rfl rfl, .rgb _ _ _⟩
  exact key _ _ _ _

theorem spot_colStr (id : Nat) (t : Rat) : ColStr (sprintf "/CS%d cs %.3f scn" [.d id, .f t]) :=
  ⟨_, (frag_sprintf rfl rfl : Frag _ [([.name _], B "cs"), ([.word _], B "scn")]), .spot _ _⟩

/-- Both colours used for text are well-formed. -/
def ColsOk (c : ColorSt) : Prop := ColStr c.fill.str ∧ ColStr c.text.str

theorem colsOk_glue (a b : ColorSt) (ha : ColsOk a) (hb : ColsOk b) : ColsOk (glued a b) := by
  refine ⟨?_, ha.2⟩
  show ColStr (if b.fill.str ≠ a.fill.str then a.fill else b.fill).str
  split
  · exact ha.1
  · exact hb.1

theorem colsOk_set (E : Ext) (cb : Cb) (f : Fpdf) (op : Op) (hs : setter op = true) (h : ColsOk f.c) : ColsOk (f.exec E cb op).c := by
  have hfoot : ∀ op, staysOnPage op = true → (∀ g, (foot op g).c = g.c) → ColsOk (f.exec E cb op).c := fun op hs hq => by
    rw [foot_get (fun f => f.c) E cb f op hs hq]; exact h
  cases op with
  | setDrawColor r g b =>
    show ColsOk (f.setDrawColor r g b).c
    unfold Fpdf.setDrawColor; dsimp only
    split
    · rw [c_out]; exact h
    · exact h
  | setFillColor r g b =>
    show ColsOk (f.setFillColor r g b).c
    unfold Fpdf.setFillColor; dsimp only
    have : ColsOk { f.c with fill := rgbColorValue r g b "g" "rg", colorFlag := (rgbColorValue r g b "g" "rg").str != f.c.text.str } := ⟨rgb_colStr r g b, h.2⟩
    split
    · rw [c_out]; exact this
    · exact this
  | setTextColor r g b => exact ⟨h.1, rgb_colStr r g b⟩
  | setDrawSpotColor n t =>
    show ColsOk (f.setDrawSpotColor n t).c
    unfold Fpdf.setDrawSpotColor
    rcases getSpotColor_cases f n with ⟨c, -, -, e⟩ | ⟨g, -, e⟩
    · rw [e]; dsimp only
      split
      · rw [c_out]; exact h
      · exact h
    · rw [e]; exact h
  | setFillSpotColor n t =>
    show ColsOk (f.setFillSpotColor n t).c
    unfold Fpdf.setFillSpotColor
    rcases getSpotColor_cases f n with ⟨c, -, -, e⟩ | ⟨g, -, e⟩
    · rw [e]; dsimp only
      split
      · rw [c_out]; exact ⟨spot_colStr _ _, h.2⟩
      · exact ⟨spot_colStr _ _, h.2⟩
    · rw [e]; exact h
  | setTextSpotColor n t =>
    show ColsOk (f.setTextSpotColor n t).c
    unfold Fpdf.setTextSpotColor
    rcases getSpotColor_cases f n with ⟨c, -, -, e⟩ | ⟨g, -, e⟩
    · rw [e]; dsimp only; exact ⟨h.1, spot_colStr _ _⟩
    · rw [e]; exact h
  | setFont | setFontStyle | setFontSize | setFontUnitSize | addFontFile | addFont | addUTF8Font | setLineWidth | setLineCapStyle | setLineJoinStyle | setDashPattern =>
    exact hfoot _ rfl (fun _ => rfl)
  | _ => exact Bool.noConfusion hs

theorem new_cols (o u s : Bytes) (sz : Size) : ColsOk (Fpdf.new o u s sz).c ∧ (Fpdf.new o u s sz).c.colorFlag = ((Fpdf.new o u s sz).c.fill.str != (Fpdf.new o u s sz).c.text.str) := by
  have h : (Fpdf.new o u s sz).c = { draw := rgbColorValue 0 0 0 "G" "RG", fill := rgbColorValue 0 0 0 "g" "rg", text := rgbColorValue 0 0 0 "g" "rg", colorFlag := false } := by
    unfold Fpdf.new
    dsimp only
    split
    · rfl
    · split
      · rfl
      · split
        · rfl
        · rfl
  rw [h]
  exact ⟨⟨rgb_colStr 0 0 0, rgb_colStr 0 0 0⟩, by simp⟩

theorem noClose_without {E : Ext} {f g : Fpdf} (h : Reach E noClose f g) : Reach E (without fun _ => false) f g :=
  Reach.mono (G := noClose) (H := without fun _ => false) (fun _ _ _ h => ⟨h.1, h.2, rfl⟩) (fun _ h => h) h

theorem reach_cols {E : Ext} {o u s : Bytes} {sz : Size} {f : Fpdf} (h : Reach E noClose (Fpdf.new o u s sz) f) : ColsOk f.c :=
  reach_good colsOk_glue (fun _ => false) (fun cb g op hs _ hj => colsOk_set E cb g op hs hj) (noClose_without h) (new_cols o u s sz).1

/-! ### Text -/

/-- The string operand for a text: the bytes themselves, or with a UTF-8 font the UTF-16 form of the text (reversed in right-to-left mode). -/
def encoded (f : Fpdf) (txt : Bytes) : Bytes :=
  if f.t.isUTF8 then u16 (if f.t.isRTL then reverseText txt else txt) false else txt

/-- The number of bars: one each for underlined and struck out text. -/
def bars (f : Fpdf) : Nat := (if f.t.underline then 1 else 0) + (if f.t.strikeout then 1 else 0)

/-- The left end of a text at `x`: in right-to-left mode it ends there. -/
def leftEnd (f : Fpdf) (x : Rat) (txt : Bytes) : Rat :=
  if f.t.isUTF8 = true ∧ f.t.isRTL = true then x - f.getStringWidth (reverseText txt) else x

/-- The colour that text gets. -/
def textColour (f : Fpdf) (col : List Instr) : Option (List Instr) := if f.c.colorFlag then some col else none

theorem deco_bars {c d : Prop} [Decidable c] [Decidable d] {u s : List Instr} (hu : Deco c u) (hs : Deco d s) : Bars ((if c then 1 else 0) + (if d then 1 else 0)) (u ++ s) := by
  rcases hu with ⟨h1, rfl⟩ | ⟨h1, w, x, y, z, rfl⟩ <;> rcases hs with ⟨h2, rfl⟩ | ⟨h2, w', x', y', z', rfl⟩
  · rw [if_neg h1, if_neg h2]; rfl
  · rw [if_neg h1, if_pos h2]; exact ⟨⟨_, _, _, _, rfl⟩, rfl, rfl, rfl, rfl⟩
  · rw [if_pos h1, if_neg h2]; exact ⟨⟨_, _, _, _, rfl⟩, rfl, rfl, rfl, rfl⟩
  · rw [if_pos h1, if_pos h2]; exact ⟨⟨_, _, _, _, rfl⟩, rfl, rfl, rfl, ⟨_, _, _, _, rfl⟩, rfl, rfl, rfl, rfl⟩

theorem showInstrs_showing (a b : Rat) (t : Bytes) : Match (showInstrs a b t) (showing a b t) := match_written (showing a b t)

theorem still_page {f g : Fpdf} (h : Still f g) : g.state = f.state ∧ g.page = f.page ∧ g.pages = f.pages := by
  have e := h.quiet
  have e1 : frameOf g = frameOf f := congrArg Prod.fst e
  exact ⟨congrArg Prod.fst e1, frame_page e1, congrArg (fun p => p.2.1) e⟩

theorem text_shows (E : Ext) (cb : Cb) (f : Fpdf) (hist : ColStr f.c.text.str) (hs : f.state = 2) (x y : Rat) (txt : Bytes) :
    ∃ line col, (f.exec E cb (.text x y txt)).pages = modifyAt f.page (· ++ line) f.pages ∧ SelectsColour col ∧ instrs (f.c.text.str ++ [10]) = col ∧
      Shows (instrs line) (textColour f col) (px f (leftEnd f x txt)) (py f y) (encoded f txt) (if txt = [] then 0 else bars f) := by
  obtain ⟨col, c1, c2⟩ := hist
  obtain ⟨g, line, a, b, us, ss, h1, h2, h3, h4, ⟨hb, ha⟩, h5⟩ := text_line f x y txt
  have h5 := h5 col c1
  obtain ⟨g1, g2, g3⟩ := still_page h2
  refine ⟨line ++ [10], col, ?_, c2, (c1 10 (by decide)).instrs, ?_⟩
  · show (f.text x y txt).pages = _
    rw [h1]
    unfold Fpdf.out
    rw [if_pos (g1.trans hs), g2, g3]
    simp [List.append_assoc]
  · refine ⟨showInstrs a b (encoded f txt), us ++ ss, ?_, ?_, ?_⟩
    · rw [(h5 10 (by decide)).instrs]
      unfold textColour inColour encoded
      unfold shownText inQ at *
      cases f.c.colorFlag
      · simp [List.append_assoc]
      · simp [List.append_assoc]
    · by_cases ht : txt = []
      · rw [if_pos ht]
        have := deco_bars h3 h4
        simpa [ht] using this
      · rw [if_neg ht]
        have := deco_bars h3 h4
        simpa [ht, bars] using this
    · have := showInstrs_showing a b (encoded f txt)
      rw [ha, hb] at this
      rw [ha, hb]
      exact this

/-- **C03** Whatever the text, `Text` appends to the page one line in which a reader sees the operators that show the text as one string at the position, bars for underlining and
striking out, and nothing else, except for the selection of the text colour around it. -/
theorem C03_text (E : Ext) (cb : Cb) (f : Fpdf) (hist : ∃ o u s sz, Reach E noClose (Fpdf.new o u s sz) f) (hs : f.state = 2) (x y : Rat) (txt : Bytes) :
    ∃ line col, (f.exec E cb (.text x y txt)).pages = modifyAt f.page (· ++ line) f.pages ∧ SelectsColour col ∧ instrs (f.c.text.str ++ [10]) = col ∧
      Shows (instrs line) (textColour f col) (px f (leftEnd f x txt)) (py f y) (encoded f txt) (if txt = [] then 0 else bars f) := by
  obtain ⟨o, u, s, sz, hr⟩ := hist
  exact text_shows E cb f (reach_cols hr).2 hs x y txt

/-- **C03** With a UTF-8 font, for text of the Basic Multilingual Plane (left to right), the string operand is read back as exactly the characters of the text. -/
theorem C03_utf8 (f : Fpdf) (hu : f.t.isUTF8 = true) (hl : f.t.isRTL = false) (cps : List Nat) (h : ∀ cp ∈ cps, cp < 0x10000 ∧ isScalar cp) :
    utf16Dec (encoded f (utf8Enc cps)) = some cps := by
  obtain ⟨u, h1, h2⟩ := C02_utf16_bmp cps false h
  unfold encoded u16
  rw [if_pos hu, if_neg (by simp [hl]), h1]
  exact h2

/-! ### Cells -/

theorem rect_lines (a b c d : Rat) (op : String) (hop : op = "B" ∨ op = "f" ∨ op = "S") :
    Lines (sprintf "%.2f %.2f %.2f %.2f re %s " [.f a, .f b, .f c, .f d, .s (B op)]) (written [([.num 2 a, .num 2 b, .num 2 c, .num 2 d], "re"), ([], op)]) := by
  have hp : Frag (sprintf "%.2f %.2f %.2f %.2f re %s " [.f a, .f b, .f c, .f d, .s (B op)])
      [([.word (fmtF 2 a), .word (fmtF 2 b), .word (fmtF 2 c), .word (fmtF 2 d)], B "re"), ([], B op)] := by
    rcases hop with rfl | rfl | rfl <;> exact frag_sprintf rfl rfl
  have e : sprintf "%.2f %.2f %.2f %.2f re %s " [.f a, .f b, .f c, .f d, .s (B op)]
      = (sprintf "%.2f %.2f %.2f %.2f re %s" [.f a, .f b, .f c, .f d, .s (B op)]) ++ [32] := by
    have e1 : sprintf "%.2f %.2f %.2f %.2f re %s " [.f a, .f b, .f c, .f d, .s (B op)]
      = fmtF 2 a ++ (B " " ++ (fmtF 2 b ++ (B " " ++ (fmtF 2 c ++ (B " " ++ (fmtF 2 d ++ (B " re " ++ (B op ++ [32])))))))) := sprintf_of_render rfl
    have e2 : sprintf "%.2f %.2f %.2f %.2f re %s" [.f a, .f b, .f c, .f d, .s (B op)]
      = fmtF 2 a ++ (B " " ++ (fmtF 2 b ++ (B " " ++ (fmtF 2 c ++ (B " " ++ (fmtF 2 d ++ (B " re " ++ (B op ++ [])))))))) := sprintf_of_render rfl
    rw [e1, e2]
    simp only [List.append_assoc, List.append_nil]
  rw [e] at hp ⊢
  exact hp.lines

theorem stroke_lines (a b c d : Rat) : Lines (Fpdf.borderLine a b c d) (written (stroke a b c d)) := by
  unfold Fpdf.borderLine
  have hp : Frag (sprintf "%.2f %.2f m %.2f %.2f l S " [.f a, .f b, .f c, .f d])
      [([.word (fmtF 2 a), .word (fmtF 2 b)], B "m"), ([.word (fmtF 2 c), .word (fmtF 2 d)], B "l"), ([], B "S")] := frag_sprintf rfl rfl
  have e : sprintf "%.2f %.2f m %.2f %.2f l S " [.f a, .f b, .f c, .f d] = (sprintf "%.2f %.2f m %.2f %.2f l S" [.f a, .f b, .f c, .f d]) ++ [32] := by
    have e1 : sprintf "%.2f %.2f m %.2f %.2f l S " [.f a, .f b, .f c, .f d]
      = fmtF 2 a ++ (B " " ++ (fmtF 2 b ++ (B " m " ++ (fmtF 2 c ++ (B " " ++ (fmtF 2 d ++ B " l S ")))))) := sprintf_of_render rfl
    have e2 : sprintf "%.2f %.2f m %.2f %.2f l S" [.f a, .f b, .f c, .f d]
      = fmtF 2 a ++ (B " " ++ (fmtF 2 b ++ (B " m " ++ (fmtF 2 c ++ (B " " ++ (fmtF 2 d ++ B " l S")))))) := sprintf_of_render rfl
    have e3 : B " l S " = B " l S" ++ [32] := by decide
    rw [e1, e2, e3]
    simp only [List.append_assoc]
  rw [e] at hp ⊢
  exact hp.lines

theorem written_append (a b : List (List Want × String)) : written (a ++ b) = written a ++ written b := List.map_append ..

theorem lines_ite {s : Bytes} {w : List (List Want × String)} (h : Lines s (written w)) (c : Prop) [Decidable c] : Lines (if c then s else []) (written (if c then w else [])) := by
  split
  · exact h
  · exact Lines.nil

/-- The background and the borders of a cell as a reader sees them. -/
theorem frame_lines (f : Fpdf) (w h : Rat) (border : Bytes) (fill : Bool) :
    Lines (f.cellRect w h border fill ++ f.cellBorder w h border)
      (written (background (px f f.getX) (py f f.getY) (w * f.getConversionRatio) (h * f.getConversionRatio) border fill ++
        sides (px f f.getX) (py f f.getY) (w * f.getConversionRatio) (h * f.getConversionRatio) border)) := by
  rw [written_append]
  refine Lines.append ?_ ?_
  · unfold Fpdf.cellRect background
    by_cases hc : fill = true ∨ border = B "1"
    · rw [if_pos hc, if_pos hc]
      have e : (-h * f.k : Rat) = -(h * f.getConversionRatio) := neg_mul h f.k
      rw [e]
      dsimp only
      have eo : (if fill = true then if border = B "1" then B "B" else B "f" else B "S") = B (if fill = true then (if border = B "1" then "B" else "f") else "S") := by
        split
        · split <;> rfl
        · rfl
      rw [eo]
      refine rect_lines _ _ _ _ _ ?_
      split
      · split
        · exact .inl rfl
        · exact .inr (.inl rfl)
      · exact .inr (.inr rfl)
    · rw [if_neg hc, if_neg hc]; exact Lines.nil
  · unfold Fpdf.cellBorder sides
    by_cases hc : border ≠ [] ∧ border ≠ B "1"
    · rw [if_pos hc, if_pos hc]
      dsimp only
      have e1 : (f.p.x + w) * f.k = px f f.getX + w * f.getConversionRatio := add_mul ..
      have e2 : (f.p.h - (f.p.y + h)) * f.k = py f f.getY - h * f.getConversionRatio := by
        show _ = (f.p.h - f.p.y) * f.k - h * f.k
        ring
      rw [e1, e2]
      rw [written_append, written_append, written_append]
      exact (((lines_ite (stroke_lines _ _ _ _) _).append (lines_ite (stroke_lines _ _ _ _) _)).append (lines_ite (stroke_lines _ _ _ _) _)).append (lines_ite (stroke_lines _ _ _ _) _)
    · rw [if_neg hc, if_neg hc]; exact Lines.nil

/-- The text of a cell: with a byte font the bytes of the text (a reader takes every line ending inside a string for a line feed), with a UTF-8 font the UTF-16 form. -/
def cellEncoded (f : Fpdf) (txt : Bytes) : Bytes := if f.t.isUTF8 then encoded f txt else eolNorm txt

/-- The text of a cell in the order in which it is shown. -/
def ordered (f : Fpdf) (txt : Bytes) : Bytes := if f.t.isRTL then reverseText txt else txt

/-- What a cell shows: one string at the aligned position or, justified with a UTF-8 font, an array of the words and the blanks between them. In the latter case all blanks are shifted by the same amount, so that the text together with
the shifts has exactly the width that there is room for (in thousandths of the font size). -/
def CellText (d : Fpdf) (w h : Rat) (txt align : Bytes) (col is : List Instr) : Prop :=
  if txt = [] then is = []
  else if d.t.isUTF8 = true ∧ (d.t.ws ≠ 0 ∨ align = B "J") then
    ∃ shift words, words ≠ [] ∧ (words.intersperse (B " ")).flatten = ordered d txt ∧ (∀ t ∈ words, 32 ∉ t) ∧ ShowsWords is (textColour d col) (px d (d.getX + alignX align w d.getCellMargin (d.getStringWidth txt))) (py d (d.getY + h / 2 + 3 / 10 * d.t.fontSize)) (u16 (B " ") false)
        (words.map fun t => u16 t false) shift (bars d) ∧
      (32 ∈ ordered d txt → shift * ((ordered d txt).count 32 : Rat) + d.getStringSymbolWidth (ordered d txt) = ceilInt ((w - 2 * d.getCellMargin) * 1000 / d.t.fontSize))
  else ∃ dy, (align.contains 0x54 = false → align.contains 0x42 = false → align.contains 0x41 = false → dy = 0) ∧
      Shows is (textColour d col) (px d (d.getX + alignX align w d.getCellMargin (d.getStringWidth txt))) (py d (d.getY + dy + h / 2 + 3 / 10 * d.t.fontSize)) (cellEncoded d txt) (bars d)

theorem splitSpaces_spec (s : Bytes) : splitSpaces s ≠ [] ∧ ((splitSpaces s).intersperse (B " ")).flatten = s ∧ (∀ t ∈ splitSpaces s, 32 ∉ t) ∧ (splitSpaces s).length = s.count 32 + 1 := by
  induction s with
  | nil => refine ⟨by simp [splitSpaces], rfl, by simp [splitSpaces], rfl⟩
  | cons c r ih =>
    obtain ⟨h1, h2, h3, h4⟩ := ih
    unfold splitSpaces
    cases hs : splitSpaces r with
    | nil => exact absurd hs h1
    | cons t ts =>
      rw [hs] at h2 h3 h4
      dsimp only
      by_cases hc : c = 32
      · rw [if_pos hc, hc]
        refine ⟨by simp, ?_, ?_, ?_⟩
        · show ([] :: B " " :: (t :: ts).intersperse (B " ")).flatten = _
          rw [List.flatten_cons, List.flatten_cons, h2]
          rfl
        · intro u hu
          rcases List.mem_cons.mp hu with rfl | hu
          · simp
          · exact h3 u hu
        · simp only [List.length_cons, List.count_cons] at h4 ⊢
          simp
          omega
      · rw [if_neg hc]
        refine ⟨by simp, ?_, ?_, ?_⟩
        · cases ts with
          | nil => simpa using h2
          | cons u us => simpa using h2
        · intro u hu
          rcases List.mem_cons.mp hu with rfl | hu
          · have := h3 t (by simp)
            simp [this, Ne.symm hc]
          · exact h3 u (List.mem_cons_of_mem _ hu)
        · simp only [List.length_cons, List.count_cons] at h4 ⊢
          simp [hc]
          omega

theorem justToks_words (sh : Rat) (l : List Bytes) : justToks sh l = spacedWords (.word (fmtF 3 (-sh))) (u16 (B " ") false) (l.map fun t => u16 t false) := by
  fun_induction justToks sh l with
  | case1 => rfl
  | case2 t => rfl
  | case3 t r h ih =>
    cases r with
    | nil => exact absurd rfl h
    | cons a r => rw [ih]; rfl

theorem cellBody_text {d : Fpdf} {w h : Rat} {txt align : Bytes} {col is : List Instr} (hb : CellBody d w h txt align col is) : CellText d w h txt align col is := by
  unfold CellBody at hb
  unfold CellText
  split
  · next ht => rw [if_pos ht] at hb; exact hb
  · next ht =>
    rw [if_neg ht] at hb
    obtain ⟨t, u, s, ht, hu, hs, rfl⟩ := hb
    have hbars : Bars (bars d) (u ++ s) := deco_bars hu hs
    have hin : ∀ t, (if d.c.colorFlag = true then inQ (col ++ (t ++ u ++ s)) else t ++ u ++ s) = inColour (textColour d col) (t ++ (u ++ s)) := by
      intro t
      unfold textColour inColour inQ
      cases d.c.colorFlag <;> simp [List.append_assoc]
    rw [hin]
    cases ht with
    | plain hj =>
      rw [if_neg (fun h => hj h.symm)]
      refine ⟨d.cellDy h align, ?_, _, _, rfl, hbars, ?_⟩
      · intro h1 h2 h3
        unfold Fpdf.cellDy
        rw [if_neg (by rw [h1]; decide), if_neg (by rw [h2]; decide), if_neg (by rw [h3]; decide)]
      · have e : (if d.t.isUTF8 = true then u16 (shownText d txt) false else eolNorm txt) = cellEncoded d txt := by
          unfold cellEncoded encoded shownText
          cases d.t.isUTF8 <;> rfl
        rw [e]
        exact showInstrs_showing _ _ _
    | just hj =>
      rw [if_pos hj.symm]
      have eo : shownText d txt = ordered d txt := rfl
      obtain ⟨w1, w2, w3, w4⟩ := splitSpaces_spec (ordered d txt)
      refine ⟨((cellRoom d w - d.getStringSymbolWidth (ordered d txt) : Int) : Rat) / (((splitSpaces (ordered d txt)).length - 1 : Nat) : Rat), splitSpaces (ordered d txt), w1, w2, w3, ⟨_, _, _, _, ?_, hbars, meets_fmt 2 _, meets_fmt 2 _, meets_fmt 3 _⟩, ?_⟩
      · unfold justInstrs
        rw [justToks_words]
        rfl
      · intro hm
        have hc : 0 < (ordered d txt).count 32 := List.count_pos_iff.mpr hm
        have hl : (splitSpaces (ordered d txt)).length - 1 = (ordered d txt).count 32 := by rw [w4]; omega
        have hne : ((List.count 32 (ordered d txt) : Nat) : Rat) ≠ 0 := by
          intro h
          have h0 : (ordered d txt).count 32 = 0 := by exact_mod_cast h
          omega
        rw [hl, Rat.div_mul_cancel hne, ← Rat.intCast_add, Int.sub_add_cancel]
        rfl

/-- The document on which a cell is drawn: as it is, or after a page break. -/
def CellOn (E : Ext) (cb : Cb) (f d : Fpdf) : Prop := d = f ∨ ∃ f1 o sz, FStep f f1 ∧ (f1.addPageFormat E cb o sz).err = none ∧ FStep (f1.addPageFormat E cb o sz) d

theorem cell_line (E : Ext) (cb : Cb) (f : Fpdf) (R : Ready E cb f) (hs : f.state = 2) (w h : Rat) (txt border : Bytes) (ln : Int) (align : Bytes) (fill : Bool) (link : Nat) (ls : Bytes)
    (g : Fpdf) (hg : g = f.exec E cb (.cell w h txt border ln align fill link ls)) (hok : g.err = none) :
    ∃ d line col frame text, CellOn E cb f d ∧ d.state = 2 ∧ d.err = none ∧ (¬ Breaks cb f h → d = f) ∧ d.getX = f.getX ∧ d.pageNo = g.pageNo ∧ g.pages = modifyAt d.page (· ++ line) d.pages ∧
      SelectsColour col ∧ instrs (d.c.text.str ++ [10]) = col ∧ instrs line = frame ++ text ∧
      Match frame (background (px d d.getX) (py d d.getY) (cellWidth w d.getX d.getPageSize.1 d.getMargins.2.2.1 * d.getConversionRatio) (h * d.getConversionRatio) (toUpper border) fill ++
        sides (px d d.getX) (py d d.getY) (cellWidth w d.getX d.getPageSize.1 d.getMargins.2.2.1 * d.getConversionRatio) (h * d.getConversionRatio) (toUpper border)) ∧
      CellText d (cellWidth w d.getX d.getPageSize.1 d.getMargins.2.2.1) h txt align col text := by
  have hcols : ColsOk g.c := by
    obtain ⟨o, u, s, sz, h1, h2⟩ := R.hist
    have h3 : Reach E noClose f g := by
      rw [hg]
      exact .step _ cb (.refl f) ⟨by simp, by simp⟩ (fun h hh s _ => inPlace_noClose (R.cbs.header h hh s trivial)) (fun h hh b s _ => inPlace_noClose (R.cbs.footer h hh b s trivial))
        (fun s => inPlace_noClose (R.cbs.accept s))
    exact reach_cols (h2.trans h3)
  have main : ∀ d : Fpdf, CellOn E cb f d → d.state = 2 → d.getX = f.getX → (¬ Breaks cb f h → d = f) → g = d.cellDraw w h txt (toUpper border) ln align fill link ls →
      ∃ d line col frame text, CellOn E cb f d ∧ d.state = 2 ∧ d.err = none ∧ (¬ Breaks cb f h → d = f) ∧ d.getX = f.getX ∧ d.pageNo = g.pageNo ∧ g.pages = modifyAt d.page (· ++ line) d.pages ∧
      SelectsColour col ∧ instrs (d.c.text.str ++ [10]) = col ∧ instrs line = frame ++ text ∧
      Match frame (background (px d d.getX) (py d d.getY) (cellWidth w d.getX d.getPageSize.1 d.getMargins.2.2.1 * d.getConversionRatio) (h * d.getConversionRatio) (toUpper border) fill ++
        sides (px d d.getX) (py d d.getY) (cellWidth w d.getX d.getPageSize.1 d.getMargins.2.2.1 * d.getConversionRatio) (h * d.getConversionRatio) (toUpper border)) ∧
      CellText d (cellWidth w d.getX d.getPageSize.1 d.getMargins.2.2.1) h txt align col text := by
    intro d hon hd hx hb hgd
    have hst := cellDraw_step d w h txt (toUpper border) ln align fill link ls
    have hde : d.err = none := none_of hst.emits.frm.latch (by rw [← hgd]; exact hok)
    have hc : g.c = d.c := by rw [hgd]; have e := congrArg (fun f : Fpdf => f.c) hst.core; exact e
    have hpg : g.page = d.page := by rw [hgd]; exact frame_page hst.emits.frm.frame
    rw [hc] at hcols
    obtain ⟨col, c1, c2⟩ := hcols.2
    obtain ⟨g1, pre, s, w', e1, q1, -, q2, hw, hpre⟩ := cellDraw_line d w h txt (toUpper border) ln align fill link ls
    obtain ⟨is, q3, q4⟩ := q2 col c1
    have hw' : w' = cellWidth w d.getX d.getPageSize.1 d.getMargins.2.2.1 := hw
    have hfr := frame_lines d w' h (toUpper border) fill
    rw [← hpre] at hfr
    obtain ⟨s1, s2, s3⟩ := still_page q1
    have hadv : ∀ q : Fpdf, (q.cellAdvance w' h ln).pages = q.pages := by
      intro q; unfold Fpdf.cellAdvance; dsimp only; split
      · split <;> rfl
      · rfl
    subst hw'
    have hline := hfr.frag q3
    by_cases hl : (pre ++ s).length > 0
    · refine ⟨d, pre ++ s ++ [10], col, _, is, hon, hd, hde, hb, hx, hpg.symm, ?_, c2, (c1 10 (by decide)).instrs, (hline 10 (by decide)).instrs, match_written _, cellBody_text q4⟩
      rw [hgd, e1, hadv, if_pos hl]
      unfold Fpdf.out
      rw [if_pos (s1.trans hd), s2, s3]
      simp [List.append_assoc]
    · have hnil : pre ++ s = [] := by simpa using hl
      have h1 := (hline 10 (by decide)).instrs
      rw [hnil] at h1
      have h2 : instrs ([] ++ [10] : Bytes) = [] := by decide
      have h3 : instrs ([] : Bytes) = [] := by decide
      refine ⟨d, [], col, _, is, hon, hd, hde, hb, hx, hpg.symm, ?_, c2, (c1 10 (by decide)).instrs, h3.trans (h2.symm.trans h1), match_written _, cellBody_text q4⟩
      rw [hgd, e1, hadv, if_neg hl, s3]
      exact (modifyAt_id _ _ _ (by simp)).symm
  have hg' : g = f.cellFormat E cb w h txt border ln align fill link ls := hg
  unfold Fpdf.cellFormat at hg'
  rw [if_neg (by simp [R.ok])] at hg'
  split at hg'
  · rw [hg'] at hok; simp [Fpdf.assignErr] at hok
  · rcases cellBreak_cases E cb f h R.geo R.answers with ⟨hb, he⟩ | ⟨hb, f1, s1, p1, e1, ⟨ha, he⟩ | ⟨ha, d, he, dp, hd⟩⟩
    · rw [he] at hg'
      dsimp only at hg'
      rw [if_pos rfl] at hg'
      exact main f (.inl rfl) hs rfl (fun _ => rfl) hg'
    · rw [he] at hg'
      dsimp only at hg'
      rw [if_neg (by decide)] at hg'
      rw [hg'] at hok; exact absurd hok ha
    · rw [he] at hg'
      dsimp only at hg'
      rw [if_pos rfl] at hg'
      have hs1 : f1.state = 2 := (congrArg Prod.fst s1.emits.frm.frame).trans hs
      have hrel : Cb.Rel (fun s => s.page ≠ 0) OB cb := ⟨fun h hh s _ => reach_ob (R.cbs.header h hh s trivial), fun h hh b s _ => reach_ob (R.cbs.footer h hh b s trivial), fun s => reach_ob (R.cbs.accept s)⟩
      have hs2 := (addPageFormat_ready (E := E) hrel f1 _ _ (.inl hs1) ha).1
      exact main d (.inr ⟨f1, _, _, s1, ha, hd⟩) ((congrArg Prod.fst hd.emits.frm.frame).trans hs2) (by show d.p.x = f.p.x; rw [dp]) (fun h => absurd hb h) hg'

/-- **C03** Whatever its text, a cell appends to one page one line in which a reader sees the background, the sides asked for, the text as one string at the aligned position (or, justified, as
words and blanks) and bars for underlining and striking out, and nothing else, except for the selection of the text colour around the text. A cell that does not break the page is drawn in the document as it is;
otherwise on the new page. -/
theorem C03_cell (E : Ext) (cb : Cb) (f : Fpdf) (R : Ready E cb f) (hs : f.state = 2) (w h : Rat) (txt border : Bytes) (ln : Int) (align : Bytes) (fill : Bool) (link : Nat) (ls : Bytes)
    (g : Fpdf) (hg : g = f.exec E cb (.cell w h txt border ln align fill link ls)) (hok : g.err = none) :
    ∃ d line col frame text, (¬ Breaks cb f h → d = f) ∧ d.getX = f.getX ∧ d.pageNo = g.pageNo ∧ g.pages = modifyAt d.page (· ++ line) d.pages ∧
      SelectsColour col ∧ instrs (d.c.text.str ++ [10]) = col ∧ instrs line = frame ++ text ∧
      Match frame (background (px d d.getX) (py d d.getY) (cellWidth w d.getX d.getPageSize.1 d.getMargins.2.2.1 * d.getConversionRatio) (h * d.getConversionRatio) (toUpper border) fill ++
        sides (px d d.getX) (py d d.getY) (cellWidth w d.getX d.getPageSize.1 d.getMargins.2.2.1 * d.getConversionRatio) (h * d.getConversionRatio) (toUpper border)) ∧
      CellText d (cellWidth w d.getX d.getPageSize.1 d.getMargins.2.2.1) h txt align col text := by
  obtain ⟨d, line, col, frame, text, -, -, -, h⟩ := cell_line E cb f R hs w h txt border ln align fill link ls g hg hok
  exact ⟨d, line, col, frame, text, h⟩

/-! ### The colour of text -/

/-- Text gets its own colour exactly when it differs from the fill colour. -/
def FlagOk (c : ColorSt) : Prop := c.colorFlag = (c.fill.str != c.text.str)

theorem flagOk_glue (a b : ColorSt) (ha : FlagOk a) (_ : FlagOk b) : FlagOk (glued a b) := by
  show a.colorFlag = ((if b.fill.str ≠ a.fill.str then a.fill else b.fill).str != a.text.str)
  split
  · exact ha
  · next h => rw [not_not.mp h]; exact ha

/-- The call `SetTextSpotColor`. -/
def spotText : Op → Bool
  | .setTextSpotColor _ _ => true
  | _ => false

theorem flagOk_set (E : Ext) (cb : Cb) (f : Fpdf) (op : Op) (hs : setter op = true) (hb : spotText op = false) (h : FlagOk f.c) : FlagOk (f.exec E cb op).c := by
  have hfoot : ∀ op, staysOnPage op = true → (∀ g, (foot op g).c = g.c) → FlagOk (f.exec E cb op).c := fun op hs hq => by
    rw [foot_get (fun f => f.c) E cb f op hs hq]; exact h
  cases op with
  | setDrawColor r g b =>
    show FlagOk (f.setDrawColor r g b).c
    unfold Fpdf.setDrawColor; dsimp only
    split
    · rw [c_out]; exact h
    · exact h
  | setFillColor r g b =>
    show FlagOk (f.setFillColor r g b).c
    unfold Fpdf.setFillColor; dsimp only
    split
    · rw [c_out]; rfl
    · rfl
  | setTextColor r g b => rfl
  | setDrawSpotColor n t =>
    show FlagOk (f.setDrawSpotColor n t).c
    unfold Fpdf.setDrawSpotColor
    rcases getSpotColor_cases f n with ⟨c, -, -, e⟩ | ⟨g, -, e⟩
    · rw [e]; dsimp only
      split
      · rw [c_out]; exact h
      · exact h
    · rw [e]; exact h
  | setFillSpotColor n t =>
    show FlagOk (f.setFillSpotColor n t).c
    unfold Fpdf.setFillSpotColor
    rcases getSpotColor_cases f n with ⟨c, -, -, e⟩ | ⟨g, -, e⟩
    · rw [e]; dsimp only
      split
      · rw [c_out]; rfl
      · rfl
    · rw [e]; exact h
  | setTextSpotColor n t => exact Bool.noConfusion hb
  | setFont | setFontStyle | setFontSize | setFontUnitSize | addFontFile | addFont | addUTF8Font | setLineWidth | setLineCapStyle | setLineJoinStyle | setDashPattern =>
    exact hfoot _ rfl (fun _ => rfl)
  | _ => exact Bool.noConfusion hs

/-- The colour a piece of text is painted in: its own one, or the fill colour in effect. -/
def paintedIn (fill : List Instr) (own : Option (List Instr)) : List Instr := own.getD fill

/-- **C17** The text colour is what `SetTextColor` sets. -/
theorem C17_set (E : Ext) (cb : Cb) (f : Fpdf) (r g b : Int) : (f.exec E cb (.setTextColor r g b)).c.text = rgbColorValue r g b "g" "rg" ∧
    (f.exec E cb (.setTextColor r g b)).c.fill = f.c.fill := ⟨rfl, rfl⟩

/-- **C17** is false of `SetTextSpotColor`: the text is painted in the fill colour (grey 0). -/
theorem C17_spot_false : ∃ f : Fpdf, f = after (Fpdf.new [] (B "mm") (B "A4") {}) [.addPage, .addSpotColor (B "Gold") 0 20 80 10, .setTextSpotColor (B "Gold") 100] ∧ f.err = none ∧
    f.getTextSpotColor.1 = B "Gold" ∧ f.c.text.str = B "/CS1 cs 1.000 scn" ∧ f.c.fill.str = B "0.000 g" ∧
    (f.exec {} {} (.text 10 10 (B "hi"))).pages[1]? = f.pages[1]?.map (· ++ B "BT 28.35 813.54 Td (hi) Tj ET\n") := by
  refine ⟨_, rfl, ?_, ?_, ?_, ?_, ?_⟩
  · decide +kernel
  · decide +kernel
  · decide +kernel
  · decide +kernel
  · decide +kernel

/-! ### Non-vacuity -/

/-- A document with text colour, on a page. -/
def coloured : Fpdf := after (Fpdf.new [] (B "mm") (B "A4") {}) [.addPage, .setTextColor 255 0 0]

example : ∃ line own, (coloured.exec {} {} (.text 10 10 (B ") Tj (x"))).pages = modifyAt 1 (· ++ line) coloured.pages ∧ own ≠ none ∧
    (∃ n, Shows (instrs line) own (px coloured 10) (py coloured 10) (B ") Tj (x") n) := by
  have hr : Reach {} noClose (Fpdf.new [] (B "mm") (B "A4") {}) coloured := noClose_after {} _ _ (by decide)
  obtain ⟨line, col, h1, -, -, h2⟩ := C03_text {} {} coloured ⟨_, _, _, _, hr⟩ (by decide +kernel) 10 10 (B ") Tj (x")
  have e : textColour coloured col = some col := by
    have : coloured.c.colorFlag = true := by decide +kernel
    simp [textColour, this]
  have e2 : leftEnd coloured 10 (B ") Tj (x") = 10 := by
    have : coloured.t.isUTF8 = false := by decide +kernel
    simp [leftEnd, this]
  have e3 : encoded coloured (B ") Tj (x") = B ") Tj (x" := by
    have : coloured.t.isUTF8 = false := by decide +kernel
    simp [encoded, this]
  have e4 : coloured.page = 1 := by decide +kernel
  rw [e2, e3] at h2
  rw [e4] at h1
  exact ⟨line, textColour coloured col, h1, by simp [e], _, h2⟩

/-- Non-vacuity of `C03_cell`: framed cells with a hostile text, one on the page and one on a new page. -/
example : nearEnd.state = 2 ∧ ¬ Breaks footed nearEnd 4 ∧ (nearEnd.exec oneFont footed (.cell 30 4 (B ") Tj ET") (B "LB") 1 (B "R") true 0 [])).err = none ∧
    Breaks footed nearEnd 10 ∧ (nearEnd.exec oneFont footed (.cell 30 10 (B ") Tj ET") (B "1") 1 (B "R") true 0 [])).err = none := by
  decide +kernel

example := C03_cell oneFont footed nearEnd nearEnd_ready (by decide +kernel) 30 10 (B ") Tj ET") (B "1") 1 (B "R") true 0 [] _ rfl (by decide +kernel)

end Verif.Props
