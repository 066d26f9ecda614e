import Verif.Proof.MultiCell
import Verif.Props.Wrap
import Verif.Props.Cells
/-
C27: MultiCell prints all of its text.
-/
namespace Verif.Props
open Verif Verif.Model Verif.Spec Verif.Proof

/-- A side of the frame is asked for: "1" means all of them. -/
def asked (border : Bytes) (side : UInt8) : Prop := border = B "1" ∨ side ∈ border

/-- The borders of a column of cells: the left and right sides for every cell as asked for, the upper side for the first and the lower side for the last cell only. -/
def FramedAs (border : Bytes) (cells : List (Bytes × Bytes × Bytes)) : Prop :=
  ∀ i c, cells[i]? = some c → c.2.1 ≠ B "1" ∧ (0x4C ∈ c.2.1 ↔ asked border 0x4C) ∧ (0x52 ∈ c.2.1 ↔ asked border 0x52) ∧
    (0x54 ∈ c.2.1 ↔ i = 0 ∧ asked border 0x54) ∧ (0x42 ∈ c.2.1 ↔ i + 1 = cells.length ∧ asked border 0x42)

/-- The borders from the loop. -/
structure Sided (border b0 b1 bl : Bytes) : Prop where
  one : ∀ b, b = b0 ∨ b = b1 → b ≠ B "1" ∧ b ++ bl ≠ B "1"
  left : ∀ b, b = b0 ∨ b = b1 → (0x4C ∈ b ↔ asked border 0x4C)
  right : ∀ b, b = b0 ∨ b = b1 → (0x52 ∈ b ↔ asked border 0x52)
  top0 : 0x54 ∈ b0 ↔ asked border 0x54
  top1 : 0x54 ∉ b1
  bottom : ∀ b, b = b0 ∨ b = b1 → 0x42 ∉ b
  last : bl = [] ∧ ¬ asked border 0x42 ∨ bl = B "B" ∧ asked border 0x42

theorem mcCells_framed {border b0 b1 bl : Bytes} (S : Sided border b0 b1 bl) {utf8 : Bool} {align : Bytes} {b : Bytes} {lines : List (List Nat)} {cells : List (Bytes × Bytes × Bytes)}
    (h : McCells utf8 align b1 bl b lines cells) : (b = b0 ∨ b = b1) → cells.map (·.1) = lines.map (mcText utf8) ∧ cells ≠ [] ∧
      ∀ i c, cells[i]? = some c → c.2.1 ≠ B "1" ∧ (0x4C ∈ c.2.1 ↔ asked border 0x4C) ∧ (0x52 ∈ c.2.1 ↔ asked border 0x52) ∧
        (0x54 ∈ c.2.1 ↔ (i = 0 ∧ b = b0 ∧ asked border 0x54)) ∧ (0x42 ∈ c.2.1 ↔ i + 1 = cells.length ∧ asked border 0x42) := by
  have htop : ∀ b, b = b0 ∨ b = b1 → (0x54 ∈ b ↔ b = b0 ∧ asked border 0x54) := by
    intro b hb
    by_cases h : b = b0
    · rw [h]; simpa using S.top0
    · have := hb.resolve_left h
      rw [this]
      constructor
      · intro h; exact absurd h S.top1
      · intro h'; exact absurd (this ▸ h'.1) (this ▸ h)
  induction h with
  | @last b a l ha =>
    intro hb
    refine ⟨rfl, by simp, ?_⟩
    intro i c hc
    have hi : i = 0 := by
      rcases i with _ | i
      · rfl
      · simp at hc
    subst hi
    have : c = (mcText utf8 l, b ++ bl, a) := by simpa using hc.symm
    subst this
    refine ⟨(S.one b hb).2, ?_, ?_, ?_, ?_⟩
    · rw [← S.left b hb, List.mem_append]
      rcases S.last with ⟨h, -⟩ | ⟨h, -⟩ <;> rw [h] <;> simp [show B "B" = [0x42] from rfl]
    · rw [← S.right b hb, List.mem_append]
      rcases S.last with ⟨h, -⟩ | ⟨h, -⟩ <;> rw [h] <;> simp [show B "B" = [0x42] from rfl]
    · rw [List.mem_append, htop b hb]
      rcases S.last with ⟨h, -⟩ | ⟨h, -⟩ <;> rw [h] <;> simp [show B "B" = [0x42] from rfl]
    · rw [List.mem_append]
      rcases S.last with ⟨h, h'⟩ | ⟨h, h'⟩ <;> rw [h] <;> simp [show B "B" = [0x42] from rfl, h', S.bottom b hb]
  | @cons b a l ls cs ha hr ih =>
    intro hb
    obtain ⟨e1, e0, e2⟩ := ih (.inr rfl)
    refine ⟨by simp [e1], by simp, ?_⟩
    intro i c hc
    rcases i with _ | i
    · have : c = (mcText utf8 l, b, a) := by simpa using hc.symm
      subst this
      refine ⟨(S.one b hb).1, S.left b hb, S.right b hb, by rw [htop b hb]; simp, ?_⟩
      have : cs.length ≠ 0 := fun h => e0 (List.length_eq_zero_iff.mp h)
      constructor
      · intro h; exact absurd h (S.bottom b hb)
      · intro h; have := h.1; simp at this; exact absurd this e0
    · have hc' : cs[i]? = some c := by simpa using hc
      obtain ⟨q1, q2, q3, q4, q5⟩ := e2 i c hc'
      refine ⟨q1, q2, q3, ?_, ?_⟩
      · constructor
        · intro h
          obtain ⟨hb1, hb2⟩ := (q4.mp h).2
          exact absurd (by rw [hb1]; exact S.top0.mpr hb2) S.top1
        · intro h; have := h.1; omega
      · rw [q5]; simp

theorem mem_ite_letter (c : Prop) [Decidable c] (x y : UInt8) : x ∈ (if c then [y] else []) ↔ c ∧ x = y := by
  split <;> simp [*]

theorem mcBorders_sided (border : Bytes) : Sided border (Fpdf.mcBorders border).2.1 (if (Fpdf.mcBorders border).1.length > 0 ∧ 1 + 1 = 2 then (Fpdf.mcBorders border).2.2 else (Fpdf.mcBorders border).2.1)
    (if (Fpdf.mcBorders border).1.length > 0 ∧ (Fpdf.mcBorders border).1.contains 0x42 = true then B "B" else []) := by
  by_cases h0 : border = []
  · subst h0
    refine ⟨?_, ?_, ?_, ?_, ?_, ?_, ?_⟩ <;> simp [Fpdf.mcBorders, asked, show B "1" = [0x31] from rfl, show B "0" = [0x30] from rfl]
  · by_cases h1 : border = B "1"
    · subst h1
      refine ⟨?_, ?_, ?_, ?_, ?_, ?_, ?_⟩ <;>
        simp [Fpdf.mcBorders, asked, show B "1" = [0x31] from rfl, show B "0" = [0x30] from rfl, show B "LTRB" = [0x4C, 0x54, 0x52, 0x42] from rfl, show B "LRT" = [0x4C, 0x52, 0x54] from rfl,
          show B "LR" = [0x4C, 0x52] from rfl, show B "B" = [0x42] from rfl]
    · have hl : border.length > 0 := List.length_pos_iff.mpr h0
      have e : Fpdf.mcBorders border = (border, if border.contains 0x54 then ((if border.contains 0x4C then B "L" else []) ++ (if border.contains 0x52 then B "R" else [])) ++ B "T"
          else ((if border.contains 0x4C then B "L" else []) ++ (if border.contains 0x52 then B "R" else [])), (if border.contains 0x4C then B "L" else []) ++ (if border.contains 0x52 then B "R" else [])) := by
        unfold Fpdf.mcBorders
        rw [if_neg h0, if_neg h1]
      rw [e]
      dsimp only
      rw [if_pos (⟨hl, rfl⟩ : border.length > 0 ∧ 1 + 1 = 2)]
      have ha : ∀ x, asked border x ↔ border.contains x = true := by
        intro x; unfold asked; simp [h1]
      have hb : ∀ x : UInt8, ¬ asked border x ↔ border.contains x = false := by
        intro x; rw [ha]; simp
      generalize hL : border.contains 0x4C = vL
      generalize hR : border.contains 0x52 = vR
      generalize hT : border.contains 0x54 = vT
      generalize hB : border.contains 0x42 = vB
      refine ⟨?_, ?_, ?_, ?_, ?_, ?_, ?_⟩
      · cases vL <;> cases vR <;> cases vT <;> cases vB <;> simp [hl, show B "1" = [0x31] from rfl, show B "L" = [0x4C] from rfl, show B "R" = [0x52] from rfl, show B "T" = [0x54] from rfl, show B "B" = [0x42] from rfl]
      · rw [ha, hL]
        cases vL <;> cases vR <;> cases vT <;> simp [show B "L" = [0x4C] from rfl, show B "R" = [0x52] from rfl, show B "T" = [0x54] from rfl]
      · rw [ha, hR]
        cases vL <;> cases vR <;> cases vT <;> simp [show B "L" = [0x4C] from rfl, show B "R" = [0x52] from rfl, show B "T" = [0x54] from rfl]
      · rw [ha, hT]
        cases vL <;> cases vR <;> cases vT <;> simp [show B "L" = [0x4C] from rfl, show B "R" = [0x52] from rfl, show B "T" = [0x54] from rfl]
      · cases vL <;> cases vR <;> simp [show B "L" = [0x4C] from rfl, show B "R" = [0x52] from rfl, show B "T" = [0x54] from rfl]
      · cases vL <;> cases vR <;> cases vT <;> simp [show B "L" = [0x4C] from rfl, show B "R" = [0x52] from rfl, show B "T" = [0x54] from rfl]
      · rw [ha, hB]
        cases vB <;> simp [hl]

/-- **C27** If `MultiCell` reports no error, then what it does is to draw cells with `CellFormat`, one below the other (only the word spacing changes in between), and to return to the left margin. The
cells hold the lines of the text (less carriage returns and final newlines), wrapped by first fit at blanks and Chinese characters; the frame asked for is drawn around the column of cells. -/
theorem C27_cells (E : Ext) (cb : Cb) (f : Fpdf) (w h : Rat) (txt border align : Bytes) (fill : Bool) (hf : f.err = none)
    (hok : (f.exec E cb (.multiCell w h txt border align fill)).err = none) :
    ∃ lines cells g, Wrapped mcSep (mcWidth f.t.currentFont.cw f.t.currentFont.missingWidth) (room f (cellWidth w f.getX f.getPageSize.1 f.getMargins.2.2.1)) true (Fpdf.mcChars f.t.isUTF8 txt) lines ∧
      cells.map (·.1) = lines.map (mcText f.t.isUTF8) ∧ FramedAs border cells ∧
      CellRun E cb (cellWidth w f.getX f.getPageSize.1 f.getMargins.2.2.1) h fill f cells g ∧
      f.exec E cb (.multiCell w h txt border align fill) = { g with p.x := g.p.lMargin } := by
  revert hok
  show (f.multiCell E cb w h txt border align fill).err = none → _
  intro hok
  have hex : f.exec E cb (.multiCell w h txt border align fill) = f.multiCell E cb w h txt border align fill := rfl
  rw [hex]
  unfold Fpdf.multiCell at hok ⊢
  rw [if_neg (by simp [hf])] at hok ⊢
  dsimp only at hok ⊢
  have hr := mcLoop_range E cb _ _ _ _ _ _ (by dsimp only; omega) hok
  rw [List.drop_zero] at hr
  obtain ⟨lines, cells, g, h1, h2, h3, h4⟩ := mcLoop_cells E cb
    { w := cellWidth w f.p.x f.p.w f.p.rMargin, h := h, s := Fpdf.mcChars f.t.isUTF8 txt, utf8 := f.t.isUTF8, cw := f.t.currentFont.cw, miss := f.t.currentFont.missingWidth,
      wmax := ceilInt ((cellWidth w f.p.x f.p.w f.p.rMargin - 2 * f.p.cMargin) * 1000 / f.t.fontSize), border := (Fpdf.mcBorders border).1, b2 := (Fpdf.mcBorders border).2.2,
      align := if align = [] then B "J" else align, fill := fill }
    (if (Fpdf.mcBorders border).1.length > 0 ∧ 1 + 1 = 2 then (Fpdf.mcBorders border).2.2 else (Fpdf.mcBorders border).2.1) hr ((Fpdf.mcChars f.t.isUTF8 txt).length + 1) f 0 1 (Fpdf.mcBorders border).2.1
    (by dsimp only; omega) (Nat.zero_le _) rfl (fun h => absurd rfl h) (Nat.le_refl _)
  rw [List.drop_zero] at h1
  obtain ⟨c1, -, c2⟩ := mcCells_framed (mcBorders_sided border) h2 (.inl rfl)
  refine ⟨lines, cells, g, h1, c1, ?_, h3, h4⟩
  intro i c hc
  obtain ⟨q1, q2, q3, q4, q5⟩ := c2 i c hc
  exact ⟨q1, q2, q3, by rw [q4]; simp, q5⟩

/-- The characters of a text: bytes or, with a UTF-8 font, code points. -/
def chars (utf8 : Bool) (txt : Bytes) : List Nat := if utf8 then runes txt else txt.map UInt8.toNat

theorem mcChars_spec (utf8 : Bool) (txt : Bytes) : ∃ n, chars utf8 (txt.filter (· ≠ 13)) = Fpdf.mcChars utf8 txt ++ List.replicate n 10 ∧ (utf8 = false → n ≤ 1) := by
  unfold chars Fpdf.mcChars
  cases utf8 with
  | true =>
    obtain ⟨n, h, -⟩ := trimNl_spec (runes (txt.filter (· ≠ 13)))
    exact ⟨n, h, by simp⟩
  | false =>
    dsimp only
    simp only [Bool.false_eq_true, if_false]
    split
    · next hl =>
      refine ⟨1, ?_, by simp⟩
      have := List.dropLast_append_getLast? 10 hl
      simpa using this.symm
    · exact ⟨0, by simp, by simp⟩

/-- **C27** The lines that `MultiCell` prints, with at most one dropped newline, blank or Chinese character behind each, make up the text (less carriage returns and final newlines; with a byte font at most
one final newline is dropped). None contains a newline, and all lines of more than one character fit into the cell. -/
theorem C27_content (E : Ext) (cb : Cb) (f : Fpdf) (w h : Rat) (txt border align : Bytes) (fill : Bool) (hf : f.err = none)
    (hok : (f.exec E cb (.multiCell w h txt border align fill)).err = none) :
    ∃ lines cells g ds n, cells.map (·.1) = lines.map (mcText f.t.isUTF8) ∧ CellRun E cb (cellWidth w f.getX f.getPageSize.1 f.getMargins.2.2.1) h fill f cells g ∧
      f.exec E cb (.multiCell w h txt border align fill) = { g with p.x := g.p.lMargin } ∧
      ds.length = lines.length ∧ chars f.t.isUTF8 (txt.filter (· ≠ 13)) = (List.zipWith (· ++ ·) lines ds).flatten ++ List.replicate n 10 ∧ (f.t.isUTF8 = false → n ≤ 1) ∧
      (∀ d ∈ ds, d = [] ∨ ∃ c, (c = 10 ∨ c = 32 ∨ isChinese c = true) ∧ d = [c]) ∧
      ∀ l ∈ lines, 10 ∉ l ∧ (l.length ≤ 1 ∨ width (mcWidth f.t.currentFont.cw f.t.currentFont.missingWidth) l ≤ room f (cellWidth w f.getX f.getPageSize.1 f.getMargins.2.2.1)) := by
  obtain ⟨lines, cells, g, h1, h2, -, h4, h5⟩ := C27_cells E cb f w h txt border align fill hf hok
  obtain ⟨ds, e1, e2, e3⟩ := wrapped_parts h1
  obtain ⟨n, n1, n2⟩ := mcChars_spec f.t.isUTF8 txt
  refine ⟨lines, cells, g, ds, n, h2, h4, h5, e1, by rw [n1, ← e2], n2, ?_, wrapped_fits h1⟩
  intro d hd
  rcases e3 d hd with h | ⟨c, hc, hd'⟩
  · exact .inl h
  · refine .inr ⟨c, ?_, hd'⟩
    rcases hc with h | h
    · exact .inl h
    · exact .inr ((mcSep_iff c).mpr h)

/-- **C27** A character that is not in the width table of the font is reported. -/
theorem C27_range (E : Ext) (cb : Cb) (f : Fpdf) (w h : Rat) (txt border align : Bytes) (fill : Bool) (hf : f.err = none) (c : Nat) (hc : c ∈ Fpdf.mcChars f.t.isUTF8 txt) (h10 : c ≠ 10)
    (hbig : f.t.currentFont.cw.length ≤ c) : (f.exec E cb (.multiCell w h txt border align fill)).err ≠ none := by
  intro hok
  revert hok
  show (f.multiCell E cb w h txt border align fill).err = none → _
  intro hok
  unfold Fpdf.multiCell at hok
  rw [if_neg (by simp [hf])] at hok
  dsimp only at hok
  have hr := mcLoop_range E cb _ _ _ _ _ _ (by dsimp only; omega) hok
  rw [List.drop_zero] at hr
  have := hr c hc h10
  dsimp only at this
  omega

/-- **C27** After `MultiCell` the cursor is at the left margin. -/
theorem C27_cursor (E : Ext) (cb : Cb) (f : Fpdf) (w h : Rat) (txt border align : Bytes) (fill : Bool) (hf : f.err = none)
    (hok : (f.exec E cb (.multiCell w h txt border align fill)).err = none) :
    (f.exec E cb (.multiCell w h txt border align fill)).getX = (f.exec E cb (.multiCell w h txt border align fill)).getMargins.1 := by
  obtain ⟨lines, cells, g, -, -, -, -, h5⟩ := C27_cells E cb f w h txt border align fill hf hok
  rw [h5]
  rfl

/-! ### Non-vacuity -/

/-- A document in which `MultiCell` prints several lines on two pages without error. -/
example : nearEnd.err = none ∧ (nearEnd.exec oneFont footed (.multiCell 20 5 (B "AAA AA\nAAAA A") (B "1") [] false)).err = none ∧
    (nearEnd.exec oneFont footed (.multiCell 20 5 (B "AAA AA\nAAAA A") (B "1") [] false)).page = 2 := by
  refine ⟨?_, ?_, ?_⟩ <;> decide +kernel

end Verif.Props
