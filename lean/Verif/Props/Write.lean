import Verif.Proof.Write
import Verif.Props.MultiCell
/-
C51: Write flows all of its text.
-/
namespace Verif.Props
open Verif Verif.Model Verif.Spec Verif.Proof

theorem write_fuel (n : Nat) : (n - 0) * (n + 2) + (n + 1 - 0) < (n + 2) * (n + 2) := by
  rw [Nat.add_mul n 2 (n + 2)]; simp only [Nat.sub_zero]; omega

/-- **C51** `Write` prints its text, less carriage returns, line after line with `CellFormat` as described by `WriteRun`: the first line starts at the cursor, the others at the left margin; a line ends at a
newline, else at the last blank before the right margin is reached, else, if there is no blank, the text is moved to the next line or, if it started at the left margin, cut at the last character that fits.
The last line leaves the cursor behind it. -/
theorem C51_run (E : Ext) (cb : Cb) (f : Fpdf) (h : Rat) (txt : Bytes) (link : Nat) (linkStr : Bytes) (hsp : ¬ (f.t.isUTF8 = true ∧ txt.filter (· ≠ 13) = B " "))
    (hin : ∀ c ∈ chars f.t.isUTF8 (txt.filter (· ≠ 13)), c ≠ 10 → c < f.t.currentFont.cw.length) :
    ∃ items, WriteRun E cb (wrWidth f.t.currentFont.cw) f.t.isUTF8 h link linkStr true f (leftOver f) (leftRoom f) none items (f.exec E cb (.write h txt link linkStr)) ∧
      joined items = chars f.t.isUTF8 (txt.filter (· ≠ 13)) := by
  have hex : f.exec E cb (.write h txt link linkStr) = f.write E cb h txt link linkStr := rfl
  rw [hex]
  unfold Fpdf.write
  dsimp only
  rw [if_neg hsp]
  obtain ⟨items, r1, r2⟩ := wrLoop_run E cb { h := h, s := chars f.t.isUTF8 (txt.filter (· ≠ 13)), utf8 := f.t.isUTF8, cw := f.t.currentFont.cw, link := link, linkStr := linkStr } hin
    (((chars f.t.isUTF8 (txt.filter (· ≠ 13))).length + 2) * ((chars f.t.isUTF8 (txt.filter (· ≠ 13))).length + 2)) f { i := 0, j := 0, sep := none, l := 0, nl := 1, w := leftOver f, wmax := leftRoom f }
    [] (chars f.t.isUTF8 (txt.filter (· ≠ 13))) none (write_fuel _) (by simp) (Nat.zero_le _) (Nat.le_refl _) (fun h => absurd rfl h) (WrWalked.start _ _ _)
  exact ⟨items, r1, r2⟩

/-- **C51** With a UTF-8 font a single blank only moves the cursor by its width. -/
theorem C51_blank (E : Ext) (cb : Cb) (f : Fpdf) (h : Rat) (txt : Bytes) (link : Nat) (linkStr : Bytes) (hu : f.t.isUTF8 = true) (hs : txt.filter (· ≠ 13) = B " ") :
    f.exec E cb (.write h txt link linkStr) = { f with p.x := f.p.x + f.getStringWidth (B " ") } := by
  have hex : f.exec E cb (.write h txt link linkStr) = f.write E cb h txt link linkStr := rfl
  rw [hex]
  unfold Fpdf.write
  dsimp only
  rw [if_pos ⟨hu, hs⟩, hs]

/-- The parts of a run: what is dropped, and newlines. -/
theorem run_parts {E : Ext} {cb : Cb} {w : Nat → Int} {utf8 : Bool} {h : Rat} {link : Nat} {linkStr : Bytes} {first : Bool} {f : Fpdf} {W R : Rat} {moved : Option Rat} {items : List (List Nat × List Nat)} {g : Fpdf}
    (hr : WriteRun E cb w utf8 h link linkStr first f W R moved items g) : ∀ p ∈ items, 10 ∉ p.1 ∧ (p.2 = [] ∨ p.2 = [10] ∨ p.2 = [32]) := by
  have drops : ∀ {R : Rat} {line d rest : List Nat}, BrokenAt w R line d rest → d = [] ∨ d = [10] ∨ d = [32] := by
    intro R line d rest hb
    rcases hb with h | h | h
    · exact .inr (.inl h)
    · exact .inr (.inr h.1)
    · exact .inl h.1
  induction hr with
  | done => simp
  | last h1 h2 h3 => intro p hp; simp at hp; subst hp; exact ⟨h2, .inl rfl⟩
  | cell h1 h2 h3 h4 _ ih =>
    intro p hp
    rcases List.mem_cons.mp hp with rfl | hp
    · exact ⟨h1, drops h3⟩
    · exact ih p hp
  | first h1 h2 h3 h4 _ ih =>
    intro p hp
    rcases List.mem_cons.mp hp with rfl | hp
    · exact ⟨h1, drops h3⟩
    · exact ih p hp
  | move _ _ _ _ _ _ _ ih => exact ih

/-- **C51** The lines printed by `Write`, with at most one dropped newline or blank behind each, make up the text less carriage returns; no line contains a newline. -/
theorem C51_content (E : Ext) (cb : Cb) (f : Fpdf) (h : Rat) (txt : Bytes) (link : Nat) (linkStr : Bytes) (hsp : ¬ (f.t.isUTF8 = true ∧ txt.filter (· ≠ 13) = B " "))
    (hin : ∀ c ∈ chars f.t.isUTF8 (txt.filter (· ≠ 13)), c ≠ 10 → c < f.t.currentFont.cw.length) :
    ∃ items, WriteRun E cb (wrWidth f.t.currentFont.cw) f.t.isUTF8 h link linkStr true f (leftOver f) (leftRoom f) none items (f.exec E cb (.write h txt link linkStr)) ∧
      chars f.t.isUTF8 (txt.filter (· ≠ 13)) = (items.map fun p => p.1 ++ p.2).flatten ∧ ∀ p ∈ items, 10 ∉ p.1 ∧ (p.2 = [] ∨ p.2 = [10] ∨ p.2 = [32]) := by
  obtain ⟨items, r1, r2⟩ := C51_run E cb f h txt link linkStr hsp hin
  exact ⟨items, r1, r2.symm, run_parts r1⟩

/-- A run whose lines all start at the left margin, and so is never moved: every line of several characters fits the room measured for it. -/
theorem run_fits {E : Ext} {cb : Cb} {w : Nat → Int} {utf8 : Bool} {h : Rat} {link : Nat} {linkStr : Bytes} {first : Bool} {f : Fpdf} {W R : Rat} {items : List (List Nat × List Nat)} {g : Fpdf}
    {line d : List Nat} (hr : WriteRun E cb w utf8 h link linkStr first f W R none ((line, d) :: items) g) (hx : f.p.x ≤ f.p.lMargin) : line.length ≤ 1 ∨ (width w line : Rat) ≤ R := by
  have fit : ∀ {l : List Nat}, FitsIn w R none l → l.length ≤ 1 ∨ (width w l : Rat) ≤ R := by
    intro l hl
    rcases hl with h | h | ⟨R0, h, -⟩
    · subst h; exact .inl (by simp)
    · exact .inr h
    · cases h
  cases hr with
  | last h1 h2 h3 => exact fit h3
  | cell h1 h2 => rcases h2 with h2 | h2; exacts [fit h2, .inl (by omega)]
  | first h1 h2 => rcases h2 with h2 | h2; exacts [fit h2, .inl (by omega)]
  | move h1 => exact absurd hx (not_le.mpr h1)

/-- **C51** If the cursor is at the left margin, the first line printed by `Write`, when it has several characters, fits between the margins. -/
theorem C51_fits (E : Ext) (cb : Cb) (f : Fpdf) (h : Rat) (txt : Bytes) (link : Nat) (linkStr : Bytes) (hsp : ¬ (f.t.isUTF8 = true ∧ txt.filter (· ≠ 13) = B " ")) (hx : f.getX ≤ f.getMargins.1)
    (hin : ∀ c ∈ chars f.t.isUTF8 (txt.filter (· ≠ 13)), c ≠ 10 → c < f.t.currentFont.cw.length) (hne : chars f.t.isUTF8 (txt.filter (· ≠ 13)) ≠ []) :
    ∃ line d items, WriteRun E cb (wrWidth f.t.currentFont.cw) f.t.isUTF8 h link linkStr true f (leftOver f) (leftRoom f) none ((line, d) :: items) (f.exec E cb (.write h txt link linkStr)) ∧
      joined ((line, d) :: items) = chars f.t.isUTF8 (txt.filter (· ≠ 13)) ∧ (line.length ≤ 1 ∨ (width (wrWidth f.t.currentFont.cw) line : Rat) ≤ leftRoom f) := by
  obtain ⟨items, r1, r2⟩ := C51_run E cb f h txt link linkStr hsp hin
  cases items with
  | nil => exact absurd (by rw [← r2]; rfl) hne
  | cons p items => obtain ⟨line, d⟩ := p; exact ⟨line, d, items, r1, r2, run_fits r1 hx⟩

/-- A document with the cursor one millimetre to the right of the left margin, set in a large font. -/
def bigLetters : Fpdf := after (Fpdf.new [] (B "mm") (B "A4") {}) [.addPage, .setFont (B "helvetica") [] 100, .setXY 11 20] oneFont

/-- **C51** refuted for text moved to the next line: eleven letters without a blank, too wide for the line, are moved to the next line and printed there past the right margin without being cut. -/
theorem C51_margin_false : (bigLetters.exec oneFont {} (.write 30 (B "AAAAAAAAAAA") 0 [])).err = none ∧ (bigLetters.exec oneFont {} (.write 30 (B "AAAAAAAAAAA") 0 [])).getY = 50 ∧
    (bigLetters.exec oneFont {} (.write 30 (B "AAAAAAAAAAA") 0 [])).getX > bigLetters.getPageSize.1 - bigLetters.getMargins.2.2.1 := by
  refine ⟨?_, ?_, ?_⟩ <;> decide +kernel

/-! ### Non-vacuity -/

/-- Text for which `Write` needs several lines and another page. -/
example : ¬ (nearEnd.t.isUTF8 = true ∧ (B "A\r\nAA").filter (· ≠ 13) = B " ") ∧ (∀ c ∈ chars nearEnd.t.isUTF8 ((B "A\r\nAA").filter (· ≠ 13)), c ≠ 10 → c < nearEnd.t.currentFont.cw.length) ∧
    (nearEnd.exec oneFont footed (.write 5 (B "A\r\nAA") 0 [])).err = none ∧ (nearEnd.exec oneFont footed (.write 5 (B "A\r\nAA") 0 [])).page = 2 := by
  refine ⟨?_, ?_, ?_, ?_⟩ <;> decide +kernel

end Verif.Props
