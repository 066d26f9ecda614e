import Verif.Props.Outline
import Verif.Props.Numbers
import Verif.Proof.Restore
import Verif.Model.Getters
/-
C14: a new page keeps the settings. C18: colours are clamped and read back. C19: spot colours. C48: temporary settings. C49: font selection.
-/
namespace Verif.Props
open Verif Verif.Model Verif.Spec Verif.Proof

/-! ### C14 -/

/-- **C14** For every document `f` that any sequence of calls can build, any header and footer functions, and any page format: if a font of non-zero size is
selected and `AddPageFormat` does not end in an error, then font family, style, underlining, strike-out, size (in points and units), the font itself, line width,
the operators selecting drawing and filling colour, and the text colour are after the call what they were before it. -/
theorem C14_addPage {E : Ext} {o u s : Bytes} {sz : Size} {f : Fpdf} (hn : (Fpdf.new o u s sz).err = none) (hr : Reach E noClose (Fpdf.new o u s sz) f)
    {cb : Cb} (hcb : CbReach E noClose cb) (po : Bytes) (psz : Size) (hsel : f.t.fontFamily ≠ []) (hz : f.t.fontSizePt ≠ 0)
    (he : (f.exec E cb (.addPageFormat po psz)).err = none) : SameLook f (f.exec E cb (.addPageFormat po psz)) :=
  addPageFormat_look (hcb.rel fun _ _ => reach_fnt) f po psz ((reach_fnt hr).ok (new_fontOk hn)) hsel hz he

/-- **C14** The same for the calls that start pages on their own while printing (`CellFormat`, `MultiCell`, `Write`, `WriteAligned`, `Image`), if the
accept-page-break function itself keeps the settings and errors. -/
theorem C14_autoBreak {E : Ext} {o u s : Bytes} {sz : Size} {f : Fpdf} (hn : (Fpdf.new o u s sz).err = none) (hr : Reach E noClose (Fpdf.new o u s sz) f)
    {cb : Cb} (hcb : CbReach E noClose cb) (hacc : ∀ s, SameLook s (cb.accept s).2 ∧ (s.err ≠ none → (cb.accept s).2.err ≠ none)) (op : Op) (hop : flows0 op = true)
    (hsel : f.t.fontFamily ≠ []) (hz : f.t.fontSizePt ≠ 0) (he : (f.exec E cb op).err = none) : SameLook f (f.exec E cb op) :=
  (exec_keeps (hcb.rel fun _ _ => reach_fnt) (fun s => ⟨reach_fnt (hcb.accept s), (hacc s).2, fun _ _ _ _ => (hacc s).1⟩) f op hop).look
    ((reach_fnt hr).ok (new_fontOk hn)) hsel hz he

/-- **C14** Before any font is selected, line width and colours are kept, whatever the header and footer functions do and whatever goes wrong. -/
theorem C14_noFont (E : Ext) (cb : Cb) (f : Fpdf) (po : Bytes) (psz : Size) (hsel : f.t.fontFamily = []) :
    (f.exec E cb (.addPageFormat po psz)).getLineWidth = f.getLineWidth ∧ (f.exec E cb (.addPageFormat po psz)).c.draw.str = f.c.draw.str ∧
    (f.exec E cb (.addPageFormat po psz)).c.fill.str = f.c.fill.str ∧ (f.exec E cb (.addPageFormat po psz)).getTextColor = f.getTextColor := by
  obtain ⟨h1, h2, h3, h4, -⟩ := addPageFormat_nofont E cb f po psz hsel
  exact ⟨h1, h2, h3, by have := congrArg (fun c : Color => (c.ir, c.ig, c.ib)) h4; exact this⟩

/-- A header that changes font, colours and line width. -/
def busyHeader : Cb := { header := some fun f => after f [.setFont (B "Times") (B "IU") 20, .setDrawColor 255 0 0, .setTextColor 1 2 3, .setLineWidth 7] oneFont }

/-- A page in bold Helvetica. -/
def inBold : Fpdf := after (Fpdf.new [] [] [] {}) [.addPage, .setFont (B "Helvetica") (B "bS") 12, .setFillColor 9 9 200] oneFont

theorem noClose_after (E : Ext) (f : Fpdf) (l : List Op) (h : l.all (fun op => match op with | .close => false | .output _ => false | _ => true) = true) : Reach E noClose f (after f l E) := by
  refine reach_after (ok := fun _ op => match op with | .close => false | .output _ => false | _ => true) ?_ f l f (Reach.refl f) ?_
  · intro f op hop
    refine ⟨?_, ?_⟩
    · rintro rfl; cases hop
    · rintro b rfl; cases hop
  · induction l generalizing f with
    | nil => rfl
    | cons op l ih =>
      rw [List.all_cons, Bool.and_eq_true] at h
      unfold allowed
      rw [Bool.and_eq_true]
      exact ⟨h.1, ih _ h.2⟩

/-- Non-vacuity of C14. -/
example : (Fpdf.new [] [] [] {}).err = none ∧ Reach oneFont noClose (Fpdf.new [] [] [] {}) inBold ∧ CbReach oneFont noClose busyHeader ∧
    inBold.t.fontFamily = B "helvetica" ∧ inBold.t.fontSizePt = 12 ∧ inBold.t.strikeout = true ∧ (inBold.exec oneFont busyHeader (.addPageFormat [] ⟨100, 100⟩)).err = none ∧
    (inBold.exec oneFont busyHeader (.addPageFormat [] ⟨100, 100⟩)).page = 2 := by
  refine ⟨by decide +kernel, noClose_after _ _ _ (by decide), ⟨?_, ?_, fun s => Reach.refl s⟩, by decide +kernel, by decide +kernel, by decide +kernel, by decide +kernel, by decide +kernel⟩
  · intro h hh s _
    simp only [busyHeader, Option.some.injEq] at hh
    subst hh
    exact noClose_after _ _ _ (by decide)
  · intro h hh
    simp [busyHeader] at hh

/-- A header that sets another RGB colour and then the spot colour in use. -/
def spotHeader : Cb := { header := some fun f => after f [.setDrawColor 255 0 0, .setDrawSpotColor (B "Spot") 50] oneFont }

/-- A document drawing with a spot colour. -/
def inSpot : Fpdf := after (Fpdf.new [] [] [] {}) [.addPage, .addSpotColor (B "Spot") 1 2 3 4, .setDrawSpotColor (B "Spot") 50] oneFont

/-- The RGB colour that `GetDrawColor` reports is not kept when the header sets another RGB colour and then selects the spot colour in use: the operator
for the spot colour is the same, so the setting is not restored. -/
theorem C14_getDrawColor_false : Reach oneFont noClose (Fpdf.new [] [] [] {}) inSpot ∧ CbReach oneFont noClose spotHeader ∧
    (inSpot.exec oneFont spotHeader .addPage).err = none ∧ inSpot.getDrawColor = (0, 0, 0) ∧ (inSpot.exec oneFont spotHeader .addPage).getDrawColor = (255, 0, 0) := by
  refine ⟨noClose_after _ _ _ (by decide), ⟨?_, ?_, fun s => Reach.refl s⟩, by decide +kernel, by decide +kernel, by decide +kernel⟩
  · intro h hh s _
    simp only [spotHeader, Option.some.injEq] at hh
    subst hh
    exact noClose_after _ _ _ (by decide)
  · intro h hh
    simp [spotHeader] at hh

/-- A header that sets a line cap style and a dash pattern. -/
def capHeader : Cb := { header := some fun f => after f [.setLineCapStyle (B "round"), .setDashPattern [1, 2] 0] }

/-- Line cap style and dash pattern are not kept: those set by the header stay in force. -/
theorem C14_lineCap_false : CbReach {} noClose capHeader ∧ ((Fpdf.new [] [] [] {}).exec {} capHeader .addPage).err = none ∧
    (Fpdf.new [] [] [] {}).line.cap = 0 ∧ ((Fpdf.new [] [] [] {}).exec {} capHeader .addPage).line.cap = 1 ∧
    (Fpdf.new [] [] [] {}).line.dashArray.length = 0 ∧ ((Fpdf.new [] [] [] {}).exec {} capHeader .addPage).line.dashArray.length = 2 := by
  refine ⟨⟨?_, ?_, fun s => Reach.refl s⟩, by decide +kernel, by decide +kernel, by decide +kernel, by decide +kernel, by decide +kernel⟩
  · intro h hh s _
    simp only [capHeader, Option.some.injEq] at hh
    subst hh
    exact noClose_after _ _ _ (by decide)
  · intro h hh
    simp [capHeader] at hh

end Verif.Props
