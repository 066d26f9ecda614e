import Verif.Props.Catalog
import Verif.Props.Outline
/-
Documents that meet the hypotheses of the theorems about the catalog, and documents for which more does not hold.
-/
namespace Verif.Props
open Verif Verif.Model Verif.Spec Verif.Proof

/-! ### Examples and refutations -/

/-- A check for `pagesWithout`. -/
def pwB (bad : Op → Bool) (f : Fpdf) (op : Op) : Bool := pfB f op && !bad op

theorem pwB_ok (bad : Op → Bool) (f : Fpdf) (op : Op) (h : pwB bad f op = true) : (pagesWithout bad).op f {} op := by
  unfold pwB at h
  rw [Bool.and_eq_true] at h
  exact ⟨pfB_ok f op h.1, by simpa using h.2⟩

/-- Calls that use everything above. -/
def dressOps : List Op :=
  [.setMeta .author (B "A") false, .setDisplayMode (B "fullpage") (B "TwoPageLeft"), .addPage, .addLayer (B "L") false, .openLayerPane, .setJavascript (B "print(1)"), .setXmp (B "<x/>"),
    .setAlpha (1 / 2) (B "Normal"), .bookmark (B "One") 0 0, .setMeta .title (B "T") true, .addPage]

def dressed : Fpdf := after (Fpdf.new [] [] [] {}) dressOps

/-- The hypotheses above are met by a document in which all these calls are made: every prefix, call and rest of `dressOps` can be taken. -/
example : dressed = after ((after (Fpdf.new [] [] [] {}) (dressOps.take 9)).exec {} {} (.setMeta .title (B "T") true)) [.addPage] ∧
    Reach {} pagesFirst (Fpdf.new [] [] [] {}) (after (Fpdf.new [] [] [] {}) (dressOps.take 9)) ∧
    Reach {} (pagesWithout (setsMeta .title)) ((after (Fpdf.new [] [] [] {}) (dressOps.take 9)).exec {} {} (.setMeta .title (B "T") true)) dressed ∧
    errOf {} {} dressed false = none ∧ (fileOf {} {} dressed false).length < 10 ^ 10 ∧ (docOf {} {} dressed false).m.protect.encrypted = false ∧
    (docOf {} {} dressed false).addLayerId = 1 := by
  refine ⟨rfl, reach_after pfB_ok _ _ _ (Reach.refl _) (by decide +kernel), ?_, by decide +kernel, by decide +kernel, by decide +kernel, by decide +kernel⟩
  exact reach_after (pwB_ok _) _ [.addPage] _ (Reach.refl _) (by decide +kernel)

example : Reach {} noAttachments (Fpdf.new [] [] [] {}) (after (Fpdf.new [] [] [] {}) (dressOps.take 1)) ∧
    Reach {} (pagesWithout fun op => setsDisplay op || attaches op) ((after (Fpdf.new [] [] [] {}) (dressOps.take 1)).exec {} {} (.setDisplayMode (B "fullpage") (B "TwoPageLeft"))) dressed ∧
    viewOf (B "fullpage") = some (B "/Fit") ∧ layoutOf (B "TwoPageLeft") = some (B "TwoPageLeft") := by
  have e : dressed = after ((after (Fpdf.new [] [] [] {}) (dressOps.take 1)).exec {} {} (.setDisplayMode (B "fullpage") (B "TwoPageLeft"))) (dressOps.drop 2) := rfl
  rw [e]
  exact ⟨reach_after naB_ok _ _ _ (Reach.refl _) (by decide +kernel), reach_after (pwB_ok _) _ (dressOps.drop 2) _ (Reach.refl _) (by decide +kernel), by decide, by decide⟩

/-- **C22** refuted for the two-page layouts, which the library itself takes to need version 1.5: the file names the layout, but its header says 1.3. -/
theorem C22_twoPage_false : errOf {} {} (after (Fpdf.new [] [] [] {}) [.setDisplayMode (B "default") (B "TwoPageLeft"), .addPage]) false = none ∧
    B "/PageLayout /TwoPageLeft" <:+: fileOf {} {} (after (Fpdf.new [] [] [] {}) [.setDisplayMode (B "default") (B "TwoPageLeft"), .addPage]) false ∧
    B "%PDF-1.3\n" <+: fileOf {} {} (after (Fpdf.new [] [] [] {}) [.setDisplayMode (B "default") (B "TwoPageLeft"), .addPage]) false := by
  refine ⟨by decide +kernel, (contains_iff _ _).1 (by decide +kernel), List.isPrefixOf_iff_prefix.1 (by decide +kernel)⟩

/-- **C57** refuted for documents with attachments: the document is opened at object 3, but its first page is object 5. -/
theorem C57_attachment_false : errOf {} {} (withAttachment.exec {} {} (.setDisplayMode (B "fullpage") [])) false = none ∧
    B "/OpenAction [3 0 R /Fit]" <:+: fileOf {} {} (withAttachment.exec {} {} (.setDisplayMode (B "fullpage") [])) false ∧
    B "/Kids [5 0 R 7 0 R ]" <:+: fileOf {} {} (withAttachment.exec {} {} (.setDisplayMode (B "fullpage") [])) false := by
  refine ⟨by decide +kernel, (contains_iff _ _).1 (by decide +kernel), (contains_iff _ _).1 (by decide +kernel)⟩

/-- **C58** refuted for documents with bookmarks as well: the catalog has two entries for the page mode. -/
theorem C58_pane_false : errOf {} {} dressed false = none ∧
    B "/PageMode /UseOutlines\n/OCProperties <</OCGs [7 0 R ] /D <</OFF [7 0 R ] /Order [7 0 R ]>>>>\n/PageMode /UseOC\n" <:+: fileOf {} {} dressed false := by
  refine ⟨by decide +kernel, (contains_iff _ _).1 (by decide +kernel)⟩

end Verif.Props
