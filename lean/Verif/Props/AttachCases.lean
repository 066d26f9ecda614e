import Verif.Props.Attach
import Verif.Props.CatalogProtected
/-
Documents with attachments.
-/
namespace Verif.Props
open Verif Verif.Model Verif.Spec Verif.Proof

/-! ### Examples -/

/-- Two attachments. -/
def fileA : Attachment := { content := B "data", filename := B "a.txt", description := B "first" }
@[inherit_doc fileA]
def fileB : Attachment := { content := B "more", filename := B "b.txt", description := [] }

/-- Two pages with three annotations for two attachments. -/
def clippedOps : List Op :=
  [.addPage, .attachAnnotation 1 fileA 10 10 5 5, .addPage, .attachAnnotation 2 fileB 10 10 5 5, .attachAnnotation 1 fileA 20 10 5 5, .setAttachments [fileB, fileA], .addPage]
@[inherit_doc clippedOps]
def clipped : Fpdf := after (Fpdf.new [] [] [] {}) clippedOps

/-- A check of the discipline of `C34_annotations`. -/
def faB (files : Nat → Attachment) (f : Fpdf) (op : Op) : Bool := pfB f op && match op with
  | .attachAnnotation p a .. => a = files p
  | _ => true

theorem faB_ok (files : Nat → Attachment) (f : Fpdf) (op : Op) (h : faB files f op = true) : (filesAre files fun _ => false).op f {} op := by
  unfold faB at h
  rw [Bool.and_eq_true] at h
  refine ⟨pfB_ok f op h.1, rfl, fun p a x y w h' he => ?_⟩
  subst he
  simpa using h.2

/-- What the pointers point to. -/
def twoFiles (p : Nat) : Attachment := if p = 1 then fileA else fileB

/-- The hypotheses of `C34_annotations` and of `C34_listed` for it. -/
theorem clipped_ok : Reach {} (filesAre twoFiles fun _ => false) (Fpdf.new [] [] [] {}) clipped ∧
    Reach {} (filesAre twoFiles fun _ => false) ((after (Fpdf.new [] [] [] {}) [.addPage]).exec {} {} (.attachAnnotation 1 (twoFiles 1) 10 10 5 5)) clipped ∧
    Reach {} (pagesWithout setsFiles) ((after (Fpdf.new [] [] [] {}) (clippedOps.take 5)).exec {} {} (.setAttachments [fileB, fileA])) clipped ∧
    errOf {} {} clipped false = none ∧ (fileOf {} {} clipped false).length < 10 ^ 10 := by
  unfold clipped
  exact ⟨reach_after (faB_ok _) _ _ _ (Reach.refl _) (by decide +kernel), reach_after (faB_ok _) _ (clippedOps.drop 2) _ (Reach.refl _) (by decide +kernel),
    reach_after (pwB_ok _) _ (clippedOps.drop 6) _ (Reach.refl _) (by decide +kernel), by decide +kernel, by decide +kernel⟩

/-- What is in its file: four embedded files, two of them listed, and three annotations that name the other two. -/
theorem clipped_has : [B "(Attachement1) 4 0 R", B "(Attachement2) 6 0 R", B "/Kids [11 0 R 13 0 R 15 0 R ]", B "/FS 8 0 R", B "/FS 10 0 R", B "/FS 4 0 R"].map
    (fun p => contains p (fileOf {} {} clipped false)) = [true, true, true, true, true, false] := by decide +kernel

/-- What the attachments have become when their document is written. -/
def used : List Attachment := (docOf {} {} (after (Fpdf.new [] [] [] {}) [.addPage, .setAttachments [fileA]]) false).l.attachments

/-- An attachment that has been written to one document is not embedded in a second: its list of files names an object that is something else. -/
theorem C34_reused_false : used = [{ fileA with objectNumber := 4 }] ∧ errOf {} {} (after (Fpdf.new [] [] [] {}) [.addPage, .setAttachments used]) false = none ∧
    [B "(Attachement1) 4 0 R", B "/Filespec", B "4 0 obj\n<</Filter /FlateDecode"].map (fun p => contains p (fileOf {} {} (after (Fpdf.new [] [] [] {}) [.addPage, .setAttachments used]) false)) =
      [true, false, true] := by decide +kernel

end Verif.Props
