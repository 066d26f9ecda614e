import Verif.Props.CatalogCases
import Verif.Props.Compare
import Verif.Props.Restore
import Verif.Props.SvgPage
import Verif.Props.Shapes
import Verif.Props.Justify
import Verif.Props.Html
import Verif.Props.HeaderFooter
import Verif.Props.Strings
import Verif.Props.Boxes
import Verif.Props.Widths
import Verif.Props.Gob
import Verif.Props.GridState
import Verif.Props.Translate
import Verif.Props.Attach
import Verif.Props.Cmap
import Verif.Props.Write
import Verif.Props.Lines
import Verif.Props.Png
import Verif.Proof.Reorder
/-
(The imports other than the first are not needed: they make this module, which takes much memory to check, be built after the others.)

A protected document whose information dictionary cannot be read.
-/
namespace Verif.Props
open Verif Verif.Model Verif.Spec Verif.Proof

/-- A protected document. -/
def guarded : Fpdf := after ((after (Fpdf.new [] [] [] {}) [.addPage]).exec {} {} (.setProtection 4 (B "u") (B "o"))) [.setMeta .title (B "T") false]

example : Reach {} pagesFirst (Fpdf.new [] [] [] {}) (after (Fpdf.new [] [] [] {}) [.addPage]) ∧
    Reach {} (pagesWithout protects) ((after (Fpdf.new [] [] [] {}) [.addPage]).exec {} {} (.setProtection 4 (B "u") (B "o"))) guarded := by
  unfold guarded
  refine ⟨reach_after pfB_ok _ _ _ (Reach.refl _) (by decide +kernel), ?_⟩
  exact reach_after (pwB_ok _) _ [.setMeta .title (B "T") false] _ (Reach.refl _) (by decide +kernel)

/-- What is searched for in the protected file: the key, and the title as a reader could decrypt it. -/
theorem guarded_has : errOf {} {} guarded false = none ∧ (fileOf {} {} guarded false).length < 10 ^ 10 ∧
    [B "\n/Title (", B "/Info 6 0 R", B "/Title " ++ textstringPlain (decryptOf {} guarded 6 (B "T"))].map
      (fun p => contains p (fileOf {} {} guarded false)) = [true, true, false] := by decide +kernel

/-- **C56** … but the title, which comes second, is not: the file has a title, but it is not the string that a reader would decrypt to the title that was set. -/
theorem C56_protected_false : errOf {} {} guarded false = none ∧ B "/Info 6 0 R" <:+: fileOf {} {} guarded false ∧ B "\n/Title (" <:+: fileOf {} {} guarded false ∧
    ∀ x, decryptOf {} guarded 6 x = B "T" → ¬ (B "/Title " ++ textstringPlain x <:+: fileOf {} {} guarded false) := by
  obtain ⟨h1, _, h3⟩ := guarded_has
  simp only [List.map_cons, List.map_nil, List.cons.injEq] at h3
  refine ⟨h1, (contains_iff _ _).1 h3.2.1, (contains_iff _ _).1 h3.1, fun x hx hc => ?_⟩
  have henc : guarded.m.protect.encrypted = true := by decide +kernel
  have e : x = decryptOf {} guarded 6 (B "T") := by
    rw [← hx]
    unfold decryptOf
    rw [henc, if_pos rfl, if_pos rfl]
    exact (rc4Crypt_involutive _ _).symm
  rw [e] at hc
  have := (contains_iff _ _).2 hc
  rw [h3.2.2.1] at this
  cases this

end Verif.Props
