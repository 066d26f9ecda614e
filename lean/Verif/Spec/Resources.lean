import Verif.Spec.File
/-
What a PDF reader does with the names in page contents: it looks them up in the resource dictionary (ISO 32000-1, 7.8.3).
-/
namespace Verif.Spec
open Verif

/-- One entry of a category of the resource dictionary: a name and the number of the object that defines it. -/
def refLine (e : Bytes × Nat) : Bytes := B "/" ++ e.1 ++ B " " ++ decimal e.2 ++ B " 0 R\n"

/-- The category `/cat` of the resource dictionary is written with these entries. -/
def Category (dict cat : Bytes) (entries : List (Bytes × Nat)) : Prop :=
  ∃ pre post, dict = pre ++ (B "/" ++ cat ++ B " <<\n" ++ entries.flatMap refLine ++ B ">>\n") ++ post

/-- In the resource dictionary, `/name` of the category `/cat` is object `k`. -/
def Names (dict cat name : Bytes) (k : Nat) : Prop := ∃ entries, Category dict cat entries ∧ (name, k) ∈ entries

/-- The category of the resource dictionary in which an operator looks up its name operand. -/
def categoryOf (op : Bytes) : Option Bytes :=
  if op = B "gs" then some (B "ExtGState")
  else if op = B "sh" then some (B "Shading")
  else if op = B "BDC" then some (B "Properties")
  else if op = B "CS" ∨ op = B "cs" then some (B "ColorSpace")
  else if op = B "Tf" then some (B "Font")
  else if op = B "Do" then some (B "XObject")
  else none

/-- How the object must begin for the operator to make sense. -/
def Begins (op : Bytes) (b : Body) : Prop :=
  match b with
  | .plain t =>
    (op = B "gs" ∧ B "<</Type /ExtGState" <+: t) ∨ (op = B "sh" ∧ B "<</ShadingType " <+: t) ∨ (op = B "BDC" ∧ B "<</Type /OCG" <+: t) ∨
    ((op = B "CS" ∨ op = B "cs") ∧ B "[/Separation /" <+: t) ∨ (op = B "Tf" ∧ B "<</Type /Font\n" <+: t)
  | .stream d _ => op = B "Do" ∧ (B "<</Type /XObject\n/Subtype /Image\n" <+: d ∨ ∃ x, B "<<" ++ x ++ B "/Type /XObject\n/Subtype /Form\n" <+: d)

end Verif.Spec
