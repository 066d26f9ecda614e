import Verif.Spec.Attrs
/-
The marks that a page makes on paper: which operators paint, and with which colours and line width.
-/
namespace Verif.Spec

/-- The operators that paint a path (ISO 32000-1, table 60) or show text (table 109). -/
def marking : List Bytes := [B "S", B "s", B "f", B "F", B "f*", B "B", B "B*", B "b", B "b*", B "Tj", B "TJ", B "'", B "\""]

/-- The painting operators among instructions, each with the attributes in effect when it is executed. -/
def marks : Attr × List Attr → List Instr → List (Bytes × Attr)
  | _, [] => []
  | s, i :: r => if i.2 ∈ marking then (i.2, s.1) :: marks (attrStep s i) r else marks (attrStep s i) r

/-- The marks made by the content `line` when it comes after the content `before` on the page. -/
def marksOn (before line : Bytes) : List (Bytes × Attr) := marks (attrRun (Attr.initial, []) (instrs before)) (instrs line)

example : marksOn (B "1 0 0 rg\n") (B "1 2 3 4 re f q 0.5 g (a) Tj Q 1 2 3 4 re B") = [(B "f", attrsAfter (B "1 0 0 rg ")), (B "Tj", attrsAfter (B "0.5 g ")), (B "B", attrsAfter (B "1 0 0 rg "))] := by
  decide +kernel

end Verif.Spec
