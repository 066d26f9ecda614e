import Verif.Spec.File
/-
Page boxes: what size a page has in the file, and what size it was asked to have.
-/
namespace Verif.Spec

/-- Is the orientation argument portrait? The empty argument stands for the document's orientation; otherwise the first letter counts, in upper or lower case. -/
def portrait (dflt : Bool) : Bytes → Bool
  | [] => dflt
  | c :: _ => c = 0x50 || c = 0x70

/-- The width and height of a page asked for with the given portrait width and height: swapped unless portrait. -/
def turned (isPortrait : Bool) (w h : Rat) : Rat × Rat := if isPortrait then (w, h) else (h, w)

/-- A size in a unit of `k` points, in points. -/
def points (k : Rat) (d : Rat × Rat) : Rat × Rat := (d.1 * k, d.2 * k)

/-- The `/MediaBox` entry (7.7.3.3) for a page of the given size in points; `num` writes a number with two decimals. -/
def boxEntry (num : Rat → Bytes) (d : Rat × Rat) : Bytes := B "/MediaBox [0 0 " ++ num d.1 ++ B " " ++ num d.2 ++ B "]\n"

/-- The box of a page: its own entry, or else the entry of the page tree (which starts with its box), 7.7.3.4. -/
def HasBox (num : Rat → Bytes) (own root : Bytes) (d : Rat × Rat) : Prop :=
  own = boxEntry num d ∨ (own = [] ∧ boxEntry num d <+: root)

end Verif.Spec
