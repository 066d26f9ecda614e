import Verif.Spec.Content
import Verif.Spec.Lex
import Mathlib.Algebra.Order.Field.Rat
import Mathlib.Algebra.Order.Group.Abs
/-
What a reader understands of a piece of a content stream: operators with operands, numbers known up to the number of decimals written.
-/
namespace Verif.Spec

/-- An operand as intended: a number to be written with `p` decimals, a name, a string. -/
inductive Want
  | num (p : Nat) (q : Rat)
  | name (b : Bytes)
  | str (b : Bytes)
  | punct (c : UInt8)

/-- The operand read is the one intended: strings and names exactly, numbers up to half a unit of the last decimal. -/
def Meets : Tok → Want → Prop
  | .word w, .num p q => ∃ r, readReal w = some r ∧ |r - q| ≤ 1 / (2 * 10 ^ p)
  | .name w, .name b => w = b
  | .str s, .str b => s = b
  | .punct c, .punct d => c = d
  | _, _ => False

/-- A reader of `line` understands exactly the instructions `ws`. -/
def Understood (line : Bytes) (ws : List (List Want × String)) : Prop :=
  List.Forall₂ (fun (i : Instr) (w : List Want × String) => List.Forall₂ Meets i.1 w.1 ∧ i.2 = B w.2) (instrs line) ws

/-- The extent of an image along one axis, as the documentation of `ImageOptions` has it: `v` itself; for -1, the pixels at the resolution of the image (`dpi`); for other negative
values, the pixels at that resolution. `k` is the number of points of a unit. -/
def axis (k dpi pixels v : Rat) : Rat :=
  if v = -1 then pixels * 72 / dpi / k else if v < 0 then pixels * 72 / (-v) / k else v

/-- The size of an image of `pw` by `ph` pixels if `w` and `h` are asked for: at 96 dpi if both are 0; if one is 0, it follows from the other so that the proportions are kept. -/
def extent (k dpi pw ph w h : Rat) : Rat × Rat :=
  if w = 0 ∧ h = 0 then (pw * 72 / 96 / k, ph * 72 / 96 / k)
  else if w = 0 then (axis k dpi ph h * pw / ph, axis k dpi ph h)
  else if h = 0 then (axis k dpi pw w, axis k dpi pw w * ph / pw)
  else (axis k dpi pw w, axis k dpi ph h)

end Verif.Spec
