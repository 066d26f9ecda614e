import Verif.Spec.Lex
/-
Content streams as a reader sees them (ISO 32000-1, 7.8.2): a sequence of instructions, each an operator preceded by its operands;
nesting of graphics states (8.4.2) and of marked content (14.6).
-/
namespace Verif.Spec

/-- An instruction: operands and operator. -/
abbrev Instr := List Tok × Bytes

/-- A word that is a number (as opposed to an operator): it starts with a digit, a sign or a point. -/
def isNumWord : Bytes → Bool
  | c :: _ => isDigit c || c = 0x2B || c = 0x2D || c = 0x2E
  | [] => false

/-- Group tokens into instructions; `acc` are the operands read so far. Returns the operands left over and the instructions. -/
def instrsFrom (acc : List Tok) : List Tok → List Tok × List Instr
  | [] => (acc, [])
  | .word w :: r =>
    if isNumWord w then instrsFrom (acc ++ [.word w]) r
    else ((instrsFrom [] r).1, (acc, w) :: (instrsFrom [] r).2)
  | t :: r => instrsFrom (acc ++ [t]) r

/-- The instructions of a content stream. -/
def instrs (b : Bytes) : List Instr := (instrsFrom [] (lex b)).2

/-- Nesting state of a content stream: number of saved graphics states, and whether a marked-content section is open. -/
abbrev Nest := Nat × Bool

/-- The effect of one instruction on the nesting; `none`: an illegal instruction (restoring a graphics state that was not saved, opening a
section inside a section, closing one that is not open). -/
def nestStep (s : Nest) (i : Instr) : Option Nest :=
  if i.2 = B "q" then some (s.1 + 1, s.2)
  else if i.2 = B "Q" then (if s.1 = 0 then none else some (s.1 - 1, s.2))
  else if i.2 = B "BDC" ∨ i.2 = B "BMC" then (if s.2 then none else some (s.1, true))
  else if i.2 = B "EMC" then (if s.2 then some (s.1, false) else none)
  else some s

/-- The effect of a sequence of instructions. -/
def nestRun (s : Nest) : List Instr → Option Nest
  | [] => some s
  | i :: r => (nestStep s i).bind fun s => nestRun s r

/-- A content stream is balanced: every graphics state saved is restored, every section opened is closed, in order. -/
def Balanced (b : Bytes) : Prop := nestRun (0, false) (instrs b) = some (0, false)

instance (b : Bytes) : Decidable (Balanced b) := inferInstanceAs (Decidable (_ = _))

/-- The names an instruction uses. -/
def Instr.names (i : Instr) : List Bytes := i.1.filterMap fun | .name w => some w | _ => none


example : Balanced (B "q 1 0 0 1 2.50 -3 cm /OC /OC3 BDC (q) Tj EMC Q") := by decide +kernel
example : ¬ Balanced (B "q (Q) Tj") := by decide +kernel
example : ¬ Balanced (B "Q q") := by decide +kernel

end Verif.Spec
