import Mathlib.Data.Rat.Defs
import Mathlib.Algebra.Field.Rat
/-
Graph paper.
-/
namespace Verif.Spec

/-- A round number: 1, 2 or 5 times a power of ten. -/
def RoundNum (d : Rat) : Prop := ∃ (c : Nat) (e : Int), (c = 1 ∨ c = 2 ∨ c = 5) ∧ d = c * (10 : Rat) ^ e

/-- `n + 1` values from `lo` in steps of `d`. -/
def ticksFrom (lo d : Rat) (n : Nat) : List Rat := (List.range (n + 1)).map fun i : Nat => lo + i * d

/-- The data values at which `m` lines per division are drawn, from `lo` in divisions of `d`: `n` divisions and the end. -/
def lineVals (lo d : Rat) (m n : Nat) : List (Rat × Bool) :=
  (List.range (n * m + 1)).map fun j : Nat => (lo + j * (d / m), decide (j % m = 0))

end Verif.Spec
