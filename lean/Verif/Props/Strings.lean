import Verif.Proof.Escape
/-
C01: literal strings survive escaping.
-/
namespace Verif.Props
open Verif Verif.Model Verif.Spec

/-- **C01** For every byte string `s` and whatever follows it in the file, a PDF reader that meets the
literal string the library writes for `s` reads exactly `s`, and continues exactly behind it. -/
theorem C01_textstring_roundtrip (s rest : Bytes) :
    readLit (textstringPlain s ++ rest) = some (s, rest) :=
  Proof.readLit_textstringPlain s rest

/-- Test: a string with every special character. -/
example : readLit (textstringPlain (B "a(b))\\\r\n)(") ++ B ") Tj") = some (B "a(b))\\\r\n)(", B ") Tj") :=
  C01_textstring_roundtrip _ _

/-- **C01** (text drawn by `CellFormat` with a non-UTF-8 font): the text is read back with its line ends
normalised, and the reader stops exactly behind the literal. -/
theorem C01_cell_literal (s rest : Bytes) :
    readLit (B "(" ++ escapeCell s ++ B ")" ++ rest) = some (eolNorm s, rest) :=
  Proof.readLit_escapeCell s rest

/-- **C01**: hence text without carriage returns is read back unchanged from a cell … -/
theorem C01_cell_roundtrip (s rest : Bytes) (h : ∀ c ∈ s, c ≠ 13) :
    readLit (B "(" ++ escapeCell s ++ B ")" ++ rest) = some (s, rest) := by
  rw [C01_cell_literal]
  have : eolNorm s = s := by
    induction s with
    | nil => rfl
    | cons c s ih =>
      have hc : c ≠ 13 := h c (by simp)
      rw [eolNorm]
      · rw [ih (fun d hd => h d (by simp [hd]))]
      · intro r hr; exact absurd hr hc
      · intro hr; exact absurd hr hc
  rw [this]

example : ∀ c ∈ B "no (carriage) \\ return\n", c ≠ (13 : UInt8) := by decide

/-- … while text with a carriage return is *not*: `CellFormat` omits the escape that `escape` performs, so
the byte 13 reaches the reader as 10. (Full property refuted for the cell path.) -/
theorem C01_cell_cr_false :
    ¬ ∀ s rest : Bytes, readLit (B "(" ++ escapeCell s ++ B ")" ++ rest) = some (s, rest) := by
  intro h
  have := h [65, 13, 66] []
  rw [C01_cell_literal] at this
  exact absurd this (by decide)

end Verif.Props
