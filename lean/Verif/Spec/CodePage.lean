import Verif.Spec.Unicode
/-
The code page files of the library and what it is to translate a text with one, from the documentation of `UnicodeTranslator`:
"Each line is made up of three whitespace separated fields. The first begins with "!" and is followed by two hexadecimal digits that identify the glyph position in the code page of
interest. The second field begins with "U+" and is followed by the unicode code point value. The third is the glyph name."
-/
namespace Verif.Spec

/-- A hexadecimal digit, in lower or upper case. -/
def hexCase (lower : Bool) (n : Nat) : UInt8 := if n < 10 then UInt8.ofNat (48 + n) else if lower then UInt8.ofNat (87 + n) else UInt8.ofNat (55 + n)

/-- A line of a code page file: position, code point and name of a glyph. -/
structure CodeLine where
  pos : Nat
  cp : Nat
  name : Bytes
  /-- whether its digits are written in lower case -/
  lower : Bool := false

/-- The text of a line. -/
def CodeLine.text (l : CodeLine) : Bytes :=
  [0x21, hexCase l.lower (l.pos / 16), hexCase l.lower (l.pos % 16), 0x20, 0x55, 0x2B, hexCase l.lower (l.cp / 4096), hexCase l.lower (l.cp / 256 % 16), hexCase l.lower (l.cp / 16 % 16), hexCase l.lower (l.cp % 16), 0x20] ++ l.name

/-- Two and four digits are enough, and the name is a word of printing ASCII characters. -/
def CodeLine.Ok (l : CodeLine) : Prop := l.pos < 256 ∧ l.cp < 65536 ∧ l.name ≠ [] ∧ ∀ c ∈ l.name, 0x21 ≤ c ∧ c ≤ 0x7E

/-- A file of such lines. -/
def codeFile (ls : List CodeLine) : Bytes := ls.flatMap fun l => l.text ++ [10]

/-- The byte for a character: itself for ASCII; the position that the last line with this code point gives it, of those beyond ASCII; else a period. -/
def codeByte (ls : List CodeLine) (cp : Nat) : UInt8 :=
  if cp < 128 then UInt8.ofNat cp
  else match ls.reverse.find? fun l => decide (l.cp = cp ∧ 128 ≤ l.pos) with
    | some l => UInt8.ofNat l.pos
    | none => 0x2E

end Verif.Spec
