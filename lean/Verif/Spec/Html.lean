import Verif.Spec.Bytes
/-
Structure of "basic HTML" text: tags `<...>` and the text between them.
-/
namespace Verif.Spec

/-- A piece of HTML: text (without `<`) followed by a tag `<inner>` (`inner` without `>`). -/
structure HtmlPiece where
  text : Bytes
  inner : Bytes
  deriving DecidableEq, Repr

def HtmlPiece.ok (p : HtmlPiece) : Prop := (0x3C : UInt8) ∉ p.text ∧ (0x3E : UInt8) ∉ p.inner

/-- Text after the last tag: it contains no complete tag. -/
def tailOK (t : Bytes) : Prop := ∀ a b, t = a ++ 0x3C :: b → (0x3E : UInt8) ∉ b

def renderHtml (ps : List HtmlPiece) (tail : Bytes) : Bytes :=
  (ps.flatMap fun p => p.text ++ 0x3C :: p.inner ++ [0x3E]) ++ tail

/-- Line ends are not significant: LF is a space, CR is dropped. -/
def htmlNormalise (s : Bytes) : Bytes :=
  (s.filter (· ≠ 13)).map fun c => if c = 10 then 32 else c

end Verif.Spec
